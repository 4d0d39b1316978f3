import Verif.Props.ClJobIo
import Verif.Props.ClArgumentRaw
import Verif.Props.ClArgumentFail
import Verif.Props.StoredBuffers

/-!
# C98: failures, fetching of addresses and stored buffers of the OpenCL job
-/

namespace SixTrack
open SixTrack.Arg (Bytes Fmt Host Loc)
open SixTrack.ClArg ClIo
open SixTrack.ClContext (make)
open AssignList (ILLEGAL_ID MIN_USER_ID)

theorem each_nothing {g : ClIo.Job → Part → Res ClIo.Job} {j : ClIo.Job} (flags : BitVec 16)
    (h : ∀ p, flags.getLsbD p.bit = true → g j p = .ok j) (ps : List Part) : each g flags j ps = .ok j := by
  induction ps with
  | nil => rfl
  | cons p ps ih =>
    rw [each_cons, isSet_bit]
    by_cases hb : flags.getLsbD p.bit = true
    · rw [if_pos hb, h p hb, Res.ok_bind]
      exact ih
    · rw [if_neg hb, Res.pure_eq, Res.ok_bind]
      exact ih

theorem setArg_same {j : ClIo.Job} {p : Part} {a : ClArg.Argument} (h : j.arg p = some a) : j.setArg p a = j := by
  unfold ClIo.Job.setArg
  have : (fun q => if q = p then some a else j.arg q) = j.arg := funext fun q => by
    by_cases hq : q = p
    · rw [if_pos hq, hq, h]
    · rw [if_neg hq]
  rw [this]

/-- **C98 (failures are reported), violated**: if no memory can be read, collecting changes nothing at all, and nobody is told;
`collectParticlesAddresses` is even a success. -/
theorem C98_silent_violated (f : Fmt) {o : Cl} (ho : o.reads = false) (j : ClIo.Job) :
    (∀ flags, j.collect f o flags = .ok j) ∧ j.collectAddresses f o = .ok (true, j) := by
  have hr : ∀ p, j.read f o p = .ok j := fun p => by
    unfold ClIo.Job.read
    cases ha : j.arg p with
    | none => rfl
    | some a =>
      cases hb : j.buf p with
      | none => rfl
      | some i =>
        have he : readBuf f o j.sys a j.host i = .ok (-1, j.host, a) := by
          unfold readBuf
          have : enqueueRead o j.sys a.mem a.size = none := by
            unfold enqueueRead
            cases a.mem with
            | none => rfl
            | some b => cases h : j.sys.dev b <;> simp [h, ho]
          rw [this]
          simp
        simp only [he, Res.ok_bind, Res.pure_eq]
        exact congrArg _ (setArg_same ha)
  refine ⟨fun flags => each_nothing _ (fun p _ => hr p) _, ?_⟩
  unfold ClIo.Job.collectAddresses ClIo.Job.doCollect
  rw [each_nothing _ (fun p _ => hr p)]
  rfl

example : ({ clFine with reads := false } : Cl).reads = false ∧ Chosen 1 ioJob .particles := ⟨rfl, by unfold Chosen; decide⟩

/-- **C98 (what is pushed arrives), violated**: a buffer that has grown beyond its argument, or has become empty, is not
pushed, and one with less room than its argument is not collected; nobody is told. -/
theorem C98_grown_violated (f : Fmt) (o : Cl) {j : ClIo.Job} {p : Part} {a : ClArg.Argument} {i : Nat} (ha : j.arg p = some a)
    (hb : j.buf p = some i) :
    (j.host.size i = 0 ∨ a.size < j.host.size i → j.pushPart f o p = .ok j) ∧
    (a.size = 0 ∨ (j.host.mem (.buf i)).length < a.size → j.collectPart f o p = .ok j) := by
  have hone : ∀ q, p.flag.getLsbD q.bit = true → q = p := fun q h => by
    cases p <;> cases q <;> first | rfl | exact absurd h (by decide)
  obtain ⟨w, r⟩ := C94_refused f o j.sys a j.host i
  refine ⟨fun h => each_nothing _ (fun q hq => ?_) _, fun h => each_nothing _ (fun q hq => ?_) _⟩
  · rw [hone q hq]
    unfold ClIo.Job.write
    rw [ha, hb]
    simp only [w h, Res.ok_bind, Res.pure_eq]
    exact congrArg _ (setArg_same ha)
  · rw [hone q hq]
    unfold ClIo.Job.read
    rw [ha, hb]
    simp only [r h, Res.ok_bind, Res.pure_eq]
    exact congrArg _ (setArg_same ha)

example : ∃ j : ClIo.Job, j.arg .particles = some ⟨some 3, none, 8⟩ ∧ j.buf .particles = some 0 ∧ 8 < j.host.size 0 :=
  ⟨{ ioJob with host := toyHost.setSize 0 9 }, rfl, rfl, by decide⟩

/-- After the job was cleared its arguments are still there, but nothing is collected or pushed, and no addresses are
fetched, until it has buffers again; no buffer is stored. -/
theorem C98_cleared (f : Fmt) (o : Cl) {j j' : ClIo.Job} (h : j.clear = .ok j') :
    (∀ id, j'.stored.job.ptr id = none) ∧ j'.stored.job.count = 0 ∧ j'.arg = j.arg ∧ j'.hasAddr = false ∧
    j'.flags = j.flags ∧ (∀ flags, j'.collect f o flags = .ok j') ∧
    (∀ flags, j'.push f o flags = .ok j') ∧
    ∀ kernel launch r, j'.fetch f o kernel launch = .ok r → r.1 = false ∧ r.2.hasAddr = false ∧ r.2.host = j'.host := by
  obtain ⟨s, es, e⟩ := Res.bind_eq_ok.1 (show (_ >>= _) = _ from h)
  cases e
  obtain ⟨s', -, es'⟩ := Res.bind_eq_ok.1 (show (_ >>= _) = _ from es)
  cases es'
  refine ⟨fun id => ?_, rfl, rfl, rfl, rfl, fun flags => each_nothing _ (fun p _ => read_none f o _ p (.inr rfl)) _,
    fun flags => each_nothing _ (fun p _ => write_none f o _ p (.inr rfl)) _, fun kernel launch r hr => ?_⟩
  · show StoredBuf.Job.ptr { s' with slots := [], num := 0 } id = none
    have : StoredBuf.Job.store { s' with slots := [], num := 0 } id = none := by
      unfold StoredBuf.Job.store
      split_ifs <;> rfl
    unfold StoredBuf.Job.ptr
    rw [this]
  obtain ⟨q, e1, e2⟩ := Res.bind_eq_ok.1 (show (_ >>= _) = _ from hr)
  have hq : q.1 = false ∧ q.2.hasAddr = false ∧ q.2.host = j.host := by
    unfold ClIo.Job.doFetch at e1
    simp only at e1
    by_cases hk : j.sys.ctx.hasNode = true ∧ kernel = true
    · rw [if_pos hk] at e1
      cases ha : j.arg .addresses with
      | none => rw [ha] at e1; cases e1; exact ⟨rfl, rfl, rfl⟩
      | some a =>
        rw [ha] at e1
        obtain ⟨⟨b, t⟩, -, e3⟩ := Res.bind_eq_ok.1 (show (_ >>= _) = _ from e1)
        cases b <;> cases e3 <;> exact ⟨rfl, rfl, rfl⟩
    · rw [if_neg hk] at e1
      cases e1
      exact ⟨rfl, rfl, rfl⟩
  rw [hq.1] at e2
  cases e2
  exact hq

example : ∃ j', ioJob.clear = .ok j' ∧ (j'.arg .particles).isSome = true := ⟨_, rfl, rfl⟩

/-! ## Addresses of particles -/

/-- Fetching: if the kernel runs and leaves an image of addresses, it gets to the buffer of the job, and the job knows. -/
theorem C98_fetch {f : Fmt} {valid : Nat → Prop} {img : Nat → Bytes → Prop} (hf : Images f valid img) {o : Cl}
    (hr : o.reads = true) {j : ClIo.Job} {launch : Sys → Res (Bool × Sys)} {s : Sys} (hl : launch j.sys = .ok (true, s))
    (hn : j.sys.ctx.hasNode = true) (hs : s.ctx.hasNode = true) {c : Copy}
    (hc : Collectable valid img o { j with sys := s } .addresses c) :
    ∃ j', j.fetch f o true launch = .ok (true, j') ∧ j'.hasAddr = true ∧ j'.sys = s ∧ j'.buf = j.buf ∧ j'.flags = j.flags ∧
      Collected f img j j' .addresses c ∧ (∀ l, l ≠ .buf c.buffer → j'.host.mem l = j.host.mem l) ∧
      (∀ q, q ≠ .addresses → j'.arg q = j.arg q) := by
  obtain ⟨h1, w, e, iw, lw, r, sz, m, ml, ms, ad⟩ :=
    readBuf_image hf hr hs hc.mem hc.image hc.pos hc.room hc.valid hc.apart
  have ed : j.doFetch f o true launch = .ok (true,
      { j with sys := s, host := h1 }.setArg .addresses { c.arg with buf := some c.buffer }) := by
    unfold ClIo.Job.doFetch
    rw [if_pos ⟨hn, rfl⟩, show j.arg .addresses = some c.arg from hc.arg]
    simp only [hl, Res.ok_bind, if_true]
    rw [show j.buf .addresses = some c.buffer from hc.buf]
    simp only [show readBuf f o s c.arg j.host c.buffer = _ from e, Res.ok_bind]
    rfl
  generalize hj1 : { j with sys := s, host := h1 }.setArg .addresses { c.arg with buf := some c.buffer } = j1 at ed
  have hc1 : Collectable valid img o j1 .addresses { c with arg := { c.arg with buf := some c.buffer } } := by
    rw [← hj1]
    refine ⟨rfl, hc.buf, hc.mem, hc.image, hc.pos, ?_, ?_, ?_⟩
    · show c.arg.size ≤ (h1.mem (.buf c.buffer)).length
      have := hc.room
      have h2 := hc.mem.2.2
      rw [m]
      simp only [List.length_append, List.length_drop, lw] at h2 ⊢
      omega
    · show valid (h1.addr _)
      rw [ad]
      exact hc.valid
    · show h1.addr _ ≠ _
      rw [ad]
      exact hc.apart
  obtain ⟨j2, e2, s2, m2, a2, ⟨v, iv, lv, rv, szv, mv, gv⟩, g2, l2, k2⟩ :=
    read_spec hf hr (by rw [← hj1]; exact hs) hc1
  have ec : j1.collectAddresses f o = .ok (true, j2) := by
    have : j1.doCollect f o Part.addresses.flag = .ok j2 := by
      show j1.read f o .addresses >>= _ = _
      rw [e2]
      rfl
    unfold ClIo.Job.collectAddresses
    rw [this]
    rfl
  refine ⟨{ j2 with hasAddr := true }, ?_, rfl, ?_, ?_, ?_, ⟨w, iw, lw, r, szv, ?_, gv⟩, fun l hl' => ?_, fun q hq => ?_⟩
  · unfold ClIo.Job.fetch
    rw [ed]
    simp only [Res.ok_bind, if_true, ec]
    rfl
  · show j2.sys = s
    rw [s2, ← hj1]
    rfl
  · show j2.buf = j.buf
    rw [m2.1, ← hj1]
    rfl
  · show j2.flags = j.flags
    rw [m2.2.1, ← hj1]
    rfl
  · have hvw : v = w := by
      have x := rv []
      have y := r []
      have hb : j1.host.addr = j.host.addr := by
        rw [← hj1]
        exact ad
      rw [hb] at x
      have := Option.some.inj (x.symm.trans y)
      simpa using this
    show j2.host.mem _ = _
    rw [mv, hvw, ← hj1]
    show w ++ c.rest ++ (h1.mem (.buf c.buffer)).drop c.arg.size = _
    rw [m]
    congr 1
    have h2 := hc.mem.2.2
    rw [List.drop_append, List.drop_of_length_le (by simp only [List.length_append] at h2 ⊢; omega)]
    simp only [List.length_append, lw] at h2 ⊢
    rw [show c.arg.size - (c.image.length + c.rest.length) = 0 by omega]
    rfl
  · show j2.host.mem l = _
    rw [l2 l hl', ← hj1]
    exact ml l hl'
  · show j2.arg q = _
    rw [g2 q hq, ← hj1]
    exact if_neg hq

/-- a job with a buffer for addresses, whose argument has memory -/
def ioFetch : ClIo.Job :=
  { ioJob.setArg .addresses ⟨some 4, none, 5⟩ with buf := fun p => if p = .addresses then some 3 else ioJob.buf p }

/-- the hypotheses of `C98_fetch` -/
example : ∃ j', ioFetch.fetch toyFmt clFine true (fun s => .ok (true, s)) = .ok (true, j') ∧ j'.hasAddr = true ∧
    j'.host.size 3 = 4 := by
  obtain ⟨j', e, h, -, -, -, ⟨w, -, -, -, sz, -⟩, -⟩ := C98_fetch toy_images.1 (o := clFine) rfl (j := ioFetch)
    (launch := fun s => .ok (true, s)) (s := ioSys) rfl (by decide +kernel) (by decide +kernel)
    (c := ⟨3, ⟨some 4, none, 5⟩, 4, [14, 4, 8, 7], [0]⟩)
    ⟨rfl, rfl, ⟨rfl, rfl, rfl⟩, ⟨by decide, 4, [8, 7], rfl, rfl⟩, by decide, by decide, by decide, by decide⟩
  exact ⟨j', e, h, sz⟩

/-- Otherwise fetching is a failure, and the job knows what it knew before: addresses fetched earlier stay marked. -/
theorem C98_fetch_fails (f : Fmt) (o : Cl) (j : ClIo.Job) (kernel : Bool) (launch : Sys → Res (Bool × Sys)) {r : Bool × ClIo.Job}
    (h : j.fetch f o kernel launch = .ok r) (hno : j.sys.ctx.hasNode = false ∨ kernel = false ∨ j.arg .addresses = none ∨
      j.buf .addresses = none ∨ (∃ s, launch j.sys = .ok (false, s)) ∨ o.reads = false) :
    r.1 = false ∧ r.2.hasAddr = j.hasAddr ∧ r.2.host = j.host := by
  obtain ⟨q, e1, e2⟩ := Res.bind_eq_ok.1 (show (_ >>= _) = _ from h)
  have hq : q.1 = false ∧ q.2.hasAddr = j.hasAddr ∧ q.2.host = j.host := by
    unfold ClIo.Job.doFetch at e1
    by_cases hk : j.sys.ctx.hasNode = true ∧ kernel = true
    · rw [if_pos hk] at e1
      cases ha : j.arg .addresses with
      | none => rw [ha] at e1; cases e1; exact ⟨rfl, rfl, rfl⟩
      | some a =>
        rw [ha] at e1
        obtain ⟨⟨b, t⟩, el, e3⟩ := Res.bind_eq_ok.1 (show (_ >>= _) = _ from e1)
        cases b with
        | false => cases e3; exact ⟨rfl, rfl, rfl⟩
        | true =>
          simp only [if_true] at e3
          cases hb : j.buf .addresses with
          | none => rw [hb] at e3; cases e3; exact ⟨rfl, rfl, rfl⟩
          | some i =>
            rw [hb] at e3
            have hr : o.reads = false := by
              rcases hno with h | h | h | h | ⟨s, h⟩ | h
              · rw [h] at hk; cases hk.1
              · rw [h] at hk; cases hk.2
              · rw [h] at ha; cases ha
              · rw [h] at hb; cases hb
              · rw [h] at el; cases el
              · exact h
            have he : readBuf f o t a j.host i = .ok (-1, j.host, a) := by
              unfold readBuf
              have : enqueueRead o t a.mem a.size = none := by
                unfold enqueueRead
                cases a.mem with
                | none => rfl
                | some b => cases h : t.dev b <;> simp [h, hr]
              rw [this]
              simp
            simp only [he, Res.ok_bind, Res.pure_eq] at e3
            cases e3
            exact ⟨show decide ((-1 : Int) = 0) = false by decide, rfl, rfl⟩
    · rw [if_neg hk] at e1
      cases e1
      exact ⟨rfl, rfl, rfl⟩
  rw [hq.1] at e2
  cases e2
  exact hq

example : ∃ r, ioJob.fetch toyFmt clFine true (fun s => .ok (true, s)) = .ok r ∧ ioJob.buf .addresses = none := by
  refine ⟨(false, ioJob), ?_, rfl⟩
  have : ioJob.sys.ctx.hasNode = true := by decide +kernel
  unfold ClIo.Job.fetch ClIo.Job.doFetch
  rw [if_pos ⟨this, rfl⟩]
  rfl

/-! ## Stored buffers -/

theorem setSlot_self (j : ClIo.Job) (k : Nat) (a : ClArg.Argument) : (j.setSlot k a).slot k = a := if_pos rfl

theorem setSlot_ne (j : ClIo.Job) {k i : Nat} (a : ClArg.Argument) (h : i ≠ k) : (j.setSlot k a).slot i = j.slot i := if_neg h

/-- Pushing a stored buffer: its image gets to the memory of the argument of its slot, and nothing else changes there. -/
theorem C98_stored_push {f : Fmt} {valid : Nat → Prop} {img : Nat → Bytes → Prop} (hf : Images f valid img) {o : Cl}
    (ho : o.Works) {j : ClIo.Job} (hn : CanRemap j.sys) (hd : StoredBuf.DevReached j.stored) {id i : Nat}
    (hi : j.stored.job.ptr id = some i) {b : Nat} {d : Bytes} (ha : HasMemory j.sys (j.slot (id - 1024)) b d) {x : Bytes}
    (hx : HostImage img j.host i x) (hv : valid (o.addr b)) (hl : x.length ≤ d.length) :
    ∃ j' y, j.pushStored f o id = .ok (true, j') ∧ img (o.addr b) y ∧ y.length = x.length ∧
      (∀ z, f.rebase (o.addr b) (x ++ z) = some (y ++ z)) ∧ j'.sys.dev b = some (y ++ d.drop x.length) ∧
      (∀ k, k ≠ b → j'.sys.dev k = j.sys.dev k) ∧ j'.host = j.host ∧ j'.arg = j.arg ∧ j'.stored = j.stored ∧
      HasMemory j'.sys (j'.slot (id - 1024)) b (y ++ d.drop x.length) ∧
      (∀ k, k ≠ id - 1024 → j'.slot k = j.slot k) ∧ CanRemap j'.sys := by
  obtain ⟨s, y, e, iy, ly, r1, -, hd', hk, hc, -⟩ := C94_write hf ho hn ha hx hv (by rw [ha.2.2]; exact hl)
  have ht : j.stored.transfer id = some (i, i) := by
    rw [(C87_device hd id).2, hi]
    rfl
  refine ⟨{ j with sys := s }.setSlot (id - 1024) { j.slot (id - 1024) with buf := some i }, y, ?_, iy, ly, r1, hd', hk, rfl, rfl,
    rfl, ⟨?_, hd', ?_⟩, fun k hk' => setSlot_ne _ _ hk', hc⟩
  · unfold ClIo.Job.pushStored
    rw [ht]
    simp only [show MIN_USER_ID = 1024 from rfl, e, Res.ok_bind]
    rfl
  · rw [setSlot_self]
    exact ha.1
  · rw [setSlot_self]
    have := ha.2.2
    simp only [List.length_append, List.length_drop, ly]
    omega

/-- Collecting a stored buffer. -/
theorem C98_stored_collect {f : Fmt} {valid : Nat → Prop} {img : Nat → Bytes → Prop} (hf : Images f valid img) {o : Cl}
    (hr : o.reads = true) {j : ClIo.Job} (hn : j.sys.ctx.hasNode = true) (hd : StoredBuf.DevReached j.stored) {id i : Nat}
    (hi : j.stored.job.ptr id = some i) {b : Nat} {y z : Bytes} (ha : HasMemory j.sys (j.slot (id - 1024)) b (y ++ z))
    (hy : img (o.addr b) y) (h0 : 0 < y.length) (room : (y ++ z).length ≤ (j.host.mem (.buf i)).length)
    (hv : valid (j.host.addr (.buf i))) (hne : j.host.addr (.buf i) ≠ o.addr b) :
    ∃ j' w, j.collectStored f o id = .ok (true, j') ∧ img (j.host.addr (.buf i)) w ∧ w.length = y.length ∧
      (∀ x, f.rebase (j.host.addr (.buf i)) (y ++ x) = some (w ++ x)) ∧ j'.host.size i = y.length ∧
      j'.host.mem (.buf i) = w ++ z ++ (j.host.mem (.buf i)).drop (y ++ z).length ∧
      (∀ l, l ≠ .buf i → j'.host.mem l = j.host.mem l) ∧ j'.sys = j.sys ∧ j'.arg = j.arg ∧ j'.stored = j.stored ∧
      (∀ k, k ≠ id - 1024 → j'.slot k = j.slot k) := by
  obtain ⟨h', w, e, iw, lw, r, sz, m, ml, -, -⟩ := readBuf_image hf hr hn ha hy h0 (by rw [ha.2.2]; exact room) hv hne
  have ht : j.stored.transfer id = some (i, i) := by
    rw [(C87_device hd id).2, hi]
    rfl
  refine ⟨{ j with host := h' }.setSlot (id - 1024) { j.slot (id - 1024) with buf := some i }, w, ?_, iw, lw, r, sz, ?_, ml,
    rfl, rfl, rfl, fun k hk' => setSlot_ne _ _ hk'⟩
  · unfold ClIo.Job.collectStored
    rw [ht]
    simp only [show MIN_USER_ID = 1024 from rfl, e, Res.ok_bind]
    rfl
  · show h'.mem _ = _
    rw [m, ha.2.2]

/-- Without a stored buffer of that id nothing happens, and that is a failure. -/
theorem C98_stored_gone (f : Fmt) (o : Cl) {j : ClIo.Job} (hd : StoredBuf.DevReached j.stored) {id : Nat}
    (hi : j.stored.job.ptr id = none) : j.pushStored f o id = .ok (false, j) ∧ j.collectStored f o id = .ok (false, j) := by
  have ht : j.stored.transfer id = none := by
    rw [(C87_device hd id).2, hi]
    rfl
  unfold ClIo.Job.pushStored ClIo.Job.collectStored
  rw [ht]
  exact ⟨rfl, rfl⟩

/-- Removing a stored buffer: it is gone, all other buffers stay, and nothing else of the job changes. -/
theorem C98_stored_remove {j : ClIo.Job} (hd : StoredBuf.DevReached j.stored) {id : Nat} (hi : j.stored.job.ptr id ≠ none)
    {sj : StoredBuf.Job} {st : Int} (e : j.stored.job.remove id = .ok (sj, st)) :
    ∃ d, j.removeStored id = .ok (true, { j with stored := d }) ∧ d.job = sj ∧
      (∀ id', d.job.ptr id' = if id' = id then none else j.stored.job.ptr id') ∧ d.arg id = none ∧
      ∀ id', id' ≠ id → d.arg id' = j.stored.arg id' := by
  obtain ⟨d, ed, hj, ha, ho⟩ := C87_device_remove_partial hd id hi sj st e
  obtain ⟨-, -, -, -, -, -, -, -, c9, -⟩ := StoredBuf.remove_spec hd.good.job e
  refine ⟨d, ?_, hj, fun id' => ?_, ha, ho⟩
  · unfold ClIo.Job.removeStored
    rw [ed]
    rfl
  · rw [hj]
    exact c9 id'

example : ∃ j : ClIo.Job, StoredBuf.DevReached j.stored ∧ j.stored.job.ptr 1024 ≠ none ∧
    ∃ sj, j.stored.job.remove 1024 = .ok (sj, SixTrack.SUCCESS) :=
  ⟨{ ioJob with stored := ⟨⟨[StoredBuf.owned 0], 1, 1, 1, fun b => decide (b = 0)⟩, [some 0]⟩ },
    ⟨0, [.add .create], rfl⟩, by decide, _, rfl⟩

/-- An id that is too small for stored buffers cannot be removed.  One that is too large is not noticed. -/
theorem C98_stored_remove_violated {j : ClIo.Job} (hd : StoredBuf.DevReached j.stored) (id : Nat) :
    (id < 1024 → j.removeStored id = .ok (false, j)) ∧ (1024 + j.stored.args.length ≤ id → j.removeStored id = .ub) := by
  obtain ⟨h1, h2, -⟩ := StoredBuf.devRemove_spec hd.good id
  unfold ClIo.Job.removeStored
  exact ⟨fun h => by rw [h2 h]; rfl, fun h => by rw [h1 h]; rfl⟩

theorem addStored_eq (f : Fmt) (o : Cl) {j : ClIo.Job} (hd : StoredBuf.DevReached j.stored) {g : StoredBuf.Gift}
    {sj : StoredBuf.Job} {id i : Nat} (e : j.stored.job.add g = .ok (sj, id)) (hi : g.buffer j.stored.job.next = some i) :
    ∃ d, d.job = sj ∧ StoredBuf.DevReached d ∧ d.job.ptr id = some i ∧ j.addStored f o g =
      (newBuf f o j.sys j.host i >>= fun a => .ok (id, { j with stored := d, sys := a.2.1 }.setSlot (id - 1024) a.2.2)) := by
  obtain ⟨d, ed, hj⟩ := (C87_device_add hd g sj id e).1 (by rw [hi]; simp)
  have hreach : StoredBuf.DevReached d := by
    obtain ⟨n, os, ho⟩ := hd
    refine ⟨n, os ++ [.add g], ?_⟩
    have app : ∀ (os : List StoredBuf.Op) (d0 d1 : StoredBuf.Dev), d0.run os = .ok d1 →
        d0.run (os ++ [.add g]) = (d1.step (.add g) >>= fun d => .ok d) := by
      intro os
      induction os with
      | nil => intro d0 d1 e0; cases e0; rfl
      | cons o os ih =>
        intro d0 d1 e0
        obtain ⟨d2, e2, e3⟩ := Res.bind_eq_ok.1 (show (_ >>= _) = _ from e0)
        show d0.step o >>= _ = _
        rw [e2, Res.ok_bind]
        exact ih d2 d1 e3
    rw [app os _ _ ho]
    show (j.stored.add g >>= _) >>= _ = _
    rw [ed]
    rfl
  obtain ⟨c1, -, -, c4, -⟩ := StoredBuf.add_spec hd.good.job e
  have hp : d.job.ptr id = some i := by rw [hj, c4, if_pos rfl, hi]
  have harg : d.arg id = some i := by rw [(C87_device hreach id).1, hp]
  refine ⟨d, hj, hreach, hp, ?_⟩
  unfold ClIo.Job.addStored
  rw [ed]
  simp only [Res.ok_bind, harg]
  rfl

/-- Adding a stored buffer: the argument of its slot is made of it, and has its image. -/
theorem C98_stored_add {f : Fmt} {valid : Nat → Prop} {img : Nat → Bytes → Prop} (hf : Images f valid img) {o : Cl}
    (ho : o.Works) {j : ClIo.Job} (hn : CanRemap j.sys) (hd : StoredBuf.DevReached j.stored) {g : StoredBuf.Gift}
    {sj : StoredBuf.Job} {id i : Nat} (e : j.stored.job.add g = .ok (sj, id)) (hi : g.buffer j.stored.job.next = some i) {x : Bytes}
    (hx : HostImage img j.host i x) {b : Nat} (hb : o.alloc x.length = some b) (hv : valid (o.addr b)) :
    ∃ j' y, j.addStored f o g = .ok (id, j') ∧ j'.stored.job = sj ∧ StoredBuf.DevReached j'.stored ∧
      j'.stored.job.ptr id = some i ∧ HasMemory j'.sys (j'.slot (id - 1024)) b y ∧ img (o.addr b) y ∧ y.length = x.length ∧
      (∀ k, k ≠ b → j'.sys.dev k = j.sys.dev k) ∧ (∀ k, k ≠ id - 1024 → j'.slot k = j.slot k) ∧ j'.host = j.host ∧
      j'.arg = j.arg ∧ CanRemap j'.sys := by
  have ⟨d, hj, hr, hp, ea⟩ := addStored_eq f o hd e hi
  obtain ⟨s, y, en, iy, dy, ly, hk, hc⟩ := C94_new_buf hf ho hn hx hb hv
  generalize id - 1024 = q at ea ⊢
  refine ⟨{ j with stored := d, sys := s }.setSlot q ⟨some b, some i, x.length⟩, y, ?_, ?_, ?_, ?_, ⟨?_, ?_, ?_⟩, ?_, ?_, ?_, ?_,
    ?_, ?_, ?_⟩
  · rw [ea, en, Res.ok_bind]
  · exact hj
  · exact hr
  · exact hp
  · rw [setSlot_self]
  · exact dy
  · rw [setSlot_self]
    exact ly.symm
  · exact iy
  · exact ly
  · exact hk
  · exact fun k hk' => setSlot_ne _ _ hk'
  · rfl
  · rfl
  · exact hc

/-- the hypotheses of `C98_stored_add`, `C98_stored_push` and `C98_stored_collect`: a new buffer is stored, pushed and collected
-/
example : ∃ j1 j2 j3, ioJob.addStored toyFmt clFine .create = .ok (1024, j1) ∧ j1.pushStored toyFmt clFine 1024 = .ok (true, j2) ∧
    j2.collectStored toyFmt clFine 1024 = .ok (true, j3) ∧ j3.host.size 5 = 3 := by
  obtain ⟨j1, y, e1, -, r1, p1, m1, i1, l1, -, -, h1, -, c1⟩ := C98_stored_add toy_images.1 clFine_works (j := ioJob) ioSys_remaps
    ⟨5, [], rfl⟩ (g := .create) (id := 1024) (i := 5) rfl rfl (x := [105, 3, 55]) (toyHost_image 5 (by decide)) (b := 5) rfl
    (by decide)
  obtain ⟨j2, y', e2, i2, l2, -, d2, -, h2, -, s2, m2, -, c2⟩ := C98_stored_push toy_images.1 clFine_works c1 r1 p1 m1
    (x := [105, 3, 55]) (by rw [h1]; exact toyHost_image 5 (by decide)) (by decide) (Nat.le_of_eq l1.symm)
  obtain ⟨x, hx, -⟩ := c2
  obtain ⟨j3, w, e3, -, -, -, sz, -⟩ := C98_stored_collect toy_images.1 (o := clFine) rfl hx.node (s2 ▸ r1) (s2 ▸ p1) m2 i2
    (by rw [l2]; decide) (by
      rw [h2, h1, List.length_append, List.length_drop, l2, l1]
      decide) (by rw [h2, h1]; decide) (by rw [h2, h1]; decide)
  exact ⟨j1, j2, j3, e1, e2, e3, by rw [sz, l2]; rfl⟩

/-- the hypotheses of `C98_stored_gone` -/
example : ioJob.stored.job.ptr 1024 = none ∧ StoredBuf.DevReached ioJob.stored := ⟨by decide, 5, [], rfl⟩

theorem setSlot_same {j : ClIo.Job} {k : Nat} {a : ClArg.Argument} (h : j.slot k = a) : j.setSlot k a = j := by
  unfold ClIo.Job.setSlot
  have : (fun i => if i = k then a else j.slot i) = j.slot := funext fun i => by
    by_cases hi : i = k
    · rw [if_pos hi, hi, h]
    · rw [if_neg hi]
  rw [this]

theorem stored_empty (f : Fmt) (o : Cl) {j : ClIo.Job} {id i : Nat} (ht : j.stored.transfer id = some (i, i))
    (hs : j.slot (id - MIN_USER_ID) = ⟨none, none, 0⟩) :
    j.pushStored f o id = .ok (false, j) ∧ j.collectStored f o id = .ok (false, j) := by
  obtain ⟨w, r⟩ := C94_refused f o j.sys ⟨none, none, 0⟩ j.host i
  have hw := w (by
    show _ ∨ 0 < j.host.size i
    omega)
  have hr := r (.inl rfl)
  unfold ClIo.Job.pushStored ClIo.Job.collectStored
  generalize id - MIN_USER_ID = k at hs ⊢
  rw [ht]
  simp only [hs, hw, hr, Res.ok_bind, Res.pure_eq]
  exact ⟨congrArg (fun x => Res.ok (false, x)) (setSlot_same hs), congrArg (fun x => Res.ok (false, x)) (setSlot_same hs)⟩

/-- **C98 (a stored buffer can be transferred), violated**: without a node a buffer gets an id like any other, but neither can
it be pushed nor collected, not even when a node has been selected afterwards. -/
theorem C98_stored_violated (f : Fmt) (o : Cl) {j : ClIo.Job} (hn : j.sys.ctx.hasNode = false)
    (hd : StoredBuf.DevReached j.stored) {g : StoredBuf.Gift} {sj : StoredBuf.Job} {id i : Nat}
    (e : j.stored.job.add g = .ok (sj, id)) (hi : g.buffer j.stored.job.next = some i) :
    ∃ j', j.addStored f o g = .ok (id, j') ∧ j'.stored.job.ptr id = some i ∧
      ∀ s h, ({ j' with sys := s, host := h }).pushStored f o id = .ok (false, { j' with sys := s, host := h }) ∧
        ({ j' with sys := s, host := h }).collectStored f o id = .ok (false, { j' with sys := s, host := h }) := by
  have ⟨d, hj, hr, hp, ea⟩ := addStored_eq f o hd e hi
  have en := C94_new_empty f o j.sys j.host i (.inr (.inl hn))
  refine ⟨{ j with stored := d }.setSlot (id - 1024) ⟨none, none, 0⟩, ?_, ?_, fun s h => ?_⟩
  · rw [ea, en, Res.ok_bind]
  · exact hp
  have ht : d.transfer id = some (i, i) := by
    rw [(C87_device hr id).2, hp]
    rfl
  have hst : ({ j with stored := d }.setSlot (id - 1024) ⟨none, none, 0⟩).stored = d := rfl
  have hs : ({ j with stored := d }.setSlot (id - 1024) ⟨none, none, 0⟩).slot (id - 1024) = ⟨none, none, 0⟩ := setSlot_self _ _ _
  generalize { j with stored := d }.setSlot (id - 1024) ⟨none, none, 0⟩ = j' at hs hst
  exact stored_empty f o (j := { j' with sys := s, host := h }) (hst ▸ ht) hs

example : ∃ j : ClIo.Job, j.sys.ctx.hasNode = false ∧ StoredBuf.DevReached j.stored ∧
    ∃ sj, j.stored.job.add .create = .ok (sj, 1024) ∧ StoredBuf.Gift.buffer j.stored.job.next .create = some 5 :=
  ⟨{ ioJob with sys := clSys (make clTwo clNodes) }, by decide +kernel, ⟨5, [], rfl⟩, _, rfl, rfl⟩

end SixTrack

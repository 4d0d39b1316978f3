import Verif.ClJobIo
import Verif.Props.ClArgument

/-!
# Lemmas about the transfers of the OpenCL job
-/

namespace SixTrack.ClIo
open SixTrack.Arg (Bytes Fmt Host Loc hostRemap readFirst overwrite)
open SixTrack.ClArg

/-- number of the bit of a part -/
def Part.bit : Part → Nat
  | .particles => 0
  | .elements => 1
  | .output => 2
  | .addresses => 4

theorem isSet_bit (flags : BitVec 16) (p : Part) : isSet flags p.flag = flags.getLsbD p.bit := by
  have h : p.flag = BitVec.twoPow 16 p.bit := by cases p <;> decide
  have hp : p.bit < 16 := by cases p <;> decide
  unfold isSet
  rw [h, BitVec.and_twoPow]
  cases hb : flags.getLsbD p.bit
  · simp only [Bool.false_eq_true, if_false]
    have : (0#16 == BitVec.twoPow 16 p.bit) = false := by
      rw [← h]
      cases p <;> decide
    exact this
  · simp

/-- An image on the device can be read into a buffer with room for the argument. -/
theorem readBuf_image {f : Fmt} {valid : Nat → Prop} {img : Nat → Bytes → Prop} (hf : Images f valid img) {o : Cl}
    (hr : o.reads = true) {s : Sys} (hn : s.ctx.hasNode = true) {a : Argument} {b : Nat} {y z : Bytes}
    (ha : HasMemory s a b (y ++ z)) (hy : img (o.addr b) y) (h0 : 0 < y.length) {h : Host} {i : Nat}
    (room : a.size ≤ (h.mem (.buf i)).length) (hv : valid (h.addr (.buf i))) (hne : h.addr (.buf i) ≠ o.addr b) :
    ∃ h' w, readBuf f o s a h i = .ok (0, h', { a with buf := some i }) ∧ img (h.addr (.buf i)) w ∧ w.length = y.length ∧
      (∀ x, f.rebase (h.addr (.buf i)) (y ++ x) = some (w ++ x)) ∧ h'.size i = y.length ∧
      h'.mem (.buf i) = w ++ z ++ (h.mem (.buf i)).drop a.size ∧ (∀ l, l ≠ .buf i → h'.mem l = h.mem l) ∧
      (∀ k, k ≠ i → h'.size k = h.size k) ∧ h'.addr = h.addr := by
  obtain ⟨am, ad, al⟩ := ha
  obtain ⟨w, iw, lw, r, -⟩ := hf.rebase _ _ _ hy hv
  have hs : 0 < a.size := by
    rw [al, List.length_append]
    omega
  have er : enqueueRead o s a.mem a.size = some (y ++ z) := by
    rw [am, enqueueRead_ok hr ad hs (by omega), List.take_of_length_le (by omega)]
  have eo : overwrite (h.mem (.buf i)) (y ++ z) = .ok (y ++ (z ++ (h.mem (.buf i)).drop a.size)) := by
    unfold overwrite
    rw [← al, if_pos room, List.append_assoc]
  have hb : f.base (y ++ (z ++ (h.mem (.buf i)).drop a.size)) ≠ h.addr (.buf i) := by
    rw [hf.base _ _ _ hy]
    exact hne.symm
  refine ⟨((h.put (.buf i) (y ++ (z ++ (h.mem (.buf i)).drop a.size))).put (.buf i)
    (w ++ (z ++ (h.mem (.buf i)).drop a.size))).setSize i (f.len (w ++ (z ++ (h.mem (.buf i)).drop a.size))), w, ?_, iw, lw, r,
    ?_, ?_, fun l hl => ?_, fun k hk => ?_, rfl⟩
  · unfold readBuf
    simp only [hn, hs, room, and_self, if_true, er, eo, Res.ok_bind]
    unfold hostRemap
    simp only [Host.put, if_true, hb, if_false, r]
  · simp [Host.setSize, hf.len _ _ _ iw, lw]
  · simp [Host.setSize, Host.put]
  · simp [Host.setSize, Host.put, hl]
  · simp [Host.setSize, Host.put, hk]

/-- what a transfer of a part moves: the buffer of the host, the argument, its memory, the image and what follows there -/
structure Copy where
  buffer : Nat
  arg : Argument
  mem : Nat
  image : Bytes
  rest : Bytes

/-- The part is on the device, and can be read into its buffer. -/
structure Collectable (valid : Nat → Prop) (img : Nat → Bytes → Prop) (o : Cl) (j : Job) (p : Part) (c : Copy) : Prop where
  arg : j.arg p = some c.arg
  buf : j.buf p = some c.buffer
  mem : HasMemory j.sys c.arg c.mem (c.image ++ c.rest)
  image : img (o.addr c.mem) c.image
  pos : 0 < c.image.length
  room : c.arg.size ≤ (j.host.mem (.buf c.buffer)).length
  valid : valid (j.host.addr (.buf c.buffer))
  apart : j.host.addr (.buf c.buffer) ≠ o.addr c.mem

/-- The buffer of the part has the image from the device. -/
def Collected (f : Fmt) (img : Nat → Bytes → Prop) (j j' : Job) (p : Part) (c : Copy) : Prop :=
  ∃ w, img (j.host.addr (.buf c.buffer)) w ∧ w.length = c.image.length ∧
    (∀ x, f.rebase (j.host.addr (.buf c.buffer)) (c.image ++ x) = some (w ++ x)) ∧
    j'.host.size c.buffer = c.image.length ∧
    j'.host.mem (.buf c.buffer) = w ++ c.rest ++ (j.host.mem (.buf c.buffer)).drop c.arg.size ∧
    j'.arg p = some { c.arg with buf := some c.buffer }

/-- The flag of the part is among these, and it has an argument and a buffer. -/
def Chosen (flags : BitVec 16) (j : Job) (p : Part) : Prop :=
  flags.getLsbD p.bit = true ∧ (j.arg p).isSome = true ∧ (j.buf p).isSome = true

/-- The members a transfer leaves alone. -/
def Same (j j' : Job) : Prop :=
  j'.buf = j.buf ∧ j'.flags = j.flags ∧ j'.hasAddr = j.hasAddr ∧ j'.stored = j.stored ∧ j'.slot = j.slot

theorem Same.refl (j : Job) : Same j j := ⟨rfl, rfl, rfl, rfl, rfl⟩

theorem Same.trans {a b c : Job} (h : Same a b) (h' : Same b c) : Same a c :=
  ⟨h'.1.trans h.1, h'.2.1.trans h.2.1, h'.2.2.1.trans h.2.2.1, h'.2.2.2.1.trans h.2.2.2.1, h'.2.2.2.2.trans h.2.2.2.2⟩

theorem step_skip {g : Job → Part → Res Job} {flags : BitVec 16} {j : Job} {p : Part}
    (hg : ∀ p, j.arg p = none ∨ j.buf p = none → g j p = .ok j) (h : ¬ Chosen flags j p) :
    (if isSet flags p.flag then g j p else pure j) = .ok j := by
  rw [isSet_bit]
  by_cases hb : flags.getLsbD p.bit = true
  · rw [if_pos hb]
    refine hg p ?_
    cases ha : j.arg p with
    | none => exact .inl rfl
    | some a =>
      cases hu : j.buf p with
      | none => exact .inr rfl
      | some i => exact absurd ⟨hb, by rw [ha]; rfl, by rw [hu]; rfl⟩ h
  · rw [if_neg hb]
    rfl

theorem read_none (f : Fmt) (o : Cl) (j : Job) (p : Part) (h : j.arg p = none ∨ j.buf p = none) : j.read f o p = .ok j := by
  unfold Job.read
  rcases h with h | h
  · rw [h]
  · rw [h]
    cases j.arg p <;> rfl

theorem write_none (f : Fmt) (o : Cl) (j : Job) (p : Part) (h : j.arg p = none ∨ j.buf p = none) : j.write f o p = .ok j := by
  unfold Job.write
  rcases h with h | h
  · rw [h]
  · rw [h]
    cases j.arg p <;> rfl

/-- Reading one part. -/
theorem read_spec {f : Fmt} {valid : Nat → Prop} {img : Nat → Bytes → Prop} (hf : Images f valid img) {o : Cl}
    (hr : o.reads = true) {j : Job} (hn : j.sys.ctx.hasNode = true) {p : Part} {c : Copy}
    (hc : Collectable valid img o j p c) :
    ∃ j', j.read f o p = .ok j' ∧ j'.sys = j.sys ∧ Same j j' ∧ j'.host.addr = j.host.addr ∧ Collected f img j j' p c ∧
      (∀ q, q ≠ p → j'.arg q = j.arg q) ∧ (∀ l, l ≠ .buf c.buffer → j'.host.mem l = j.host.mem l) ∧
      (∀ k, k ≠ c.buffer → j'.host.size k = j.host.size k) := by
  obtain ⟨h', w, e, iw, lw, r, sz, m, ml, ms, ad⟩ :=
    readBuf_image hf hr hn hc.mem hc.image hc.pos hc.room hc.valid hc.apart
  refine ⟨{ j with host := h' }.setArg p { c.arg with buf := some c.buffer }, ?_, rfl, Same.refl _, ad,
    ⟨w, iw, lw, r, sz, m, if_pos rfl⟩, fun q hq => if_neg hq, ml, ms⟩
  unfold Job.read
  rw [hc.arg, hc.buf]
  simp only
  rw [e]
  rfl

theorem Collectable.after {valid : Nat → Prop} {img : Nat → Bytes → Prop} {o : Cl} {j j' : Job} {q : Part} {c d : Copy}
    (h : Collectable valid img o j q d) (hs : j'.sys = j.sys) (hb : j'.buf = j.buf) (ha : j'.arg q = j.arg q)
    (hd : j'.host.addr = j.host.addr) (hm : ∀ l, l ≠ .buf c.buffer → j'.host.mem l = j.host.mem l)
    (hne : d.buffer ≠ c.buffer) : Collectable valid img o j' q d where
  arg := ha.trans h.arg
  buf := by rw [hb]; exact h.buf
  mem := by rw [hs]; exact h.mem
  image := h.image
  pos := h.pos
  room := by
    rw [hm _ (by simpa using hne)]
    exact h.room
  valid := by rw [hd]; exact h.valid
  apart := by rw [hd]; exact h.apart

theorem each_cons (g : Job → Part → Res Job) (flags : BitVec 16) (j : Job) (p : Part) (ps : List Part) :
    each g flags j (p :: ps) = ((if isSet flags p.flag then g j p else pure j) >>= fun j => each g flags j ps) := by
  rw [each]
  by_cases h : isSet flags p.flag = true <;> simp [h]

/-- Reading several parts. -/
theorem each_read {f : Fmt} {valid : Nat → Prop} {img : Nat → Bytes → Prop} (hf : Images f valid img) {o : Cl}
    (hr : o.reads = true) {flags : BitVec 16} (C : Part → Copy) (ps : List Part) (hnd : ps.Nodup) :
    ∀ j : Job, j.sys.ctx.hasNode = true → (∀ p ∈ ps, Chosen flags j p → Collectable valid img o j p (C p)) →
    (∀ p ∈ ps, ∀ q ∈ ps, Chosen flags j p → Chosen flags j q → (C p).buffer = (C q).buffer → p = q) →
    ∃ j', each (Job.read f o) flags j ps = .ok j' ∧ j'.sys = j.sys ∧ Same j j' ∧ j'.host.addr = j.host.addr ∧
      (∀ p ∈ ps, Chosen flags j p → Collected f img j j' p (C p)) ∧
      (∀ p, ¬ (p ∈ ps ∧ Chosen flags j p) → j'.arg p = j.arg p) ∧
      (∀ l, (∀ p ∈ ps, Chosen flags j p → l ≠ .buf (C p).buffer) → j'.host.mem l = j.host.mem l) ∧
      (∀ k, (∀ p ∈ ps, Chosen flags j p → k ≠ (C p).buffer) → j'.host.size k = j.host.size k) := by
  induction ps with
  | nil =>
    intro j _ _ _
    exact ⟨j, rfl, rfl, Same.refl _, rfl, by simp, fun _ _ => rfl, fun _ _ => rfl, fun _ _ => rfl⟩
  | cons p ps ih =>
    intro j hn hc hi
    obtain ⟨hp, hnd⟩ := List.nodup_cons.1 hnd
    by_cases hch : Chosen flags j p
    · obtain ⟨j1, e1, s1, m1, a1, c1, g1, l1, k1⟩ := read_spec hf hr hn (hc p (List.mem_cons_self ..) hch)
      have hne : ∀ q ∈ ps, Chosen flags j q → (C q).buffer ≠ (C p).buffer := fun q hq hcq he =>
        hp (hi q (List.mem_cons_of_mem _ hq) p (List.mem_cons_self ..) hcq hch he ▸ hq)
      have hqp : ∀ q ∈ ps, q ≠ p := fun q hq he => hp (he ▸ hq)
      have hch' : ∀ q ∈ ps, (Chosen flags j1 q ↔ Chosen flags j q) := fun q hq => by
        unfold Chosen
        rw [g1 q (hqp q hq), m1.1]
      obtain ⟨j2, e2, s2, m2, a2, c2, g2, l2, k2⟩ := ih hnd j1 (by rw [s1]; exact hn)
        (fun q hq hcq => (hc q (List.mem_cons_of_mem _ hq) ((hch' q hq).1 hcq)).after (c := C p) s1 m1.1 (g1 q (hqp q hq)) a1 l1
          (hne q hq ((hch' q hq).1 hcq)))
        (fun q hq r hr' hcq hcr => hi q (List.mem_cons_of_mem _ hq) r (List.mem_cons_of_mem _ hr') ((hch' q hq).1 hcq)
          ((hch' r hr').1 hcr))
      refine ⟨j2, ?_, s2.trans s1, m1.trans m2, a2.trans a1, fun q hq hcq => ?_, fun q hq => ?_, fun l hl => ?_, fun k hk => ?_⟩
      · rw [each_cons, isSet_bit, if_pos hch.1, e1, Res.ok_bind]
        exact e2
      · rcases List.mem_cons.1 hq with rfl | hq'
        · obtain ⟨w, iw, lw, r, sz, m, g⟩ := c1
          refine ⟨w, iw, lw, r, ?_, ?_, ?_⟩
          · rw [k2 _ fun r hr' hcr he => hne r hr' ((hch' r hr').1 hcr) he.symm]
            exact sz
          · rw [l2 _ fun r hr' hcr he => hne r hr' ((hch' r hr').1 hcr) (Loc.buf.inj he).symm]
            exact m
          · rw [g2 _ fun h => hp h.1]
            exact g
        · obtain ⟨w, iw, lw, r, sz, m, g⟩ := c2 q hq' ((hch' q hq').2 hcq)
          rw [a1] at iw r
          refine ⟨w, iw, lw, r, sz, ?_, g⟩
          rw [l1 _ (by simpa using hne q hq' hcq)] at m
          exact m
      · rw [g2 q fun h => hq ⟨List.mem_cons_of_mem _ h.1, (hch' q h.1).1 h.2⟩]
        exact g1 q fun he => hq ⟨he ▸ List.mem_cons_self .., he ▸ hch⟩
      · rw [l2 l fun q hq hcq => hl q (List.mem_cons_of_mem _ hq) ((hch' q hq).1 hcq)]
        exact l1 l (hl p (List.mem_cons_self ..) hch)
      · rw [k2 k fun q hq hcq => hk q (List.mem_cons_of_mem _ hq) ((hch' q hq).1 hcq)]
        exact k1 k (hk p (List.mem_cons_self ..) hch)
    · obtain ⟨j2, e2, s2, m2, a2, c2, g2, l2, k2⟩ := ih hnd j hn (fun q hq => hc q (List.mem_cons_of_mem _ hq))
        (fun q hq r hr' => hi q (List.mem_cons_of_mem _ hq) r (List.mem_cons_of_mem _ hr'))
      have hno : ∀ q, q ∈ p :: ps → Chosen flags j q → q ∈ ps := fun q hq hcq => by
        rcases List.mem_cons.1 hq with rfl | h
        · exact absurd hcq hch
        · exact h
      refine ⟨j2, ?_, s2, m2, a2, fun q hq hcq => c2 q (hno q hq hcq) hcq,
        fun q hq => g2 q fun h => hq ⟨List.mem_cons_of_mem _ h.1, h.2⟩,
        fun l hl => l2 l fun q hq => hl q (List.mem_cons_of_mem _ hq),
        fun k hk => k2 k fun q hq => hk q (List.mem_cons_of_mem _ hq)⟩
      rw [each_cons, step_skip (read_none f o j) hch, Res.ok_bind]
      exact e2

/-! ## Writing -/

/-- The part is in its buffer on the host (`image`), and fits into its argument, whose memory is `rest`. -/
structure Pushable (valid : Nat → Prop) (img : Nat → Bytes → Prop) (o : Cl) (j : Job) (p : Part) (c : Copy) : Prop where
  arg : j.arg p = some c.arg
  buf : j.buf p = some c.buffer
  mem : HasMemory j.sys c.arg c.mem c.rest
  image : HostImage img j.host c.buffer c.image
  valid : valid (o.addr c.mem)
  fits : c.image.length ≤ c.arg.size

/-- The memory on the device has the image of the buffer. -/
def Pushed (f : Fmt) (img : Nat → Bytes → Prop) (o : Cl) (j j' : Job) (p : Part) (c : Copy) : Prop :=
  ∃ y, img (o.addr c.mem) y ∧ y.length = c.image.length ∧
    (∀ x, f.rebase (o.addr c.mem) (c.image ++ x) = some (y ++ x)) ∧
    (∀ x, f.rebase (j.host.addr (.buf c.buffer)) (y ++ x) = some (c.image ++ x)) ∧
    j'.sys.dev c.mem = some (y ++ c.rest.drop c.image.length) ∧
    j'.arg p = some { c.arg with buf := some c.buffer }

/-- Writing one part. -/
theorem write_spec {f : Fmt} {valid : Nat → Prop} {img : Nat → Bytes → Prop} (hf : Images f valid img) {o : Cl}
    (ho : o.Works) {j : Job} (hn : CanRemap j.sys) {p : Part} {c : Copy} (hc : Pushable valid img o j p c) :
    ∃ j', j.write f o p = .ok j' ∧ j'.host = j.host ∧ CanRemap j'.sys ∧ Same j j' ∧ Pushed f img o j j' p c ∧
      (∀ q, q ≠ p → j'.arg q = j.arg q) ∧ (∀ k, k ≠ c.mem → j'.sys.dev k = j.sys.dev k) := by
  obtain ⟨s', y, e, iy, ly, r1, r2, d, dk, cr, -⟩ := C94_write hf ho hn hc.mem hc.image hc.valid hc.fits
  refine ⟨{ j with sys := s' }.setArg p { c.arg with buf := some c.buffer }, ?_, rfl, cr, Same.refl _,
    ⟨y, iy, ly, r1, r2, d, if_pos rfl⟩, fun q hq => if_neg hq, dk⟩
  unfold Job.write
  rw [hc.arg, hc.buf]
  simp only
  rw [e]
  rfl

theorem Pushable.after {valid : Nat → Prop} {img : Nat → Bytes → Prop} {o : Cl} {j j' : Job} {q : Part} {c d : Copy}
    (h : Pushable valid img o j q d) (hh : j'.host = j.host) (hb : j'.buf = j.buf) (ha : j'.arg q = j.arg q)
    (hm : ∀ k, k ≠ c.mem → j'.sys.dev k = j.sys.dev k) (hne : d.mem ≠ c.mem) : Pushable valid img o j' q d where
  arg := ha.trans h.arg
  buf := by rw [hb]; exact h.buf
  mem := ⟨h.mem.1, (hm _ hne).trans h.mem.2.1, h.mem.2.2⟩
  image := by rw [hh]; exact h.image
  valid := h.valid
  fits := h.fits

/-- Writing several parts. -/
theorem each_write {f : Fmt} {valid : Nat → Prop} {img : Nat → Bytes → Prop} (hf : Images f valid img) {o : Cl}
    (ho : o.Works) {flags : BitVec 16} (C : Part → Copy) (ps : List Part) (hnd : ps.Nodup) :
    ∀ j : Job, CanRemap j.sys → (∀ p ∈ ps, Chosen flags j p → Pushable valid img o j p (C p)) →
    (∀ p ∈ ps, ∀ q ∈ ps, Chosen flags j p → Chosen flags j q → (C p).mem = (C q).mem → p = q) →
    ∃ j', each (Job.write f o) flags j ps = .ok j' ∧ j'.host = j.host ∧ CanRemap j'.sys ∧ Same j j' ∧
      (∀ p ∈ ps, Chosen flags j p → Pushed f img o j j' p (C p)) ∧
      (∀ p, ¬ (p ∈ ps ∧ Chosen flags j p) → j'.arg p = j.arg p) ∧
      (∀ k, (∀ p ∈ ps, Chosen flags j p → k ≠ (C p).mem) → j'.sys.dev k = j.sys.dev k) := by
  induction ps with
  | nil =>
    intro j hn _ _
    exact ⟨j, rfl, rfl, hn, Same.refl _, by simp, fun _ _ => rfl, fun _ _ => rfl⟩
  | cons p ps ih =>
    intro j hn hc hi
    obtain ⟨hp, hnd⟩ := List.nodup_cons.1 hnd
    by_cases hch : Chosen flags j p
    · obtain ⟨j1, e1, s1, n1, m1, c1, g1, k1⟩ := write_spec hf ho hn (hc p (List.mem_cons_self ..) hch)
      have hne : ∀ q ∈ ps, Chosen flags j q → (C q).mem ≠ (C p).mem := fun q hq hcq he =>
        hp (hi q (List.mem_cons_of_mem _ hq) p (List.mem_cons_self ..) hcq hch he ▸ hq)
      have hqp : ∀ q ∈ ps, q ≠ p := fun q hq he => hp (he ▸ hq)
      have hch' : ∀ q ∈ ps, (Chosen flags j1 q ↔ Chosen flags j q) := fun q hq => by
        unfold Chosen
        rw [g1 q (hqp q hq), m1.1]
      obtain ⟨j2, e2, s2, n2, m2, c2, g2, k2⟩ := ih hnd j1 n1
        (fun q hq hcq => (hc q (List.mem_cons_of_mem _ hq) ((hch' q hq).1 hcq)).after (c := C p) s1 m1.1 (g1 q (hqp q hq)) k1
          (hne q hq ((hch' q hq).1 hcq)))
        (fun q hq r hr' hcq hcr => hi q (List.mem_cons_of_mem _ hq) r (List.mem_cons_of_mem _ hr') ((hch' q hq).1 hcq)
          ((hch' r hr').1 hcr))
      refine ⟨j2, ?_, s2.trans s1, n2, m1.trans m2, fun q hq hcq => ?_, fun q hq => ?_, fun k hk => ?_⟩
      · rw [each_cons, isSet_bit, if_pos hch.1, e1, Res.ok_bind]
        exact e2
      · rcases List.mem_cons.1 hq with rfl | hq'
        · obtain ⟨y, iy, ly, r1, r2, d, g⟩ := c1
          refine ⟨y, iy, ly, r1, r2, ?_, ?_⟩
          · rw [k2 _ fun r hr' hcr he => hne r hr' ((hch' r hr').1 hcr) he.symm]
            exact d
          · rw [g2 _ fun h => hp h.1]
            exact g
        · obtain ⟨y, iy, ly, r1, r2, d, g⟩ := c2 q hq' ((hch' q hq').2 hcq)
          rw [s1] at r2
          exact ⟨y, iy, ly, r1, r2, d, g⟩
      · rw [g2 q fun h => hq ⟨List.mem_cons_of_mem _ h.1, (hch' q h.1).1 h.2⟩]
        exact g1 q fun he => hq ⟨he ▸ List.mem_cons_self .., he ▸ hch⟩
      · rw [k2 k fun q hq hcq => hk q (List.mem_cons_of_mem _ hq) ((hch' q hq).1 hcq)]
        exact k1 k (hk p (List.mem_cons_self ..) hch)
    · obtain ⟨j2, e2, s2, n2, m2, c2, g2, k2⟩ := ih hnd j hn (fun q hq => hc q (List.mem_cons_of_mem _ hq))
        (fun q hq r hr' => hi q (List.mem_cons_of_mem _ hq) r (List.mem_cons_of_mem _ hr'))
      have hno : ∀ q, q ∈ p :: ps → Chosen flags j q → q ∈ ps := fun q hq hcq => by
        rcases List.mem_cons.1 hq with rfl | h
        · exact absurd hcq hch
        · exact h
      refine ⟨j2, ?_, s2, n2, m2, fun q hq hcq => c2 q (hno q hq hcq) hcq,
        fun q hq => g2 q fun h => hq ⟨List.mem_cons_of_mem _ h.1, h.2⟩,
        fun k hk => k2 k fun q hq => hk q (List.mem_cons_of_mem _ hq)⟩
      rw [each_cons, step_skip (write_none f o j) hch, Res.ok_bind]
      exact e2

end SixTrack.ClIo

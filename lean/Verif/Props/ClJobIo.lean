import Verif.ClJobIoLemmas
import Verif.Props.ClArgumentMore

/-!
# C98: collecting and pushing of the OpenCL job
-/

namespace SixTrack
open SixTrack.Arg (Bytes Fmt Host Loc hostRemap readFirst overwrite)
open SixTrack.ClArg ClIo

/-- Collecting reads exactly the parts whose flags are set and which have an argument and a buffer: each of these buffers gets
the image on the device, made for its address, with its size.  All other memory of the host, and the device, are left alone. -/
theorem C98_collect {f : Fmt} {valid : Nat → Prop} {img : Nat → Bytes → Prop} (hf : Images f valid img) {o : Cl}
    (hr : o.reads = true) {j : ClIo.Job} (hn : j.sys.ctx.hasNode = true) {flags : BitVec 16} {C : Part → Copy}
    (hc : ∀ p, Chosen flags j p → Collectable valid img o j p (C p))
    (hi : ∀ p q, Chosen flags j p → Chosen flags j q → (C p).buffer = (C q).buffer → p = q) :
    ∃ j', j.collect f o flags = .ok j' ∧ j'.sys = j.sys ∧ Same j j' ∧ j'.host.addr = j.host.addr ∧
      (∀ p, Chosen flags j p → Collected f img j j' p (C p)) ∧
      (∀ p, ¬ Chosen flags j p → j'.arg p = j.arg p) ∧
      (∀ l, (∀ p, Chosen flags j p → l ≠ .buf (C p).buffer) → j'.host.mem l = j.host.mem l) ∧
      (∀ k, (∀ p, Chosen flags j p → k ≠ (C p).buffer) → j'.host.size k = j.host.size k) := by
  have hall : ∀ p, p ∈ PARTS := fun p => by cases p <;> decide
  have hm : ∀ p, (Chosen (flags &&& COLLECT_ALL) j p ↔ Chosen flags j p) := fun p => by
    unfold Chosen
    have : (flags &&& COLLECT_ALL).getLsbD p.bit = flags.getLsbD p.bit := by
      rw [BitVec.getLsbD_and]
      have : COLLECT_ALL.getLsbD p.bit = true := by cases p <;> decide
      rw [this, Bool.and_true]
    rw [this]
  obtain ⟨j', e, s, m, a, c, g, l, k⟩ := each_read (flags := flags &&& COLLECT_ALL) hf hr C PARTS (by decide) j hn
    (fun p _ h => hc p ((hm p).1 h)) (fun p _ q _ h h' => hi p q ((hm p).1 h) ((hm q).1 h'))
  exact ⟨j', e, s, m, a, fun p h => c p (hall p) ((hm p).2 h), fun p h => g p fun h' => h ((hm p).1 h'.2),
    fun x h => l x fun p _ h' => h p ((hm p).1 h'), fun x h => k x fun p _ h' => h p ((hm p).1 h')⟩

/-- Pushing writes exactly the parts whose flags are set and which have an argument and a buffer: the memory of each of these
arguments begins with the image of its buffer, made for the address on the device.  All other memory on the device, and the
host, are left alone. -/
theorem C98_push {f : Fmt} {valid : Nat → Prop} {img : Nat → Bytes → Prop} (hf : Images f valid img) {o : Cl}
    (ho : o.Works) {j : ClIo.Job} (hn : CanRemap j.sys) {flags : BitVec 16} {C : Part → Copy}
    (hc : ∀ p, Chosen flags j p → Pushable valid img o j p (C p))
    (hi : ∀ p q, Chosen flags j p → Chosen flags j q → (C p).mem = (C q).mem → p = q) :
    ∃ j', j.push f o flags = .ok j' ∧ j'.host = j.host ∧ CanRemap j'.sys ∧ Same j j' ∧
      (∀ p, Chosen flags j p → Pushed f img o j j' p (C p)) ∧
      (∀ p, ¬ Chosen flags j p → j'.arg p = j.arg p) ∧
      (∀ k, (∀ p, Chosen flags j p → k ≠ (C p).mem) → j'.sys.dev k = j.sys.dev k) := by
  have hall : ∀ p, p ∈ PARTS := fun p => by cases p <;> decide
  obtain ⟨j', e, s, n, m, c, g, k⟩ := each_write hf ho C PARTS (by decide) j hn
    (fun p _ h => hc p h) (fun p _ q _ h h' => hi p q h h')
  exact ⟨j', e, s, n, m, fun p h => c p (hall p) h, fun p h => g p fun h' => h h'.2, fun x h => k x fun p _ h' => h p h'⟩

/-- What has been pushed comes back: if nothing happens on the device, collecting the same parts leaves the images and the
sizes of their buffers as they were. -/
theorem C98_round_trip {f : Fmt} {valid : Nat → Prop} {img : Nat → Bytes → Prop} (hf : Images f valid img) {o : Cl}
    (ho : o.Works) {j : ClIo.Job} (hn : CanRemap j.sys) {flags : BitVec 16} {C : Part → Copy}
    (hc : ∀ p, Chosen flags j p → Pushable valid img o j p (C p))
    (hi : ∀ p q, Chosen flags j p → Chosen flags j q → (C p).mem = (C q).mem → p = q)
    (hb : ∀ p q, Chosen flags j p → Chosen flags j q → (C p).buffer = (C q).buffer → p = q)
    (hr : ∀ p, Chosen flags j p → (C p).arg.size ≤ (j.host.mem (.buf (C p).buffer)).length ∧
      valid (j.host.addr (.buf (C p).buffer)) ∧ j.host.addr (.buf (C p).buffer) ≠ o.addr (C p).mem) :
    ∃ j1 j2, j.push f o flags = .ok j1 ∧ j1.collect f o flags = .ok j2 ∧
      (∀ p, Chosen flags j p → j2.host.size (C p).buffer = j.host.size (C p).buffer ∧
        j2.host.mem (.buf (C p).buffer) = (C p).image ++ (C p).rest.drop (C p).image.length ++
          (j.host.mem (.buf (C p).buffer)).drop (C p).arg.size) ∧
      (∀ l, (∀ p, Chosen flags j p → l ≠ .buf (C p).buffer) → j2.host.mem l = j.host.mem l) := by
  classical
  obtain ⟨j1, e1, h1, n1, m1, c1, g1, k1⟩ := C98_push hf ho hn hc hi
  have hnode : j1.sys.ctx.hasNode = true := by
    obtain ⟨x, hx, -⟩ := n1
    exact hx.node
  have hch : ∀ p, (Chosen flags j1 p ↔ Chosen flags j p) := fun p => by
    by_cases h : Chosen flags j p
    · obtain ⟨y, -, -, -, -, -, ga⟩ := c1 p h
      unfold Chosen
      rw [ga, m1.1]
      exact ⟨fun _ => h, fun _ => ⟨h.1, rfl, h.2.2⟩⟩
    · unfold Chosen
      rw [g1 p h, m1.1]
  let D : Part → Copy := fun p =>
    if h : Chosen flags j p then
      { C p with arg := { (C p).arg with buf := some (C p).buffer }, image := (c1 p h).choose,
                 rest := (C p).rest.drop (C p).image.length }
    else C p
  have hD : ∀ p (h : Chosen flags j p), D p = { C p with
      arg := { (C p).arg with buf := some (C p).buffer }, image := (c1 p h).choose,
      rest := (C p).rest.drop (C p).image.length } := fun p h => dif_pos h
  obtain ⟨j2, e2, -, -, -, c2, -, l2, -⟩ := C98_collect (j := j1) (flags := flags) (C := D) hf ho.reads hnode
    (fun p h => by
      have h' := (hch p).1 h
      obtain ⟨iy, ly, -, -, d, ga⟩ := (c1 p h').choose_spec
      obtain ⟨r1, r2, r3⟩ := hr p h'
      have hp := hc p h'
      rw [hD p h']
      exact
        { arg := ga
          buf := by rw [m1.1]; exact hp.buf
          mem := ⟨hp.mem.1, d, by
            have := hp.mem.2.2
            have := hp.fits
            simp only [List.length_append, List.length_drop, ly]
            omega⟩
          image := iy
          pos := by
            have := hp.image.2.1
            simp only [ly]
            exact this
          room := by rw [h1]; exact r1
          valid := by rw [h1]; exact r2
          apart := by rw [h1]; exact r3 })
    (fun p q hp hq he => by
      have hp' := (hch p).1 hp
      have hq' := (hch q).1 hq
      rw [hD p hp', hD q hq'] at he
      exact hb p q hp' hq' he)
  refine ⟨j1, j2, e1, e2, fun p h => ?_, fun l hl => ?_⟩
  · obtain ⟨w, iw, lw, r, sz, m, -⟩ := c2 p ((hch p).2 h)
    obtain ⟨iy, ly, -, r2, -⟩ := (c1 p h).choose_spec
    rw [hD p h] at lw r sz m
    simp only [h1] at lw r sz m
    have hw : w = (C p).image := by
      have a := r []
      have b := r2 []
      rw [b] at a
      simpa using (Option.some.inj a).symm
    rw [hw] at m
    refine ⟨?_, m⟩
    rw [sz, ly]
    exact (hc p h).image.2.2.1.symm
  · rw [l2 l fun p h => by
      rw [hD p ((hch p).1 h)]
      exact hl p ((hch p).1 h), h1]

/-! ## A job with particles and output on its device, and an argument for addresses without a buffer -/

/-- two pieces of memory -/
def ioSys : Sys := { clNormal with
  dev := fun k => if k = 3 then some [13, 3, 9, 4, 5, 6, 7, 8] else if k = 4 then some [14, 4, 8, 7, 0] else none }

theorem ioSys_remaps : CanRemap ioSys := by
  obtain ⟨x, hx, hw, hc⟩ := clNormal_remaps
  exact ⟨x, ⟨hx.node, hx.kernel, hx.num⟩, hw, hc⟩

def ioJob : ClIo.Job where
  sys := ioSys
  host := toyHost
  arg
    | .particles => some ⟨some 3, none, 8⟩
    | .output => some ⟨some 4, none, 5⟩
    | .addresses => some ⟨none, none, 0⟩
    | .elements => none
  buf
    | .particles => some 0
    | .output => some 1
    | .elements => some 2
    | .addresses => none
  flags := DEFAULT_FLAGS
  hasAddr := false
  stored := .new 5
  slot _ := ⟨none, none, 0⟩

/-- what is collected -/
def ioBack : Part → Copy
  | .particles => ⟨0, ⟨some 3, none, 8⟩, 3, [13, 3, 9], [4, 5, 6, 7, 8]⟩
  | _ => ⟨1, ⟨some 4, none, 5⟩, 4, [14, 4, 8, 7], [0]⟩

/-- what is pushed -/
def ioOut : Part → Copy
  | .particles => ⟨0, ⟨some 3, none, 8⟩, 3, [100, 3, 50], [13, 3, 9, 4, 5, 6, 7, 8]⟩
  | _ => ⟨1, ⟨some 4, none, 5⟩, 4, [101, 3, 51], [14, 4, 8, 7, 0]⟩

theorem ioJob_chosen (p : Part) : Chosen COLLECT_ALL ioJob p ↔ p = .particles ∨ p = .output := by
  unfold Chosen
  cases p <;> decide

theorem ioJob_collectable (p : Part) (h : Chosen COLLECT_ALL ioJob p) :
    Collectable (fun a => 0 < a ∧ a < 256) ToyImg clFine ioJob p (ioBack p) := by
  rcases (ioJob_chosen p).1 h with rfl | rfl
  · exact ⟨rfl, rfl, ⟨rfl, rfl, rfl⟩, ⟨by decide, 3, [9], rfl, rfl⟩, by decide, by decide, by decide, by decide⟩
  · exact ⟨rfl, rfl, ⟨rfl, rfl, rfl⟩, ⟨by decide, 4, [8, 7], rfl, rfl⟩, by decide, by decide, by decide, by decide⟩

theorem ioJob_pushable (p : Part) (h : Chosen COLLECT_ALL ioJob p) :
    Pushable (fun a => 0 < a ∧ a < 256) ToyImg clFine ioJob p (ioOut p) := by
  rcases (ioJob_chosen p).1 h with rfl | rfl
  · exact ⟨rfl, rfl, ⟨rfl, rfl, rfl⟩, toyHost_image 0 (by decide), by decide, by decide⟩
  · exact ⟨rfl, rfl, ⟨rfl, rfl, rfl⟩, toyHost_image 1 (by decide), by decide, by decide⟩

/-- the hypotheses of `C98_collect` -/
example : ∃ j', ioJob.collect toyFmt clFine COLLECT_ALL = .ok j' ∧ j'.host.size 1 = 4 ∧
    j'.host.mem (.buf 1) = [101, 4, 8, 7, 0, 0, 0, 0] ∧ j'.host.mem (.buf 2) = toyHost.mem (.buf 2) := by
  obtain ⟨j', e, -, -, -, c, -, l, -⟩ := C98_collect (j := ioJob) (flags := COLLECT_ALL) toy_images.1 (o := clFine) rfl
    (by decide +kernel) ioJob_collectable (fun p q hp hq he => by
      rcases (ioJob_chosen p).1 hp with rfl | rfl <;> rcases (ioJob_chosen q).1 hq with rfl | rfl <;> first | rfl | cases he)
  obtain ⟨w, -, -, r, sz, m, -⟩ := c .output ((ioJob_chosen _).2 (.inr rfl))
  have hw : w = [101, 4, 8, 7] := by
    have := r []
    rw [List.append_nil, List.append_nil] at this
    exact (Option.some.inj ((show toyFmt.rebase 101 [14, 4, 8, 7] = some [101, 4, 8, 7] from by decide).symm.trans this)).symm
  refine ⟨j', e, sz, ?_, l _ fun p hp => ?_⟩
  · rw [hw] at m
    exact m
  · rcases (ioJob_chosen p).1 hp with rfl | rfl <;> decide

/-- the hypotheses of `C98_push` and `C98_round_trip` -/
example : ∃ j1 j2, ioJob.push toyFmt clFine COLLECT_ALL = .ok j1 ∧ j1.collect toyFmt clFine COLLECT_ALL = .ok j2 ∧
    j2.host.mem (.buf 0) = [100, 3, 50, 4, 5, 6, 7, 8] ∧ j2.host.mem (.buf 1) = [101, 3, 51, 7, 0, 0, 0, 0] := by
  have hd : ∀ p q, Chosen COLLECT_ALL ioJob p → Chosen COLLECT_ALL ioJob q →
      ((ioOut p).mem = (ioOut q).mem → p = q) ∧ ((ioOut p).buffer = (ioOut q).buffer → p = q) := fun p q hp hq => by
    rcases (ioJob_chosen p).1 hp with rfl | rfl <;> rcases (ioJob_chosen q).1 hq with rfl | rfl <;> decide
  obtain ⟨j1, j2, e1, e2, c, -⟩ := C98_round_trip toy_images.1 clFine_works ioSys_remaps ioJob_pushable
    (fun p q hp hq => (hd p q hp hq).1) (fun p q hp hq => (hd p q hp hq).2)
    (fun p hp => by rcases (ioJob_chosen p).1 hp with rfl | rfl <;> decide)
  exact ⟨j1, j2, e1, e2, (c .particles ((ioJob_chosen _).2 (.inl rfl))).2, (c .output ((ioJob_chosen _).2 (.inr rfl))).2⟩

/-! ## Flags -/

theorem each_bits {g : ClIo.Job → Part → Res ClIo.Job} {a b : BitVec 16} (h : ∀ p : Part, a.getLsbD p.bit = b.getLsbD p.bit)
    (j : ClIo.Job) (ps : List Part) : each g a j ps = each g b j ps := by
  induction ps generalizing j with
  | nil => rfl
  | cons p ps ih =>
    rw [each_cons, each_cons, isSet_bit, isSet_bit, h p]
    simp only [ih]

/-- Only four of the bits count: that of the debug register does nothing. -/
theorem C98_bits (f : Fmt) (o : Cl) (j : ClIo.Job) {a b : BitVec 16} (h : ∀ p : Part, a.getLsbD p.bit = b.getLsbD p.bit) :
    j.collect f o a = j.collect f o b ∧ j.push f o a = j.push f o b := by
  refine ⟨each_bits (fun p => ?_) _ _, each_bits h _ _⟩
  rw [BitVec.getLsbD_and, BitVec.getLsbD_and, h p]

/-- All flags for pushing leave out the addresses of particles, those for collecting do not. -/
theorem C98_push_all_violated (f : Fmt) (o : Cl) (j : ClIo.Job) :
    j.push f o PUSH_ALL = j.push f o 7 ∧ ¬ Chosen PUSH_ALL j .addresses ∧
    ∀ p, (Chosen COLLECT_ALL j p ↔ (j.arg p).isSome = true ∧ (j.buf p).isSome = true) := by
  refine ⟨(C98_bits f o j fun p => by cases p <;> decide).2, fun h => absurd h.1 (by decide), fun p => ?_⟩
  have : COLLECT_ALL.getLsbD p.bit = true := by cases p <;> decide
  unfold Chosen
  simp [this]

/-- A new job collects particles and output.  Enabling and disabling concern one part only; flags of no part can not be set. -/
theorem C98_flags (j : ClIo.Job) (p q : Part) (flags : BitVec 16) :
    (j.collects q = j.flags.getLsbD q.bit) ∧
    ((j.enable p).collects q = (decide (q = p) || j.collects q)) ∧
    ((j.disable p).collects q = (!decide (q = p) && j.collects q)) ∧
    ((j.setFlags flags).collects q = flags.getLsbD q.bit) ∧ (∀ k, 5 ≤ k → (j.setFlags flags).flags.getLsbD k = false) ∧
    (DEFAULT_FLAGS.getLsbD q.bit = true ↔ q = .particles ∨ q = .output) := by
  have hbit : ∀ p q : Part, p.flag.getLsbD q.bit = decide (q = p) := fun p q => by cases p <;> cases q <;> decide
  have hlt : q.bit < 16 := by cases q <;> decide
  refine ⟨isSet_bit .., ?_, ?_, ?_, fun k hk => ?_, by cases q <;> decide⟩
  · show isSet (j.flags ||| p.flag) q.flag = (_ || isSet j.flags q.flag)
    rw [isSet_bit, isSet_bit, BitVec.getLsbD_or, hbit, Bool.or_comm]
  · show isSet (unset j.flags p.flag) q.flag = (_ && isSet j.flags q.flag)
    unfold unset
    rw [isSet_bit, isSet_bit, BitVec.getLsbD_and, BitVec.getLsbD_not, hbit, Bool.and_comm]
    simp [hlt]
  · show isSet (flags &&& COLLECT_ALL) q.flag = _
    rw [isSet_bit, BitVec.getLsbD_and]
    have : COLLECT_ALL.getLsbD q.bit = true := by cases q <;> decide
    rw [this, Bool.and_true]
  · show (flags &&& COLLECT_ALL).getLsbD k = false
    rw [BitVec.getLsbD_and]
    have : COLLECT_ALL.getLsbD k = false := by
      by_cases h : k < 16
      · have : ∀ k : Fin 16, 5 ≤ k.1 → COLLECT_ALL.getLsbD k.1 = false := by decide
        exact this ⟨k, h⟩ hk
      · exact BitVec.getLsbD_of_ge _ _ (by omega)
    rw [this, Bool.and_false]

/-- The functions for one part do what those with its flag alone do, and `collect` without flags takes those of the job. -/
theorem C98_named (f : Fmt) (o : Cl) (j : ClIo.Job) (p : Part) :
    j.collectPart f o p = j.collect f o (BitVec.twoPow 16 p.bit) ∧ j.pushPart f o p = j.push f o (BitVec.twoPow 16 p.bit) ∧
    j.collectDefault f o = j.collect f o j.flags ∧
    ∀ q, (Chosen (BitVec.twoPow 16 p.bit) j q ↔ q = p ∧ (j.arg q).isSome = true ∧ (j.buf q).isSome = true) := by
  refine ⟨?_, ?_, each_bits (fun q => ?_) _ _, fun q => ?_⟩
  · unfold Job.collectPart Job.collect
    congr 1
    cases p <;> decide
  · unfold Job.pushPart Job.push
    congr 1
    cases p <;> decide
  · rw [BitVec.getLsbD_and]
    have : COLLECT_ALL.getLsbD q.bit = true := by cases q <;> decide
    rw [this, Bool.and_true]
  · unfold Chosen
    have : (BitVec.twoPow 16 p.bit).getLsbD q.bit = decide (q = p) := by cases p <;> cases q <;> decide
    rw [this, decide_eq_true_iff]

example : ioJob.collects .particles = true ∧ ioJob.collects .elements = false ∧ (ioJob.enable .elements).collects .elements = true ∧
    ((ioJob.enable .elements).disable .particles).flags = 6 ∧ (ioJob.setFlags 0xfff0).flags = 16 := by decide

end SixTrack

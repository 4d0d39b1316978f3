import Verif.ClArgumentLemmas
import Verif.Props.Argument

/-!
# C94: arguments of OpenCL kernels, buffers
-/

namespace SixTrack

open SixTrack.Arg (Bytes Fmt Host Loc hostRemap readFirst overwrite)
open SixTrack.ClArg

/-- OpenCL does what it is asked for. -/
structure ClArg.Cl.Works (o : Cl) : Prop where
  writes : o.writes = true
  reads : o.reads = true
  flagWrites : o.flagWrites = true
  flagReads : o.flagReads = true
  run : o.run.ok = true

/-- The context has a node and a remapping kernel, which is the normal one, or the debugging one whose last argument is the
buffer of the status flags; it is launched with work items. -/
def CanRemap (s : Sys) : Prop :=
  ∃ x, Ready s x ∧ 0 < workItems x ∧ (x.numArgs = 2 ∨ ∃ u v, x.cl = [u, v, some (.buffer s.flagsId)])

/-- The argument has memory on the device that is as long as it says. -/
def HasMemory (s : Sys) (a : ClArg.Argument) (b : Nat) (d : Bytes) : Prop :=
  a.mem = some b ∧ s.dev b = some d ∧ a.size = d.length

/-- The `i`-th buffer of the host has the image `x`. -/
def HostImage (img : Nat → Bytes → Prop) (h : Host) (i : Nat) (x : Bytes) : Prop :=
  img (h.addr (.buf i)) x ∧ 0 < x.length ∧ h.size i = x.length ∧ ∃ z, h.mem (.buf i) = x ++ z

private theorem again_after {s t : Sys} {b : Nat} (h : CanRemap s) (e : t.ctx = argsSet s b) (g : t.flagsId = s.flagsId) :
    CanRemap t := by
  obtain ⟨x, hx, hi, hc⟩ := h
  obtain ⟨y, hy, c, w⟩ := hx.again e
  refine ⟨y, hy, w ▸ hi, ?_⟩
  rcases hc with hn | ⟨u, v, hc⟩
  · left
    rw [hy.num, c, List.length_set, List.length_set, ← hx.num, hn]
  · right
    rw [c, hc, g]
    exact ⟨_, _, rfl⟩

/-- Writing a buffer that fits succeeds: the image for the address on the device is at the begin of the memory of the
argument.  What follows in that memory, all other memory and all other kernels are left alone, and the context can be used
again. -/
theorem C94_write {f : Fmt} {valid : Nat → Prop} {img : Nat → Bytes → Prop} (hf : Images f valid img) {o : Cl}
    (ho : o.Works) {s : Sys} (hs : CanRemap s) {a : ClArg.Argument} {b : Nat} {d : Bytes} (ha : HasMemory s a b d)
    {h : Host} {i : Nat} {x : Bytes} (hx : HostImage img h i x) (hv : valid (o.addr b)) (hl : x.length ≤ a.size) :
    ∃ s' y, writeBuf f o s a h i = .ok (0, s', { a with buf := some i }) ∧ img (o.addr b) y ∧ y.length = x.length ∧
      (∀ z, f.rebase (o.addr b) (x ++ z) = some (y ++ z)) ∧ (∀ z, f.rebase (h.addr (.buf i)) (y ++ z) = some (x ++ z)) ∧
      s'.dev b = some (y ++ d.drop x.length) ∧ (∀ k, k ≠ b → s'.dev k = s.dev k) ∧ CanRemap s' ∧
      (∀ k, k ≠ s.ctx.remapKernel → s'.ctx.kernels[k]? = s.ctx.kernels[k]?) := by
  obtain ⟨hi, h0, hsz, z, hm⟩ := hx
  obtain ⟨am, ad, al⟩ := ha
  obtain ⟨y, iy, ly, r1, r2⟩ := hf.rebase _ _ _ hi hv
  obtain ⟨k, hk, hw, hc⟩ := id hs
  have hld : x.length ≤ d.length := al ▸ hl
  have rf : readFirst (h.mem (.buf i)) (h.size i) = .ok x := by
    unfold readFirst
    rw [hm, hsz, if_pos (by simp), List.take_left' rfl]
  have hdev : (sent s b x d).dev b = some (x ++ d.drop x.length) := by simp [sent]
  have steps : ∃ s', sendSteps f o s a x = .ok (0, s') ∧ s'.ctx = argsSet s b ∧ s'.flagsId = s.flagsId ∧
      s'.dev = fun k => if k = b then some (y ++ d.drop x.length) else s.dev k := by
    rcases hc with hn | ⟨u, v, hc⟩
    · rw [sendSteps_two hk hn ho.flagWrites ho.writes ho.run hw am ad h0 hld]
      unfold remapBuffer
      simp only [hdev, r1, Res.ok_bind]
      refine ⟨_, rfl, rfl, rfl, ?_⟩
      funext k
      by_cases e : k = b <;> simp [Sys.put, sent, e]
    · rw [sendSteps_three hk hc ho.flagWrites ho.flagReads ho.writes ho.run hw am ad h0 hld]
      unfold remapBuffer
      simp only [hdev, r1, Res.ok_bind, if_true]
      refine ⟨_, rfl, rfl, rfl, ?_⟩
      funext k
      by_cases e : k = b <;> simp [Sys.put, sent, e]
  obtain ⟨s', e, ec, eg, ed⟩ := steps
  refine ⟨s', y, ?_, iy, ly, r1, r2, by rw [ed]; simp, ?_, again_after hs ec eg, ?_⟩
  · unfold writeBuf
    rw [if_pos ⟨hk.node, hk.has, hsz ▸ h0, hsz ▸ hl⟩, rf]
    simp only [Res.ok_bind, e, if_true]
  · intro j hj
    rw [ed]
    simp [hj]
  · intro j hj
    rw [ec, argsSet_other s b hj]

/-- A buffer that has been written can be read into any buffer with room for the whole argument: it has the size and an
image of what was written then, and into the same buffer exactly the bytes that were written come back.  After the image
come the rest of the memory on the device and what was behind before. -/
theorem C94_round_trip {f : Fmt} {valid : Nat → Prop} {img : Nat → Bytes → Prop} (hf : Images f valid img) {o : Cl}
    (ho : o.Works) {s : Sys} (hs : CanRemap s) {a : ClArg.Argument} {b : Nat} {d : Bytes} (ha : HasMemory s a b d)
    {h : Host} {i : Nat} {x : Bytes} (hx : HostImage img h i x) (hv : valid (o.addr b)) (hl : x.length ≤ a.size)
    {h' : Host} {j : Nat} (hr : a.size ≤ (h'.mem (.buf j)).length) (hj : valid (h'.addr (.buf j)))
    (hne : h'.addr (.buf j) ≠ o.addr b) :
    ∃ s' a', writeBuf f o s a h i = .ok (0, s', a') ∧ ∃ h'' w, readBuf f o s' a' h' j = .ok (0, h'', { a' with buf := some j }) ∧
      img (h'.addr (.buf j)) w ∧ h''.size j = x.length ∧ w.length = x.length ∧
      h''.mem (.buf j) = w ++ d.drop x.length ++ (h'.mem (.buf j)).drop a.size ∧
      (h'.addr (.buf j) = h.addr (.buf i) → w = x) ∧ (∀ l, l ≠ .buf j → h''.mem l = h'.mem l) := by
  obtain ⟨s', y, e, iy, ly, _, r2, hd, _, ⟨k, hk, _⟩, _⟩ := C94_write hf ho hs ha hx hv hl
  refine ⟨s', _, e, ?_⟩
  obtain ⟨w, iw, lw, r3, _⟩ := hf.rebase _ _ _ iy hj
  obtain ⟨am, _, al⟩ := ha
  have h0 : 0 < a.size := lt_of_lt_of_le hx.2.1 hl
  have hlen : (y ++ d.drop x.length).length = a.size := by
    rw [List.length_append, List.length_drop, ly, al]
    omega
  have er : enqueueRead o s' a.mem a.size = some (y ++ d.drop x.length) := by
    rw [am, enqueueRead_ok ho.reads hd h0 (by omega), List.take_of_length_le (by omega)]
  have eo : overwrite (h'.mem (.buf j)) (y ++ d.drop x.length) =
      .ok (y ++ (d.drop x.length ++ (h'.mem (.buf j)).drop a.size)) := by
    unfold overwrite
    rw [hlen, if_pos hr, List.append_assoc]
  have hb : f.base (y ++ (d.drop x.length ++ (h'.mem (.buf j)).drop a.size)) ≠ h'.addr (.buf j) := by
    rw [hf.base _ _ _ iy]
    exact hne.symm
  refine ⟨((h'.put (.buf j) (y ++ (d.drop x.length ++ (h'.mem (.buf j)).drop a.size))).put (.buf j)
    (w ++ (d.drop x.length ++ (h'.mem (.buf j)).drop a.size))).setSize j
    (f.len (w ++ (d.drop x.length ++ (h'.mem (.buf j)).drop a.size))), w, ?_, iw, ?_, by omega, ?_, ?_, ?_⟩
  · unfold readBuf
    simp only [hk.node, h0, hr, and_self, if_true, er, eo, Res.ok_bind]
    unfold hostRemap
    simp only [Host.put, if_true, hb, if_false, r3]
  · simp [Host.setSize, hf.len _ _ _ iw, lw, ly]
  · simp [Host.setSize, Host.put]
  · intro ea
    have r4 := r2 []
    have r5 := r3 []
    rw [ea, r4] at r5
    simpa using (Option.some.inj r5).symm
  · intro l hl'
    simp [Host.setSize, Host.put, hl']

end SixTrack

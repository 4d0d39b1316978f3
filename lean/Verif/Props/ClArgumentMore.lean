import Verif.Props.ClArgument
import Verif.Props.ClContextSelect

/-!
# C94: arguments of OpenCL kernels, examples, failures, raw memory and regions
-/

namespace SixTrack

open SixTrack.Arg (Bytes Fmt Host Loc hostRemap readFirst overwrite)
open SixTrack.ClArg
open SixTrack.ClContext (Ctx Kernel ClVal make)

/-! ## Examples -/

/-- OpenCL that works; its buffers are at the addresses 10, 11, … -/
def clFine : Cl := ⟨true, true, true, true, ⟨true, none⟩, fun _ => some 5, fun _ => 77, fun b => 10 + b, 0⟩

/-- OpenCL without memory -/
def clFull : Cl := { clFine with alloc := fun _ => none }

theorem clFine_works : clFine.Works := ⟨rfl, rfl, rfl, rfl, rfl⟩

/-- the normal kernel -/
def clTwo : ClContext.Env := { clDemo with kernel := fun _ _ _ => ⟨2, 256, 32, 0⟩ }

/-- a context, and memory of eight bytes on its device -/
def clSys (c : Ctx) : Sys := ⟨c, fun k => if k = 3 then some [1, 2, 3, 4, 5, 6, 7, 8] else none, 7, 0#64⟩

/-- a normal context whose node was selected by its index -/
def clNormal : Sys := clSys ((make clTwo clNodes).selectNode clTwo 1 7).2

/-- one for debugging -/
def clDebug : Sys := clSys (((make clDemo clNodes).setDebug clDemo true).selectNode clDemo 1 7).2

/-- one for debugging whose node was selected by its id -/
def clDebugId : Sys := clSys (((make clDemo clNodes).setDebug clDemo true).selectId clDemo ⟨0, 1⟩).2

/-- the argument with that memory -/
def clArg8 : ClArg.Argument := ⟨some 3, none, 8⟩

/-- a host whose buffers have no room behind their images, and whose second buffer has an image that cannot be remapped -/
def tightHost : Host where
  mem
    | .buf 1 => [0, 3, 9]
    | .buf i => [UInt8.ofNat (100 + i), 3, UInt8.ofNat (50 + i)]
    | .raw p => [4, 5, 6, 7, 8, 9, 10, UInt8.ofNat p]
  addr
    | .buf i => 100 + i
    | .raw p => 200 + p
  size _ := 3

theorem clNormal_remaps : CanRemap clNormal :=
  ⟨⟨"st_ManagedBuffer_remap_opencl", 0, 2, 0, 256, 32, 0, [⟨.none, none⟩, ⟨.value, none⟩], [none, some (.value 8)]⟩,
    ⟨by decide +kernel, by decide +kernel, rfl⟩, by decide +kernel, .inl rfl⟩

theorem clDebug_remaps : CanRemap clDebug :=
  ⟨⟨"st_ManagedBuffer_remap_debug_opencl", 1, 3, 0, 256, 32, 0,
      [⟨.none, none⟩, ⟨.value, none⟩, ⟨.clBuffer, some 7⟩], [none, some (.value 8), some (.buffer 7)]⟩,
    ⟨by decide +kernel, by decide +kernel, rfl⟩, by decide +kernel, .inr ⟨_, _, rfl⟩⟩

theorem clArg8_memory (c : Ctx) : HasMemory (clSys c) clArg8 3 [1, 2, 3, 4, 5, 6, 7, 8] := ⟨rfl, rfl, rfl⟩

theorem toyHost_image (i : Nat) (h : i < 100) : HostImage ToyImg toyHost i [UInt8.ofNat (100 + i), 3, UInt8.ofNat (50 + i)] :=
  ⟨⟨⟨by simp only [toyHost]; omega, by simp only [toyHost]; omega⟩, 3, _, rfl, rfl⟩, by simp, rfl, _, rfl⟩

/-- the hypotheses of `C94_write` and `C94_round_trip`, normal and debugging -/
example : ∃ s' a', writeBuf toyFmt clFine clNormal clArg8 toyHost 0 = .ok (0, s', a') ∧
    ∃ h'' w, readBuf toyFmt clFine s' a' toyHost 1 = .ok (0, h'', { a' with buf := some 1 }) ∧
      h''.mem (.buf 1) = w ++ [4, 5, 6, 7, 8] ∧ ToyImg 101 w ∧ h''.size 1 = 3 := by
  obtain ⟨s', a', e, h'', w, r, iw, sz, _, m, _, _⟩ := C94_round_trip toy_images.1 clFine_works clNormal_remaps
    (clArg8_memory _) (toyHost_image 0 (by decide)) (by decide) (by decide) (h' := toyHost) (j := 1) (by decide)
    (by decide) (by decide)
  exact ⟨s', a', e, h'', w, r, by simpa [toyHost, clArg8] using m, iw, sz⟩

example : ∃ s' y, writeBuf toyFmt clFine clDebug clArg8 toyHost 0 = .ok (0, s', { clArg8 with buf := some 0 }) ∧
    ToyImg 13 y ∧ s'.dev 3 = some (y ++ [4, 5, 6, 7, 8]) := by
  obtain ⟨s', y, e, iy, _, _, _, d, _⟩ := C94_write toy_images.1 clFine_works clDebug_remaps (clArg8_memory _)
    (toyHost_image 0 (by decide)) (by decide) (by decide)
  exact ⟨s', y, e, iy, d⟩

/-! ## What is refused -/

/-- A buffer without content or larger than the argument is refused, and nothing happens; so is one with room for less than
the whole argument when it is read into. -/
theorem C94_refused (f : Fmt) (o : Cl) (s : Sys) (a : ClArg.Argument) (h : Host) (i : Nat) :
    (h.size i = 0 ∨ a.size < h.size i → writeBuf f o s a h i = .ok (-1, s, a)) ∧
      (a.size = 0 ∨ (h.mem (.buf i)).length < a.size → readBuf f o s a h i = .ok (-1, h, a)) := by
  constructor
  · intro hc
    unfold writeBuf
    rw [if_neg]
    rintro ⟨_, _, h1, h2⟩
    omega
  · intro hc
    unfold readBuf
    rw [if_neg]
    rintro ⟨_, h1, h2⟩
    omega

example : clArg8.size < 9 ∧ (tightHost.mem (.buf 0)).length < clArg8.size := by decide

/-- **C94 (what was written can be read back), violated**: a buffer without room behind its content is written to a larger
argument, but cannot be read from it again. -/
theorem C94_small_violated : ∃ s' a', writeBuf toyFmt clFine clNormal clArg8 tightHost 0 = .ok (0, s', a') ∧
    readBuf toyFmt clFine s' a' tightHost 0 = .ok (-1, tightHost, a') := by
  have hx : HostImage ToyImg tightHost 0 [100, 3, 50] :=
    ⟨⟨by decide, 3, _, rfl, rfl⟩, by decide, rfl, [], rfl⟩
  obtain ⟨s', y, e, _⟩ := C94_write toy_images.1 clFine_works clNormal_remaps (clArg8_memory _) hx (by decide) (by decide)
  exact ⟨s', _, e, (C94_refused _ _ _ _ _ _).2 (.inr (by decide))⟩

/-! ## Remapping that fails -/

private theorem failed_eq (n : Bool) : ∃ r, failed n = .ok r ∧ (r.setWidth 32).toInt = -1 := by
  cases n
  · exact ⟨0xffffffff#64, by decide +kernel, by decide +kernel⟩
  · exact ⟨0x1ffffffff#64, by decide +kernel, by decide +kernel⟩

/-- With the kernel for debugging, a buffer that cannot be remapped is noticed: the code is -1, and the argument does not
refer to the buffer.  Its bytes are on the device. -/
theorem C94_debug {f : Fmt} {o : Cl} (ho : o.Works) {s : Sys} {x : Kernel} (hs : Ready s x) (hi : 0 < workItems x)
    {u v : Option ClVal} (hc : x.cl = [u, v, some (.buffer s.flagsId)]) {a : ClArg.Argument} {b : Nat} {d : Bytes}
    (ha : HasMemory s a b d) {h : Host} {i : Nat} {y z : Bytes} (h0 : 0 < y.length) (hsz : h.size i = y.length)
    (hm : h.mem (.buf i) = y ++ z) (hl : y.length ≤ a.size) (hf : f.rebase (o.addr b) (y ++ d.drop y.length) = none) :
    ∃ s', writeBuf f o s a h i = .ok (-1, s', a) ∧ s'.dev b = some (y ++ d.drop y.length) := by
  obtain ⟨am, ad, al⟩ := ha
  have rf : readFirst (h.mem (.buf i)) (h.size i) = .ok y := by
    unfold readFirst
    rw [hm, hsz, if_pos (by simp), List.take_left' rfl]
  have hdev : (sent s b y d).dev b = some (y ++ d.drop y.length) := by simp [sent]
  obtain ⟨r, hr, hr'⟩ := failed_eq (decide (f.base (y ++ d.drop y.length) ≠ o.addr b ∧ f.base (y ++ d.drop y.length) ≠ 0))
  unfold writeBuf
  rw [if_pos ⟨hs.node, hs.has, hsz ▸ h0, hsz ▸ hl⟩, rf]
  simp only [Res.ok_bind]
  rw [sendSteps_three hs hc ho.flagWrites ho.flagReads ho.writes ho.run hi am ad h0 (al ▸ hl)]
  unfold remapBuffer
  simp only [hdev, hf, if_true, hr, Res.ok_bind, hr']
  exact ⟨_, rfl, hdev⟩

/-- **C94 (a failure is noticed), violated**: without debugging, writing a buffer that cannot be remapped is a success, and
the argument refers to it; the bytes on the device have not been remapped. -/
theorem C94_unseen_violated {f : Fmt} {o : Cl} (ho : o.Works) {s : Sys} {x : Kernel} (hs : Ready s x) (hi : 0 < workItems x)
    (hn : x.numArgs = 2) {a : ClArg.Argument} {b : Nat} {d : Bytes}
    (ha : HasMemory s a b d) {h : Host} {i : Nat} {y z : Bytes} (h0 : 0 < y.length) (hsz : h.size i = y.length)
    (hm : h.mem (.buf i) = y ++ z) (hl : y.length ≤ a.size) (hf : f.rebase (o.addr b) (y ++ d.drop y.length) = none) :
    ∃ s', writeBuf f o s a h i = .ok (0, s', { a with buf := some i }) ∧ s'.dev b = some (y ++ d.drop y.length) := by
  obtain ⟨am, ad, al⟩ := ha
  have rf : readFirst (h.mem (.buf i)) (h.size i) = .ok y := by
    unfold readFirst
    rw [hm, hsz, if_pos (by simp), List.take_left' rfl]
  have hdev : (sent s b y d).dev b = some (y ++ d.drop y.length) := by simp [sent]
  unfold writeBuf
  rw [if_pos ⟨hs.node, hs.has, hsz ▸ h0, hsz ▸ hl⟩, rf]
  simp only [Res.ok_bind]
  rw [sendSteps_two hs hn ho.flagWrites ho.writes ho.run hi am ad h0 (al ▸ hl)]
  unfold remapBuffer
  simp only [hdev, hf, Bool.false_eq_true, if_false, Res.ok_bind, if_true]
  exact ⟨_, rfl, hdev⟩

example : ∃ s', writeBuf toyFmt clFine clDebug clArg8 tightHost 1 = .ok (-1, s', clArg8) := by
  obtain ⟨x, hs, hi, hc | ⟨u, v, hc⟩⟩ := clDebug_remaps
  · have e : some x.numArgs = some 3 := by
      have h : (clDebug.ctx.kernels[clDebug.ctx.remapKernel]?).map (·.numArgs) = some 3 := by decide +kernel
      rwa [hs.kernel] at h
    rw [hc] at e
    exact absurd e (by decide)
  · obtain ⟨s', e, _⟩ := C94_debug (f := toyFmt) clFine_works hs hi hc (clArg8_memory _) (h := tightHost) (i := 1)
      (y := [0, 3, 9]) (z := []) (by decide) rfl rfl (by decide) rfl
    exact ⟨s', e⟩

example : ∃ s', writeBuf toyFmt clFine clNormal clArg8 tightHost 1 = .ok (0, s', { clArg8 with buf := some 1 }) := by
  obtain ⟨s', e, _⟩ := C94_unseen_violated (f := toyFmt) clFine_works
    (x := ⟨"st_ManagedBuffer_remap_opencl", 0, 2, 0, 256, 32, 0, [⟨.none, none⟩, ⟨.value, none⟩], [none, some (.value 8)]⟩)
    (s := clNormal) ⟨by decide +kernel, by decide +kernel, rfl⟩ (by decide +kernel) rfl (clArg8_memory _)
    (h := tightHost) (i := 1) (y := [0, 3, 9]) (z := []) (by decide) rfl rfl (by decide) rfl
  exact ⟨s', e⟩

/-- **C94 (buffers that fit can be written), violated**: if the node was selected by its id in debug mode, the third
argument of the remapping kernel has never been set, and no buffer at all can be written; the code is -8. -/
theorem C94_by_id_violated (f : Fmt) {h : Host} {i : Nat} (h0 : 0 < h.size i) (h8 : h.size i ≤ 8)
    (hm : h.size i ≤ (h.mem (.buf i)).length) :
    ∃ s', writeBuf f clFine clDebugId clArg8 h i = .ok (-8, s', clArg8) := by
  have hs : Ready clDebugId ⟨"st_ManagedBuffer_remap_debug_opencl", 1, 3, 0, 256, 32, 0,
      [⟨.none, none⟩, ⟨.none, none⟩, ⟨.none, none⟩], [none, none, none]⟩ :=
    ⟨by decide +kernel, by decide +kernel, rfl⟩
  have hl : ((h.mem (.buf i)).take (h.size i)).length = h.size i := by
    rw [List.length_take]
    omega
  unfold writeBuf
  rw [if_pos ⟨hs.node, hs.has, h0, h8⟩]
  unfold readFirst
  rw [if_pos hm]
  simp only [Res.ok_bind]
  rw [sendSteps_unset (b := 3) (d := [1, 2, 3, 4, 5, 6, 7, 8]) hs rfl rfl rfl rfl (by decide +kernel) rfl rfl
    (by omega) (by rw [hl]; exact h8)]
  exact ⟨_, rfl⟩

example : 0 < toyHost.size 0 ∧ toyHost.size 0 ≤ 8 ∧ toyHost.size 0 ≤ (toyHost.mem (.buf 0)).length := by decide

end SixTrack

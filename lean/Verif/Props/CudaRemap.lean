import Verif.CudaRemap

/-!
# C105: remapping on the CUDA device reports what happened in the debug mode only, and asking overwrites the register
-/

namespace SixTrack
open Arg CudaRemap DebugReg

/-- everything that a remapping in the debug mode needs is there -/
structure DebugReady (s : Sys) : Prop where
  ready : s.ready = true
  debug : s.debug = true
  kernel : s.debugKernel = true
  hasReg : s.hasReg = true
  sends : s.sends = true
  receives : s.receives = true

/-- everything that asking needs is there -/
structure AskReady (s : Sys) : Prop where
  ready : s.ready = true
  hasReg : s.hasReg = true
  sends : s.sends = true
  receives : s.receives = true

/-- the argument refers to a buffer and has the memory `d` on the device -/
structure HoldsMem (a : Arg.Arg) (d : Bytes) : Prop where
  buf : a.c99.isSome = true
  has : a.has = true
  mem : a.dev = some d
  cap : 0 < a.cap

theorem HoldsMem.usable {a : Arg.Arg} {d : Bytes} (h : HoldsMem a d) : CudaRemap.usable a = true := by
  simp [CudaRemap.usable, h.buf, h.has, h.mem, h.cap]

/-- In the debug mode a remapping that can be done is done, with success, and leaves an empty register. -/
theorem C105_debug_success (f : Fmt) (s : Sys) (a : Arg.Arg) (d y : Bytes) (hs : DebugReady s) (ha : HoldsMem a d)
    (h : f.rebase s.addr d = some y) :
    remapArg f s a = .ok (0#32, { s with reg := 0#64, loc := 0#64 }, { a with dev := some y }) := by
  obtain ⟨h1, h2, h3, h4, h5, h6⟩ := hs
  have e0 : storeStatus 0#64 0#32 = .ok 0#64 := by decide
  have e1 : evaluate 0#64 = .ok 0#32 := by decide
  simp [remapArg, Sys.readyForRemap, ha.usable, ha.mem, h1, h2, h3, h4, h5, h6, remapDirect, remapDebug, Sys.setReg, debugRemap, h,
    e0, Sys.evaluate, Sys.fetchReg, e1, Res.ok_bind, Res.pure_eq]

/-- In the debug mode a remapping that cannot be done fails; the memory is as before and the register tells whether the buffer
still has to be remapped. -/
theorem C105_debug_failure (f : Fmt) (s : Sys) (a : Arg.Arg) (d : Bytes) (hs : DebugReady s) (ha : HoldsMem a d)
    (h : f.rebase s.addr d = none) :
    ∃ s', remapArg f s a = .ok (-1#32, s', a) ∧ s'.reg = s'.loc ∧
      s'.reg = (if f.base d ≠ s.addr ∧ f.base d ≠ 0 then 0x00000001ffffffff#64 else 0x00000000ffffffff#64) := by
  obtain ⟨h1, h2, h3, h4, h5, h6⟩ := hs
  have ea : ({ a with dev := some d } : Arg.Arg) = a := by rw [← ha.mem]
  have e0 : storeStatus (raiseNext 0#64) (-1#32) = .ok 0x00000001ffffffff#64 := by decide
  have e1 : storeStatus 0#64 (-1#32) = .ok 0x00000000ffffffff#64 := by decide
  have e2 : evaluate 0x00000001ffffffff#64 = .ok (-1#32) := by decide
  have e3 : evaluate 0x00000000ffffffff#64 = .ok (-1#32) := by decide
  by_cases hn : f.base d ≠ s.addr ∧ f.base d ≠ 0
  · have hn' : needs f s.addr d = true := by simp [needs, hn]
    refine ⟨{ s with reg := 0x00000001ffffffff#64, loc := 0x00000001ffffffff#64 }, ?_, rfl, by rw [if_pos hn]⟩
    simp only [remapArg, Sys.readyForRemap, ha.usable, ha.mem, h1, h2, h3, h4, h5, h6, remapDirect, remapDebug, Sys.setReg,
      debugRemap, h, hn', e0, Sys.evaluate, Sys.fetchReg, e2, Res.ok_bind, Res.pure_eq, if_true, and_self, Bool.not_true,
      Bool.false_and, Bool.false_or, Bool.and_self, ea, show (0 : Nat) < 8 by decide]
  · have hn' : needs f s.addr d = false := by simp only [needs, decide_eq_false_iff_not]; exact hn
    refine ⟨{ s with reg := 0x00000000ffffffff#64, loc := 0x00000000ffffffff#64 }, ?_, rfl, by rw [if_neg hn]⟩
    simp only [remapArg, Sys.readyForRemap, ha.usable, ha.mem, h1, h2, h3, h4, h5, h6, remapDirect, remapDebug, Sys.setReg,
      debugRemap, h, hn', e1, Sys.evaluate, Sys.fetchReg, e3, Res.ok_bind, Res.pure_eq, if_true, and_self, Bool.not_true,
      Bool.false_and, Bool.false_or, Bool.and_self, ea, show (0 : Nat) < 8 by decide, Bool.false_eq_true, if_false]

/-- Outside the debug mode the memory is remapped if that is possible; the status is a success and the register is not touched. -/
theorem C105_plain (f : Fmt) (s : Sys) (a : Arg.Arg) (d : Bytes) (h1 : s.ready = true) (h2 : s.debug = false)
    (h3 : s.plainKernel = true) (ha : HoldsMem a d) :
    remapArg f s a = .ok (0#32, s, { a with dev := some (match f.rebase s.addr d with | some y => y | none => d) }) := by
  simp only [remapArg, Sys.readyForRemap, ha.usable, ha.mem, h1, h2, h3, remapDirect, plainRemap, Res.pure_eq]
  cases f.rebase s.addr d <;> simp

/-- If it cannot run kernels, lacks the kernel of its mode, or the argument has no buffer or no memory, remapping fails and changes
nothing. -/
theorem C105_refused (f : Fmt) (s : Sys) (a : Arg.Arg)
    (h : s.ready = false ∨ (s.debug = true ∧ s.debugKernel = false) ∨ (s.debug = false ∧ s.plainKernel = false) ∨
      a.c99 = none ∨ a.has = false ∨ a.dev = none ∨ a.cap = 0) :
    remapArg f s a = .ok (-1#32, s, a) := by
  unfold remapArg
  rw [if_neg]
  rintro ⟨hr, hu⟩
  simp only [Sys.readyForRemap, usable, Bool.and_eq_true, Bool.or_eq_true, Bool.not_eq_true', decide_eq_true_eq] at hr hu
  obtain ⟨hr1, hr2⟩ := hr
  obtain ⟨⟨⟨u1, u2⟩, u3⟩, u4⟩ := hu
  rcases h with h | ⟨h, h'⟩ | ⟨h, h'⟩ | h | h | h | h
  · simp [h] at hr1
  · simp [h, h'] at hr2
  · simp [h, h'] at hr2
  · simp [h] at u1
  · simp [h] at u2
  · simp [h] at u3
  · omega

/-- In the debug mode without a register, or with one that cannot be written, remapping fails and changes nothing. -/
theorem C105_no_register (f : Fmt) (s : Sys) (d : Bytes) (slot : Nat) (h2 : s.debug = true)
    (h : s.hasReg = false ∨ s.sends = false) : remapDirect f s (some d) slot = .ok (-1#32, s, some d) := by
  unfold remapDirect remapDebug Sys.setReg
  rcases h with h | h
  · simp [h, h2, Res.ok_bind, Res.pure_eq]
  · by_cases hr : s.hasReg = true <;> simp [h, h2, hr, Res.ok_bind, Res.pure_eq]

/-- No memory and slots of size 0 are refused. -/
theorem C105_direct_refused (f : Fmt) (s : Sys) (d : Option Bytes) (slot : Nat) (h : d = none ∨ slot = 0 ∨ s.ready = false) :
    remapDirect f s d slot = .ok (-1#32, s, d) ∧ askDirect f s d slot = (none, s) := by
  cases d with
  | none => exact ⟨rfl, rfl⟩
  | some d =>
    have hn : ¬ (s.ready = true ∧ 0 < slot) := by
      rintro ⟨hr, hs⟩
      rcases h with h | h | h
      · cases h
      · omega
      · simp [h] at hr
    simp only [remapDirect, askDirect, if_neg hn, and_self]

/-- Asking tells whether the header has the address of the memory, or none. -/
theorem C105_asked (f : Fmt) (s : Sys) (a : Arg.Arg) (d : Bytes) (hs : AskReady s) (ha : HoldsMem a d) :
    (askArg f s a).1 = some (decide (f.base d = s.addr ∨ f.base d = 0)) := by
  obtain ⟨h1, h4, h5, h6⟩ := hs
  by_cases hn : f.base d ≠ s.addr ∧ f.base d ≠ 0
  · have hn' : needs f s.addr d = true := by simp [needs, hn]
    simp [askArg, ha.usable, ha.mem, h1, h4, h5, h6, askDirect, askDevice, hn', hn.1, hn.2]
  · have hn' : needs f s.addr d = false := by simp only [needs, decide_eq_false_iff_not]; exact hn
    have ho : f.base d = s.addr ∨ f.base d = 0 := by
      by_cases h : f.base d = s.addr
      · exact .inl h
      · exact .inr (Decidable.byContradiction fun h' => hn ⟨h, h'⟩)
    simp [askArg, ha.usable, ha.mem, h1, h4, h5, h6, askDirect, askDevice, hn', ho]

/-- There is an answer exactly if kernels can run, the register is there and can be written and read, and the argument has memory;
else there is an exception. -/
theorem C105_throws (f : Fmt) (s : Sys) (a : Arg.Arg) :
    (askArg f s a).1 ≠ none ↔ AskReady s ∧ ∃ d, HoldsMem a d := by
  constructor
  · intro h
    by_cases hu : s.ready = true ∧ usable a = true
    · rw [askArg, if_pos hu] at h
      have hu2 := hu.2
      simp only [usable, Bool.and_eq_true, decide_eq_true_eq] at hu2
      obtain ⟨⟨⟨u1, u2⟩, u3⟩, u4⟩ := hu2
      obtain ⟨d, hd⟩ := Option.isSome_iff_exists.mp u3
      refine ⟨?_, d, u1, u2, hd, u4⟩
      rw [hd] at h
      cases h4 : s.hasReg <;> cases h5 : s.sends <;> cases h6 : s.receives <;>
        simp [askDirect, askDevice, hu.1, h4, h5, h6] at h
      exact ⟨hu.1, h4, h5, h6⟩
    · rw [askArg, if_neg hu] at h
      exact absurd rfl h
  · rintro ⟨hs, d, ha⟩
    rw [C105_asked f s a d hs ha]
    simp

/-- After a successful remapping in the debug mode the answer is yes, if remapping leaves the new address in the header. -/
theorem C105_remapped (f : Fmt) (s : Sys) (a : Arg.Arg) (d y : Bytes) (hs : DebugReady s) (ha : HoldsMem a d)
    (h : f.rebase s.addr d = some y) (hy : f.base y = s.addr) :
    ∃ s' a', remapArg f s a = .ok (0#32, s', a') ∧ (askArg f s' a').1 = some true := by
  refine ⟨_, _, C105_debug_success f s a d y hs ha h, ?_⟩
  have := C105_asked f { s with reg := 0#64, loc := 0#64 } { a with dev := some y } y
    ⟨hs.ready, hs.hasReg, hs.sends, hs.receives⟩ ⟨ha.buf, ha.has, rfl, ha.cap⟩
  rw [this]
  simp [hy]

/-- Asking leaves its answer in the register of the device: the value that is read from it afterwards is 1 or 2, not what was there. -/
theorem C105_register_left (f : Fmt) (s : Sys) (a : Arg.Arg) (d : Bytes) (hs : AskReady s) (ha : HoldsMem a d) :
    (askArg f s a).2.loc = s.loc ∧
      (askArg f s a).2.debugRegister.1 = (if f.base d ≠ s.addr ∧ f.base d ≠ 0 then 1#64 else 2#64) := by
  obtain ⟨h1, h4, h5, h6⟩ := hs
  by_cases hn : f.base d ≠ s.addr ∧ f.base d ≠ 0
  · have hn' : needs f s.addr d = true := by simp [needs, hn]
    rw [if_pos hn]
    simp [askArg, ha.usable, ha.mem, h1, h4, h5, h6, askDirect, askDevice, hn', Sys.debugRegister, Sys.fetchReg]
  · have hn' : needs f s.addr d = false := by simp only [needs, decide_eq_false_iff_not]; exact hn
    rw [if_neg hn]
    simp [askArg, ha.usable, ha.mem, h1, h4, h5, h6, askDirect, askDevice, hn', Sys.debugRegister, Sys.fetchReg]

/-- What is written to the register is in both registers and is read afterwards. -/
theorem C105_register_kept (s : Sys) (v : BitVec 64) (h4 : s.hasReg = true) (h5 : s.sends = true) (h6 : s.receives = true) :
    (s.setReg v).1 = true ∧ (s.setReg v).2.reg = v ∧ (s.setReg v).2.loc = v ∧ (s.setReg v).2.debugRegister.1 = v := by
  simp [Sys.setReg, Sys.debugRegister, Sys.fetchReg, h4, h5, h6]

/-- Reading the register copies it to the host; if that fails, the value read has all flags and no status, and nothing changes. -/
theorem C105_register_read (s : Sys) :
    s.debugRegister = if s.hasReg = true ∧ s.receives = true then (s.reg, { s with loc := s.reg })
      else (0xffffffff00000000#64, s) := by
  unfold Sys.debugRegister Sys.fetchReg
  by_cases h : s.hasReg = true ∧ s.receives = true
  · simp [h]
  · rw [if_neg h, if_neg h]
    rfl

/-- A register that is not there or that cannot be written stays as it is, on the device and on the host. -/
theorem C105_register_refused (s : Sys) (v : BitVec 64) (h : s.hasReg = false ∨ s.sends = false) : s.setReg v = (false, s) := by
  unfold Sys.setReg
  rcases h with h | h <;> simp [h]

/-- An answer that cannot be read is no. -/
theorem C105_unread_answer (f : Fmt) (s : Sys) (d : Bytes) (h : s.receives = false) : (askDevice f s d).1 = false := by
  unfold askDevice
  by_cases h' : s.hasReg = true ∧ s.sends = true
  · simp [h, h']
  · rw [if_neg h']

namespace C105ex

/-- buffers whose first byte is the address and which can be moved unless they are longer than three bytes -/
def fmt : Fmt where
  base d := (d.headD 0).toNat
  len d := d.length
  rebase p d := if d.length ≤ 3 then some (UInt8.ofNat p :: d.drop 1) else none

def sys : Sys := ⟨true, true, true, true, true, true, true, 7, 0x500000000#64, 3#64⟩
def arg : Arg.Arg := ⟨none, none, some 0, none, 3, 3, true, some [5, 1, 2]⟩
def long : Arg.Arg := ⟨none, none, some 0, none, 4, 4, true, some [5, 1, 2, 3]⟩

end C105ex
open C105ex

/-- Outside the debug mode a remapping that fails is reported as a success, and the answer afterwards is no. -/
theorem C105_plain_reports_violated :
    ∃ (f : Fmt) (s : Sys) (a : Arg.Arg) (s' : Sys) (a' : Arg.Arg), remapArg f s a = .ok (0#32, s', a') ∧
      f.rebase s.addr [5, 1, 2, 3] = none ∧ a.dev = some [5, 1, 2, 3] ∧ a'.dev = a.dev ∧ (askArg f s' a').1 = some false :=
  ⟨fmt, { sys with debug := false }, long, _, _,
    C105_plain fmt _ long [5, 1, 2, 3] rfl rfl rfl ⟨rfl, rfl, rfl, by decide⟩, by decide, rfl, rfl, by decide⟩

/-- If the register cannot be read, remapping fails in the debug mode although the memory was remapped. -/
theorem C105_unread_violated :
    ∃ (f : Fmt) (s : Sys) (d y : Bytes) (s' : Sys), d ≠ y ∧ f.rebase s.addr d = some y ∧
      remapDirect f s (some d) 8 = .ok (-1#32, s', some y) :=
  ⟨fmt, { sys with receives := false }, [5, 1, 2], [7, 1, 2], { sys with receives := false, reg := 0#64, loc := 0#64 },
    by decide, by decide, rfl⟩

/-- Asking after a successful remapping turns the register's status into a failure that no kernel had. -/
theorem C105_register_violated :
    ∃ (f : Fmt) (s s' : Sys) (a a' : Arg.Arg), remapArg f s a = .ok (0#32, s', a') ∧ s'.debugRegister.1 = 0#64 ∧
      (askArg f s' a').1 = some true ∧ (askArg f s' a').2.debugRegister.1 = 2#64 ∧
      getStatus (askArg f s' a').2.debugRegister.1 = .ok 2#32 :=
  ⟨fmt, sys, _, arg, _, C105_debug_success fmt sys arg [5, 1, 2] [7, 1, 2] ⟨rfl, rfl, rfl, rfl, rfl, rfl⟩
    ⟨rfl, rfl, rfl, by decide⟩ (by decide), by decide, by decide, by decide, by decide⟩

/-- C105_debug_success, C105_remapped, C105_asked and C105_register_left have a case -/
example : DebugReady sys ∧ AskReady sys ∧ HoldsMem arg [5, 1, 2] ∧ fmt.rebase sys.addr [5, 1, 2] = some [7, 1, 2] ∧
    fmt.base [7, 1, 2] = sys.addr ∧ (askArg fmt sys arg).1 = some false :=
  ⟨⟨rfl, rfl, rfl, rfl, rfl, rfl⟩, ⟨rfl, rfl, rfl, rfl⟩, ⟨rfl, rfl, rfl, by decide⟩, by decide, by decide, by decide⟩

/-- C105_register_kept, C105_register_read, C105_register_refused and C105_unread_answer have cases -/
example : (sys.setReg 9#64).2.debugRegister.1 = 9#64 ∧ sys.debugRegister.1 = 0x500000000#64 ∧
    ({ sys with receives := false }).debugRegister.1 = 0xffffffff00000000#64 ∧ (({ sys with hasReg := false }).setReg 9#64).1 = false ∧
    (askDevice fmt { sys with receives := false } [7, 1, 2]).1 = false := by decide

/-- C105_debug_failure has a case -/
example : HoldsMem long [5, 1, 2, 3] ∧ fmt.rebase sys.addr [5, 1, 2, 3] = none ∧ fmt.base [5, 1, 2, 3] ≠ sys.addr :=
  ⟨⟨rfl, rfl, rfl, by decide⟩, by decide, by decide⟩

/-- C105_refused, C105_no_register, C105_direct_refused and C105_throws have cases -/
example : remapArg fmt { sys with debugKernel := false } arg = .ok (-1#32, { sys with debugKernel := false }, arg) ∧
    remapDirect fmt { sys with sends := false } (some [5, 1, 2]) 8 = .ok (-1#32, { sys with sends := false }, some [5, 1, 2]) ∧
    (askArg fmt { sys with receives := false } arg).1 = none :=
  ⟨rfl, rfl, by decide⟩

end SixTrack

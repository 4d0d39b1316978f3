import Verif.Basic

/-!
# Debug register

Model of `/repo/sixtracklib/common/control/debug_register.h` (lines 59-170), with the constants of
`/repo/sixtracklib/common/control/definitions.h` (lines 104-130), and of the debug register
handling of `ArchDebugBase` in `/repo/sixtracklib/common/control/arch_base.cpp` (lines 150-245).

`arch_debugging_t` is an unsigned 64 bit integer (`BitVec 64`), `arch_status_t` a signed 32 bit
integer (`BitVec 32`, read with `toInt`).
-/

namespace SixTrack.DebugReg

/-- `SIXTRL_ARCH_DEBUGGING_STATUS_BITMASK`, definitions.h:116-118 -/
def STATUS_BITMASK : BitVec 64 := 0x00000000ffffffff#64
/-- `SIXTRL_ARCH_DEBUGGING_STATUS_INV_BITMASK`, definitions.h:120-122 -/
def STATUS_INV_BITMASK : BitVec 64 := 0xffffffff00000000#64
/-- `SIXTRL_ARCH_DEBUGGING_MIN_FLAG`, definitions.h:108-110 -/
def MIN_FLAG : BitVec 64 := 0x0000000100000000#64
/-- `SIXTRL_ARCH_DEBUGGING_MAX_FLAG`, definitions.h:112-114 -/
def MAX_FLAG : BitVec 64 := 0x8000000000000000#64
/-- `SIXTRL_ARCH_DEBUGGING_STATUS_MAX_FLAG`, definitions.h:124-126 -/
def STATUS_MAX_FLAG : BitVec 64 := 0x80000000#64

/-- `DebugReg_store_arch_status`, debug_register.h:59-80.  Negating the smallest 32 bit status
overflows and is undefined. -/
def storeStatus (reg : BitVec 64) (status : BitVec 32) : Res (BitVec 64) :=
  if 0 ≤ status.toInt then
    .ok ((reg &&& STATUS_INV_BITMASK) ||| status.signExtend 64)
  else if status = 0x80000000#32 then
    .ub
  else
    let temp : BitVec 32 := -status
    let flags : BitVec 64 := (~~~temp).setWidth 64 + 1#64
    .ok ((reg &&& STATUS_INV_BITMASK) ||| flags)

/-- `DebugReg_get_stored_arch_status`, debug_register.h:82-108.  The register pattern
`0x80000000` would need the negation of the smallest 32 bit integer and is undefined. -/
def getStatus (reg : BitVec 64) : Res (BitVec 32) :=
  let flags := reg &&& STATUS_BITMASK
  if STATUS_MAX_FLAG ≤ flags then
    let temp : BitVec 32 := (STATUS_BITMASK &&& ~~~(flags - 1#64)).setWidth 32
    if temp = 0x80000000#32 then .ub else .ok (-temp)
  else
    .ok ((STATUS_BITMASK &&& flags).setWidth 32)

/-- `DebugReg_reset_arch_status`, debug_register.h:110-114 -/
def resetStatus (reg : BitVec 64) : BitVec 64 := reg &&& ~~~STATUS_BITMASK

/-- `DebugReg_has_any_flags_set`, debug_register.h:116-120 -/
def hasAnyFlags (reg : BitVec 64) : Bool := reg != 0#64

/-- `DebugReg_has_status_flags_set`, debug_register.h:122-127 -/
def hasStatusFlags (reg : BitVec 64) : Bool := (reg &&& STATUS_BITMASK) != 0#64

/-- one step `reg |= reg >> k`, debug_register.h:137-142 -/
def smear (reg : BitVec 64) (k : Nat) : BitVec 64 := reg ||| (reg >>> k)

/-- `DebugReg_get_highest_set_flag`, debug_register.h:131-145 -/
def highestFlag (reg : BitVec 64) : BitVec 64 :=
  let r := smear (smear (smear (smear (smear (smear reg 1) 2) 4) 8) 16) 32
  r ^^^ (r >>> 1)

/-- `DebugReg_get_next_error_flag`, debug_register.h:147-163 -/
def nextErrorFlag (reg : BitVec 64) : BitVec 64 :=
  let h := highestFlag reg
  if h < MIN_FLAG then MIN_FLAG
  else if h < MAX_FLAG then h <<< 1
  else 0#64

/-- `DebugReg_raise_next_error_flag`, debug_register.h:165-170 -/
def raiseNext (reg : BitVec 64) : BitVec 64 := reg ||| nextErrorFlag reg

/-- `ArchDebugBase::evaluateDebugRegisterAfterUse`, arch_base.cpp:189-210, for the base class'
`doFetchDebugRegister` (arch_base.cpp:228-244), which always succeeds.  `ARCH_STATUS_SUCCESS` is 0
and `ARCH_STATUS_GENERAL_FAILURE` is -1. -/
def evaluate (reg : BitVec 64) : Res (BitVec 32) :=
  if hasStatusFlags reg then getStatus reg
  else if hasAnyFlags reg then .ok (-1#32)
  else .ok 0#32

end SixTrack.DebugReg

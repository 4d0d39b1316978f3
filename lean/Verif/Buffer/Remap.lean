import Verif.Buffer.Managed

/-!
# Remapping a managed buffer

Model of `/repo/sixtracklib/common/buffer/managed_buffer_remap.h`.

Offsets between addresses are `int64_t` in the code and only ever added to
unsigned addresses.  The model keeps an offset as its residue modulo 2^64; the one
case in which computing it is undefined (negating the smallest integer) is `ub`.
-/

namespace SixTrack.Buf

/-- `NS(ManagedBuffer_perform_addr_shift)` (managed_buffer_remap.h:123-135). -/
def shift (addr off : Nat) : Nat := (addr + off) % W

/-- The offset from address `a` to address `b`, as in
`NS(ManagedBuffer_get_addr_offset)` (managed_buffer_remap.h:164-166). -/
def addrDiff (a b : Nat) : Res Nat :=
  if a = b + W / 2 then .ub else .ok ((b + (W - a % W)) % W)

/-- `NS(ManagedBuffer_get_addr_offset)` (managed_buffer_remap.h:139-176); `none` is
the status -1. -/
def addrOffset (m : Mem) (B slot : Nat) : Res (Option Nat) :=
  if B ≠ 0 ∧ 0 < slot ∧ B % slot = 0 then do
    let stored ← m.load64 B
    let d ← addrDiff stored B
    return some d
  else .ok none

/-- `NS(ManagedBuffer_remap_header)` (managed_buffer_remap.h:180-300), called with
five times the same offset. -/
def remapHeader (m : Mem) (B off slot : Nat) : Res (Mem × Bool) :=
  if B ≠ 0 ∧ 0 < slot then do
    let o ← addrOffset m B slot
    match o with
    | none => return (m, false)
    | some d =>
      if d ≠ off then return (m, true)
      else if d ≠ 0 then do
        let h0 ← m.load64 B
        if shift h0 d ≠ 0 ∧ shift h0 d = B then do
          let h3 ← m.load64 (B + 24)
          let h4 ← m.load64 (B + 32)
          let h5 ← m.load64 (B + 40)
          let h6 ← m.load64 (B + 48)
          if shift h3 off ≠ 0 ∧ shift h4 off ≠ 0 ∧ shift h5 off ≠ 0 ∧ shift h6 off ≠ 0 then do
            let m ← m.store64 B (shift h0 d)
            let m ← m.store64 (B + 24) (shift h3 off)
            let m ← m.store64 (B + 32) (shift h4 off)
            let m ← m.store64 (B + 40) (shift h5 off)
            let m ← m.store64 (B + 48) (shift h6 off)
            return (m, true)
          else return (m, false)
        else return (m, true)
      else return (m, true)
  else .ok (m, false)

/-- `NS(ManagedBuffer_remap_section_slots)` (managed_buffer_remap.h:304-341); it
changes nothing. -/
def remapSlots (m : Mem) (B slot : Nat) : Res Bool :=
  if B ≠ 0 ∧ slot ≠ 0 ∧ B % slot = 0 then do
    let p ← sectionPtr m B 3 slot
    if p ≠ 0 then do
      let cap ← m.load64 p
      let n ← m.load64 (p + 8)
      return decide (n * entitySize 3 slot ≤ cap)
    else return false
  else .ok false

/-- The loop over the objects (managed_buffer_remap.h:414-447) from the record at
`it` on; `lo` and `hi` are the ends of the used slots.  The smallest address of the next object is computed
modulo 2^64. -/
def remapObjectsLoop (m : Mem) (lo hi off slot minValid it : Nat) : Nat → Res (Mem × Bool)
  | 0 => .ok (m, true)
  | n + 1 => do
    let size ← m.load64 (it + 16)
    let a ← m.load64 it
    let r := shift a off
    if r < lo ∨ hi < r ∨ r < minValid then return (m, false)
    else do
      let m ← m.store64 it r
      remapObjectsLoop m lo hi off slot ((r + roundUp size slot) % W) (it + 24) n

/-- `NS(ManagedBuffer_remap_section_objects)` (managed_buffer_remap.h:345-452). -/
def remapObjects (m : Mem) (B off slot : Nat) : Res (Mem × Bool) :=
  if B ≠ 0 ∧ slot ≠ 0 then do
    let p ← sectionPtr m B 4 slot
    let mx ← maxSize m B 4 slot
    let sz ← sectionSize m B 4 slot
    let d ← sectionData m B 4 slot
    let n ← numEntities m B 4 slot
    if p ≠ 0 ∧ sz ≤ mx then
      if 0 < n then do
        let lo ← sectionData m B 3 slot
        let hi ← sectionEnd m B 3 slot
        remapObjectsLoop m lo hi off slot lo d n
      else return (m, true)
    else return (m, false)
  else .ok (m, false)

/-- The loop over the data pointers (managed_buffer_remap.h:516-548). -/
def remapDataptrsLoop (m : Mem) (lo hi off it : Nat) : Nat → Res (Mem × Bool)
  | 0 => .ok (m, true)
  | n + 1 => do
    let a ← m.load64 it
    let p := shift a off
    let t ← if p ≠ 0 then do
        let v ← m.load64 p
        pure (shift v off)
      else .ok 0
    if p ≠ 0 ∧ t ≠ 0 ∧ lo ≤ p ∧ p < hi ∧ lo ≤ t ∧ t < hi then do
      let m ← m.store64 p t
      let m ← m.store64 it p
      remapDataptrsLoop m lo hi off (it + 8) n
    else return (m, false)

/-- `NS(ManagedBuffer_remap_section_dataptrs)` (managed_buffer_remap.h:456-553). -/
def remapDataptrs (m : Mem) (B off slot : Nat) : Res (Mem × Bool) :=
  if B ≠ 0 ∧ slot ≠ 0 then do
    let d ← sectionData m B 5 slot
    let n ← numEntities m B 5 slot
    let sz ← sectionSize m B 5 slot
    let mx ← maxSize m B 5 slot
    if d ≠ 0 ∧ sz ≤ mx then
      if 0 < n then do
        let lo ← sectionData m B 3 slot
        let hi ← sectionEnd m B 3 slot
        remapDataptrsLoop m lo hi off d n
      else return (m, true)
    else return (m, false)
  else .ok (m, false)

/-- The loop over the garbage ranges (managed_buffer_remap.h:616-635). -/
def remapGarbageLoop (m : Mem) (lo hi off it : Nat) : Nat → Res (Mem × Bool)
  | 0 => .ok (m, true)
  | n + 1 => do
    let a ← m.load64 it
    let r := shift a off
    if lo ≤ r ∧ r < hi then do
      let m ← m.store64 it r
      remapGarbageLoop m lo hi off (it + 16) n
    else return (m, false)

/-- `NS(ManagedBuffer_remap_section_garbage)` (managed_buffer_remap.h:557-640). -/
def remapGarbage (m : Mem) (B off slot : Nat) : Res (Mem × Bool) :=
  if B ≠ 0 ∧ slot ≠ 0 ∧ B % slot = 0 then do
    let d ← sectionData m B 6 slot
    let n ← numEntities m B 6 slot
    let sz ← sectionSize m B 6 slot
    let mx ← maxSize m B 6 slot
    if d ≠ 0 ∧ sz ≤ mx then
      if 0 < n then do
        let lo ← sectionData m B 3 slot
        let hi ← sectionEnd m B 3 slot
        remapGarbageLoop m lo hi off d n
      else return (m, true)
    else return (m, false)
  else .ok (m, false)

/-- `NS(ManagedBuffer_remap)` (managed_buffer_remap.h:644-681): every step is
executed, whatever the previous ones returned. -/
def remap (m : Mem) (B slot : Nat) : Res (Mem × Bool) := do
  let o ← addrOffset m B slot
  match o with
  | none => return (m, false)
  | some off =>
    if off ≠ 0 then do
      let (m, s0) ← remapHeader m B off slot
      let s1 ← remapSlots m B slot
      let (m, s2) ← remapObjects m B off slot
      let (m, s3) ← remapDataptrs m B off slot
      let (m, s4) ← remapGarbage m B off slot
      return (m, s0 && s1 && s2 && s3 && s4)
    else return (m, true)

/-! ## Applying an offset -/

/-- The loop over the garbage ranges (managed_buffer_remap.h:738-756). -/
def applyGarbageLoop (m : Mem) (off it : Nat) : Nat → Res (Mem × Bool)
  | 0 => .ok (m, true)
  | n + 1 => do
    let a ← m.load64 it
    if shift a off ≠ 0 then do
      let m ← m.store64 it (shift a off)
      applyGarbageLoop m off (it + 16) n
    else return (m, false)

/-- The loop over the data pointers (managed_buffer_remap.h:769-793). -/
def applyDataptrsLoop (m : Mem) (off it : Nat) : Nat → Res (Mem × Bool)
  | 0 => .ok (m, true)
  | n + 1 => do
    let p ← m.load64 it
    let v ← m.load64 p
    if shift v off ≠ 0 ∧ shift p off ≠ 0 then do
      let m ← m.store64 p (shift v off)
      let m ← m.store64 it (shift p off)
      applyDataptrsLoop m off (it + 8) n
    else return (m, false)

/-- The loop over the objects (managed_buffer_remap.h:806-825). -/
def applyObjectsLoop (m : Mem) (off it : Nat) : Nat → Res (Mem × Bool)
  | 0 => .ok (m, true)
  | n + 1 => do
    let a ← m.load64 it
    if shift a off ≠ 0 then do
      let m ← m.store64 it (shift a off)
      applyObjectsLoop m off (it + 24) n
    else return (m, false)

/-- The shift of the header (managed_buffer_remap.h:828-868). -/
def applyHeader (m : Mem) (B off : Nat) : Res (Mem × Bool) := do
  let h0 ← m.load64 B
  let h3 ← m.load64 (B + 24)
  let h4 ← m.load64 (B + 32)
  let h5 ← m.load64 (B + 40)
  let h6 ← m.load64 (B + 48)
  if shift h0 off ≠ 0 ∧ shift h3 off ≠ 0 ∧ shift h4 off ≠ 0 ∧ shift h5 off ≠ 0 ∧
      shift h6 off ≠ 0 then do
    let m ← m.store64 B (shift h0 off)
    let m ← m.store64 (B + 24) (shift h3 off)
    let m ← m.store64 (B + 32) (shift h4 off)
    let m ← m.store64 (B + 40) (shift h5 off)
    let m ← m.store64 (B + 48) (shift h6 off)
    return (m, true)
  else return (m, false)

/-- `NS(ManagedBuffer_apply_addr_offset)` (managed_buffer_remap.h:683-877).  The
garbage ranges are looked for at the begin of their section, not after its header. -/
def applyAddrOffset (m : Mem) (B off slot : Nat) : Res (Mem × Bool) :=
  if B ≠ 0 ∧ slot ≠ 0 ∧ B % slot = 0 then do
    let nr ← needsRemapping m B slot
    if nr then return (m, false)
    else if off ≠ 0 then do
      let nO ← numEntities m B 4 slot
      let nD ← numEntities m B 5 slot
      let nG ← numEntities m B 6 slot
      let (m, s) ← do
        let p ← sectionPtr m B 6 slot
        applyGarbageLoop m off p nG
      let (m, s) ← if s then do
          let p ← sectionData m B 5 slot
          applyDataptrsLoop m off p nD
        else .ok (m, s)
      let (m, s) ← if s then do
          let p ← sectionData m B 4 slot
          applyObjectsLoop m off p nO
        else .ok (m, s)
      if s then applyHeader m B off else return (m, false)
    else return (m, true)
  else .ok (m, false)

end SixTrack.Buf

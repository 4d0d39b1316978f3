import Verif.Basic

/-!
# Kernel configurations

Model of `/repo/sixtracklib/common/control/kernel_config_base.cpp` (lines
174-306, 416-650, 784-839).  The four arrays have room for three entries
(`MAX_WORK_ITEMS_DIM = MAX_WORK_GROUPS_DIM = 3`, kernel_config_base.hpp:45-46);
an access behind them is undefined.  The setters for work items and for work
group sizes are the same code with other members (lines 240-305 and 456-531).
-/

namespace SixTrack.KConf

/-- One of the arrays `size_type m_...[ 3 ]`. -/
structure Vec3 where
  a : Nat
  b : Nat
  c : Nat
  deriving DecidableEq, Repr

def Vec3.get (v : Vec3) (i : Nat) : Res Nat :=
  match i with
  | 0 => .ok v.a
  | 1 => .ok v.b
  | 2 => .ok v.c
  | _ => .ub

def Vec3.set (v : Vec3) (i x : Nat) : Res Vec3 :=
  match i with
  | 0 => .ok { v with a := x }
  | 1 => .ok { v with b := x }
  | 2 => .ok { v with c := x }
  | _ => .ub

/-- Sizes with their dimension: `m_work_items`, `m_work_items_dim` or
`m_work_groups`, `m_work_groups_dim`. -/
structure Sizes where
  v : Vec3
  dim : Nat
  deriving DecidableEq, Repr

/-- `KernelConfigBase::doResetBaseImpl` (kernel_config_base.cpp:784-839) for one
of the arrays. -/
def reset (dim : Nat) : Sizes := ⟨⟨0, 0, 0⟩, if 0 < dim ∧ dim ≤ 3 then dim else 0⟩

/-- `numWorkItems( index )` (kernel_config_base.cpp:174-179), `workGroupSize(
index )` (416-421). -/
def Sizes.read (s : Sizes) (i : Nat) : Res Nat := if i < s.dim then s.v.get i else .ok 0

/-- `setNumWorkItems( a )` (kernel_config_base.cpp:240-253), `setWorkGroupSizes(
a )` (456-469).  The flag is `SUCCESS`. -/
def Sizes.set1 (s : Sizes) (a : Nat) : Sizes × Bool :=
  if s.dim = 1 ∧ 0 < a then ({ s with v := { s.v with a := a } }, true) else (s, false)

/-- `setNumWorkItems( a, b )` (kernel_config_base.cpp:255-270),
`setWorkGroupSizes( a, b )` (471-486). -/
def Sizes.set2 (s : Sizes) (a b : Nat) : Sizes × Bool :=
  if s.dim = 1 ∧ 0 < a ∧ 0 < b then ({ s with v := { s.v with a := a, b := b } }, true)
  else (s, false)

/-- `setNumWorkItems( a, b, c )` (kernel_config_base.cpp:272-291),
`setWorkGroupSizes( a, b, c )` (488-507). -/
def Sizes.set3 (s : Sizes) (a b c : Nat) : Sizes × Bool :=
  if s.dim = 1 ∧ 0 < a ∧ 0 < b ∧ 0 < c then ({ s with v := ⟨a, b, c⟩ }, true) else (s, false)

/-- The loop of the array overload (kernel_config_base.cpp:301-308): array and
`total_num`, modulo 2⁶⁴. -/
def setLoop (xs : List Nat) (i : Nat) (v : Vec3) (total : Nat) : Res (Vec3 × Nat) :=
  match xs with
  | [] => .ok (v, total)
  | x :: rest => do
    let v' ← v.set i x
    setLoop rest (i + 1) v' ((total * x) % 2 ^ 64)

/-- `setNumWorkItems( dim, ptr )` (kernel_config_base.cpp:293-312),
`setWorkGroupSizes( dim, ptr )` (509-531), `ptr` pointing to `xs`, `dim` its
length.  `total_num > 0` is returned as the status, and 0 is `SUCCESS`. -/
def Sizes.setArray (s : Sizes) (xs : List Nat) : Res (Sizes × Bool) :=
  if s.dim = xs.length then do
    let (v, total) ← setLoop xs 0 s.v 0
    .ok ({ s with v := v }, decide ((if total > 0 then 1 else 0) = 0))
  else .ok (s, false)

/-- `totalNumWorkItems` (kernel_config_base.cpp:190-204). -/
def totalLoop (v : Vec3) (dim : Nat) (i total : Nat) : Res Nat :=
  if i < dim then do
    let x ← v.get i
    totalLoop v dim (i + 1) ((total * x) % 2 ^ 64)
  else .ok total
termination_by dim - i

def Sizes.total (s : Sizes) : Res Nat := totalLoop s.v s.dim 0 0

/-- `setPreferredWorkGroupMultiple( a )` (kernel_config_base.cpp:571-584); here
`s.v` stands for `m_pref_work_groups_multiple`. -/
def Sizes.mult1 (s : Sizes) (a : Nat) : Sizes × Bool :=
  if 0 < a ∧ s.dim = 1 then ({ s with v := { s.v with a := a } }, true) else (s, false)

/-- `setPreferredWorkGroupMultiple( a, b )` (kernel_config_base.cpp:586-602). -/
def Sizes.mult2 (s : Sizes) (a b : Nat) : Sizes × Bool :=
  if 0 < a ∧ 0 < b ∧ s.dim = 2 then ({ s with v := { s.v with a := a, b := b } }, true)
  else (s, false)

/-- `setPreferredWorkGroupMultiple( a, b, c )` (kernel_config_base.cpp:604-623). -/
def Sizes.mult3 (s : Sizes) (a b c : Nat) : Sizes × Bool :=
  if 0 < a ∧ 0 < b ∧ 0 < c ∧ s.dim = 3 then ({ s with v := ⟨a, b, c⟩ }, true) else (s, false)

/-- Loop of the array overload (kernel_config_base.cpp:640-644). -/
def multLoop (xs : List Nat) (i : Nat) (v : Vec3) (ok : Bool) : Res (Vec3 × Bool) :=
  match xs with
  | [] => .ok (v, ok)
  | x :: rest => do
    let v' ← v.set i x
    multLoop rest (i + 1) v' (decide (x > 0))

/-- `setPreferredWorkGroupMultiple( dim, ptr )`
(kernel_config_base.cpp:625-650). -/
def Sizes.multArray (s : Sizes) (xs : List Nat) : Res (Sizes × Bool) :=
  if s.dim = xs.length then do
    let (v, ok) ← multLoop xs 0 s.v true
    .ok ({ s with v := v }, ok)
  else .ok (s, false)

end SixTrack.KConf

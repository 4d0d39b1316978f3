import Verif.KernelConfig
import Verif.WorkItems

/-!
# Blocks and threads of CUDA kernels

Model of `/repo/sixtracklib/cuda/control/kernel_config.cpp` (line numbers without a file), with
`/repo/sixtracklib/common/control/kernel_config_base.cpp` (`base`) and `/repo/sixtracklib/cuda/control/controller.cpp`
(`controller`).

* The numbers of work items and the sizes of work groups are those of `Verif/KernelConfig.lean`, `dim3` is that of
  `Verif/WorkItems.lean`; the name, the number of arguments, offsets and preferred multiples do not matter here.
* `size_t` has 64 bits; the assertions are not modelled.
-/

namespace SixTrack.CudaGrid
open KConf WorkItems

/-- the members, kernel_config.hpp:119-124, and those of the base that matter here -/
structure Conf where
  items : Sizes
  groups : Sizes
  needsUpdate : Bool
  blocks : Dim3
  threads : Dim3
  warp : Nat
  shared : Nat
  limit : Nat
  deriving DecidableEq, Repr

/-- `setWarpSize`, 161-170 -/
def Conf.setWarp (c : Conf) (w : Nat) : Conf := if 0 < w then { c with warp := w } else c

/-- the constructors, 29-108, base:22-35; all components of a `dim3` that is not initialised otherwise are 1. -/
def new (blockDim threadDim shared limit warp : Nat) : Conf :=
  Conf.setWarp ⟨reset blockDim, reset threadDim, false, ⟨1, 1, 1⟩, ⟨1, 1, 1⟩, 32, shared, limit⟩ warp

/-- the loop in 189-208: the number of blocks and threads for dimension `i` and the others, `none` if a number is zero -/
def gridLoop (c : Conf) : Nat → Nat → Vec3 → Vec3 → Res (Option (Vec3 × Vec3))
  | 0, _, b, t => .ok (some (b, t))
  | n + 1, i, b, t => do
    let g ← c.groups.read i
    let k ← c.items.read i
    if g = 0 ∨ k = 0 then pure none
    else do
      let t ← t.set i g
      let b ← b.set i (if k % g ≠ 0 then k / g + 1 else k / g)
      gridLoop c n (i + 1) b t

/-- the product of three numbers of 64 bits, 212-213, 219-220 -/
def Vec3.product (v : Vec3) : Nat := v.a * v.b % 2 ^ 64 * v.c % 2 ^ 64

/-- what a `dim3` makes of three numbers, 215-217, 222-224 -/
def Vec3.dim3 (v : Vec3) : Dim3 := ⟨BitVec.ofNat 32 v.a, BitVec.ofNat 32 v.b, BitVec.ofNat 32 v.c⟩

/-- `doUpdate`, 172-233; the flag is a success. -/
def Conf.doUpdate (c : Conf) : Res (Bool × Conf) :=
  if 0 < c.items.dim ∧ c.groups.dim = c.items.dim then do
    let r ← gridLoop c c.items.dim 0 ⟨1, 1, 1⟩ ⟨1, 1, 1⟩
    match r with
    | some (b, t) =>
      pure (decide (0 < Vec3.product b ∧ 0 < Vec3.product t), { c with blocks := Vec3.dim3 b, threads := Vec3.dim3 t })
    | none => pure (false, c)
  else .ok (false, c)

/-- `update`, base:667-677 -/
def Conf.update (c : Conf) : Res (Bool × Conf) := do
  let r ← c.doUpdate
  pure (if r.1 then (true, { r.2 with needsUpdate := false }) else r)

/-- `ptrBlocks`, 145-148, and `ptrThreadsPerBlock`, 150-153 -/
def Conf.launch (c : Conf) : Option (Dim3 × Dim3) := if c.needsUpdate then none else some (c.blocks, c.threads)

/-- `totalNumBlocks`, 235-241: the factors have 32 bits. -/
def Conf.totalBlocks (c : Conf) : Nat := if c.needsUpdate then 0 else c.blocks.product.toNat

/-- `totalNumThreadsPerBlock`, 243-250 -/
def Conf.totalPerBlock (c : Conf) : Nat := if c.needsUpdate then 0 else c.threads.product.toNat

/-- `totalNumThreads`, 252-256 -/
def Conf.totalThreads (c : Conf) : Nat := c.totalBlocks * c.totalPerBlock % 2 ^ 64

/-! ## Programs -/

/-- the first `dim` entries become zero, base:749-770 -/
def clearSizes (s : Sizes) : Sizes :=
  { s with v := ⟨if 0 < s.dim then 0 else s.v.a, if 1 < s.dim then 0 else s.v.b, if 2 < s.dim then 0 else s.v.c⟩ }

/-- What a program may do with a configuration. -/
inductive Op
  | items (xs : List Nat)
  | items1 (a : Nat)
  | groups (xs : List Nat)
  | groups1 (a : Nat)
  | warp (w : Nat)
  | limit (n : Nat)
  | shared (n : Nat)
  | reset (itemsDim groupsDim : Nat)
  | clear
  | update

/-- `setNumWorkItems`, base:240-312; `setWorkGroupSizes`, base:456-531; `setWarpSize`; `setMaxBlockSizeLimit`, 129-133;
`setSharedMemPerBlock`, 116-120; `reset`, base:656-660; `clear`, base:651-654, 740-770; `update` -/
def Conf.step (c : Conf) : Op → Res Conf
  | .items xs => do
    let r ← c.items.setArray xs
    pure { c with items := r.1 }
  | .items1 a => .ok { c with items := (c.items.set1 a).1 }
  | .groups xs => do
    let r ← c.groups.setArray xs
    pure { c with groups := r.1 }
  | .groups1 a => .ok { c with groups := (c.groups.set1 a).1 }
  | .warp w => .ok (c.setWarp w)
  | .limit n => .ok { c with limit := n }
  | .shared n => .ok { c with shared := n }
  | .reset d e => .ok { c with items := KConf.reset d, groups := KConf.reset e }
  | .clear => .ok { c with items := clearSizes c.items, groups := clearSizes c.groups, needsUpdate := false }
  | .update => do
    let r ← c.update
    pure r.2

def Conf.run : Conf → List Op → Res Conf
  | c, [] => .ok c
  | c, o :: os => do
    let d ← c.step o
    d.run os

/-- the configuration of the kernels that remap buffers, controller:1536-1554, 1575-1590 -/
def remapConf : Res (Bool × Conf) := do
  let c := new 1 1 0 0 32
  let c := { c with items := (c.items.set1 1).1 }
  let c := { c with groups := (c.groups.set1 1).1 }
  c.update

end SixTrack.CudaGrid

import Verif.JobTrack

/-!
# The optimised tracking kernels

Model of `/repo/sixtracklib/common/track/track_kernel_opt_impl.h` and of the copies in
`/repo/sixtracklib/common/particles.h:1539-1803` they use.  These kernels copy a particle out of the arrays
of its set into a set of one particle on the stack, track it there, and copy it back.

As in `JobTrack` the assertions are not modelled (release build), and the output does not lie in the arrays
of the set.  The arrays of a set do not overlap.
-/

namespace SixTrack.TrackOpt
open Track EBE JobTrack

/-- The real attributes of a particle, particles.h:74-92. -/
inductive RealField where
  | q0 | mass0 | beta0 | gamma0 | p0c | s | x | y | px | py | zeta | psigma | delta | rpp | rvv | chi
  | chargeRatio
  deriving DecidableEq, Repr

/-- The index attributes of a particle, particles.h:94-97. -/
inductive IndexField where
  | particleId | atElementId | atTurn | state
  deriving DecidableEq, Repr

/-- The real attributes, in the order in which they are copied (particles.h:1626-1675, 1736-1785). -/
def realFields : List RealField :=
  [.q0, .mass0, .beta0, .gamma0, .p0c, .s, .x, .y, .px, .py, .zeta, .psigma, .delta, .rpp, .rvv, .chi,
    .chargeRatio]

/-- The index attributes, in the order in which they are copied (particles.h:1677-1687, 1787-1797). -/
def indexFields : List IndexField := [.particleId, .atElementId, .atTurn, .state]

/-- A particle: its real attributes are the coordinates. -/
abbrev P (V : Type) := Part (RealField → V)

/-- A particle set: `ParticlesGenericAddr` (particles.h:70-99) with the arrays at its addresses, each of
`num` values (a number that is not negative). -/
structure Arrays (V : Type) where
  num : Nat
  real : RealField → Nat → V
  ind : IndexField → Nat → Int

/-- A set of `num` particles in two flat arrays with `nReals` and `nInds` values. -/
structure Flat (V : Type) where
  num : Nat
  nReals : Nat
  nInds : Nat
  reals : Nat → V
  inds : Nat → Int

/-- Place of an attribute in the flat array, in units of the number of particles: the pointers set by
`Particles_init_from_flat_arrays`, particles.h:1559-1575. -/
def RealField.slot : RealField → Nat
  | .q0 => 0
  | .mass0 => 1
  | .beta0 => 2
  | .gamma0 => 3
  | .p0c => 4
  | .s => 5
  | .x => 6
  | .y => 7
  | .px => 8
  | .py => 9
  | .zeta => 10
  | .psigma => 11
  | .delta => 12
  | .rpp => 13
  | .rvv => 14
  | .chi => 15
  | .chargeRatio => 16

/-- The same for the index attributes, particles.h:1577-1580. -/
def IndexField.slot : IndexField → Nat
  | .particleId => 0
  | .atElementId => 1
  | .atTurn => 2
  | .state => 3

variable {V : Type}

/-- Place of attribute `f` of particle `i`. -/
def Flat.realPos (l : Flat V) (f : RealField) (i : Nat) : Nat := f.slot * l.num + i

def Flat.indPos (l : Flat V) (f : IndexField) (i : Nat) : Nat := f.slot * l.num + i

/-- Read an attribute. -/
def Flat.getReal (l : Flat V) (f : RealField) (i : Nat) : Res V :=
  if l.realPos f i < l.nReals then .ok (l.reals (l.realPos f i)) else .ub

def Flat.getInd (l : Flat V) (f : IndexField) (i : Nat) : Res Int :=
  if l.indPos f i < l.nInds then .ok (l.inds (l.indPos f i)) else .ub

/-- Write an attribute. -/
def Flat.setReal (l : Flat V) (f : RealField) (i : Nat) (v : V) : Res (Flat V) :=
  if l.realPos f i < l.nReals then .ok { l with reals := Particles.setAt l.reals (l.realPos f i) v } else .ub

def Flat.setInd (l : Flat V) (f : IndexField) (i : Nat) (v : Int) : Res (Flat V) :=
  if l.indPos f i < l.nInds then .ok { l with inds := Particles.setAt l.inds (l.indPos f i) v } else .ub

/-- The set of one particle: 17 and 4 zeroes on the stack, track_kernel_opt_impl.h:119-132, and
`Particles_init_from_flat_arrays` for one particle, 153-154. -/
def one (zero : V) : Flat V := ⟨1, 17, 4, fun _ => zero, fun _ => 0⟩

def Arrays.setReal (a : Arrays V) (f : RealField) (i : Nat) (v : V) : Arrays V :=
  { a with real := fun g => if g = f then Particles.setAt (a.real f) i v else a.real g }

def Arrays.setInd (a : Arrays V) (f : IndexField) (i : Nat) (v : Int) : Arrays V :=
  { a with ind := fun g => if g = f then Particles.setAt (a.ind f) i v else a.ind g }

/-- `Particles_copy_from_generic_addr_data`, particles.h:1584-1693, for pointers that are not null and
indices that are not negative. -/
def copyFrom (dst : Flat V) (d : Nat) (src : Arrays V) (s : Nat) : Res (Int × Flat V) :=
  if src.num > s ∧ dst.num > d then do
    let l ← realFields.foldlM (fun l f => l.setReal f d (src.real f s)) dst
    let l ← indexFields.foldlM (fun l f => l.setInd f d (src.ind f s)) l
    pure (0, l)
  else .ok (-1, dst)

/-- `Particles_copy_to_generic_addr_data`, particles.h:1695-1803, for pointers that are not null and
indices that are not negative. -/
def copyTo (dst : Arrays V) (d : Nat) (src : Flat V) (s : Nat) : Res (Int × Arrays V) :=
  if src.num > s ∧ dst.num > d then do
    let a ← realFields.foldlM (fun (a : Arrays V) f => do
      let v ← src.getReal f s
      pure (a.setReal f d v)) dst
    let a ← indexFields.foldlM (fun (a : Arrays V) f => do
      let v ← src.getInd f s
      pure (a.setInd f d v)) a
    pure (0, a)
  else .ok (-1, dst)

/-- The assertion on the indices in the body of `Particles_copy_to_generic_addr_data`, particles.h:1713 (in a
debug build the program stops if it is false): the number of particles of the destination is compared with
the index in the source. -/
def copyToAsserts (dst : Arrays V) (_d : Nat) (s : Nat) : Prop := dst.num > s

/-- Particle `i` of a flat set. -/
def Flat.part (l : Flat V) (i : Nat) : Res (P V) :=
  if (∀ f ∈ realFields, l.realPos f i < l.nReals) ∧ ∀ f ∈ indexFields, l.indPos f i < l.nInds then
    .ok ⟨fun f => l.reals (l.realPos f i), l.inds (l.indPos .particleId i), l.inds (l.indPos .atElementId i),
      l.inds (l.indPos .atTurn i), l.inds (l.indPos .state i)⟩
  else .ub

/-- Index attribute of a particle. -/
def indexOf (p : P V) : IndexField → Int
  | .particleId => p.id
  | .atElementId => p.atElement
  | .atTurn => p.atTurn
  | .state => p.state

/-- Write a particle into a flat set. -/
def Flat.setPart (l : Flat V) (i : Nat) (p : P V) : Res (Flat V) := do
  let l ← realFields.foldlM (fun l f => l.setReal f i (p.coord f)) l
  indexFields.foldlM (fun l f => l.setInd f i (indexOf p f)) l

variable {E R : Type}

/-- Tracking function `f` for particle `i` of a flat set.  The functions of track.h read and write the
attributes one by one; here the particle is read before and written after. -/
def trackAt (f : One (RealField → V) R) (l : Flat V) (i : Nat) (out : Nat → R) (recs : Nat → P V) :
    Res (Int × Flat V × (Nat → R) × (Nat → P V)) := do
  let p ← l.part i
  let x ← f ⟨⟨p, out⟩, recs⟩
  let l' ← l.setPart i x.2.w.part
  pure (x.1, l', x.2.w.out, x.2.recs)

/-- State of the loop of a kernel: the set, the set of one particle on the stack, and the output. -/
structure Run (V R : Type) where
  status : Status
  arr : Arrays V
  loc : Flat V
  out : Nat → R
  recs : Nat → P V

/-- The body of the loops, track_kernel_opt_impl.h:172-179, 402-410, 641-648. -/
def runOne (f : One (RealField → V) R) (i : Nat) (r : Run V R) : Res (Run V R) := do
  let c ← copyFrom r.loc 0 r.arr i
  let x ← trackAt f c.2 0 r.out r.recs
  let d ← copyTo r.arr i x.2.1 0
  pure ⟨r.status ||| BitVec.ofInt 32 c.1 ||| BitVec.ofInt 32 x.1 ||| BitVec.ofInt 32 d.1, d.2, x.2.1,
    x.2.2.1, x.2.2.2⟩

/-- `for( ; pidx < num_particles ; pidx += stride )`, track_kernel_opt_impl.h:170, 400, 639; the first number
bounds the iterations. -/
def loop (f : One (RealField → V) R) (stride : Nat) : Nat → Nat → Run V R → Res (Run V R)
  | 0, _, r => .ok r
  | n + 1, pidx, r =>
    if pidx < r.arr.num then do
      let r' ← runOne f pidx r
      loop f stride n (pidx + stride) r'
    else .ok r

/-- What the kernels work on; an object that is not a particle set is `none`. -/
structure Mem (V R : Type) where
  objs : List (Option (Arrays V))
  out : Nat → R
  recs : Nat → P V

/-- The loop over the particles of set number `set`, see `JobTrack.loopSet`. -/
def loopSet (zero : V) (f : One (RealField → V) R) (m : Mem V R) (set : Nat) (a : Arrays V)
    (pidx stride : Int) : Res (Status × Mem V R) :=
  if pidx < a.num then
    if 0 ≤ pidx ∧ 0 < stride then do
      let r ← loop f stride.toNat a.num pidx.toNat ⟨0, a, one zero, m.out, m.recs⟩
      pure (r.status, ⟨m.objs.set set (some r.arr), r.out, r.recs⟩)
    else .ub
  else .ok (0, m)

/-- The object with the given index: `ManagedBuffer_get_object` (managed_buffer_minimal.h:769-793) gives a
null pointer, here `none`, for an index above the number of objects, and for that number itself a pointer to
behind the last object, which is read. -/
def object (m : Mem V R) (set : Nat) : Res (Option (Option (Arrays V))) :=
  if m.objs.length < set then .ok none
  else match m.objs[set]? with
    | none => .ub
    | some o => .ok (some o)

/-- The kernels without debug register, track_kernel_opt_impl.h:102-183, 323-414, 567-652, for the tracking
function `f`: without an object, or for one that is not a particle set, the number of particles is zero. -/
def kernelOn (zero : V) (f : One (RealField → V) R) (m : Mem V R) (set : Nat) (pidx stride : Int) :
    Res (Status × Mem V R) := do
  let o ← object m set
  match o.join with
  | none => .ok (0, m)
  | some a => loopSet zero f m set a pidx stride

/-- `Track_particles_until_turn_opt_kernel_impl`, track_kernel_opt_impl.h:102-183 -/
def untilKernel (zero : V) (S : Sem E (RealField → V) R) (lat : List E) (untilTurn : Int) (m : Mem V R)
    (set : Nat) (pidx stride : Int) : Res (Status × Mem V R) :=
  kernelOn zero (untilOne S lat untilTurn) m set pidx stride

/-- `Track_particles_elem_by_elem_until_turn_opt_kernel_impl`, track_kernel_opt_impl.h:323-414 -/
def ebeKernel (zero : V) (S : Sem E (RealField → V) R) (lat : List E) (cfgs : List (Option Cfg)) (ci : Nat)
    (nn : Int) (untilTurn : Int) (m : Mem V R) (set : Nat) (pidx stride : Int) : Res (Status × Mem V R) := do
  let c ← configAt cfgs ci
  kernelOn zero (ebeOne S c nn lat untilTurn) m set pidx stride

/-- `Track_particles_line_opt_kernel_impl`, track_kernel_opt_impl.h:567-652 -/
def lineKernel (zero : V) (S : Sem E (RealField → V) R) (lat : List E) (b e : Nat) (finish : Bool)
    (m : Mem V R) (set : Nat) (pidx stride : Int) : Res (Status × Mem V R) := do
  let line ← lineOf lat b e
  kernelOn zero (lineOne S line finish) m set pidx stride

/-! ## Debug kernels -/

/-- The object with the given index, by way of the addresses in the header. -/
def objectOf (a : Args) (m : Mem V R) : Res (Option (Option (Arrays V))) :=
  if a.pRemap then .ub else object m a.set

/-- The loop for an object that may be no particle set: it has then no particles. -/
def loopObject (zero : V) (f : One (RealField → V) R) (m : Mem V R) (set : Nat) (o : Option (Arrays V))
    (pidx stride : Int) : Res (Status × Mem V R) :=
  match o with
  | none => .ok (0, m)
  | some a => loopSet zero f m set a pidx stride

/-- The end of the kernels, track_kernel_opt_impl.h:308-319, 552-563, 778-789. -/
def finish (flags : BitVec 64) (r : Status × Mem V R) : Res (Status × BitVec 64 × Mem V R) :=
  if r.1 ≠ 0 then do
    let reg ← DebugReg.storeStatus flags r.1
    pure (r.1, reg, r.2)
  else .ok (r.1, flags, r.2)

/-- What the two debug kernels for tracking over turns have in common, track_kernel_opt_impl.h:220-298,
457-539.  The objects stored in a buffer have an address that is not null. -/
def debugTurns (zero : V) (f : One (RealField → V) R) (a : Args) (untilTurn : Int) (m : Mem V R) :
    Res (Status × BitVec 64 × Mem V R) := do
  let o ← objectOf a m
  if a.eRemap then .ub
  else match o with
    | some o =>
      if 0 ≤ untilTurn then do
        let r ← loopObject zero f m a.set o a.pidx a.stride
        finish 0 r
      else finish (flag true 8) (failed, m)
    | none => finish (flag true 4 ||| flag (decide (untilTurn < 0)) 8) (failed, m)

/-- `Track_particles_until_turn_debug_opt_kernel_impl`, track_kernel_opt_impl.h:185-319 -/
def untilDebug (zero : V) (S : Sem E (RealField → V) R) (lat : List E) (untilTurn : Int) (a : Args)
    (m : Mem V R) : Res (Status × BitVec 64 × Mem V R) :=
  if a.ok then debugTurns zero (untilOne S lat untilTurn) a untilTurn m
  else finish a.flags (failed, m)

/-- `Track_particles_elem_by_elem_until_turn_debug_opt_kernel_impl`, track_kernel_opt_impl.h:416-563 -/
def ebeDebug (zero : V) (S : Sem E (RealField → V) R) (lat : List E) (cNull : Bool)
    (cfgs : List (Option Cfg)) (ci : Nat) (nn : Int) (untilTurn : Int) (a : Args) (m : Mem V R) :
    Res (Status × BitVec 64 × Mem V R) :=
  if a.ok && !cNull then do
    let c ← configAt cfgs ci
    debugTurns zero (ebeOne S c nn lat untilTurn) a untilTurn m
  else finish (a.flags ||| flag cNull 9) (failed, m)

/-- The inner test of the line kernel and what follows, track_kernel_opt_impl.h:704-767: the test compares the
begin with the number of elements, the flag the end. -/
def debugLine (zero : V) (S : Sem E (RealField → V) R) (lat : List E) (b e : Nat) (fin : Bool) (a : Args)
    (m : Mem V R) (o : Option (Option (Arrays V))) : Res (Status × BitVec 64 × Mem V R) :=
  if a.eRemap = false ∧ o.isSome = true ∧ b ≤ e ∧ b ≤ lat.length then do
    let line ← lineOf lat b e
    let r ← loopObject zero (lineOne S line fin) m a.set o.join a.pidx a.stride
    finish 0 r
  else if a.eRemap = true ∧ b ≤ e then .ub
  else finish (flag a.eRemap 6 ||| flag o.isNone 4 ||| flag (decide (e < b ∨ lat.length < e)) 7) (failed, m)

/-- `Track_particles_line_debug_opt_kernel_impl`, track_kernel_opt_impl.h:654-789 -/
def lineDebug (zero : V) (S : Sem E (RealField → V) R) (lat : List E) (b e : Nat) (fin : Bool) (a : Args)
    (m : Mem V R) : Res (Status × BitVec 64 × Mem V R) :=
  if a.ok then do
    let o ← objectOf a m
    debugLine zero S lat b e fin a m o
  else finish a.flags (failed, m)

/-! ## The same memory as the plain kernels see it

The plain kernels take the same memory as `Particles` (particles.h:44-68), with pointers for the
addresses. -/

/-- Particle `i` of a set. -/
def Arrays.part (a : Arrays V) (i : Nat) : P V :=
  ⟨fun f => a.real f i, a.ind .particleId i, a.ind .atElementId i, a.ind .atTurn i, a.ind .state i⟩

/-- The particles of a set. -/
def Arrays.list (a : Arrays V) : List (P V) := (List.range a.num).map a.part

/-- The memory of the plain kernel. -/
def Mem.view (m : Mem V R) : JobTrack.Mem (RealField → V) R :=
  ⟨m.objs.map (Option.map Arrays.list), m.out, m.recs⟩

end SixTrack.TrackOpt

import Verif.Elements
import Verif.TricubStmts
import Mathlib.Algebra.Order.Floor.Ring
import Mathlib.Algebra.Order.Field.Basic
import Mathlib.Logic.Function.Basic

/-!
# The tricubic map

Model of `/repo/sixtracklib/common/be_tricub/track.h` and of
`NS(tricub_construct_coefs)` (be_tricub/coefficients.h:35-1044).

* Exact arithmetic over an ordered field with floor instead of `double`; the
  conversions of the cell numbers to integers are assumed to fit 64 bits.
* The assertions on the cell numbers (track.h:122-124) are compiled out in a release
  build and are not modelled; a read outside of the table is undefined.
* The local array `coefs` is uninitialised: an entry is `none` until it is set, and
  arithmetic on an indeterminate entry leaves it indeterminate; its use is undefined.
-/

namespace SixTrack.Tricub

open Elem

variable {K : Type} [Field K] [LinearOrder K] [FloorRing K]

/-- `NS(TriCubData)` (be_tricub.h:33-53); the table has `8 * nx * ny * nz` entries
(`NS(TriCubData_table_size)`, be_tricub.h:750-756). -/
structure Data (K : Type) where
  x0 : K
  dx : K
  nx : Nat
  y0 : K
  dy : K
  ny : Nat
  z0 : K
  dz : K
  nz : Nat
  mirrorX : Bool
  mirrorY : Bool
  mirrorZ : Bool
  table : Nat → K

/-- `NS(TriCub)` (be_tricub.h:309-320), with the data it points to. -/
structure Cub (K : Type) where
  xShift : K
  yShift : K
  tauShift : K
  dipolarPx : K
  dipolarPy : K
  dipolarPtau : K
  length : K
  data : Data K

/-- Read an entry of the lookup table. -/
def readTable (d : Data K) (i : Int) : Res K :=
  if 0 ≤ i ∧ i < 8 * d.nx * d.ny * d.nz then .ok (d.table i.toNat) else .ub

/-- Index of kind `l` at corner `q` of the cell (track.h:248-255). -/
def cornerIndex (d : Data K) (ix iy iz : Int) (l q : Nat) : Int :=
  l + 8 * ((ix + (q % 2 : Nat)) + d.nx * ((iy + (q / 2 % 2 : Nat)) +
    d.ny * (iz + (q / 4 % 2 : Nat))))

/-- `NS(tricub_construct_b_vector)` (track.h:224-267): entry `8 * l + q`, after all
entries could be read. -/
def bVector (d : Data K) (ix iy iz : Int) : Res (Nat → K) :=
  (List.range 64).foldlM
    (fun (b : Nat → K) t => do
      let v ← readTable d (cornerIndex d ix iy iz (t / 8) (t % 8))
      return Function.update b t v)
    (fun _ => 0)

/-- One statement of `NS(tricub_construct_coefs)`. -/
def exec (b : Nat → K) (c : Nat → Option K) : Stmt → (Nat → Option K)
  | .set i k j => Function.update c i (some (k * b j))
  | .add i k j => Function.update c i ((c i).map (· + k * b j))
  | .sub i k j => Function.update c i ((c i).map (· - k * b j))

/-- `NS(tricub_construct_coefs)` (coefficients.h:35-1044). -/
def constructCoefs (b : Nat → K) : Nat → Option K := stmts.foldl (exec b) (fun _ => none)

/-- Use of a possibly indeterminate value. -/
def useVal (v : Option K) : Res K :=
  match v with
  | some a => .ok a
  | none => .ub

/-- The powers `x_power` (track.h:137-151). -/
def power (x : K) : Nat → K
  | 0 => 1
  | 1 => x
  | 2 => x * x
  | _ => x * x * x

/-- The triples of a loop nest over `i`, `j`, `k`, from the given first values to 3. -/
def nest (i0 j0 k0 : Nat) : List (Nat × Nat × Nat) :=
  (List.range' i0 (4 - i0)).flatMap fun i => (List.range' j0 (4 - j0)).flatMap fun j =>
    (List.range' k0 (4 - k0)).map fun k => (i, j, k)

/-- Sum of a loop nest: `f i * ( ( ( coefs[i + 4 * j + 16 * k] * px ) * py ) * pz )`. -/
def loopSum (coefs : Nat → Option K) (f : Nat → Nat → Nat → Nat) (px py pz : Nat → K)
    (ts : List (Nat × Nat × Nat)) : Res K :=
  ts.foldlM (fun (s : K) t => do
    let c ← useVal (coefs (t.1 + 4 * t.2.1 + 16 * t.2.2))
    return s + (f t.1 t.2.1 t.2.2 : Nat) * (((c * px t.1) * py t.2.1) * pz t.2.2)) 0

/-- The sums `kick_px`, `kick_py`, `kick_ptau` before scaling (track.h:153-164,
169-180, 185-196). -/
def sums (coefs : Nat → Option K) (xn yn zn : K) : Res (K × K × K) := do
  let sx ← loopSum coefs (fun i _ _ => i) (fun i => power xn (i - 1)) (power yn) (power zn)
    (nest 1 0 0)
  let sy ← loopSum coefs (fun _ j _ => j) (power xn) (fun j => power yn (j - 1)) (power zn)
    (nest 0 1 0)
  let sz ← loopSum coefs (fun _ _ k => k) (power xn) (power yn) (fun k => power zn (k - 1))
    (nest 0 0 1)
  return (sx, sy, sz)

/-- `sign_x` and the like (track.h:95-97). -/
def sign (mirror : Bool) (f : K) : K := if mirror ∧ f < 0 then -1 else 1

/-- `NS(Track_particle_tricub)` (track.h:54-222). -/
def track [RealOps K] (t : Cub K) (c : Coord K) : Res (Coord K) := do
  let d := t.data
  let invDx := 1 / d.dx
  let invDy := 1 / d.dy
  let invDz := 1 / d.dz
  let z := c.zeta / (c.beta0 * c.rvv)
  let fx := ((c.x - t.xShift) - d.x0) * invDx
  let fy := ((c.y - t.yShift) - d.y0) * invDy
  let fz := ((z - t.tauShift) - d.z0) * invDz
  let sx := sign d.mirrorX fx
  let sy := sign d.mirrorY fy
  let sz := sign d.mirrorZ fz
  let ix := ⌊sx * fx⌋
  let iy := ⌊sy * fy⌋
  let iz := ⌊sz * fz⌋
  let xn := sx * fx - ix
  let yn := sy * fy - iy
  let zn := sz * fz - iz
  let b ← bVector d ix iy iz
  let s ← sums (constructCoefs b) xn yn zn
  let kickPx := s.1 * (t.length * invDx) * -sx - t.dipolarPx
  let kickPy := s.2.1 * (t.length * invDy) * -sy - t.dipolarPy
  let kickPtau := s.2.2 * (t.length * invDz) * -sz - t.dipolarPtau
  let q := c.q0 * c.chargeRatio
  let energyKick := q * (c.p0c * kickPtau)
  return addToEnergy { c with px := c.px + kickPx, py := c.py + kickPy } energyKick

end SixTrack.Tricub

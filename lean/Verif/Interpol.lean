import Verif.Basic
import Mathlib.Algebra.Order.Floor.Ring
import Mathlib.Algebra.Order.Field.Basic
import Mathlib.Logic.Function.Basic

/-!
# Interpolation on equidistant abscissae

Model of `/repo/sixtracklib/common/internal/math_interpol.h` (lines 253-288,
322-602, 649-865).

* Exact arithmetic over an ordered field with floor (ℚ to compute, ℝ for the
  theorems about derivatives) instead of `double`.
* Arrays handed over for the samples and the derivatives have `n` entries; an
  evaluation that reads outside of them is undefined.  The arrays written during
  preparation are functions; the loops only use indices below `n`.
* A pivot of the elimination that is zero makes the code produce infinities (its
  `SIXTRL_ASSERT`s forbid it, lines 517, 525, 529); the theorems exclude it.
* The conversion of `( x - x0 ) / dx` to an integer is assumed to fit 64 bits.
-/

namespace SixTrack.Interpol

variable {K : Type} [Field K] [LinearOrder K] [FloorRing K]

/-- Conversion of a floating point number to an integer: truncation. -/
def trunc (z : K) : Int := if 0 ≤ z then ⌊z⌋ else ⌈z⌉

/-- `NS(Math_abscissa_index_equ)` (math_interpol.h:253-268). -/
def abscissaIndex (x x0 dx : K) : Int := trunc ((x - x0) / dx)

/-- `NS(Math_abscissa_index_equ_ex)` (math_interpol.h:270-288). -/
def abscissaIndexEx (x x0 dx : K) (n : Nat) : Int :=
  if x0 ≤ x then (if x < x0 + dx * n then abscissaIndex x x0 dx else n) else -1

/-- Read entry `i` of an array with `n` entries. -/
def read (a : Nat → K) (n : Nat) (i : Int) : Res K :=
  if 0 ≤ i ∧ i < n then .ok (a i.toNat) else .ub

/-! ## Linear -/

/-- One step of the loop of `NS(Math_interpol_linear_prepare_equ)`
(math_interpol.h:353-361); the state is the array and `y_ii_plus_1`. -/
def linStep (y : Nat → K) (dx : K) (s : (Nat → K) × K) (i : Nat) : (Nat → K) × K :=
  (Function.update s.1 i ((y (i + 1) - s.2) / dx), y (i + 1))

/-- `NS(Math_interpol_linear_prepare_equ)` (math_interpol.h:322-367): the array
`yp`, and whether the status is `SUCCESS`.  Pointers are not null and differ. -/
def linearPrepare (yp y : Nat → K) (dx : K) (n : Nat) : (Nat → K) × Bool :=
  if 0 < dx ∧ 1 < n then (((List.range (n - 1)).foldl (linStep y dx) (yp, y 0)).1, true)
  else (yp, false)

/-- `NS(Math_interpol_linear_y_equ)` (math_interpol.h:649-665). -/
def linearY (x x0 dx : K) (y yp : Nat → K) (n : Nat) : Res K := do
  let idx := abscissaIndex x x0 dx
  let yi ← read y n idx
  let ypi ← read yp n idx
  return yi + (x - (x0 + dx * idx)) * ypi

/-- `NS(Math_interpol_linear_yp_equ)` (math_interpol.h:667-684). -/
def linearYp (x x0 dx : K) (yp : Nat → K) (n : Nat) : Res K := read yp n (abscissaIndex x x0 dx)

/-- `NS(Math_interpol_linear_y_equ_ex)` (math_interpol.h:712-744). -/
def linearYEx (x x0 dx : K) (y yp : Nat → K) (n : Nat) : Res K := do
  let i := abscissaIndex x x0 dx
  let idx := if (n : Int) ≤ i ∧ 0 < n then (n : Int) - 1 else i
  if 0 ≤ idx ∧ idx < n then do
    let yi ← read y n idx
    let ypi ← read yp n idx
    return yi + (x - (x0 + dx * idx)) * ypi
  else if idx < 0 ∧ 0 < n then do
    let y0 ← read y n 0
    let yp0 ← read yp n 0
    return y0 - yp0 * (x0 - x)
  else return 0

/-- `NS(Math_interpol_linear_yp_equ_ex)` (math_interpol.h:746-775). -/
def linearYpEx (x x0 dx : K) (yp : Nat → K) (n : Nat) : Res K :=
  let idx := abscissaIndex x x0 dx
  if (n : Int) ≤ idx ∧ 0 < n then read yp n ((n : Int) - 1)
  else if idx < 0 ∧ 0 < n then read yp n 0
  else .ok 0

/-! ## Cubic -/

/-- `NS(math_interpol_boundary_t)` (math_interpol.h:46-56) as far as it makes a
difference. -/
inductive Boundary | none | natural | clamped | proportional | notAKnot
  deriving DecidableEq, Repr

/-- The arrays `g`, `h` and `dy` before the boundary conditions
(math_interpol.h:405-429); `l` and `d` are only written before they are read. -/
structure Rows (K : Type) where
  h : Nat → K
  g : Nat → K
  dy : Nat → K

/-- math_interpol.h:405-429. -/
def rows (y : Nat → K) (dx : K) (n : Nat) : Rows K where
  h := fun _ => dx
  g := fun i => if i = 0 ∨ i = n - 1 then 0 else (dx + dx) * 2
  dy := fun i => if i = 0 ∨ i = n - 1 then 0 else
    ((y (i + 1) - y i) / dx - (y i - y (i - 1)) / dx) * 6

/-- Switch on `begin_boundary_type` (math_interpol.h:431-468); `none` fails. -/
def beginRow (b : Boundary) (p : K) (r : Rows K) : Rows K :=
  match b with
  | .none => r
  | .natural => r
  | .clamped => { r with dy := Function.update r.dy 1 (r.dy 1 - p * r.h 0) }
  | .proportional => { r with g := Function.update r.g 1 ((p + 2) * r.h 0 + r.h 1 * 2) }
  | .notAKnot =>
    let dh := (r.h 0 * r.h 0) / r.h 1
    { r with g := Function.update r.g 1 (r.h 0 * 3 + r.h 1 * 2 + dh)
             h := Function.update r.h 1 (r.h 1 - dh) }

/-- Switch on `end_boundary_type` (math_interpol.h:470-508). -/
def endRow (b : Boundary) (p : K) (n : Nat) (r : Rows K) : Rows K :=
  match b with
  | .none => r
  | .natural => r
  | .clamped => { r with dy := Function.update r.dy (n - 2) (r.dy (n - 2) - p * r.h (n - 2)) }
  | .proportional =>
    { r with g := Function.update r.g (n - 2) (r.h (n - 1) * 2 + r.h (n - 2) * (p + 2)) }
  | .notAKnot =>
    let dh := (r.h (n - 2) * r.h (n - 2)) / r.h (n - 3)
    { r with g := Function.update r.g (n - 2) (r.h (n - 3) * 2 + r.h (n - 2) * 3 + dh)
             h := Function.update r.h (n - 3) (r.h (n - 3) - dh) }

/-- The arrays `d` and `ypp` during the elimination; `l[ ii ]` is only used in the
step that sets it. -/
structure Elim (K : Type) where
  d : Nat → K
  ypp : Nat → K

/-- Body of the forward loop (math_interpol.h:517-520). -/
def fwdStep (r : Rows K) (s : Elim K) (i : Nat) : Elim K :=
  let l := r.h i / s.d (i - 1)
  ⟨Function.update s.d i (r.g (i + 1) - l * r.h i),
    Function.update s.ypp i (r.dy (i + 1) - s.ypp (i - 1) * l)⟩

/-- Lines 512-521: forward elimination. -/
def forward (r : Rows K) (ypp : Nat → K) (n : Nat) : Elim K :=
  (List.range' 1 (n - 3)).foldl (fwdStep r)
    ⟨Function.update (fun _ => 0) 0 (r.g 1), Function.update ypp 0 (r.dy 1)⟩

/-- Body of the backward loop (math_interpol.h:529-531). -/
def bwdStep (r : Rows K) (d : Nat → K) (ypp : Nat → K) (i : Nat) : Nat → K :=
  Function.update ypp (i + 1) ((ypp i - r.h (i + 1) * ypp (i + 2)) / d i)

/-- Lines 523-532: backward substitution, `ii = n_minus_3 - 1, …, 0`. -/
def backward (r : Rows K) (s : Elim K) (n : Nat) : Nat → K :=
  (List.range (n - 3)).reverse.foldl (bwdStep r s.d)
    (Function.update s.ypp (n - 2) (s.ypp (n - 3) / s.d (n - 3)))

/-- Second switch on `begin_boundary_type` (math_interpol.h:537-566). -/
def beginValue (b : Boundary) (p : K) (ypp : Nat → K) : Nat → K :=
  match b with
  | .none => ypp
  | .natural => Function.update ypp 0 0
  | .clamped => Function.update ypp 0 p
  | .proportional => Function.update ypp 0 (p * ypp 1)
  | .notAKnot => ypp

/-- Second switch on `end_boundary_type` (math_interpol.h:568-597). -/
def endValue (b : Boundary) (p : K) (n : Nat) (ypp : Nat → K) : Nat → K :=
  match b with
  | .none => ypp
  | .natural => Function.update ypp (n - 1) 0
  | .clamped => Function.update ypp (n - 1) p
  | .proportional => Function.update ypp (n - 1) (p * ypp (n - 2))
  | .notAKnot => ypp

/-- `NS(Math_interpol_cubic_prepare_equ)` (math_interpol.h:369-602). -/
def cubicPrepare (ypp y : Nat → K) (dx : K) (n : Nat) (bb be : Boundary) (pb pe : K) :
    (Nat → K) × Bool :=
  if 0 < dx ∧ 3 < n then
    if bb ≠ .none ∧ be ≠ .none then
      let r := endRow be pe n (beginRow bb pb (rows y dx n))
      let s := forward r ypp n
      (endValue be pe n (beginValue bb pb (backward r s n)), true)
    else (ypp, false)
  else (ypp, false)

/-- `NS(Math_interpol_cubic_y_equ)` (math_interpol.h:789-815). -/
def cubicY (x x0 dx : K) (y ypp : Nat → K) (n : Nat) : Res K := do
  let idx := abscissaIndex x x0 dx
  let t2 := (x0 + dx * ((idx + 1 : Int) : K) - x) / dx
  let t1 := (x - (x0 + dx * idx)) / dx
  let y1 ← read y n (idx + 1)
  let y0 ← read y n idx
  let p0 ← read ypp n idx
  let p1 ← read ypp n (idx + 1)
  return y1 * t1 + y0 * t2 - p0 * dx * dx * (t2 - t2 * t2 * t2) / 6 -
    p1 * dx * dx * (t1 - t1 * t1 * t1) / 6

/-- `NS(Math_interpol_cubic_yp_equ)` (math_interpol.h:817-846). -/
def cubicYp (x x0 dx : K) (y ypp : Nat → K) (n : Nat) : Res K := do
  let idx := abscissaIndex x x0 dx
  let t2 := (x0 + dx * ((idx + 1 : Int) : K) - x) / dx
  let t1 := (x - (x0 + dx * idx)) / dx
  let y1 ← read y n (idx + 1)
  let y0 ← read y n idx
  let p0 ← read ypp n idx
  let p1 ← read ypp n (idx + 1)
  return (y1 - y0) / dx - p0 * dx * (3 * t2 * t2 - 1) / 6 - p1 * dx * (1 - 3 * t1 * t1) / 6

/-- `NS(Math_interpol_cubic_ypp_equ)` (math_interpol.h:848-865). -/
def cubicYpp (x x0 dx : K) (ypp : Nat → K) (n : Nat) : Res K := do
  let idx := abscissaIndex x x0 dx
  let p0 ← read ypp n idx
  let p1 ← read ypp n (idx + 1)
  return (p0 * (x0 + dx * ((idx + 1 : Int) : K) - x) + p1 * (x - (x0 + dx * idx))) / dx

end SixTrack.Interpol

import Mathlib.Data.Nat.Factorial.Basic

/-!
# A table of error bounds for the first branch of `cerrf`

The rectangle `0 ≤ x < 5.33`, `0 ≤ y < 4.29` is cut into cells: `k` and `l` are the integer parts of `23 q` and
`21 q`, and `x` lies in an interval of length `0.2` (the last one is `[5.2, 5.33]`).  Lengths are natural numbers in
units of `1/1000`.  Each check is an inequality of natural numbers; what it means is proved in `CerrfNear.lean`.
-/

namespace SixTrack
namespace Beam
namespace Cells

/-- Some approximation of the square root; nothing is assumed about it. -/
def rt (n : Nat) : Nat :=
  let rec go : Nat → Nat → Nat
    | 0, x => x
    | f + 1, x => if x = 0 then 0 else go f ((x + n / x) / 2)
  go 24 (1 <<< ((n.log2 + 2) / 2))

/-- The direction `(c + i s) / h` of a ray, and `S / 10000`, which is at least `sqrt(pi / a)` with
`a = (c² - s²) / h²`. -/
structure Dir where
  c : Nat
  s : Nat
  h : Nat
  S : Nat

def dirs : List Dir := [⟨1, 0, 1, 17726⟩, ⟨12, 5, 13, 21125⟩, ⟨4, 3, 5, 33499⟩, ⟨21, 20, 29, 80276⟩]

def Dir.ok (d : Dir) : Bool :=
  decide (d.c ^ 2 + d.s ^ 2 = d.h ^ 2) && decide (d.s < d.c) &&
    decide (314160000 * d.h ^ 2 ≤ d.S ^ 2 * (d.c ^ 2 - d.s ^ 2))

/-- `q` is between `qa / 483` and `qb / 483`. -/
def qa (k l : Nat) : Nat := max (21 * k) (23 * l)
def qb (k l : Nat) : Nat := min (min (21 * (k + 1)) (23 * (l + 1))) 483

/-- The left border of the cell. -/
def xa (i : Nat) : Nat := 200 * i

/-- `sqrt(1 - (x / 5.33)²)` is between `sLo / 533000` and `sHi / 533000`. -/
def sLo (i : Nat) : Nat := rt ((284089 - 400 * (i + 1) ^ 2) * 1000000)
def sHi (i : Nat) : Nat := rt ((284089 - 400 * i ^ 2) * 1000000) + 1

def sOk (i : Nat) : Bool :=
  decide (sLo i ^ 2 ≤ (284089 - 400 * (i + 1) ^ 2) * 1000000) && decide ((284089 - 400 * i ^ 2) * 1000000 ≤ sHi i ^ 2)

/-- Points of the cell exist. -/
def feasible (k l i : Nat) : Bool :=
  decide (qa k l ≤ qb k l) && decide (533000 * qa k l ≤ 483 * sHi i)

/-- A lower bound of `y`. -/
def yLo (k l i : Nat) : Nat :=
  if i < 26 then 4290 * (483 * sLo i - 533000 * qb k l) / (483 * sLo i) else 0

def yOk (k l i : Nat) : Bool :=
  decide (yLo k l i = 0) ||
    (decide (i < 26) && decide (483 * sLo i * yLo k l i + 4290 * (533000 * qb k l) ≤ 4290 * (483 * sLo i)))

/-- A lower bound of the real part of the argument of the continued fraction. -/
def reLo (k l i : Nat) : Nat := yLo k l i + 1600 * qa k l / 483

def reOk (k l i : Nat) : Bool := decide (483 * reLo k l i ≤ 483 * yLo k l i + 1600 * qa k l)

/-- `1000^n p_n(U)` for `1000 U = X - i x`. -/
def poly (X x : Int) : Nat → Int × Int → Int × Int → Nat → Int × Int
  | 0, p, _, _ => p
  | f + 1, p, p', n =>
    poly X x f (X * p.1 + x * p.2 + 500000 * n * p'.1, X * p.2 - x * p.1 + 500000 * n * p'.2) p (n + 1)

/-- Lower bounds of the quotients of the polynomials for `x ≥ 5.2`. -/
def tau : Nat → Nat
  | 0 => 5200
  | n + 1 => 5200 - ((n + 1) * 500000 / tau n + 1)

def tauProd : Nat → Nat
  | 0 => 1
  | n + 1 => tauProd n * tau n

/-- `|p_nu(U)|²` is at least `pLo.1 / 10^(6 nu) exp(-pLo.2 / 8)`. -/
def pLo (k l i : Nat) : Nat × Nat :=
  let nu := 10 + l
  if i < 26 then
    let p := poly (reLo k l i) (xa i + 100) nu (1, 0) (0, 0) 0
    ((p.1 * p.1 + p.2 * p.2).toNat, 800 * nu / reLo k l i + 1)
  else (tauProd nu ^ 2, 0)

/-- The real part of the argument times the direction. -/
def beta (d : Dir) (k l i : Nat) : Nat := (d.c * reLo k l i + d.s * xa i) / d.h

def mu (d : Dir) (k l i : Nat) : Nat :=
  let b := beta d k l i
  (b + rt (b ^ 2 + 2000000 * (10 + l) * (d.c ^ 2 - d.s ^ 2) / d.h ^ 2)) / 2

/-- An upper bound of `8 b² / a`. -/
def kappa (d : Dir) (b : Nat) : Nat := 8 * b ^ 2 * d.h ^ 2 / (1000000 * (d.c ^ 2 - d.s ^ 2)) + 1

def kOk (d : Dir) (b κ : Nat) : Bool := decide (8 * b ^ 2 * d.h ^ 2 ≤ κ * (1000000 * (d.c ^ 2 - d.s ^ 2)))

/-- The numerator and the denominator of an upper bound of the moment `nu` along the ray. -/
def momHi (k l i : Nat) (d : Dir) : Nat × Nat :=
  let nu := 10 + l
  let be := beta d k l i
  if i < 26 then
    let m := mu d k l i
    let κ := kappa d (m - be)
    ((nu * 1000000000) ^ nu * d.S * 113315 ^ κ, (2 * m * 2718281) ^ nu * 10000 * 100000 ^ κ)
  else (nu.factorial * 1000 ^ (nu + 1), (2 * be) ^ (nu + 1))

def momOk (k l i : Nat) (d : Dir) : Bool :=
  let be := beta d k l i
  let m := mu d k l i
  decide (be * d.h ≤ d.c * reLo k l i + d.s * xa i) && decide (0 < be) && decide (0 < m) &&
    kOk d (m - be) (kappa d (m - be))

/-- The checks of the continued fraction. -/
def okI (k l i : Nat) (d : Dir) : Bool :=
  let nu := 10 + l
  let N := 7 + k
  let I := momHi k l i d
  let p := pLo k l i
  momOk k l i d && decide (nu ≤ 2 * N) &&
  decide (I.1 ^ 2 * 113315 ^ p.2 * 10 ^ (6 * nu) * 10 ^ 20 ≤ 55 ^ 2 * p.1 * I.2 ^ 2 * 100000 ^ p.2) &&
  decide (2 * I.1 * 2 ^ (nu - N) * (16 * qb k l) ^ (2 * N - nu) * 10 ^ 10 ≤ 18 * I.2 * 2415 ^ (2 * N - nu) * N.factorial)

def theta (d : Dir) (k l i : Nat) : Nat :=
  let e := 1600 * qb k l / 483
  let b := (d.c * (e + yLo k l i) + d.s * xa i) / d.h
  max 1000 (1000 * (b + rt (b ^ 2 + 2000000 * (7 + k) * (d.c ^ 2 - d.s ^ 2) / d.h ^ 2)) / (2 * e))

/-- An upper bound of `θ η` minus the real part of the argument times the direction. -/
def restB (d : Dir) (k l i : Nat) : Nat :=
  ((theta d k l i * d.h - 1000 * d.c) * (1600 * qb k l) / 483000 - (d.c * yLo k l i + d.s * xa i)) / d.h + 1

/-- The checks of the rest of the series. -/
def okT (k l i : Nat) (d : Dir) : Bool :=
  let N := 7 + k
  let θ := theta d k l i
  let b := restB d k l i
  let κ := kappa d b
  decide (1000 ≤ θ) && kOk d b κ &&
  decide (θ * d.h * (1600 * qb k l) ≤ 483000 * (b * d.h + d.c * yLo k l i + d.s * xa i) + 1000 * d.c * (1600 * qb k l)) &&
  decide (d.S * 113315 ^ κ * 1000 ^ N * 10 ^ 10 ≤ 12 * 10000 * 100000 ^ κ * θ ^ N)

/-- All checks of a cell. -/
def ok (k l i : Nat) : Bool :=
  !feasible k l i || (yOk k l i && reOk k l i && (decide (26 ≤ i) || decide (0 < reLo k l i)) &&
    dirs.any (okI k l i) && dirs.any (okT k l i))

/-- `f i` for all `i < n`. -/
def all (f : Nat → Bool) : Nat → Bool
  | 0 => true
  | n + 1 => f n && all f n

def allOk : Bool :=
  dirs.all Dir.ok && all sOk 27 && all (fun n => decide (0 < tau n)) 14 &&
    all (fun k => all (fun l => all (fun i => ok k l i) 27) 22) 24

theorem allOk_true : allOk = true := by decide +kernel

end Cells
end Beam
end SixTrack

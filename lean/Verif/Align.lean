import Verif.Basic

/-!
# Alignment arithmetic

Model of `/repo/sixtracklib/common/buffer/alignment.h` (lines 77-199) and
`/repo/sixtracklib/common/buffer/alignment.c` (lines 16-78).

All quantities are `SIXTRL_UINT64_T`; a value is a `Nat` below `2^64` and an
operation that can exceed the range is followed by `u64`, the wrap-around of C's
unsigned arithmetic.
-/

namespace SixTrack.Align

/-- Wrap-around of unsigned 64-bit arithmetic. -/
def u64 (n : Nat) : Nat := n % 2 ^ 64

/-- The `for` loop of `NS(log2_floor)` (alignment.h:91-95): `N` runs from 1, the
loop is left as soon as `x < (1 << N) - 1`, and the increment expression
`result = N++` stores the old `N`. -/
def log2FloorLoop (x N result : Nat) : Nat :=
  if _h : N < 64 then
    if x < (2 ^ N - 1) then result else log2FloorLoop x (N + 1) N
  else result
termination_by 64 - N

/-- `NS(log2_floor)` (alignment.h:77-99). -/
def log2Floor (x : Nat) : Nat :=
  if 0x7FFFFFFFFFFFFFFF < x then 63
  else if 0 < x then log2FloorLoop x 1 0
  else 0

/-- `NS(log2_ceil)` (alignment.h:101-107). -/
def log2Ceil (x : Nat) : Nat :=
  if log2Floor x < 63 then log2Floor x + 1 else log2Floor x

/-- `NS(greatest_common_divisor)` (alignment.h:111-126; also
internal/tools.h:29-44).  The test `a == ZERO` in the loop body never holds. -/
def gcd (a b : Nat) : Nat :=
  if h : a ≠ 0 ∧ b ≠ 0 then
    if b % a = 0 then a
    else gcd (a % (b % a)) (b % a)
  else if b < a then a else b
termination_by a
decreasing_by
  have h1 : b % a < a := Nat.mod_lt _ (Nat.pos_of_ne_zero h.1)
  have h2 : a % (b % a) < b % a := Nat.mod_lt _ (by omega)
  omega

/-- `NS(least_common_multiple)` (alignment.h:130-137): the product is formed
first, in 64 bits. -/
def lcm (a b : Nat) : Nat :=
  if gcd a b ≠ 0 then u64 (a * b) / gcd a b else 0

/-- `NS(Alignment_calculate_common)` (alignment.h:141-145). -/
def common (s t : Nat) : Nat := lcm s t

/-- `NS(Alignment_calculate_common3)` (alignment.h:147-152). -/
def common3 (s t u : Nat) : Nat := lcm (lcm s t) u

/-- `NS(Alignment_calculate_common4)` (alignment.h:154-161). -/
def common4 (s t u v : Nat) : Nat := lcm (lcm s t) (lcm u v)

/-- `NS(Alignment_calculate_common5)` (alignment.h:163-169). -/
def common5 (s t u v w : Nat) : Nat := common (common4 s t u v) w

/-- `NS(Alignment_calculate_common6)` (alignment.h:171-179). -/
def common6 (s t u v w x : Nat) : Nat := common (common4 s t u v) (common w x)

/-- `NS(Alignment_calculate_common7)` (alignment.h:181-189). -/
def common7 (s t u v w x y : Nat) : Nat := common (common4 s t u v) (common3 w x y)

/-- `NS(Alignment_calculate_common8)` (alignment.h:191-199). -/
def common8 (s t u v w x y z : Nat) : Nat :=
  common (common4 s t u v) (common4 w x y z)

/-- The working array of `NS(Alignment_calculate_commonN)`: 64 entries, not
initialised at first.  Reading an entry which was never written is undefined. -/
abbrev Temp := Nat → Option Nat

def Temp.get (t : Temp) (i : Nat) : Res Nat :=
  match t i with
  | some v => .ok v
  | none => .ub

def Temp.set (t : Temp) (i v : Nat) : Temp := fun j => if j = i then some v else t j

/-- Inner loop of `NS(Alignment_calculate_commonN)` (alignment.c:57-62).
`ii = jj - step` throughout.  The additions cannot wrap: the body is only
reached with `jj < L ≤ 64`, hence `step < 64` and `step2 < 128`. -/
def commonNInner (L step step2 : Nat) (kk jj : Nat) (t : Temp) : Res Temp :=
  if _h : jj < L ∧ 0 < step2 then do
    let a ← t.get (jj - step)
    let b ← t.get jj
    commonNInner L step step2 (kk + step) (jj + step2) (t.set kk (common a b))
  else .ok t
termination_by L - jj

/-- Outer loop of `NS(Alignment_calculate_commonN)` (alignment.c:51-65):
`while( step2 > 2u ) { … step2 <<= 1u; }`.  The shift wraps, so that the loop
ends after at most 64 rounds; `fuel` bounds the rounds and `none` would mean that
the bound was not enough. -/
def commonNOuter (L : Nat) : Nat → Nat → Temp → Res (Option Temp)
  | 0, _, _ => .ok none
  | fuel + 1, step2, t =>
    if 2 < step2 then do
      let t' ← commonNInner L (step2 / 2) step2 0 (step2 / 2) t
      commonNOuter L fuel (u64 (step2 * 2)) t'
    else .ok (some t)

/-- The working array after the two copy loops (alignment.c:41-49). -/
def commonNInit (numbers : List Nat) (L : Nat) : Temp := fun i =>
  if i < numbers.length then numbers[i]?
  else if i < L then some 1
  else none

/-- `NS(Alignment_calculate_commonN)` (alignment.c:16-78).  `LOG2_NUM_OPERANDS`
never exceeds 64, so the stack array `static_temp[ 64 ]` is always used; copying
more than 64 operands writes past its end. -/
def commonN (numbers : List Nat) : Res Nat :=
  let L := log2Ceil numbers.length
  if 64 < numbers.length then .ub
  else do
    match ← commonNOuter L 70 L (commonNInit numbers L) with
    | none => .ub
    | some t => t.get 0

end SixTrack.Align

import Verif.Basic
import Mathlib.Algebra.Order.Ring.Rat

/-!
# Comparing numbers and ranges of numbers

Source: `sixtracklib/common/internal/type_comparison_helpers.hpp`.

A `SIXTRL_REAL_T` is a NaN, one of the infinities or a rational number.  The two zeros of IEEE are one
number here (no comparison tells them apart).  Comparisons are exact.  The result of an addition or a
multiplication of two finite numbers is rounded: the rounding is a parameter `R`, and what is required
of it is `Rnd.Good` (facts about IEEE rounding to nearest).
-/

namespace SixTrack
namespace Cmp

/-- A double precision number. -/
inductive Dbl where
  | nan
  | ninf
  | fin (q : Rat)
  | pinf
  deriving DecidableEq, Repr

namespace Dbl

/-- `a < b`: false if one of them is a NaN. -/
def lt : Dbl → Dbl → Bool
  | fin a, fin b => decide (a < b)
  | ninf, fin _ => true
  | ninf, pinf => true
  | fin _, pinf => true
  | _, _ => false

/-- `a == b`: false if one of them is a NaN. -/
def eq : Dbl → Dbl → Bool
  | fin a, fin b => decide (a = b)
  | ninf, ninf => true
  | pinf, pinf => true
  | _, _ => false

/-- `a <= b`: false if one of them is a NaN. -/
def le (a b : Dbl) : Bool := lt a b || eq a b

/-- `-a`. -/
def neg : Dbl → Dbl
  | nan => nan
  | ninf => pinf
  | fin q => fin (-q)
  | pinf => ninf

/-- The number zero. -/
def zero : Dbl := fin 0

/-- `|a|`. -/
def abs : Dbl → Dbl
  | nan => nan
  | ninf => pinf
  | fin q => fin (if 0 ≤ q then q else -q)
  | pinf => pinf

end Dbl

/-- How the result of an operation is rounded. -/
structure Rnd where
  rd : Rat → Dbl

namespace Rnd

variable (R : Rnd)

/-- `a + b`. -/
def add : Dbl → Dbl → Dbl
  | .fin a, .fin b => R.rd (a + b)
  | .nan, _ => .nan
  | _, .nan => .nan
  | .pinf, .ninf => .nan
  | .ninf, .pinf => .nan
  | .pinf, _ => .pinf
  | _, .pinf => .pinf
  | .ninf, _ => .ninf
  | _, .ninf => .ninf

/-- `a - b`. -/
def sub (a b : Dbl) : Dbl := R.add a b.neg

/-- An infinity times a finite number. -/
def infMul (i : Dbl) (q : Rat) : Dbl :=
  if q = 0 then .nan else if 0 < q then i else i.neg

/-- `a * b`. -/
def mul : Dbl → Dbl → Dbl
  | .fin a, .fin b => R.rd (a * b)
  | .nan, _ => .nan
  | _, .nan => .nan
  | .pinf, .fin b => infMul .pinf b
  | .ninf, .fin b => infMul .ninf b
  | .fin a, .pinf => infMul .pinf a
  | .fin a, .ninf => infMul .ninf a
  | .pinf, .pinf => .pinf
  | .ninf, .ninf => .pinf
  | .pinf, .ninf => .ninf
  | .ninf, .pinf => .ninf

/-- What rounding to nearest does.  `rep` says which numbers a variable can hold. -/
structure Good (rep : Rat → Prop) : Prop where
  /-- the number zero exists, and with a number its opposite -/
  zero : rep 0
  neg : ∀ q : Rat, rep q → rep (-q)
  /-- rounding a number gives a number or an infinity -/
  num : ∀ q : Rat, R.rd q ≠ .nan
  /-- numbers that exist are not changed -/
  exact : ∀ q : Rat, rep q → R.rd q = .fin q
  /-- rounding keeps the order -/
  mono : ∀ a b : Rat, a ≤ b → (R.rd a).le (R.rd b) = true
  /-- rounding treats both signs alike -/
  odd : ∀ q : Rat, R.rd (-q) = (R.rd q).neg
  /-- the difference of two numbers that differ is not rounded to zero (gradual underflow) -/
  diff : ∀ a b : Rat, rep a → rep b → R.rd (a - b) = .fin 0 → a = b

end Rnd

/-! ### The functions for C -/

/-- `Type_comp_less` (and `..._all_less`, `..._any_less`; type_comparison_helpers.hpp:741-745, 779-783,
817-821). -/
def less (a b : Dbl) : Bool := a.lt b

/-- `Type_comp_less_or_equal` (747-751). -/
def lessOrEqual (a b : Dbl) : Bool := a.le b

/-- `Type_comp_equal` (753-757). -/
def equal (a b : Dbl) : Bool := a.eq b

/-- `Type_comp_not_equal` (759-763). -/
def notEqual (a b : Dbl) : Bool := !a.eq b

/-- `Type_comp_more_or_equal` (765-769). -/
def moreOrEqual (a b : Dbl) : Bool := b.le a

/-- `Type_comp_more` (771-775). -/
def more (a b : Dbl) : Bool := b.lt a

/-- The difference that `Type_comp_is_close` looks at (type_comparison_helpers.hpp:859). -/
def closeDiff (R : Rnd) (lhs rhs : Dbl) : Dbl :=
  if rhs.le lhs then R.sub lhs rhs else R.sub rhs lhs

/-- The bound it is compared with (860-862). -/
def closeBound (R : Rnd) (rhs rel abs : Dbl) : Dbl :=
  R.add (R.mul (if Dbl.zero.le rhs then rhs else rhs.neg) rel) abs

/-- `Type_comp_is_close` (855-865; `..._all_are_close`, `..._any_are_close` do the same). -/
def isClose (R : Rnd) (lhs rhs rel abs : Dbl) : Bool :=
  (closeDiff R lhs rhs).le (closeBound R rhs rel abs)

/-- `Type_value_comp_result` (883-888). -/
def valueResult (lhs rhs : Dbl) : Int :=
  if equal lhs rhs then 0 else if more lhs rhs then 1 else -1

/-- `Type_value_comp_result_with_tolerances` (890-896). -/
def valueResultTol (R : Rnd) (rel abs lhs rhs : Dbl) : Int :=
  if isClose R lhs rhs rel abs then 0 else if more lhs rhs then 1 else -1

/-- `Type_value_comp_result_int64` (941-945). -/
def int64Result (lhs rhs : Int) : Int :=
  if lhs = rhs then 0 else if rhs < lhs then 1 else -1

/-- The loop of the functions that compare ranges (898-916, 918-937, 947-965): `l` holds the cells from
`lhs_it` up to `lhs_end`, `r` the cells that may be read from `rhs_it` on; reading further is undefined
behaviour.  (A range that ends before it begins and null pointers are not modelled.) -/
def rangeResult {α : Type} (cmp : α → α → Int) : List α → List α → Res Int
  | [], _ => .ok 0
  | _ :: _, [] => .ub
  | a :: l, b :: r => if cmp a b = 0 then rangeResult cmp l r else .ok (cmp a b)

/-! ### The templates for C++ (for a scalar real type) -/

namespace Cxx

/-- `Type_comp_less` (154-167). -/
def less (a b : Dbl) : Bool := a.lt b

/-- `Type_comp_equal` (169-182). -/
def equal (a b : Dbl) : Bool := a.eq b

/-- `Type_comp_less_or_equal` (184-197). -/
def lessOrEqual (a b : Dbl) : Bool := a.lt b || a.eq b

/-- `Type_comp_more` (199-209). -/
def more (a b : Dbl) : Bool := !lessOrEqual a b

/-- `Type_comp_more_or_equal` (211-220). -/
def moreOrEqual (a b : Dbl) : Bool := !less a b

/-- `Type_comp_not_equal` (222-231). -/
def notEqual (a b : Dbl) : Bool := !equal a b

/-- `Type_comp_is_close` (384-407). -/
def isClose (R : Rnd) (lhs rhs rel abs : Dbl) : Bool :=
  lessOrEqual (R.sub lhs rhs).abs (R.add (R.mul rhs.abs rel) abs)

/-- `TypeCompResultTraits< int >::CMP_LHS_LARGER_RHS` (59-60). -/
def LARGER : Int := 2147483647

/-- `TypeCompResultTraits< int >::CMP_LHS_SMALLER_RHS` (62-63). -/
def SMALLER : Int := -2147483648

/-- `Type_value_comp_result` (437-460); the arguments are passed on in the reverse order. -/
def valueResult (lhs rhs : Dbl) : Int :=
  if equal rhs lhs then 0 else if more rhs lhs then LARGER else SMALLER

/-- `Type_value_comp_result` with tolerances (462-487). -/
def valueResultTol (R : Rnd) (rel abs lhs rhs : Dbl) : Int :=
  if isClose R rhs lhs rel abs then 0 else if more rhs lhs then LARGER else SMALLER

end Cxx

end Cmp
end SixTrack

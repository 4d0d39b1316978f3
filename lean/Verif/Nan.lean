import Verif.ElementsReal

/-!
# Real numbers with a NaN

Enough of IEEE arithmetic to say what happens when a coordinate stops being a number: every operation
with a NaN gives a NaN and every comparison with one is false.  A root of a negative number is a NaN.
A division by zero is taken to give a NaN too (the infinities are not modelled).  Rounding is not
modelled.
-/

namespace SixTrack
namespace Elem

/-- A floating point number: NaN or a real number. -/
inductive Fl where
  | nan
  | num (r : ℝ)

namespace Fl

noncomputable section

/-- A binary operation. -/
def map2 (f : ℝ → ℝ → ℝ) : Fl → Fl → Fl
  | num a, num b => num (f a b)
  | _, _ => nan

instance : Zero Fl := ⟨num 0⟩
instance : One Fl := ⟨num 1⟩
instance : NatCast Fl := ⟨fun n => num n⟩
instance : Add Fl := ⟨map2 (· + ·)⟩
instance : Sub Fl := ⟨map2 (· - ·)⟩
instance : Mul Fl := ⟨map2 (· * ·)⟩
instance : Div Fl := ⟨fun a b =>
  match a, b with
  | num a, num b => if b = 0 then nan else num (a / b)
  | _, _ => nan⟩
instance : Neg Fl := ⟨fun a => match a with
  | num a => num (-a)
  | nan => nan⟩

/-- `a < b`, false if one of them is a NaN. -/
def ltF : Fl → Fl → Prop
  | num a, num b => a < b
  | _, _ => False

/-- `a <= b`, false if one of them is a NaN. -/
def leF : Fl → Fl → Prop
  | num a, num b => a ≤ b
  | _, _ => False

instance : LT Fl := ⟨ltF⟩
instance : LE Fl := ⟨leF⟩
instance : DecidableLT Fl := fun a b => Classical.propDecidable (a < b)
instance : DecidableLE Fl := fun a b => Classical.propDecidable (a ≤ b)

instance : RealOps Fl where
  sqrt := fun a => match a with
    | num a => if a < 0 then nan else num (Real.sqrt a)
    | nan => nan
  sin := fun a => match a with
    | num a => num (Real.sin a)
    | nan => nan
  cos := fun a => match a with
    | num a => num (Real.cos a)
    | nan => nan
  pi := num Real.pi

end

@[simp] theorem nan_add (a : Fl) : nan + a = nan := rfl
@[simp] theorem add_nan (a : Fl) : a + nan = nan := by cases a <;> rfl
@[simp] theorem nan_sub (a : Fl) : nan - a = nan := rfl
@[simp] theorem sub_nan (a : Fl) : a - nan = nan := by cases a <;> rfl
@[simp] theorem nan_mul (a : Fl) : nan * a = nan := rfl
@[simp] theorem mul_nan (a : Fl) : a * nan = nan := by cases a <;> rfl
@[simp] theorem nan_div (a : Fl) : nan / a = nan := rfl
@[simp] theorem div_nan (a : Fl) : a / nan = nan := by cases a <;> rfl
@[simp] theorem neg_nan : -nan = nan := rfl
@[simp] theorem not_nan_lt (a : Fl) : ¬ nan < a := fun h => h
@[simp] theorem not_lt_nan (a : Fl) : ¬ a < nan := by cases a <;> exact fun h => h
@[simp] theorem not_nan_le (a : Fl) : ¬ nan ≤ a := fun h => h
@[simp] theorem not_le_nan (a : Fl) : ¬ a ≤ nan := by cases a <;> exact fun h => h
@[simp] theorem num_add (a b : ℝ) : num a + num b = num (a + b) := rfl
@[simp] theorem num_sub (a b : ℝ) : num a - num b = num (a - b) := rfl
@[simp] theorem num_mul (a b : ℝ) : num a * num b = num (a * b) := rfl
@[simp] theorem num_neg (a : ℝ) : -num a = num (-a) := rfl
theorem num_div (a b : ℝ) (h : b ≠ 0) : num a / num b = num (a / b) := by
  show (if b = 0 then nan else num (a / b)) = _
  rw [if_neg h]
theorem one_eq : (1 : Fl) = num 1 := rfl
theorem zero_eq : (0 : Fl) = num 0 := rfl
theorem cast_eq (n : Nat) : ((n : Nat) : Fl) = num n := rfl
theorem sqrt_neg (a : ℝ) (h : a < 0) : (RealOps.sqrt (num a) : Fl) = nan := by
  show (if a < 0 then nan else num (Real.sqrt a)) = nan
  rw [if_pos h]
theorem sqrt_num (a : ℝ) (h : 0 ≤ a) : (RealOps.sqrt (num a) : Fl) = num (Real.sqrt a) := by
  show (if a < 0 then nan else num (Real.sqrt a)) = _
  rw [if_neg (not_lt.mpr h)]

end Fl
end Elem
end SixTrack

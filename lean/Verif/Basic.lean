/-!
# Shared vocabulary of the model

`Res α` is the outcome of running a piece of C code: either it returns a value,
or its behaviour is undefined (`ub`).  Checked signed 64-bit arithmetic turns a
signed overflow or a division by zero into `ub`.
-/

namespace SixTrack

/-- Outcome of a C computation: a value, or undefined behaviour. -/
inductive Res (α : Type) where
  | ok (a : α)
  | ub
  deriving DecidableEq, Repr

namespace Res

/-- Sequencing: undefined behaviour is contagious. -/
def bind {α β : Type} : Res α → (α → Res β) → Res β
  | ok a, f => f a
  | ub, _ => ub

instance : Monad Res where
  pure := ok
  bind := bind

@[simp] theorem pure_eq {α : Type} (a : α) : (pure a : Res α) = ok a := rfl
@[simp] theorem ok_bind {α β : Type} (a : α) (f : α → Res β) : (ok a >>= f) = f a := rfl
@[simp] theorem ub_bind {α β : Type} (f : α → Res β) : ((ub : Res α) >>= f) = ub := rfl
@[simp] theorem ok_inj {α : Type} (a b : α) : (ok a = ok b) ↔ a = b :=
  ⟨fun h => by cases h; rfl, fun h => h ▸ rfl⟩

theorem bind_eq_ok {α β : Type} {x : Res α} {f : α → Res β} {b : β} :
    (x >>= f) = ok b ↔ ∃ a, x = ok a ∧ f a = ok b := by
  cases x with
  | ok a => simp
  | ub => simp

end Res

/-- The range of `int64_t` (`SIXTRL_INT64_T`). -/
def I64 (z : Int) : Prop := -2^63 ≤ z ∧ z < 2^63

instance (z : Int) : Decidable (I64 z) := by unfold I64; infer_instance

/-- The mathematical result `z` of a signed 64-bit operation: undefined
behaviour in C if it is not representable. -/
def i64 (z : Int) : Res Int := if I64 z then .ok z else .ub

theorem i64_ok {z : Int} (h : I64 z) : i64 z = .ok z := by simp [i64, h]

/-- C's `/` on `int64_t`: truncating, undefined for divisor `0` (and for
`INT64_MIN / -1`, which is caught by the range check). -/
def divI (a b : Int) : Res Int := if b = 0 then .ub else i64 (a.tdiv b)

/-- C's `%` on `int64_t`: sign of the dividend, undefined for divisor `0` and
whenever the quotient is not representable. -/
def modI (a b : Int) : Res Int :=
  if b = 0 then .ub else if I64 (a.tdiv b) then .ok (a.tmod b) else .ub

/-- Common status codes (`sixtracklib/common/control/definitions.h`:
`SIXTRL_ARCH_STATUS_SUCCESS` = 0, `SIXTRL_ARCH_STATUS_GENERAL_FAILURE` = -1). -/
def SUCCESS : Int := 0
def FAILURE : Int := -1

end SixTrack

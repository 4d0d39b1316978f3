import Verif.KickMap
import Mathlib.Tactic.FinCases

/-!
# The kick of a slice as the pullback of the field

`e1`, `e2`, `g1`, `g2` are the forces along the coordinates in the principal axes and along the squares
of the sizes; `c`, `s`, `p`, `q` the cosine and the sine of the angle and the squares of the sizes at the
collision point, `c1`, `s1`, `p1`, `q1` their derivatives.
-/

namespace SixTrack
namespace Elem

/-- A function of four variables, and what is known about its derivatives. -/
abbrev Fun4 := ℝ → ℝ → ℝ → ℝ → ℝ

/-- The derivatives along all curves through the point are given by the row of numbers. -/
def Row (f : Fun4) (x y p q m1 m2 m3 m4 : ℝ) : Prop :=
  ∀ (cx cy cp cq : ℝ → ℝ) (x' y' p' q' : ℝ), cx 0 = x → cy 0 = y → cp 0 = p → cq 0 = q →
    HasDerivAt cx x' 0 → HasDerivAt cy y' 0 → HasDerivAt cp p' 0 → HasDerivAt cq q' 0 →
    HasDerivAt (fun t => f (cx t) (cy t) (cp t) (cq t)) (m1 * x' + m2 * y' + m3 * p' + m4 * q') 0

/-- The kick. -/
noncomputable def pullF (k : ℝ) (e1 e2 g1 g2 : Fun4) (c s p q c1 s1 p1 q1 : ℝ → ℝ) (x0 y0 s0 : ℝ) (u : E3) : E3 :=
  let S := (u.2.2 - s0) / 2
  let x := u.1 - x0
  let y := u.2.1 - y0
  let X := x * c S + y * s S
  let Y := -x * s S + y * c S
  let a1 := k * e1 X Y (p S) (q S)
  let a2 := k * e2 X Y (p S) (q S)
  let a3 := k * g1 X Y (p S) (q S)
  let a4 := k * g2 X Y (p S) (q S)
  (a1 * c S - a2 * s S, a1 * s S + a2 * c S,
    (a1 * (x * c1 S + y * s1 S) + a2 * (-x * s1 S + y * c1 S) + a3 * p1 S + a4 * q1 S) / 2)

section
variable {k : ℝ} {e1 e2 g1 g2 : Fun4} {c s p q c1 s1 p1 q1 : ℝ → ℝ} {x0 y0 s0 : ℝ} {u : E3}
  {c2 s2 p2 q2 : ℝ} {m11 m12 m13 m14 m22 m23 m24 m33 m34 m44 : ℝ}

theorem pullF_symm
    (hc : HasDerivAt c (c1 ((u.2.2 - s0) / 2)) ((u.2.2 - s0) / 2))
    (hs : HasDerivAt s (s1 ((u.2.2 - s0) / 2)) ((u.2.2 - s0) / 2))
    (hp : HasDerivAt p (p1 ((u.2.2 - s0) / 2)) ((u.2.2 - s0) / 2))
    (hq : HasDerivAt q (q1 ((u.2.2 - s0) / 2)) ((u.2.2 - s0) / 2))
    (hc1 : HasDerivAt c1 c2 ((u.2.2 - s0) / 2)) (hs1 : HasDerivAt s1 s2 ((u.2.2 - s0) / 2))
    (hp1 : HasDerivAt p1 p2 ((u.2.2 - s0) / 2)) (hq1 : HasDerivAt q1 q2 ((u.2.2 - s0) / 2))
    {X Y P Q : ℝ} (hX : X = (u.1 - x0) * c ((u.2.2 - s0) / 2) + (u.2.1 - y0) * s ((u.2.2 - s0) / 2))
    (hY : Y = -(u.1 - x0) * s ((u.2.2 - s0) / 2) + (u.2.1 - y0) * c ((u.2.2 - s0) / 2))
    (hP : P = p ((u.2.2 - s0) / 2)) (hQ : Q = q ((u.2.2 - s0) / 2))
    (h1 : Row e1 X Y P Q m11 m12 m13 m14) (h2 : Row e2 X Y P Q m12 m22 m23 m24)
    (h3 : Row g1 X Y P Q m13 m23 m33 m34) (h4 : Row g2 X Y P Q m14 m24 m34 m44)
    (hd : DifferentiableAt ℝ (pullF k e1 e2 g1 g2 c s p q c1 s1 p1 q1 x0 y0 s0) u) :
    ∃ L : E3 →L[ℝ] E3, HasFDerivAt (pullF k e1 e2 g1 g2 c s p q c1 s1 p1 q1 x0 y0 s0) L u ∧
      ∀ a b, dot (L a) b = dot (L b) a := by
  obtain ⟨L, hL⟩ := hd
  refine ⟨L, hL, ?_⟩
  generalize hS : (u.2.2 - s0) / 2 = S at *
  have key : ∀ a : E3, ∃ D : E3, L a = D ∧
      let X' := a.1 * c S + a.2.1 * s S + ((u.1 - x0) * c1 S + (u.2.1 - y0) * s1 S) * (a.2.2 / 2)
      let Y' := -a.1 * s S + a.2.1 * c S + (-(u.1 - x0) * s1 S + (u.2.1 - y0) * c1 S) * (a.2.2 / 2)
      let P' := p1 S * (a.2.2 / 2)
      let Q' := q1 S * (a.2.2 / 2)
      let A1 := k * (m11 * X' + m12 * Y' + m13 * P' + m14 * Q')
      let A2 := k * (m12 * X' + m22 * Y' + m23 * P' + m24 * Q')
      let A3 := k * (m13 * X' + m23 * Y' + m33 * P' + m34 * Q')
      let A4 := k * (m14 * X' + m24 * Y' + m34 * P' + m44 * Q')
      let a1 := k * e1 X Y P Q
      let a2 := k * e2 X Y P Q
      let a3 := k * g1 X Y P Q
      let a4 := k * g2 X Y P Q
      D.1 = A1 * c S - A2 * s S + (a1 * c1 S - a2 * s1 S) * (a.2.2 / 2) ∧
      D.2.1 = A1 * s S + A2 * c S + (a1 * s1 S + a2 * c1 S) * (a.2.2 / 2) ∧
      D.2.2 = (A1 * ((u.1 - x0) * c1 S + (u.2.1 - y0) * s1 S) + A2 * (-(u.1 - x0) * s1 S + (u.2.1 - y0) * c1 S) +
        A3 * p1 S + A4 * q1 S + a1 * (a.1 * c1 S + a.2.1 * s1 S) + a2 * (-a.1 * s1 S + a.2.1 * c1 S) +
        (a1 * ((u.1 - x0) * c2 + (u.2.1 - y0) * s2) + a2 * (-(u.1 - x0) * s2 + (u.2.1 - y0) * c2) +
          a3 * p2 + a4 * q2) * (a.2.2 / 2)) / 2 := by
    intro a
    have hl : HasDerivAt (fun t : ℝ => u + t • a) a 0 := by
      have := ((hasDerivAt_id (0 : ℝ)).smul_const a).const_add u
      simpa using this
    have hL0 : HasFDerivAt (pullF k e1 e2 g1 g2 c s p q c1 s1 p1 q1 x0 y0 s0) L (u + (0 : ℝ) • a) := by simpa using hL
    have hLa := hL0.comp_hasDerivAt 0 hl
    have l : ∀ x y : ℝ, HasDerivAt (fun t : ℝ => x + t * y) y 0 := fun x y => by
      have := ((hasDerivAt_id (0 : ℝ)).mul_const y).const_add x
      simpa using this
    have lx := (l u.1 a.1).sub_const x0
    have ly := (l u.2.1 a.2.1).sub_const y0
    have lS := ((l u.2.2 a.2.2).sub_const s0).div_const 2
    have eS : (u.2.2 + 0 * a.2.2 - s0) / 2 = S := by rw [← hS]; ring
    have comp : ∀ {f : ℝ → ℝ} {f' : ℝ}, HasDerivAt f f' S →
        HasDerivAt (fun t : ℝ => f ((u.2.2 + t * a.2.2 - s0) / 2)) (f' * (a.2.2 / 2)) 0 := by
      intro f f' hf
      have hf0 : HasDerivAt f f' ((u.2.2 + 0 * a.2.2 - s0) / 2) := by rw [eS]; exact hf
      exact hf0.comp (0 : ℝ) lS
    have kc := comp hc
    have ks := comp hs
    have kp := comp hp
    have kq := comp hq
    have kc1 := comp hc1
    have ks1 := comp hs1
    have kp1 := comp hp1
    have kq1 := comp hq1
    have lX := (lx.mul kc).add (ly.mul ks)
    have lY := (lx.neg.mul ks).add (ly.mul kc)
    have eX : (((fun x => u.1 + x * a.1 - x0) * fun t => c ((u.2.2 + t * a.2.2 - s0) / 2)) +
        (fun x => u.2.1 + x * a.2.1 - y0) * fun t => s ((u.2.2 + t * a.2.2 - s0) / 2)) (0 : ℝ) = X := by
      simp only [Pi.add_apply, Pi.mul_apply, zero_mul, add_zero, hS, hX]
    have eY : (((-fun x => u.1 + x * a.1 - x0) * fun t => s ((u.2.2 + t * a.2.2 - s0) / 2)) +
        (fun x => u.2.1 + x * a.2.1 - y0) * fun t => c ((u.2.2 + t * a.2.2 - s0) / 2)) (0 : ℝ) = Y := by
      simp only [Pi.add_apply, Pi.mul_apply, Pi.neg_apply, zero_mul, add_zero, hS, hY]
    have eP : p ((u.2.2 + 0 * a.2.2 - s0) / 2) = P := by rw [eS, hP]
    have eQ : q ((u.2.2 + 0 * a.2.2 - s0) / 2) = Q := by rw [eS, hQ]
    have r1 := h1 _ _ _ _ _ _ _ _ eX eY eP eQ lX lY kp kq
    have r2 := h2 _ _ _ _ _ _ _ _ eX eY eP eQ lX lY kp kq
    have r3 := h3 _ _ _ _ _ _ _ _ eX eY eP eQ lX lY kp kq
    have r4 := h4 _ _ _ _ _ _ _ _ eX eY eP eQ lX lY kp kq
    have lDX := (lx.mul kc1).add (ly.mul ks1)
    have lDY := (lx.neg.mul ks1).add (ly.mul kc1)
    have f1 := ((r1.const_mul k).mul kc).sub ((r2.const_mul k).mul ks)
    have f2 := ((r1.const_mul k).mul ks).add ((r2.const_mul k).mul kc)
    have f3 := (((((r1.const_mul k).mul lDX).add ((r2.const_mul k).mul lDY)).add ((r3.const_mul k).mul kp1)).add
      ((r4.const_mul k).mul kq1)).div_const 2
    have hF := f1.prodMk (f2.prodMk f3)
    refine ⟨_, hLa.unique hF, ?_⟩
    simp only [Pi.add_apply, Pi.mul_apply, Pi.neg_apply, zero_mul, add_zero, hS, ← hX, ← hY, ← hP, ← hQ]
    refine ⟨?_, ?_, ?_⟩ <;> ring
  intro a b
  obtain ⟨Da, ha, ha1, ha2, ha3⟩ := key a
  obtain ⟨Db, hb, hb1, hb2, hb3⟩ := key b
  rw [ha, hb, dot, dot, ha1, ha2, ha3, hb1, hb2, hb3]
  ring

/-- The kick is differentiable if its parts are. -/
theorem pullF_diff
    (hc : DifferentiableAt ℝ c ((u.2.2 - s0) / 2)) (hs : DifferentiableAt ℝ s ((u.2.2 - s0) / 2))
    (hp : DifferentiableAt ℝ p ((u.2.2 - s0) / 2)) (hq : DifferentiableAt ℝ q ((u.2.2 - s0) / 2))
    (hc1 : DifferentiableAt ℝ c1 ((u.2.2 - s0) / 2)) (hs1 : DifferentiableAt ℝ s1 ((u.2.2 - s0) / 2))
    (hp1 : DifferentiableAt ℝ p1 ((u.2.2 - s0) / 2)) (hq1 : DifferentiableAt ℝ q1 ((u.2.2 - s0) / 2))
    {z : ℝ × ℝ × ℝ × ℝ} (hz : z = ((u.1 - x0) * c ((u.2.2 - s0) / 2) + (u.2.1 - y0) * s ((u.2.2 - s0) / 2),
      -(u.1 - x0) * s ((u.2.2 - s0) / 2) + (u.2.1 - y0) * c ((u.2.2 - s0) / 2), p ((u.2.2 - s0) / 2),
      q ((u.2.2 - s0) / 2)))
    (h1 : DifferentiableAt ℝ (fun z : ℝ × ℝ × ℝ × ℝ => e1 z.1 z.2.1 z.2.2.1 z.2.2.2) z)
    (h2 : DifferentiableAt ℝ (fun z : ℝ × ℝ × ℝ × ℝ => e2 z.1 z.2.1 z.2.2.1 z.2.2.2) z)
    (h3 : DifferentiableAt ℝ (fun z : ℝ × ℝ × ℝ × ℝ => g1 z.1 z.2.1 z.2.2.1 z.2.2.2) z)
    (h4 : DifferentiableAt ℝ (fun z : ℝ × ℝ × ℝ × ℝ => g2 z.1 z.2.1 z.2.2.1 z.2.2.2) z) :
    DifferentiableAt ℝ (pullF k e1 e2 g1 g2 c s p q c1 s1 p1 q1 x0 y0 s0) u := by
  have lin : DifferentiableAt ℝ (fun u : E3 => (u.2.2 - s0) / 2) u := by fun_prop
  have comp : ∀ {f : ℝ → ℝ}, DifferentiableAt ℝ f ((u.2.2 - s0) / 2) →
      DifferentiableAt ℝ (fun u : E3 => f ((u.2.2 - s0) / 2)) u := by
    intro f hf
    exact DifferentiableAt.comp u hf lin
  have kc := comp hc
  have ks := comp hs
  have kp := comp hp
  have kq := comp hq
  have kc1 := comp hc1
  have ks1 := comp hs1
  have kp1 := comp hp1
  have kq1 := comp hq1
  have lz : DifferentiableAt ℝ (fun u : E3 =>
      (((u.1 - x0) * c ((u.2.2 - s0) / 2) + (u.2.1 - y0) * s ((u.2.2 - s0) / 2),
      -(u.1 - x0) * s ((u.2.2 - s0) / 2) + (u.2.1 - y0) * c ((u.2.2 - s0) / 2), p ((u.2.2 - s0) / 2),
      q ((u.2.2 - s0) / 2)) : ℝ × ℝ × ℝ × ℝ)) u := by
    fun_prop
  subst hz
  have r1 := DifferentiableAt.comp u h1 lz
  have r2 := DifferentiableAt.comp u h2 lz
  have r3 := DifferentiableAt.comp u h3 lz
  have r4 := DifferentiableAt.comp u h4 lz
  unfold Function.comp at r1 r2 r3 r4
  simp only at r1 r2 r3 r4
  unfold pullF
  simp only
  fun_prop
end

end Elem
end SixTrack

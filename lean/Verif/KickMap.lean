import Verif.Lift

/-!
# Kicks which depend on the positions, and the change of variables to the collision point
-/

namespace SixTrack
namespace Elem

/-- The momenta change by a function of the positions. -/
def kickMap (F : E3 → E3) (v : V) : V :=
  (v.1, v.2.1 + (F (qOf v)).1, v.2.2.1, v.2.2.2.1 + (F (qOf v)).2.1, v.2.2.2.2.1, v.2.2.2.2.2 + (F (qOf v)).2.2)

theorem hasDerivAt_lineV (v a : V) : HasDerivAt (fun t : ℝ => v + t • a) a 0 := by
  have := ((hasDerivAt_id (0 : ℝ)).smul_const a).const_add v
  simpa using this

theorem kick_diff {G : V → E3} {v : V} (h : DifferentiableAt ℝ G v) :
    DifferentiableAt ℝ (fun v : V => ((v.1, v.2.1 + (G v).1, v.2.2.1, v.2.2.2.1 + (G v).2.1, v.2.2.2.2.1,
      v.2.2.2.2.2 + (G v).2.2) : V)) v := by
  fun_prop

/-- A kick with a symmetric matrix of derivatives is symplectic. -/
theorem kickMap_symplectic {F : E3 → E3} {v : V} {L : E3 →L[ℝ] E3} (hF : HasFDerivAt F L (qOf v))
    (hs : ∀ a b, dot (L a) b = dot (L b) a) : SymplecticAt (kickMap F) v := by
  have h0 : HasFDerivAt (fun v => F (qOf v)) (L.comp qL) v := hF.comp v qL.hasFDerivAt
  have hd : DifferentiableAt ℝ (kickMap F) v := by
    have h1 : DifferentiableAt ℝ (fun v => F (qOf v)) v := h0.differentiableAt
    exact kick_diff h1
  refine symplecticAt_of_lines hd (fun a => (a.1, a.2.1 + (L (qOf a)).1, a.2.2.1, a.2.2.2.1 + (L (qOf a)).2.1, a.2.2.2.2.1,
    a.2.2.2.2.2 + (L (qOf a)).2.2)) (fun a => ?_) (fun a b => ?_)
  · have hl := hasDerivAt_lineV v a
    have h2 : HasFDerivAt (fun v => F (qOf v)) (L.comp qL) (v + (0 : ℝ) • a) := by simpa using h0
    have h3 : HasDerivAt ((fun v => F (qOf v)) ∘ fun t : ℝ => v + t • a) ((L.comp qL) a) 0 := h2.comp_hasDerivAt 0 hl
    have p1 := (ContinuousLinearMap.fst ℝ ℝ (ℝ × ℝ × ℝ × ℝ × ℝ)).hasFDerivAt.comp_hasDerivAt 0 hl
    have r1 := (ContinuousLinearMap.snd ℝ ℝ (ℝ × ℝ × ℝ × ℝ × ℝ)).hasFDerivAt.comp_hasDerivAt 0 hl
    have p2 := (ContinuousLinearMap.fst ℝ ℝ (ℝ × ℝ × ℝ × ℝ)).hasFDerivAt.comp_hasDerivAt 0 r1
    have r2 := (ContinuousLinearMap.snd ℝ ℝ (ℝ × ℝ × ℝ × ℝ)).hasFDerivAt.comp_hasDerivAt 0 r1
    have p3 := (ContinuousLinearMap.fst ℝ ℝ (ℝ × ℝ × ℝ)).hasFDerivAt.comp_hasDerivAt 0 r2
    have r3 := (ContinuousLinearMap.snd ℝ ℝ (ℝ × ℝ × ℝ)).hasFDerivAt.comp_hasDerivAt 0 r2
    have p4 := (ContinuousLinearMap.fst ℝ ℝ (ℝ × ℝ)).hasFDerivAt.comp_hasDerivAt 0 r3
    have r4 := (ContinuousLinearMap.snd ℝ ℝ (ℝ × ℝ)).hasFDerivAt.comp_hasDerivAt 0 r3
    have p5 := (ContinuousLinearMap.fst ℝ ℝ ℝ).hasFDerivAt.comp_hasDerivAt 0 r4
    have p6 := (ContinuousLinearMap.snd ℝ ℝ ℝ).hasFDerivAt.comp_hasDerivAt 0 r4
    have f1 := (ContinuousLinearMap.fst ℝ ℝ (ℝ × ℝ)).hasFDerivAt.comp_hasDerivAt 0 h3
    have g1 := (ContinuousLinearMap.snd ℝ ℝ (ℝ × ℝ)).hasFDerivAt.comp_hasDerivAt 0 h3
    have f2 := (ContinuousLinearMap.fst ℝ ℝ ℝ).hasFDerivAt.comp_hasDerivAt 0 g1
    have f3 := (ContinuousLinearMap.snd ℝ ℝ ℝ).hasFDerivAt.comp_hasDerivAt 0 g1
    exact p1.prodMk ((p2.add f1).prodMk (p3.prodMk ((p4.add f2).prodMk (p5.prodMk (p6.add f3)))))
  · have h := hs (qOf a) (qOf b)
    simp only [dot, qOf] at h
    simp only [omega, qOf]
    linear_combination -h

/-- The transverse positions at the collision point, half the distance from the reference of the
slice at `s0`, for `e = 1`; and back for `e = -1`. -/
noncomputable def slideMap (e s0 : ℝ) (v : V) : V :=
  (v.1 + e * v.2.1 * ((v.2.2.2.2.1 - s0) / 2), v.2.1, v.2.2.1 + e * v.2.2.2.1 * ((v.2.2.2.2.1 - s0) / 2), v.2.2.2.1,
    v.2.2.2.2.1, v.2.2.2.2.2 - e * (v.2.1 ^ 2 + v.2.2.2.1 ^ 2) / 4)

theorem slideMap_symplectic (e s0 : ℝ) (v : V) : SymplecticAt (slideMap e s0) v := by
  have hd : DifferentiableAt ℝ (slideMap e s0) v := by
    unfold slideMap
    fun_prop
  refine symplecticAt_of_lines hd (fun a => (
    a.1 + e * a.2.1 * ((v.2.2.2.2.1 - s0) / 2) + e * v.2.1 * (a.2.2.2.2.1 / 2), a.2.1,
    a.2.2.1 + e * a.2.2.2.1 * ((v.2.2.2.2.1 - s0) / 2) + e * v.2.2.2.1 * (a.2.2.2.2.1 / 2), a.2.2.2.1,
    a.2.2.2.2.1, a.2.2.2.2.2 - e * (v.2.1 * a.2.1 + v.2.2.2.1 * a.2.2.2.1) / 2)) (fun a => ?_) (fun a b => ?_)
  · have l : ∀ x y : ℝ, HasDerivAt (fun t : ℝ => x + t * y) y 0 := fun x y => by
      have := ((hasDerivAt_id (0 : ℝ)).mul_const y).const_add x
      simpa using this
    have l1 := l v.1 a.1
    have l2 := l v.2.1 a.2.1
    have l3 := l v.2.2.1 a.2.2.1
    have l4 := l v.2.2.2.1 a.2.2.2.1
    have l5 := l v.2.2.2.2.1 a.2.2.2.2.1
    have l6 := l v.2.2.2.2.2 a.2.2.2.2.2
    have hS := (l5.sub_const s0).div_const 2
    refine ((l1.add ((l2.const_mul e).mul hS)).prodMk (l2.prodMk ((l3.add ((l4.const_mul e).mul hS)).prodMk
      (l4.prodMk (l5.prodMk (l6.sub (((l2.pow 2).add (l4.pow 2)).const_mul e |>.div_const 4))))))).congr_deriv ?_
    simp only [zero_mul, add_zero, Nat.cast_ofNat, Prod.mk.injEq]
    refine ⟨?_, trivial, ?_, trivial, trivial, ?_⟩ <;> ring
  · simp only [omega]
    ring

theorem slideMap_back (s0 : ℝ) (v : V) : slideMap (-1) s0 (slideMap 1 s0 v) = v := by
  unfold slideMap
  ext <;> simp
  ring

end Elem
end SixTrack

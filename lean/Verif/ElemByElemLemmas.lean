import Verif.ElemByElem
import Mathlib.Tactic.Ring
import Mathlib.Tactic.Linarith
import Mathlib.Algebra.Order.Ring.Int

/-! # Helper lemmas about element-by-element store indices -/

namespace SixTrack.EBE

theorem i64_of_bounds {z : Int} (h0 : 0 ≤ z) (h1 : z < 2^63) : i64 z = .ok z :=
  i64_ok ⟨by omega, h1⟩

theorem initDetailed_wf {c cfg : Cfg} {order minP maxP minE maxE minT maxT : Int} {roll : Bool}
    (hP : I64 maxP) (hE : I64 maxE) (hT : I64 maxT)
    (h : c.initDetailed order minP maxP minE maxE minT maxT roll = .ok (SUCCESS, cfg)) :
    cfg.WF ∧ cfg.order = order ∧ cfg.isRolling = roll ∧ cfg.minP = minP ∧ cfg.maxP = maxP ∧
      cfg.minE = minE ∧ cfg.maxE = maxE ∧ cfg.minT = minT ∧ cfg.maxT = maxT := by
  unfold Cfg.initDetailed at h
  split at h
  · rename_i hc
    simp only [Res.bind_eq_ok, Res.pure_eq, Res.ok_inj, Prod.mk.injEq, i64] at h
    obtain ⟨np, h1, ne, h2, nt, h3, -, rfl⟩ := h
    split at h1 <;> split at h2 <;> split at h3 <;> simp at h1 h2 h3
    subst h1 h2 h3
    obtain ⟨c0, c1, c2, c3, c4, c5, c6⟩ := hc
    refine ⟨⟨rfl, rfl, rfl, c1, c2, c3, c4, c5, c6, hP, hE, hT, c0⟩, rfl, ?_, rfl, rfl, rfl, rfl, rfl, rfl⟩
    cases roll <;> rfl
  · simp [SUCCESS, FAILURE] at h

theorem one_le_mul' {a b : Int} (ha : 1 ≤ a) (hb : 1 ≤ b) : 1 ≤ a * b := by nlinarith
theorem le_mul_right' {a b : Int} (ha : 0 ≤ a) (hb : 1 ≤ b) : a ≤ a * b := by nlinarith

/-- Positional value of (turn, element, particle) offsets. -/
def lin (np ne p e t : Int) : Int := t * np * ne + e * np + p

theorem lin_lt {np ne p e t : Int} (hp : 0 ≤ p ∧ p < np) (he : 0 ≤ e ∧ e < ne) (ht : 0 ≤ t) :
    0 ≤ lin np ne p e t ∧ lin np ne p e t < (t + 1) * (np * ne) := by
  unfold lin
  have h1 : 0 ≤ t * np * ne := by
    apply mul_nonneg (mul_nonneg ht (by omega)) (by omega)
  have h2 : 0 ≤ e * np := mul_nonneg he.1 (by omega)
  constructor
  · omega
  · have : e * np + p < np * ne := by nlinarith
    have h4 : (t + 1) * (np * ne) = t * np * ne + np * ne := by ring
    omega

theorem lin_mod {np ne p e t : Int} (hp : 0 ≤ p ∧ p < np) (he : 0 ≤ e ∧ e < ne) :
    lin np ne p e t % (np * ne) = e * np + p ∧ lin np ne p e t / (np * ne) = t := by
  have h2 : 0 ≤ e * np + p := by
    have : 0 ≤ e * np := mul_nonneg he.1 (by omega)
    omega
  have h3 : e * np + p < np * ne := by nlinarith
  have h4 : lin np ne p e t = (e * np + p) + (np * ne) * t := by unfold lin; ring
  rw [h4]
  constructor
  · rw [Int.add_mul_emod_self_left, Int.emod_eq_of_lt h2 h3]
  · rw [Int.add_mul_ediv_left _ _ (by omega), Int.ediv_eq_zero_of_lt h2 h3]; omega

theorem row_mod {np p e : Int} (hp : 0 ≤ p ∧ p < np) :
    (e * np + p) % np = p ∧ (e * np + p) / np = e := by
  have h4 : e * np + p = p + np * e := by ring
  rw [h4]
  constructor
  · rw [Int.add_mul_emod_self_left, Int.emod_eq_of_lt hp.1 hp.2]
  · rw [Int.add_mul_ediv_left _ _ (by omega), Int.ediv_eq_zero_of_lt hp.1 hp.2]; omega

theorem lin_inj {np ne p e t p' e' t' : Int} (hp : 0 ≤ p ∧ p < np) (he : 0 ≤ e ∧ e < ne)
    (hp' : 0 ≤ p' ∧ p' < np) (he' : 0 ≤ e' ∧ e' < ne)
    (h : lin np ne p e t = lin np ne p' e' t') : p = p' ∧ e = e' ∧ t = t' := by
  obtain ⟨a, b⟩ := lin_mod (t := t) hp he
  obtain ⟨a', b'⟩ := lin_mod (t := t') hp' he'
  rw [h] at a b
  have hr : e * np + p = e' * np + p' := by omega
  obtain ⟨c, d⟩ := row_mod (e := e) hp
  obtain ⟨c', d'⟩ := row_mod (e := e') hp'
  rw [hr] at c d
  omega

/-- What the index function computes, for ids in range. -/
theorem storeIndex_eq {c : Cfg} (w : c.WF) (ho : c.order = ORDER_TEP) {p e t : Int}
    (hp : c.minP ≤ p ∧ p ≤ c.maxP) (he : c.minE ≤ e ∧ e ≤ c.maxE)
    (ht : c.minT ≤ t) (htI : I64 t) (hr : t ≤ c.maxT ∨ c.isRolling = true)
    (hcap : c.numP * c.numE * c.numT < 2^63)
    (hov : (t - c.minT + 1) * (c.numP * c.numE) < 2^63) :
    c.storeIndex p e t = .ok
      (lin c.numP c.numE (p - c.minP) (e - c.minE) (t - c.minT) % (c.numP * c.numE * c.numT)) := by
  obtain ⟨hnp, hne, hnt, p0, p1, e0, e1, t0, t1, pI, eI, tI, _⟩ := w
  obtain ⟨pIl, pIu⟩ := pI
  obtain ⟨eIl, eIu⟩ := eI
  obtain ⟨tIl, tIu⟩ := htI
  have hb := lin_lt (np := c.numP) (ne := c.numE) (p := p - c.minP) (e := e - c.minE)
    (t := t - c.minT) (by omega) (by omega) (by omega)
  have hNP : 1 ≤ c.numP := by omega
  have hNE : 1 ≤ c.numE := by omega
  have hNT : 1 ≤ c.numT := by omega
  have hN : 1 ≤ c.numP * c.numE := one_le_mul' hNP hNE
  have hNN : c.numP * c.numE ≤ c.numP * c.numE * c.numT := le_mul_right' (by omega) hNT
  have g1 : 0 ≤ (t - c.minT) * c.numP := mul_nonneg (by omega) (by omega)
  have g2 : (t - c.minT) * c.numP ≤ (t - c.minT) * c.numP * c.numE := le_mul_right' g1 hNE
  have g3 : (t - c.minT + 1) * (c.numP * c.numE)
      = (t - c.minT) * c.numP * c.numE + c.numP * c.numE := by ring
  have g4 : 0 ≤ (e - c.minE) * c.numP := mul_nonneg (by omega) (by omega)
  have g5 : (e - c.minE) * c.numP ≤ c.numP * c.numE := by
    rw [mul_comm c.numP]; exact mul_le_mul_of_nonneg_right (by omega) (by omega)
  unfold lin at hb ⊢
  unfold Cfg.storeIndex
  rw [if_pos ⟨hp.1, hp.2, he.1, he.2, ht, hr⟩]
  rw [i64_of_bounds (z := p - c.minP) (by omega) (by omega)]
  rw [i64_of_bounds (z := e - c.minE) (by omega) (by omega)]
  rw [i64_of_bounds (z := t - c.minT) (by omega) (by omega)]
  simp only [Res.ok_bind, if_pos ho]
  rw [i64_of_bounds (z := (t - c.minT) * c.numP) (by omega) (by omega)]
  simp only [Res.ok_bind]
  rw [i64_of_bounds (z := (t - c.minT) * c.numP * c.numE) (by omega) (by omega)]
  rw [i64_of_bounds (z := (e - c.minE) * c.numP) (by omega) (by omega)]
  simp only [Res.ok_bind]
  rw [i64_of_bounds (z := (t - c.minT) * c.numP * c.numE + (e - c.minE) * c.numP)
    (by omega) (by omega)]
  simp only [Res.ok_bind]
  rw [i64_of_bounds (z := (t - c.minT) * c.numP * c.numE + (e - c.minE) * c.numP + (p - c.minP))
    (by omega) (by omega)]
  rw [i64_of_bounds (z := c.numP * c.numE) (by omega) (by omega)]
  simp only [Res.ok_bind]
  rw [i64_of_bounds (z := c.numP * c.numE * c.numT) (by omega) hcap]
  simp only [Res.ok_bind, Res.pure_eq]
  have hlt : t ≤ c.maxT → (t - c.minT) * c.numP * c.numE + (e - c.minE) * c.numP + (p - c.minP)
      < c.numP * c.numE * c.numT := by
    intro h
    have : (t - c.minT + 1) * (c.numP * c.numE) ≤ c.numP * c.numE * c.numT := by
      rw [mul_comm (c.numP * c.numE)]
      exact mul_le_mul_of_nonneg_right (by omega) (by omega)
    omega
  split
  · rename_i hroll
    unfold modI
    have hq : I64 (((t - c.minT) * c.numP * c.numE + (e - c.minE) * c.numP +
        (p - c.minP)).tdiv (c.numP * c.numE * c.numT)) := by
      rw [Int.tdiv_eq_ediv_of_nonneg hb.1]
      have := Int.ediv_nonneg hb.1 (b := c.numP * c.numE * c.numT) (by omega)
      have := Int.ediv_le_self (c.numP * c.numE * c.numT) hb.1
      constructor <;> omega
    rw [if_neg (by omega), if_pos hq, Int.tmod_eq_emod_of_nonneg hb.1]
  · rename_i hroll
    have : (t - c.minT) * c.numP * c.numE + (e - c.minE) * c.numP + (p - c.minP)
      < c.numP * c.numE * c.numT := by
      rcases hr with hr | hr
      · exact hlt hr
      · by_contra hcon
        exact hroll ⟨by omega, by omega, hr⟩
    rw [Int.emod_eq_of_lt hb.1 this]

/-- The index modulo the capacity only depends on the turn modulo the number of
stored turns. -/
theorem lin_mod_cap {np ne nt p e t : Int} (hp : 0 ≤ p ∧ p < np) (he : 0 ≤ e ∧ e < ne)
    (hnt : 0 < nt) :
    lin np ne p e t % (np * ne * nt) = lin np ne p e (t % nt) := by
  have h1 : lin np ne p e t = lin np ne p e (t % nt) + (np * ne * nt) * (t / nt) := by
    have := Int.emod_add_mul_ediv t nt
    unfold lin
    conv_lhs => rw [← this]
    ring
  have hm := Int.emod_nonneg t (b := nt) (by omega)
  have hm2 := Int.emod_lt_of_pos t hnt
  have hb := lin_lt (t := t % nt) hp he hm
  have hN : 1 ≤ np * ne := by nlinarith
  have : (t % nt + 1) * (np * ne) ≤ np * ne * nt := by nlinarith
  rw [h1, Int.add_mul_emod_self_left, Int.emod_eq_of_lt hb.1 (by omega)]

theorem outStoreNum_eq {c : Cfg} (w : c.WF) (hcap : c.numP * c.numE * c.numT < 2^63) :
    c.outStoreNum = .ok (c.numP * c.numE * c.numT) := by
  obtain ⟨hnp, hne, hnt, p0, p1, e0, e1, t0, t1, pI, eI, tI, _⟩ := w
  have hNP : 1 ≤ c.numP := by omega
  have hNE : 1 ≤ c.numE := by omega
  have hNT : 1 ≤ c.numT := by omega
  have hN : 1 ≤ c.numP * c.numE := one_le_mul' hNP hNE
  have hNN : c.numP * c.numE ≤ c.numP * c.numE * c.numT := le_mul_right' (by omega) hNT
  unfold Cfg.outStoreNum
  rw [i64_of_bounds (z := c.numP * c.numE) (by omega) (by omega)]
  simp only [Res.ok_bind]
  rw [i64_of_bounds (by omega) hcap]

theorem modI_pos {a b : Int} (ha : 0 ≤ a) (ha' : a < 2^63) (hb : 0 < b) :
    modI a b = .ok (a % b) := by
  unfold modI
  rw [if_neg (by omega), Int.tdiv_eq_ediv_of_nonneg ha, if_pos, Int.tmod_eq_emod_of_nonneg ha]
  have := Int.ediv_nonneg ha (b := b) (by omega)
  have := Int.ediv_le_self b ha
  constructor <;> omega

theorem divI_pos {a b : Int} (ha : 0 ≤ a) (ha' : a < 2^63) (hb : 0 < b) :
    divI a b = .ok (a / b) := by
  unfold divI
  rw [if_neg (by omega), Int.tdiv_eq_ediv_of_nonneg ha, i64_ok]
  have := Int.ediv_nonneg ha (b := b) (by omega)
  have := Int.ediv_le_self b ha
  constructor <;> omega

/-- What the decoding functions compute for an index in range. -/
theorem decode_eq {c : Cfg} (w : c.WF) (ho : c.order = ORDER_TEP)
    (hcap : c.numP * c.numE * c.numT < 2^63) {i : Int} (h0 : 0 ≤ i)
    (h1 : i < c.numP * c.numE * c.numT) :
    c.particleOf i = .ok (i % (c.numP * c.numE) % c.numP + c.minP) ∧
    c.elemOf i = .ok (i % (c.numP * c.numE) / c.numP + c.minE) ∧
    c.turnOf i = .ok (i / (c.numP * c.numE) + c.minT) ∧
    i / (c.numP * c.numE) < c.numT ∧
    i % (c.numP * c.numE) / c.numP < c.numE ∧ i % (c.numP * c.numE) % c.numP < c.numP := by
  have hout := outStoreNum_eq w hcap
  obtain ⟨hnp, hne, hnt, p0, p1, e0, e1, t0, t1, ⟨pIl, pIu⟩, ⟨eIl, eIu⟩, ⟨tIl, tIu⟩, _⟩ := w
  have hNP : 1 ≤ c.numP := by omega
  have hNE : 1 ≤ c.numE := by omega
  have hNT : 1 ≤ c.numT := by omega
  have hN : 1 ≤ c.numP * c.numE := one_le_mul' hNP hNE
  have hNN : c.numP * c.numE ≤ c.numP * c.numE * c.numT := le_mul_right' (by omega) hNT
  have m1 := Int.emod_nonneg i (b := c.numP * c.numE) (by omega)
  have m2 := Int.emod_lt_of_pos i (b := c.numP * c.numE) (by omega)
  have m3 := Int.emod_nonneg (i % (c.numP * c.numE)) (b := c.numP) (by omega)
  have m4 := Int.emod_lt_of_pos (i % (c.numP * c.numE)) (b := c.numP) (by omega)
  have m5 := Int.ediv_nonneg m1 (b := c.numP) (by omega)
  have m6 : i % (c.numP * c.numE) / c.numP < c.numE := by
    apply Int.ediv_lt_of_lt_mul (by omega); rw [mul_comm c.numE]; exact m2
  have m7 := Int.ediv_nonneg h0 (b := c.numP * c.numE) (by omega)
  have m8 : i / (c.numP * c.numE) < c.numT := by
    apply Int.ediv_lt_of_lt_mul (by omega); rw [mul_comm c.numT]; exact h1
  have e0 : i64 (c.numP * c.numE) = .ok (c.numP * c.numE) := i64_of_bounds (by omega) (by omega)
  have e1 : modI i (c.numP * c.numE) = .ok (i % (c.numP * c.numE)) :=
    modI_pos h0 (by omega) (by omega)
  have e2 : modI (i % (c.numP * c.numE)) c.numP = .ok (i % (c.numP * c.numE) % c.numP) :=
    modI_pos m1 (by omega) (by omega)
  have e3 : divI (i % (c.numP * c.numE)) c.numP = .ok (i % (c.numP * c.numE) / c.numP) :=
    divI_pos m1 (by omega) (by omega)
  have e4 : divI i (c.numP * c.numE) = .ok (i / (c.numP * c.numE)) :=
    divI_pos h0 (by omega) (by omega)
  refine ⟨?_, ?_, ?_, m8, m6, m4⟩
  · unfold Cfg.particleOf
    rw [hout]
    simp only [Res.ok_bind]
    rw [if_pos ⟨h0, h1⟩, if_pos ho, e0]
    simp only [Res.ok_bind]
    rw [e1]
    simp only [Res.ok_bind]
    rw [e2]
    simp only [Res.ok_bind]
    rw [if_pos m3, i64_of_bounds (by omega) (by omega)]
  · unfold Cfg.elemOf
    rw [hout]
    simp only [Res.ok_bind]
    rw [if_pos ⟨h0, h1⟩, if_pos ho, e0]
    simp only [Res.ok_bind]
    rw [e1]
    simp only [Res.ok_bind]
    rw [e3]
    simp only [Res.ok_bind]
    rw [if_pos m5, i64_of_bounds (by omega) (by omega)]
  · unfold Cfg.turnOf
    rw [hout]
    simp only [Res.ok_bind]
    rw [if_pos ⟨h0, h1⟩, if_pos ho, e0]
    simp only [Res.ok_bind]
    rw [e4]
    simp only [Res.ok_bind]
    rw [if_pos m7, i64_of_bounds (by omega) (by omega)]

end SixTrack.EBE

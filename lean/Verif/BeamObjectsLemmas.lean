import Verif.BeamObjects
import Verif.InterpolLemmas
import Verif.ElementObjectsLemmas

/-! # Lemmas about line density profiles as objects -/

set_option linter.unusedSectionVars false

namespace SixTrack

namespace Interpol
variable {K : Type} [Field K] [LinearOrder K] [IsStrictOrderedRing K] [FloorRing K]

/-- More room and the same entries below `n`: a defined read stays what it was. -/
theorem read_mono {a b : Nat → K} {n c : Nat} {i : Int} {v : K} (h : ∀ j < n, a j = b j) (hc : n ≤ c)
    (hr : read a n i = .ok v) : read b c i = .ok v := by
  unfold read at hr ⊢
  split at hr
  · rename_i hi
    rw [if_pos ⟨hi.1, by omega⟩, ← h _ (by omega)]
    exact hr
  · cases hr

theorem linearY_mono {y y' p p' : Nat → K} {n c : Nat} {x x0 dx v : K} (hy : ∀ j < n, y j = y' j)
    (hp : ∀ j < n, p j = p' j) (hc : n ≤ c) (h : linearY x x0 dx y p n = .ok v) :
    linearY x x0 dx y' p' c = .ok v := by
  unfold linearY at h ⊢
  obtain ⟨a, ha, h⟩ := Res.bind_eq_ok.1 h
  obtain ⟨b, hb, h⟩ := Res.bind_eq_ok.1 h
  simp only [read_mono hy hc ha, read_mono hp hc hb, Res.ok_bind]
  exact h

theorem linearYp_mono {p p' : Nat → K} {n c : Nat} {x x0 dx v : K}
    (hp : ∀ j < n, p j = p' j) (hc : n ≤ c) (h : linearYp x x0 dx p n = .ok v) :
    linearYp x x0 dx p' c = .ok v := read_mono hp hc h

theorem cubicY_mono {y y' p p' : Nat → K} {n c : Nat} {x x0 dx v : K} (hy : ∀ j < n, y j = y' j)
    (hp : ∀ j < n, p j = p' j) (hc : n ≤ c) (h : cubicY x x0 dx y p n = .ok v) :
    cubicY x x0 dx y' p' c = .ok v := by
  unfold cubicY at h ⊢
  obtain ⟨a1, h1, h⟩ := Res.bind_eq_ok.1 h
  obtain ⟨a2, h2, h⟩ := Res.bind_eq_ok.1 h
  obtain ⟨a3, h3, h⟩ := Res.bind_eq_ok.1 h
  obtain ⟨a4, h4, h⟩ := Res.bind_eq_ok.1 h
  simp only [read_mono hy hc h1, read_mono hy hc h2, read_mono hp hc h3, read_mono hp hc h4, Res.ok_bind]
  exact h

theorem cubicYp_mono {y y' p p' : Nat → K} {n c : Nat} {x x0 dx v : K} (hy : ∀ j < n, y j = y' j)
    (hp : ∀ j < n, p j = p' j) (hc : n ≤ c) (h : cubicYp x x0 dx y p n = .ok v) :
    cubicYp x x0 dx y' p' c = .ok v := by
  unfold cubicYp at h ⊢
  obtain ⟨a1, h1, h⟩ := Res.bind_eq_ok.1 h
  obtain ⟨a2, h2, h⟩ := Res.bind_eq_ok.1 h
  obtain ⟨a3, h3, h⟩ := Res.bind_eq_ok.1 h
  obtain ⟨a4, h4, h⟩ := Res.bind_eq_ok.1 h
  simp only [read_mono hy hc h1, read_mono hy hc h2, read_mono hp hc h3, read_mono hp hc h4, Res.ok_bind]
  exact h

theorem cubicYpp_mono {p p' : Nat → K} {n c : Nat} {x x0 dx v : K}
    (hp : ∀ j < n, p j = p' j) (hc : n ≤ c) (h : cubicYpp x x0 dx p n = .ok v) :
    cubicYpp x x0 dx p' c = .ok v := by
  unfold cubicYpp at h ⊢
  obtain ⟨a3, h3, h⟩ := Res.bind_eq_ok.1 h
  obtain ⟨a4, h4, h⟩ := Res.bind_eq_ok.1 h
  simp only [read_mono hp hc h3, read_mono hp hc h4, Res.ok_bind]
  exact h

end Interpol

namespace Elem
variable {K : Type}

/-- The arrays of a profile: two blocks of `capacity` cells that do not overlap. -/
structure LdObj.Arrays (d : LdObj K) : Prop where
  values : d.valuesAddr ≠ 0
  derivs : d.derivAddr ≠ 0
  apart : d.valuesAddr + d.capacity.toNat ≤ d.derivAddr ∨ d.derivAddr + d.capacity.toNat ≤ d.valuesAddr
  fits : d.numValues ≤ d.capacity

/-- What the copy loop does if none of the written cells is read or written a second time. -/
theorem ldCopyLoop_spec (dv dd sv sd : Nat) : ∀ (n k : Nat) (mem : Nat → K) (N : Nat), k + n = N →
    (dv + N ≤ dd ∨ dd + N ≤ dv) → (dv + N ≤ sv ∨ sv + N ≤ dv) → (dv + N ≤ sd ∨ sd + N ≤ dv) →
    (dd + N ≤ sv ∨ sv + N ≤ dd) → (dd + N ≤ sd ∨ sd + N ≤ dd) → ∀ a,
    ldCopyLoop mem dv dd sv sd k n a =
      if dv + k ≤ a ∧ a < dv + N then mem (sv + (a - dv))
      else if dd + k ≤ a ∧ a < dd + N then mem (sd + (a - dd)) else mem a := by
  intro n
  induction n with
  | zero =>
    intro k mem N hN _ _ _ _ _ a
    simp only [ldCopyLoop]
    rw [if_neg (by omega), if_neg (by omega)]
  | succ n ih =>
    intro k mem N hN h1 h2 h3 h4 h5 a
    simp only [ldCopyLoop]
    rw [ih (k + 1) _ N (by omega) h1 h2 h3 h4 h5 a]
    have hm : ∀ b, b ≠ dv + k → b ≠ dd + k →
        Particles.setAt (Particles.setAt mem (dv + k) (mem (sv + k))) (dd + k)
          (Particles.setAt mem (dv + k) (mem (sv + k)) (sd + k)) b = mem b := by
      intro b hb hb'
      simp only [Particles.setAt, if_neg hb, if_neg hb']
    by_cases c1 : dv + k ≤ a ∧ a < dv + N
    · rw [if_pos c1]
      by_cases c2 : a = dv + k
      · rw [if_neg (by omega), if_neg (by omega), c2]
        simp only [Particles.setAt]
        rw [if_neg (by omega), if_pos trivial]
        congr 1; omega
      · rw [if_pos (by omega), hm _ (by omega) (by omega)]
    · rw [if_neg c1, if_neg (by omega)]
      by_cases c3 : dd + k ≤ a ∧ a < dd + N
      · rw [if_pos c3]
        by_cases c4 : a = dd + k
        · rw [if_neg (by omega), c4]
          simp only [Particles.setAt]
          rw [if_pos trivial, if_neg (by omega)]
          congr 1; omega
        · rw [if_pos (by omega), hm _ (by omega) (by omega)]
      · rw [if_neg c3, if_neg (by omega), hm _ (by omega) (by omega)]

section
variable [Field K] [LinearOrder K] [IsStrictOrderedRing K] [FloorRing K]
open Interpol

theorem LdObj.outside {d : LdObj K} {mem : Nat → K} {z : K} (h : z < d.z0 ∨ d.zMax < z) :
    d.value mem z = .ok 0 ∧ d.deriv1 mem z = .ok 0 ∧ d.deriv2 mem z = .ok 0 := by
  have hn : ¬ (z ≤ d.zMax ∧ d.z0 ≤ z) := by
    rintro ⟨a, b⟩
    rcases h with h | h
    · exact absurd b (not_le.2 h)
    · exact absurd a (not_le.2 h)
  exact ⟨if_neg hn, if_neg hn, if_neg hn⟩

theorem LdObj.guarded_eq {d : LdObj K} (ha : d.Arrays) (hz : d.dz ≠ 0) (r : Res K) : d.guarded r = r := by
  unfold LdObj.guarded
  rw [if_neg (by simp [ha.values, ha.derivs, hz])]

theorem LdObj.inside_linear {d : LdObj K} (ha : d.Arrays) (hz : d.dz ≠ 0) (hm : d.method = 0) {mem : Nat → K}
    {z : K} (h1 : d.z0 ≤ z) (h2 : z ≤ d.zMax) :
    d.value mem z = linearY z d.z0 d.dz (d.values mem) (d.derivs mem) d.capacity.toNat ∧
    d.deriv1 mem z = linearYp z d.z0 d.dz (d.derivs mem) d.capacity.toNat ∧
    d.deriv2 mem z = .ok 0 := by
  refine ⟨?_, ?_, ?_⟩
  · unfold LdObj.value
    rw [if_pos ⟨h2, h1⟩, if_pos hm, d.guarded_eq ha hz]
  · unfold LdObj.deriv1
    rw [if_pos ⟨h2, h1⟩, if_pos hm, d.guarded_eq ha hz]
  · unfold LdObj.deriv2
    rw [if_pos ⟨h2, h1⟩, if_neg (by omega)]

theorem LdObj.inside_cubic {d : LdObj K} (ha : d.Arrays) (hz : d.dz ≠ 0) (hm : d.method = 1) {mem : Nat → K}
    {z : K} (h1 : d.z0 ≤ z) (h2 : z ≤ d.zMax) :
    d.value mem z = cubicY z d.z0 d.dz (d.values mem) (d.derivs mem) d.capacity.toNat ∧
    d.deriv1 mem z = cubicYp z d.z0 d.dz (d.values mem) (d.derivs mem) d.capacity.toNat ∧
    d.deriv2 mem z = cubicYpp z d.z0 d.dz (d.derivs mem) d.capacity.toNat := by
  refine ⟨?_, ?_, ?_⟩
  · unfold LdObj.value
    rw [if_pos ⟨h2, h1⟩, if_neg (by omega), if_pos hm, d.guarded_eq ha hz]
  · unfold LdObj.deriv1
    rw [if_pos ⟨h2, h1⟩, if_neg (by omega), if_pos hm, d.guarded_eq ha hz]
  · unfold LdObj.deriv2
    rw [if_pos ⟨h2, h1⟩, if_pos hm, d.guarded_eq ha hz]

/-- What a successful preparation says. -/
theorem LdObj.prepare_ok {d : LdObj K} {mem mem' : Nat → K} (ha : d.Arrays) (h : d.prepare mem = .ok (true, mem')) :
    1 < d.numValues ∧
    ∃ r : (Nat → K) × Bool, r.2 = true ∧
      (d.method = 0 → r = linearPrepare (d.derivs mem) (d.values mem) d.dz d.numValues.toNat) ∧
      (d.method = 1 → r = cubicPrepare (d.derivs mem) (d.values mem) d.dz d.numValues.toNat .natural .natural 0 0) ∧
      (d.method = 0 ∨ d.method = 1) ∧
      (∀ j < d.numValues.toNat, r.1 j = d.derivs mem' j) ∧
      (∀ j < d.numValues.toNat, d.values mem j = d.values mem' j) ∧
      ∀ a, a < d.derivAddr ∨ d.derivAddr + d.numValues.toNat ≤ a → mem' a = mem a := by
  have hf := ha.fits
  have hap := ha.apart
  unfold LdObj.prepare at h
  simp only at h
  split at h
  · rename_i hc
    rw [if_neg (by omega)] at h
    have e := Res.ok.inj h
    have e1 := congrArg Prod.fst e
    have e2 := congrArg Prod.snd e
    simp only at e1 e2
    refine ⟨hc.1, _, e1, fun hm => if_pos hm, fun hm => if_neg (by omega), hc.2.1, ?_, ?_, ?_⟩
    · intro j hj
      simp only [LdObj.derivs, ← e2]
      refine Eq.symm ((fillCells_spec _ _ _ _ _ _).trans ((if_pos (show d.derivAddr ≤ d.derivAddr + j ∧
        d.derivAddr + j < d.derivAddr + d.numValues.toNat by omega)).trans ?_))
      have e3 : 0 + (d.derivAddr + j - d.derivAddr) = j := by omega
      rw [e3]
    · intro j hj
      simp only [LdObj.values, ← e2]
      exact ((fillCells_spec _ _ _ _ _ _).trans (if_neg (by omega))).symm
    · intro a hx
      rw [← e2]
      exact (fillCells_spec _ _ _ _ _ _).trans (if_neg (by omega))
  · cases h

/-- Between the first and the last sample there is a cell. -/
theorem exists_cell {x0 dx x : K} (hdx : 0 < dx) {n : Nat} (h1 : x0 ≤ x) (h2 : x < x0 + dx * n) :
    ∃ i < n, x0 + dx * i ≤ x ∧ x < x0 + dx * (i + 1) := by
  have h0 : 0 ≤ (x - x0) / dx := div_nonneg (by linarith) hdx.le
  have hf : 0 ≤ ⌊(x - x0) / dx⌋ := Int.floor_nonneg.2 h0
  have e : ((⌊(x - x0) / dx⌋.toNat : Nat) : K) = ((⌊(x - x0) / dx⌋ : Int) : K) := by
    have : ((⌊(x - x0) / dx⌋.toNat : Nat) : Int) = ⌊(x - x0) / dx⌋ := Int.toNat_of_nonneg hf
    exact_mod_cast congrArg (Int.cast : Int → K) this
  have a1 := Int.floor_le ((x - x0) / dx)
  have a2 := Int.lt_floor_add_one ((x - x0) / dx)
  have b1 : x0 + dx * ((⌊(x - x0) / dx⌋.toNat : Nat) : K) ≤ x := by
    rw [e]
    rw [le_div_iff₀ hdx] at a1
    linarith [mul_comm dx ((⌊(x - x0) / dx⌋ : Int) : K)]
  refine ⟨⌊(x - x0) / dx⌋.toNat, ?_, b1, ?_⟩
  · have : dx * ((⌊(x - x0) / dx⌋.toNat : Nat) : K) < dx * (n : K) := by linarith
    have := lt_of_mul_lt_mul_left this hdx.le
    exact_mod_cast this
  · rw [e]
    rw [div_lt_iff₀ hdx] at a2
    linarith [mul_comm dx (((⌊(x - x0) / dx⌋ : Int) : K) + 1)]

/-- Between two samples every evaluation is defined. -/
theorem evaluations_defined {x0 dx x : K} (hdx : 0 < dx) (y p : Nat → K) {n i : Nat} (hi : i + 1 < n)
    (h1 : x0 + dx * i ≤ x) (h2 : x < x0 + dx * (i + 1)) :
    (∃ v, linearY x x0 dx y p n = .ok v) ∧ (∃ v, linearYp x x0 dx p n = .ok v) ∧
    (∃ v, cubicY x x0 dx y p n = .ok v) ∧ (∃ v, cubicYp x x0 dx y p n = .ok v) ∧
    (∃ v, cubicYpp x x0 dx p n = .ok v) := by
  have hidx := abscissaIndex_eq hdx h1 h2
  have hn : i < n := by omega
  unfold linearY linearYp cubicY cubicYp cubicYpp
  simp only [hidx, read_ok hn, read_ok' hi, Res.ok_bind]
  exact ⟨⟨_, rfl⟩, ⟨_, rfl⟩, ⟨_, rfl⟩, ⟨_, rfl⟩, ⟨_, rfl⟩⟩

end

end Elem
end SixTrack

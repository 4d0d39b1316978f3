import Verif.BeamObjectsLemmas
import Verif.Props.Interpol
import Verif.Props.Buffer

/-!
# C66: a line density profile as an object

* a new profile has density zero everywhere until it is filled and prepared (`C66_new`);
* preparing succeeds exactly for a positive step and enough samples and writes to the derivative cells only
  (`C66_prepare`);
* a prepared linear profile meets its samples and is linear between them (`C66_linear_partial`), a prepared cubic one is
  a twice differentiable function that meets all samples but the last (`C66_cubic_partial`); both are zero outside the
  range from `z0` to `z_max`;
* the range ends one step behind the last sample: there the linear profile uses a slope that was never set and the cubic
  one reads behind its arrays (`C66_linear_end_violated`, `C66_cubic_end_violated`);
* adding a profile with given arrays stores the step as the beginning of the range and forgets the step
  (`C66_add_partial`, `C66_add_violated`);
* asking whether a profile can be added reads through null pointers (`C66_can_be_added_violated`);
* a copy has the same density between the first and the last sample (`C66_copy_partial`), and a profile that is too large is
  refused (`C66_copy_refused`).
-/

set_option linter.unusedSectionVars false

namespace SixTrack

open Elem Interpol

section
variable {K : Type} [Field K] [LinearOrder K] [IsStrictOrderedRing K] [FloorRing K]

/-- A new profile: no capacity that is not positive, and a density of zero with no preparation possible. -/
theorem C66_new (capacity : Int) :
    (LdObj.newHandle (K := K) capacity = none ↔ capacity ≤ 0) ∧
    ∀ d : LdObj K, LdObj.newHandle capacity = some d →
      d.capacity = capacity ∧ d.numValues = capacity ∧ d.z0 = 0 ∧ d.dz = 1 ∧
      ∀ mem z, d.value mem z = .ok 0 ∧ d.deriv1 mem z = .ok 0 ∧ d.deriv2 mem z = .ok 0 ∧
        d.prepare mem = .ok (false, mem) := by
  unfold LdObj.newHandle
  refine ⟨?_, ?_⟩
  · split <;> simp_all
  · intro d h
    split at h
    · cases Option.some.inj h
      refine ⟨rfl, rfl, rfl, rfl, fun mem z => ⟨?_, ?_, ?_, ?_⟩⟩
      · simp [LdObj.value, LdObj.cleared]
      · simp [LdObj.deriv1, LdObj.cleared]
      · simp [LdObj.deriv2, LdObj.cleared]
      · simp [LdObj.prepare, LdObj.cleared]
    · cases h

/-- Preparing succeeds if the step is positive and there are two samples (linear) or four (cubic); the samples and
everything else outside the derivatives stay. -/
theorem C66_prepare {d : LdObj K} (ha : d.Arrays) (mem : Nat → K) :
    ∃ ok mem', d.prepare mem = .ok (ok, mem') ∧
      (ok = true ↔ 0 < d.dz ∧ (d.method = 0 ∧ 1 < d.numValues ∨ d.method = 1 ∧ 3 < d.numValues)) ∧
      (∀ a, a < d.derivAddr ∨ d.derivAddr + d.numValues.toNat ≤ a → mem' a = mem a) ∧
      (ok = false → mem' = mem) := by
  have hf := ha.fits
  have hap := ha.apart
  have hv := ha.values
  have hd := ha.derivs
  unfold LdObj.prepare
  by_cases hc : 1 < d.numValues ∧ (d.method = 0 ∨ d.method = 1) ∧ d.valuesAddr ≠ 0 ∧ d.derivAddr ≠ 0 ∧
      d.derivAddr ≠ d.valuesAddr
  · simp only [if_pos hc]
    rw [if_neg (by omega)]
    refine ⟨_, _, rfl, ?_, ?_, ?_⟩
    · rcases hc.2.1 with hm | hm
      · rw [if_pos hm, C42_linear_prepare]
        have : (1 < d.numValues.toNat) ↔ 1 < d.numValues := by omega
        rw [this]
        simp [hm]
      · rw [if_neg (by omega), C42_cubic_prepare_natural]
        have : (3 < d.numValues.toNat) ↔ 3 < d.numValues := by omega
        rw [this]
        simp [hm]
    · intro a hx
      exact (fillCells_spec _ _ _ _ _ _).trans (if_neg (by omega))
    · intro hfalse
      have key : ∀ r : (Nat → K) × Bool, r.1 = d.derivs mem →
          fillCells mem d.derivAddr r.1 0 d.numValues.toNat = mem := by
        intro r hr
        funext a
        rw [fillCells_spec, hr]
        split
        · unfold LdObj.derivs
          congr 1; omega
        · rfl
      apply key
      rcases hc.2.1 with hm | hm
      · rw [if_pos hm] at hfalse ⊢
        unfold linearPrepare at hfalse ⊢
        split at hfalse
        · cases hfalse
        · rename_i hh; rw [if_neg hh]
      · rw [if_neg (by omega)] at hfalse ⊢
        unfold cubicPrepare at hfalse ⊢
        split at hfalse
        · rename_i hh
          rw [if_pos ⟨by simp, by simp⟩] at hfalse
          cases hfalse
        · rename_i hh; rw [if_neg hh]
  · simp only [if_neg hc]
    refine ⟨_, _, rfl, ?_, fun _ _ => rfl, fun _ => rfl⟩
    simp only [Bool.false_eq_true, false_iff]
    rintro ⟨-, h⟩
    apply hc
    refine ⟨by omega, by omega, hv, hd, ?_⟩
    omega

/-- The density of a prepared linear profile.  Missing: the last step of the range, see `C66_linear_end_violated`. -/
theorem C66_linear_partial {d : LdObj K} (ha : d.Arrays) (hm : d.method = 0) {mem mem' : Nat → K}
    (hp : d.prepare mem = .ok (true, mem')) {n : Nat} (hn : d.numValues = n) :
    (∀ i < n, d.value mem' (d.z0 + d.dz * i) = .ok (d.values mem i)) ∧
    (∀ i z, i + 1 < n → d.z0 + d.dz * i ≤ z → z < d.z0 + d.dz * (i + 1) →
      d.value mem' z = .ok ((1 - (z - (d.z0 + d.dz * i)) / d.dz) * d.values mem i +
        (z - (d.z0 + d.dz * i)) / d.dz * d.values mem (i + 1)) ∧
      d.deriv1 mem' z = .ok ((d.values mem (i + 1) - d.values mem i) / d.dz) ∧
      d.deriv2 mem' z = .ok 0) ∧
    (∀ z, z < d.z0 ∨ d.z0 + d.dz * n < z →
      d.value mem' z = .ok 0 ∧ d.deriv1 mem' z = .ok 0 ∧ d.deriv2 mem' z = .ok 0) := by
  obtain ⟨h1, r, hr, hl, -, -, e1, e2, -⟩ := LdObj.prepare_ok ha hp
  have hN : d.numValues.toNat = n := by omega
  rw [hN] at e1 e2
  have hr' := hl hm
  rw [hN] at hr'
  have hprep : linearPrepare (d.derivs mem) (d.values mem) d.dz n = (r.1, true) := by
    rw [← hr', ← hr]
  have hdz : 0 < d.dz ∧ 1 < n := by
    rw [← C42_linear_prepare (d.derivs mem) (d.values mem) d.dz n, hprep]
  have hc : n ≤ d.capacity.toNat := by have := ha.fits; omega
  have hmax : d.zMax = d.z0 + d.dz * n := by unfold LdObj.zMax; rw [hn]; simp
  have hin : ∀ (i : Nat) (z : K), i < n → d.z0 + d.dz * i ≤ z → z < d.z0 + d.dz * (i + 1) →
      d.z0 ≤ z ∧ z ≤ d.zMax := by
    intro i z hi a b
    have c : (0 : K) ≤ i := Nat.cast_nonneg i
    have c' : ((i + 1 : Nat) : K) ≤ n := Nat.cast_le.2 hi
    push_cast at c'
    rw [hmax]
    have := mul_le_mul_of_nonneg_left c' hdz.1.le
    have := mul_nonneg hdz.1.le c
    constructor <;> linarith
  refine ⟨fun i hi => ?_, fun i z hi a b => ?_, fun z h => LdObj.outside (by rwa [hmax])⟩
  · obtain ⟨a, b⟩ := hin i (d.z0 + d.dz * i) hi le_rfl (by linarith [hdz.1])
    rw [(LdObj.inside_linear ha hdz.1.ne' hm a b).1]
    exact linearY_mono e2 e1 hc (C42_linear_samples hprep hi)
  · obtain ⟨a', b'⟩ := hin i z (by omega) a b
    obtain ⟨f1, f2, f3⟩ := LdObj.inside_linear ha hdz.1.ne' hm (mem := mem') a' b'
    obtain ⟨g1, g2⟩ := C42_linear_between hprep hi a b
    rw [f1, f2, f3]
    exact ⟨linearY_mono e2 e1 hc g1, linearYp_mono e1 hc g2, rfl⟩

/-- In the last step of the range the density runs away from the last sample with a slope that the preparation left as
it was in the memory; at the end of the range it reads behind the arrays if they are full. -/
theorem C66_linear_end_violated {d : LdObj K} (ha : d.Arrays) (hm : d.method = 0) {mem mem' : Nat → K}
    (hp : d.prepare mem = .ok (true, mem')) {n : Nat} (hn : d.numValues = n) :
    (∀ z, d.z0 + d.dz * (n - 1) ≤ z → z < d.z0 + d.dz * n →
      d.value mem' z = .ok (d.values mem (n - 1) + (z - (d.z0 + d.dz * (n - 1))) * d.derivs mem (n - 1)) ∧
      d.deriv1 mem' z = .ok (d.derivs mem (n - 1))) ∧
    (d.capacity = n → d.value mem' (d.z0 + d.dz * n) = .ub ∧ d.deriv1 mem' (d.z0 + d.dz * n) = .ub) := by
  obtain ⟨h1, r, hr, hl, -, -, e1, e2, -⟩ := LdObj.prepare_ok ha hp
  have hN : d.numValues.toNat = n := by omega
  rw [hN] at e1 e2
  have hr' := hl hm
  rw [hN] at hr'
  have hprep : linearPrepare (d.derivs mem) (d.values mem) d.dz n = (r.1, true) := by
    rw [← hr', ← hr]
  have hdz : 0 < d.dz ∧ 1 < n := by
    rw [← C42_linear_prepare (d.derivs mem) (d.values mem) d.dz n, hprep]
  have hc : n ≤ d.capacity.toNat := by have := ha.fits; omega
  have hmax : d.zMax = d.z0 + d.dz * n := by unfold LdObj.zMax; rw [hn]; simp
  have hlast : r.1 (n - 1) = d.derivs mem (n - 1) := by
    unfold linearPrepare at hprep
    rw [if_pos hdz] at hprep
    have e := congrArg Prod.fst hprep
    simp only at e
    rw [← e]
    exact (linLoop (d.values mem) d.dz (d.derivs mem) (n - 1)).2.2 (n - 1) le_rfl
  have hcast : ((n - 1 : Nat) : K) = (n : K) - 1 := by
    rw [Nat.cast_sub (by omega)]; simp
  have hpos : (1 : K) ≤ n := by exact_mod_cast hdz.2.le
  refine ⟨fun z a b => ?_, fun hcap => ?_⟩
  · have hidx : abscissaIndex z d.z0 d.dz = ((n - 1 : Nat) : Int) :=
      abscissaIndex_eq hdz.1 (by rw [hcast]; exact a) (by rw [hcast]; linarith [mul_comm d.dz (n : K)])
    have hz0 : d.z0 ≤ z := by
      have := mul_nonneg hdz.1.le (sub_nonneg.2 hpos)
      linarith
    obtain ⟨f1, f2, -⟩ := LdObj.inside_linear ha hdz.1.ne' hm (mem := mem') hz0 (by rw [hmax]; exact b.le)
    rw [f1, f2]
    unfold linearY linearYp
    have hlt : n - 1 < d.capacity.toNat := by omega
    simp only [hidx, read_ok hlt, Res.ok_bind, Res.pure_eq, ← e1 _ (show n - 1 < n by omega),
      ← e2 _ (show n - 1 < n by omega), hlast]
    refine ⟨?_, trivial⟩
    congr 3
    push_cast
    rw [hcast]
  · have hidx : abscissaIndex (d.z0 + d.dz * n) d.z0 d.dz = ((n : Nat) : Int) :=
      abscissaIndex_eq hdz.1 le_rfl (by linarith [hdz.1])
    have hz0 : d.z0 ≤ d.z0 + d.dz * n := by
      have := mul_nonneg hdz.1.le (le_trans zero_le_one hpos)
      linarith
    obtain ⟨f1, f2, -⟩ := LdObj.inside_linear ha hdz.1.ne' hm (mem := mem') hz0 (by rw [hmax])
    rw [f1, f2]
    have hread : ∀ a : Nat → K, Interpol.read a d.capacity.toNat (n : Int) = .ub := by
      intro a
      unfold Interpol.read
      rw [if_neg (by omega)]
    unfold linearY linearYp
    simp only [hidx, hread]
    exact ⟨rfl, trivial⟩

/-- A full cubic profile reads behind its arrays from the last sample to the end of the range. -/
theorem C66_cubic_end_violated {d : LdObj K} (ha : d.Arrays) (hm : d.method = 1) (hdz : 0 < d.dz) {n : Nat}
    (hn : d.numValues = n) (hpos : 0 < n) (hcap : d.capacity = n) (mem : Nat → K) {z : K}
    (h1 : d.z0 + d.dz * (n - 1) ≤ z) (h2 : z ≤ d.z0 + d.dz * n) :
    d.value mem z = .ub ∧ d.deriv1 mem z = .ub ∧ d.deriv2 mem z = .ub := by
  have hmax : d.zMax = d.z0 + d.dz * n := by unfold LdObj.zMax; rw [hn]; simp
  have hcast : ((n - 1 : Nat) : K) = (n : K) - 1 := by
    rw [Nat.cast_sub (by omega)]; simp
  have hpos' : (1 : K) ≤ n := by exact_mod_cast hpos
  have hz0 : d.z0 ≤ z := by
    have := mul_nonneg hdz.le (sub_nonneg.2 hpos')
    linarith
  have hidx : (n : Int) - 1 ≤ abscissaIndex z d.z0 d.dz := by
    rcases lt_or_ge z (d.z0 + d.dz * n) with hlt | hge
    · rw [abscissaIndex_eq (i := n - 1) hdz (by rw [hcast]; exact h1)
        (by rw [hcast]; linarith [mul_comm d.dz (n : K)])]
      omega
    · rw [abscissaIndex_eq (i := n) hdz hge (by linarith)]
      omega
  obtain ⟨f1, f2, f3⟩ := LdObj.inside_cubic ha hdz.ne' hm (mem := mem) hz0 (by rw [hmax]; exact h2)
  rw [f1, f2, f3]
  have hread : ∀ a : Nat → K, Interpol.read a d.capacity.toNat (abscissaIndex z d.z0 d.dz + 1) = .ub := by
    intro a
    unfold Interpol.read
    rw [if_neg (by omega)]
  refine ⟨?_, ?_, ?_⟩
  · unfold cubicY
    simp only [hread]
    rfl
  · unfold cubicYp
    simp only [hread]
    rfl
  · unfold cubicYpp
    simp only [hread]
    rcases Interpol.read (d.derivs mem) d.capacity.toNat (abscissaIndex z d.z0 d.dz) <;> rfl

end

/-- The density of a prepared cubic profile.  Missing: everything behind the last sample, see
`C66_cubic_end_violated`. -/
theorem C66_cubic_partial {d : LdObj ℝ} (ha : d.Arrays) (hm : d.method = 1) {mem mem' : Nat → ℝ}
    (hp : d.prepare mem = .ok (true, mem')) {n : Nat} (hn : d.numValues = n) :
    ∃ F F1 F2 : ℝ → ℝ,
      (∀ z, d.z0 ≤ z → z < d.z0 + d.dz * (n - 1) →
        d.value mem' z = .ok (F z) ∧ d.deriv1 mem' z = .ok (F1 z) ∧ d.deriv2 mem' z = .ok (F2 z)) ∧
      (∀ z, d.z0 < z → z < d.z0 + d.dz * (n - 1) →
        HasDerivAt F (F1 z) z ∧ HasDerivAt F1 (F2 z) z ∧ ContinuousAt F2 z) ∧
      (∀ i, i + 1 < n → F (d.z0 + d.dz * i) = d.values mem i) ∧
      (∀ z, z < d.z0 ∨ d.z0 + d.dz * n < z →
        d.value mem' z = .ok 0 ∧ d.deriv1 mem' z = .ok 0 ∧ d.deriv2 mem' z = .ok 0) := by
  obtain ⟨h1, r, hr, -, hl, -, e1, e2, -⟩ := LdObj.prepare_ok ha hp
  have hN : d.numValues.toNat = n := by omega
  rw [hN] at e1 e2
  have hr' := hl hm
  rw [hN] at hr'
  have hprep : cubicPrepare (d.derivs mem) (d.values mem) d.dz n .natural .natural 0 0 = (r.1, true) := by
    rw [← hr', ← hr]
  have hdz : 0 < d.dz ∧ 3 < n := by
    rw [← C42_cubic_prepare_natural (d.derivs mem) (d.values mem) d.dz n, hprep]
  have hc : n ≤ d.capacity.toNat := by have := ha.fits; omega
  have hmax : d.zMax = d.z0 + d.dz * n := by unfold LdObj.zMax; rw [hn]; simp
  obtain ⟨F, F1, F2, hF, hD⟩ := C42_cubic_smooth_partial (x0 := d.z0) (Or.inl rfl) (Or.inl rfl) hprep
  refine ⟨F, F1, F2, ?_, hD, ?_, fun z h => LdObj.outside (by rwa [hmax])⟩
  · intro z a b
    obtain ⟨g1, g2, g3⟩ := hF z a b
    obtain ⟨f1, f2, f3⟩ := LdObj.inside_cubic ha hdz.1.ne' hm (mem := mem') a (by rw [hmax]; linarith [hdz.1])
    rw [f1, f2, f3]
    exact ⟨cubicY_mono e2 e1 hc g1, cubicYp_mono e2 e1 hc g2, cubicYpp_mono e1 hc g3⟩
  · intro i hi
    have c : (0 : ℝ) ≤ i := Nat.cast_nonneg i
    have c' : ((i + 1 : Nat) : ℝ) < n := Nat.cast_lt.2 hi
    push_cast at c'
    have k1 := mul_nonneg hdz.1.le c
    have k2 := mul_lt_mul_of_pos_left c' hdz.1
    obtain ⟨g1, -, -⟩ := hF (d.z0 + d.dz * i) (by linarith) (by linarith)
    rw [C42_cubic_samples_partial hdz.1 _ _ hi] at g1
    exact (Res.ok.inj g1).symm

section
variable {K : Type} [Field K] [LinearOrder K] [IsStrictOrderedRing K] [FloorRing K]

/-- What `add` stores of its arguments.  Missing: the beginning of the range and the step, see `C66_add_violated`. -/
theorem C66_add_partial (method : Nat) (n : Int) (va da : Nat) (z0 dz : K) (capacity : Int) (h0 : 0 < n) :
    ∃ d, LdObj.addHandle method n va da z0 dz capacity = some d ∧ d.method = method ∧ d.numValues = n ∧
      d.valuesAddr = va ∧ d.derivAddr = da ∧ d.capacity = max capacity n := by
  unfold LdObj.addHandle
  rw [if_neg (by omega : ¬ n < 0)]
  by_cases hc : capacity < n
  · simp only [if_pos (show capacity < n ∧ 0 < n from ⟨hc, h0⟩), if_pos h0]
    exact ⟨_, rfl, rfl, rfl, rfl, rfl, (max_eq_right hc.le).symm⟩
  · simp only [if_neg (show ¬ (capacity < n ∧ 0 < n) by omega), if_pos (show 0 < capacity by omega)]
    exact ⟨_, rfl, rfl, rfl, rfl, rfl, (max_eq_left (not_lt.1 hc)).symm⟩

/-- `add` stores the step as the beginning of the range, and the step is one: the profile is zero to the left of the
step and the abscissa that was asked for is lost. -/
theorem C66_add_violated (method : Nat) (n : Int) (va da : Nat) (z0 dz : K) (capacity : Int) {d : LdObj K}
    (h : LdObj.addHandle method n va da z0 dz capacity = some d) :
    d.z0 = dz ∧ d.dz = 1 ∧ ∀ mem z, z < dz → d.value mem z = .ok 0 := by
  have e : d.z0 = dz ∧ d.dz = 1 := by
    unfold LdObj.addHandle at h
    generalize (if n < 0 then 0 else n) = n' at h
    simp only at h
    generalize (if capacity < n' ∧ 0 < n' then n' else capacity) = c at h
    split at h
    · cases Option.some.inj h
      exact ⟨rfl, rfl⟩
    · cases h
  exact ⟨e.1, e.2, fun mem z hz => (LdObj.outside (Or.inl (by rw [e.1]; exact hz))).1⟩

/-- What a copy takes over: the range, the method, and the `n` samples and derivatives in use; all other cells stay.  The
densities agree up to the last sample and outside the range.  Missing: the last step of the range, where the source itself is
not defined in general. -/
theorem C66_copy_partial {dst src : LdObj K} (hd : dst.Arrays) (hs : src.Arrays) (mem : Nat → K) {n : Nat}
    (hn : src.numValues = n) (hcap : src.numValues ≤ dst.capacity) (hpos : 0 < n)
    (hvv : dst.valuesAddr + n ≤ src.valuesAddr ∨ src.valuesAddr + n ≤ dst.valuesAddr)
    (hvd : dst.valuesAddr + n ≤ src.derivAddr ∨ src.derivAddr + n ≤ dst.valuesAddr)
    (hdv : dst.derivAddr + n ≤ src.valuesAddr ∨ src.valuesAddr + n ≤ dst.derivAddr)
    (hdd : dst.derivAddr + n ≤ src.derivAddr ∨ src.derivAddr + n ≤ dst.derivAddr) :
    ∃ d mem', LdObj.copy dst src mem = .ok (0, d, mem') ∧
      d.method = src.method ∧ d.z0 = src.z0 ∧ d.dz = src.dz ∧ d.numValues = src.numValues ∧
      d.capacity = dst.capacity ∧ d.valuesAddr = dst.valuesAddr ∧ d.derivAddr = dst.derivAddr ∧
      (∀ i < n, d.values mem' i = src.values mem i ∧ d.derivs mem' i = src.derivs mem i) ∧
      (∀ a, ¬ (dst.valuesAddr ≤ a ∧ a < dst.valuesAddr + n) → ¬ (dst.derivAddr ≤ a ∧ a < dst.derivAddr + n) →
        mem' a = mem a) ∧
      ∀ z, 0 < src.dz → (z < src.z0 + src.dz * (n - 1) ∨ src.z0 + src.dz * n < z) →
        d.value mem' z = src.value mem z ∧ d.deriv1 mem' z = src.deriv1 mem z ∧
        d.deriv2 mem' z = src.deriv2 mem z := by
  have fs := hs.fits
  have as := hs.apart
  have ad := hd.apart
  have hv := hd.values; have hv' := hs.values; have hw := hd.derivs; have hw' := hs.derivs
  unfold LdObj.copy
  rw [if_pos (by refine ⟨hcap, ?_, hv, hv', ?_, hw, hw'⟩ <;> omega), if_neg (by omega)]
  have hN : src.numValues.toNat = n := by omega
  have spec := ldCopyLoop_spec dst.valuesAddr dst.derivAddr src.valuesAddr src.derivAddr n 0 mem n (by omega)
    (by omega) hvv hvd hdv hdd
  rw [hN]
  have cells : ∀ i < n,
      ldCopyLoop mem dst.valuesAddr dst.derivAddr src.valuesAddr src.derivAddr 0 n (dst.valuesAddr + i) =
        src.values mem i ∧
      ldCopyLoop mem dst.valuesAddr dst.derivAddr src.valuesAddr src.derivAddr 0 n (dst.derivAddr + i) =
        src.derivs mem i := by
    intro i hi
    rw [spec, spec]
    constructor
    · rw [if_pos (by omega)]
      unfold LdObj.values
      congr 1; omega
    · rw [if_neg (by omega), if_pos (by omega)]
      unfold LdObj.derivs
      congr 1; omega
  refine ⟨_, _, rfl, rfl, rfl, rfl, rfl, rfl, rfl, rfl, cells, ?_, ?_⟩
  · intro a h1 h2
    rw [spec, if_neg (by omega), if_neg (by omega)]
  · intro z hdz hz
    generalize hdd' : ({ dst with method := src.method, numValues := src.numValues, z0 := src.z0, dz := src.dz } :
      LdObj K) = d
    generalize ldCopyLoop mem dst.valuesAddr dst.derivAddr src.valuesAddr src.derivAddr 0 n = mem' at cells ⊢
    have m1 : d.method = src.method := by rw [← hdd']
    have m2 : d.z0 = src.z0 := by rw [← hdd']
    have m3 : d.dz = src.dz := by rw [← hdd']
    have m4 : d.zMax = src.zMax := by rw [← hdd']; rfl
    have m5 : d.capacity = dst.capacity := by rw [← hdd']
    have m6 : d.valuesAddr = dst.valuesAddr := by rw [← hdd']
    have m7 : d.derivAddr = dst.derivAddr := by rw [← hdd']
    have m8 : d.numValues = src.numValues := by rw [← hdd']
    have hA : d.Arrays := ⟨by omega, by omega, by rw [m5, m6, m7]; exact ad, by omega⟩
    have v1 : ∀ j < n, src.values mem j = d.values mem' j := fun j hj => by
      unfold LdObj.values at cells ⊢; rw [m6]; exact (cells j hj).1.symm
    have v2 : ∀ j < n, src.derivs mem j = d.derivs mem' j := fun j hj => by
      unfold LdObj.derivs at cells ⊢; rw [m7]; exact (cells j hj).2.symm
    have hmax : src.zMax = src.z0 + src.dz * n := by unfold LdObj.zMax; rw [hn]; simp
    by_cases hout : z < src.z0 ∨ src.zMax < z
    · obtain ⟨a1, a2, a3⟩ := LdObj.outside (mem := mem) hout
      obtain ⟨b1, b2, b3⟩ := LdObj.outside (d := d) (mem := mem') (z := z) (by rw [m2, m4]; exact hout)
      rw [a1, a2, a3, b1, b2, b3]
      exact ⟨rfl, rfl, rfl⟩
    · rw [not_or, not_lt, not_lt] at hout
      have hlt : z < src.z0 + src.dz * (n - 1) := by
        rcases hz with hz | hz
        · exact hz
        · rw [hmax] at hout
          exact absurd hz (not_lt.2 hout.2)
      have hcast : ((n - 1 : Nat) : K) = (n : K) - 1 := by
        rw [Nat.cast_sub (by omega)]; simp
      obtain ⟨i, hi, i1, i2⟩ := exists_cell (n := n - 1) hdz hout.1 (by rw [hcast]; exact hlt)
      obtain ⟨⟨x1, y1⟩, ⟨x2, y2⟩, ⟨x3, y3⟩, ⟨x4, y4⟩, ⟨x5, y5⟩⟩ :=
        evaluations_defined hdz (src.values mem) (src.derivs mem) (show i + 1 < n by omega) i1 i2
      have c1 : n ≤ src.capacity.toNat := by omega
      have c2 : n ≤ d.capacity.toNat := by omega
      have rfl1 : ∀ j < n, src.values mem j = src.values mem j := fun _ _ => rfl
      have rfl2 : ∀ j < n, src.derivs mem j = src.derivs mem j := fun _ _ => rfl
      by_cases k0 : src.method = 0
      · obtain ⟨a1, a2, a3⟩ := LdObj.inside_linear hs hdz.ne' k0 (mem := mem) hout.1 hout.2
        obtain ⟨b1, b2, b3⟩ := LdObj.inside_linear hA (by rw [m3]; exact hdz.ne') (by rw [m1]; exact k0) (mem := mem')
          (z := z) (by rw [m2]; exact hout.1) (by rw [m4]; exact hout.2)
        rw [a1, a2, a3, b1, b2, b3, m2, m3, linearY_mono rfl1 rfl2 c1 y1, linearYp_mono rfl2 c1 y2,
          linearY_mono v1 v2 c2 y1, linearYp_mono v2 c2 y2]
        exact ⟨rfl, rfl, rfl⟩
      · by_cases k1 : src.method = 1
        · obtain ⟨a1, a2, a3⟩ := LdObj.inside_cubic hs hdz.ne' k1 (mem := mem) hout.1 hout.2
          obtain ⟨b1, b2, b3⟩ := LdObj.inside_cubic hA (by rw [m3]; exact hdz.ne') (by rw [m1]; exact k1) (mem := mem')
            (z := z) (by rw [m2]; exact hout.1) (by rw [m4]; exact hout.2)
          rw [a1, a2, a3, b1, b2, b3, m2, m3, cubicY_mono rfl1 rfl2 c1 y3, cubicYp_mono rfl1 rfl2 c1 y4,
            cubicYpp_mono rfl2 c1 y5, cubicY_mono v1 v2 c2 y3, cubicYp_mono v1 v2 c2 y4, cubicYpp_mono v2 c2 y5]
          exact ⟨rfl, rfl, rfl⟩
        · unfold LdObj.value LdObj.deriv1 LdObj.deriv2
          simp only [m1, k0, k1, if_false, ite_self]
          exact ⟨trivial, trivial, trivial⟩

omit [LinearOrder K] [IsStrictOrderedRing K] [FloorRing K] in
/-- A profile with more samples than the destination can hold is refused, and nothing changes. -/
theorem C66_copy_refused (dst src : LdObj K) (mem : Nat → K) (h : dst.capacity < src.numValues) :
    LdObj.copy dst src mem = .ok (-1, dst, mem) := by
  unfold LdObj.copy
  rw [if_neg (by omega)]

end

/-- In every buffer that can be reached, asking whether a profile can be added reads through null pointers. -/
theorem C66_can_be_added_violated {s : Buf.St} {os : List Buf.Obj} (h : Buf.Reach s os) {capacity : Int}
    (hc : 0 < capacity) : LdObj.canBeAdded s capacity = .ub := by
  obtain ⟨c, k, g, -⟩ := h.good
  unfold LdObj.canBeAdded
  have : s.buf.slot = 8 := g.slot
  rw [if_pos ⟨by omega, hc⟩, if_pos g.toCore.append]

/-! ## The hypotheses can be met -/

/-- Two profiles of five samples at different addresses. -/
def ldLinear : LdObj ℚ := ⟨0, 5, 10, 20, -1, 1 / 2, 5⟩
def ldTarget : LdObj ℚ := ⟨255, 6, 40, 50, 0, 1, 0⟩
noncomputable def ldCubic : LdObj ℝ := ⟨1, 5, 10, 20, -1, 1 / 2, 5⟩

example : ldLinear.Arrays ∧ ldTarget.Arrays ∧ ldCubic.Arrays := by
  refine ⟨⟨?_, ?_, ?_, ?_⟩, ⟨?_, ?_, ?_, ?_⟩, ⟨?_, ?_, ?_, ?_⟩⟩ <;> simp [ldLinear, ldTarget, ldCubic]

example : ∃ mem', ldLinear.prepare (fun a => (a : ℚ)) = .ok (true, mem') := by
  have ha : ldLinear.Arrays := by refine ⟨?_, ?_, ?_, ?_⟩ <;> simp [ldLinear]
  obtain ⟨ok, mem', h1, h2, -, -⟩ := C66_prepare ha (fun a => (a : ℚ))
  have : ok = true := h2.2 ⟨by norm_num [ldLinear], Or.inl ⟨rfl, by norm_num [ldLinear]⟩⟩
  exact ⟨mem', by rw [h1, this]⟩

example : ∃ mem', ldCubic.prepare (fun a => (a : ℝ)) = .ok (true, mem') := by
  have ha : ldCubic.Arrays := by refine ⟨?_, ?_, ?_, ?_⟩ <;> simp [ldCubic]
  obtain ⟨ok, mem', h1, h2, -, -⟩ := C66_prepare ha (fun a => (a : ℝ))
  have : ok = true := h2.2 ⟨by norm_num [ldCubic], Or.inr ⟨rfl, by norm_num [ldCubic]⟩⟩
  exact ⟨mem', by rw [h1, this]⟩

/-- A buffer with two objects in it. -/
example : ∃ s, LdObj.canBeAdded s 5 = .ub ∧ ∃ os, Buf.Reach s os ∧ os.length = 2 := by
  obtain ⟨s, c, k, h, -⟩ := Buf.two_objects 3 (by omega)
  exact ⟨s, C66_can_be_added_violated h (by norm_num), _, h, rfl⟩

/-- A profile asked for from -1 in steps of 1/2 starts at 1/2. -/
example : ∃ d, LdObj.addHandle 0 5 10 20 (-1 : ℚ) (1 / 2) 5 = some d ∧ d.z0 = 1 / 2 := ⟨_, rfl, rfl⟩

example : ldLinear.numValues ≤ ldTarget.capacity ∧ (ldTarget.valuesAddr + 5 ≤ ldLinear.valuesAddr ∨
    ldLinear.valuesAddr + 5 ≤ ldTarget.valuesAddr) ∧ 0 < ldLinear.dz := by
  refine ⟨?_, ?_, ?_⟩ <;> norm_num [ldLinear, ldTarget]

example : ∃ dst src : LdObj ℚ, dst.capacity < src.numValues :=
  ⟨⟨0, 2, 10, 20, 0, 1, 2⟩, ldLinear, by norm_num [ldLinear]⟩

end SixTrack

import Verif.BeamObjects
import Verif.ElementObjectsLemmas
import Verif.QGaussReal

/-!
# C67: copying and clearing beam-beam and space-charge elements

* a data size is accepted if it is zero or has room for the data (`C67_set_size`);
* a 4D beam-beam element is copied completely, if its data fit (`C67_copy_4d`, `C67_copy_refused`);
* of a 6D beam-beam element the 38 leading words are copied (`C67_copy_6d_partial`), but not the slices: the copy keeps
  the old slices of the destination (`C67_copy_6d_violated`);
* the space-charge elements are copied completely (`C67_copy_coasting`, `C67_copy_interpolated`, `C67_copy_qgauss`), the
  interpolated one with the address of the same profile;
* clearing a q-Gaussian element leaves its smallest difference of beam sizes as it was (`C67_clear`,
  `C67_qgauss_clear_violated`).
-/

set_option linter.unusedSectionVars false

namespace SixTrack

open Elem

/-! ## Beam-beam elements -/

/-- Which sizes are accepted. -/
theorem C67_set_size (words size : Nat) (b : BbObj) :
    (size = 0 ∨ words ≤ size → b.setSize words size = (0, ⟨size, b.addr⟩)) ∧
    (0 < size → size < words → b.setSize words size = (-1, b)) := by
  unfold BbObj.setSize
  refine ⟨fun h => if_pos h, fun h h' => if_neg (by omega)⟩

/-- A copy is refused, and nothing changes, if one of the two elements has no data, if they share their data, or if the
source has more words than the destination. -/
theorem C67_copy_refused (words : Nat) (dst src : BbObj) (mem : Nat → Nat)
    (h : dst.addr = 0 ∨ src.addr = 0 ∨ dst.addr = src.addr ∨ dst.size < src.size) :
    BbObj.copy words dst src mem = .ok (-1, dst, mem) := by
  unfold BbObj.copy
  rw [if_neg (by omega)]

/-- What a copy does to the memory and to the destination. -/
theorem bb_copy {words : Nat} {dst src : BbObj} (mem : Nat → Nat) (hd : dst.addr ≠ 0) (hs : src.addr ≠ 0)
    (hw : words ≤ src.size) (hle : src.size ≤ dst.size)
    (hap : dst.addr + words ≤ src.addr ∨ src.addr + words ≤ dst.addr) (hw0 : 0 < words) :
    ∃ mem', BbObj.copy words dst src mem = .ok (0, ⟨src.size, dst.addr⟩, mem') ∧
      (∀ i < words, mem' (dst.addr + i) = mem (src.addr + i) ∧ mem' (src.addr + i) = mem (src.addr + i)) ∧
      ∀ a, a < dst.addr ∨ dst.addr + words ≤ a → mem' a = mem a := by
  unfold BbObj.copy
  rw [if_pos ⟨hd, hs, hle, by omega⟩, if_neg (by omega), (C67_set_size words src.size dst).1 (Or.inr hw)]
  refine ⟨_, rfl, fun i hi => ⟨?_, ?_⟩, fun a ha => ?_⟩
  · rw [fillCells_spec, if_pos (by omega)]
    congr 1; omega
  · rw [fillCells_spec, if_neg (by omega)]
  · rw [fillCells_spec, if_neg (by omega)]

/-- A 4D element of the usual size: every word of the data is copied, nothing else changes. -/
theorem C67_copy_4d {dst src : BbObj} (mem : Nat → Nat) (hd : dst.addr ≠ 0) (hs : src.addr ≠ 0) (h4 : src.size = 11)
    (hle : 11 ≤ dst.size) (hap : dst.addr + 11 ≤ src.addr ∨ src.addr + 11 ≤ dst.addr) :
    ∃ d mem', BbObj.copy bb4dWords dst src mem = .ok (0, d, mem') ∧ d.size = src.size ∧ d.addr = dst.addr ∧
      (∀ i < src.size, mem' (d.addr + i) = mem (src.addr + i) ∧ mem' (src.addr + i) = mem (src.addr + i)) ∧
      ∀ a, a < d.addr ∨ d.addr + d.size ≤ a → mem' a = mem a := by
  obtain ⟨mem', e, c, r⟩ := bb_copy (words := 11) mem hd hs (by omega) (by omega) hap (by omega)
  refine ⟨_, mem', e, rfl, rfl, ?_, ?_⟩
  · rw [h4]; exact c
  · dsimp only; rw [h4]; exact r

/-- Of a 6D element the leading 38 words are copied.  Missing: the slices behind them, see `C67_copy_6d_violated`. -/
theorem C67_copy_6d_partial {dst src : BbObj} (mem : Nat → Nat) (hd : dst.addr ≠ 0) (hs : src.addr ≠ 0)
    (h6 : 38 ≤ src.size) (hle : src.size ≤ dst.size)
    (hap : dst.addr + dst.size ≤ src.addr ∨ src.addr + src.size ≤ dst.addr) :
    ∃ d mem', BbObj.copy bb6dWords dst src mem = .ok (0, d, mem') ∧ d.size = src.size ∧ d.addr = dst.addr ∧
      (∀ i < 38, mem' (d.addr + i) = mem (src.addr + i)) ∧
      (∀ i < src.size, mem' (src.addr + i) = mem (src.addr + i)) ∧
      ∀ a, a < d.addr ∨ d.addr + 38 ≤ a → mem' a = mem a := by
  obtain ⟨mem', e, c, r⟩ := bb_copy (words := 38) mem hd hs (by omega) (by omega) (by omega) (by omega)
  refine ⟨_, mem', e, rfl, rfl, fun i hi => (c i hi).1, fun i hi => r _ (by omega), r⟩

/-- The copy of a 6D element has the slices that the destination had before: for each of the four arrays, given by its
member `field` and the offset `off` that the source stores there, the call reports success and entry `i` of the array of the
copy is the word that was there before the copy. -/
theorem C67_copy_6d_violated {dst src : BbObj} (mem : Nat → Nat) (hd : dst.addr ≠ 0) (hs : src.addr ≠ 0)
    (h6 : 38 ≤ src.size) (hle : src.size ≤ dst.size)
    (hap : dst.addr + dst.size ≤ src.addr ∨ src.addr + src.size ≤ dst.addr) :
    ∃ d mem', BbObj.copy bb6dWords dst src mem = .ok (0, d, mem') ∧
      ∀ field off i, 34 ≤ field → field < 38 → mem (src.addr + field) = off → 38 ≤ field + off + 1 →
        src.slice mem field i = mem (src.addr + (field + off + 1 + i)) ∧
        d.slice mem' field i = mem (dst.addr + (field + off + 1 + i)) := by
  obtain ⟨d, mem', e, e1, e2, c, -, r⟩ := C67_copy_6d_partial mem hd hs h6 hle hap
  refine ⟨d, mem', e, ?_⟩
  intro field off i h1 h2 ho h3
  unfold BbObj.slice
  rw [c field (by omega), ho, r _ (by omega), e2]
  constructor <;> congr 1 <;> omega

/-- Sizes below that of the structure, 0 among them, do not keep the structure from being read: copying such an element is
undefined. -/
theorem C67_copy_short_violated (words : Nat) (dst src : BbObj) (mem : Nat → Nat) (hd : dst.addr ≠ 0) (hs : src.addr ≠ 0)
    (hne : dst.addr ≠ src.addr) (hw : src.size < words) (hle : src.size ≤ dst.size) :
    BbObj.copy words dst src mem = .ub := by
  unfold BbObj.copy
  rw [if_pos ⟨hd, hs, hle, hne⟩, if_pos (Or.inr hw)]

/-! ## Space-charge elements -/

section
variable {K : Type} [Field K] [LinearOrder K] [Beam.FieldOps K]

/-- A coasting beam element is copied completely. -/
theorem C67_copy_coasting (dst src : Beam.SCCoasting K) (h : src.enabled = 0 ∨ src.enabled = 1) :
    dst.copy src = src := by
  obtain ⟨a, b, c, d, e, f, g, i, n⟩ := src
  rcases h with h | h <;> simp only at h <;> subst h <;> rfl

/-- An interpolated element is copied completely; the copy uses the profile of the source. -/
theorem C67_copy_interpolated (dst src : Beam.SCInterpObj K) (h : src.enabled = 0 ∨ src.enabled = 1) :
    dst.copy src = src := by
  obtain ⟨a, b, c, d, e, f, g, i, j, n⟩ := src
  rcases h with h | h <;> simp only at h <;> subst h <;> rfl

/-- A q-Gaussian element is copied completely, if its constant belongs to its parameter; with a parameter of three or more the
copy fails. -/
theorem C67_copy_qgauss (dst src : Beam.SCQGauss K) :
    (∀ (_ : src.qParam < ((3 : Nat) : K)) (_ : Beam.cqOf src.qParam = .ok src.cq)
      (_ : src.enabled = 0 ∨ src.enabled = 1), dst.copy src = .ok (true, src)) ∧
    (((3 : Nat) : K) ≤ src.qParam → ∃ d, dst.copy src = .ok (false, d) ∧ d.qParam = dst.qParam ∧ d.cq = dst.cq) := by
  refine ⟨fun h hc he => ?_, fun h => ?_⟩
  · have hs : ∀ o : Beam.SCQGauss K, Beam.setQ o src.qParam =
        .ok (true, { o with qParam := src.qParam, cq := src.cq }) := by
      intro o
      unfold Beam.setQ
      rw [if_pos h, hc]; rfl
    unfold Beam.SCQGauss.copy
    simp only [hs, Res.ok_bind]
    obtain ⟨⟩ := src
    rcases he with he | he <;> simp only at he <;> subst he <;> rfl
  · have hs : ∀ o : Beam.SCQGauss K, Beam.setQ o src.qParam = .ok (false, o) := by
      intro o
      unfold Beam.setQ
      rw [if_neg (not_lt.2 h)]; rfl
    unfold Beam.SCQGauss.copy
    simp only [hs, Res.ok_bind]
    exact ⟨_, rfl, rfl, rfl⟩

/-- Whatever the flag of the source, the copy is enabled exactly if the source is, and its flag is 0 or 1. -/
theorem C67_copy_enabled (dst src : Beam.SCCoasting K) (dst' src' : Beam.SCInterpObj K) (dst'' src'' d : Beam.SCQGauss K)
    (ok : Bool) (h : dst''.copy src'' = .ok (ok, d)) :
    (dst.copy src).enabled = (if src.enabled = 1 then 1 else 0) ∧
      (dst'.copy src').enabled = (if src'.enabled = 1 then 1 else 0) ∧
      d.enabled = (if src''.enabled = 1 then 1 else 0) := by
  refine ⟨rfl, rfl, ?_⟩
  unfold Beam.SCQGauss.copy at h
  obtain ⟨⟨o, e⟩, -, h⟩ := Res.bind_eq_ok.1 h
  have := (Prod.mk.inj ((Res.ok_inj _ _).1 h)).2
  rw [← this]
  rfl

/-- What clearing sets. -/
theorem C67_clear (sc : Beam.SCCoasting K) (si : Beam.SCInterpObj K) :
    sc.clear = ⟨0, 1, 1, 1, 0, 0, 0, Beam.dec 1 10, 1⟩ ∧ si.clear = ⟨0, 1, 1, 0, 0, 0, 0, 1, Beam.dec 1 10, 1⟩ := ⟨rfl, rfl⟩

end

/-- Clearing a q-Gaussian element succeeds and sets everything but the smallest difference of the beam sizes, which stays as it
was: two elements that differ in it still differ, and a new element, whose memory was not set, is stored with any value. -/
theorem C67_qgauss_clear_violated (sc : Beam.SCQGauss ℝ) :
    ∃ o, sc.clear = .ok (true, o) ∧ o.nPart = 0 ∧ o.bunchlengthRms = 1 ∧ o.sigmaX = 1 ∧ o.sigmaY = 1 ∧ o.length = 0 ∧
      o.xCo = 0 ∧ o.yCo = 0 ∧ o.qParam = 1 ∧ o.cq = Real.sqrt Real.pi ∧ o.enabled = 1 ∧
      o.minSigmaDiff = sc.minSigmaDiff := by
  have hq : Beam.cqOf (1 : ℝ) = .ok (Real.sqrt Real.pi) := QG.cqOf_near (by norm_num)
  have hs : ∀ o : Beam.SCQGauss ℝ, Beam.setQ o 1 = .ok (true, { o with qParam := 1, cq := Real.sqrt Real.pi }) := by
    intro o
    unfold Beam.setQ
    rw [if_pos (by norm_num), hq]; rfl
  unfold Beam.SCQGauss.clear
  simp only [hs, Res.ok_bind]
  exact ⟨_, rfl, rfl, rfl, rfl, rfl, rfl, rfl, rfl, rfl, rfl, rfl, rfl⟩

/-! ## The hypotheses can be met -/

/-- Two 6D elements with one slice each; the offsets lead to words 38 to 41. -/
def bbSource : BbObj := ⟨42, 100⟩
def bbTarget : BbObj := ⟨42, 200⟩
def bbMem (a : Nat) : Nat := if 134 ≤ a ∧ a < 138 then 3 else a

example : bbTarget.addr ≠ 0 ∧ (⟨0, 300⟩ : BbObj).size < bb6dWords ∧ 38 ≤ bbSource.size ∧ bbSource.size ≤ bbTarget.size ∧
    (bbSource.addr + bbSource.size ≤ bbTarget.addr) ∧ bbMem (bbSource.addr + 35) = 3 := by decide

/-- The source has 139 in its array of positions, the copy has 239, what the destination had there. -/
example : ∃ d mem', BbObj.copy bb6dWords bbTarget bbSource bbMem = .ok (0, d, mem') ∧
    bbSource.slice bbMem 35 0 = 139 ∧ d.slice mem' 35 0 = 239 := by
  obtain ⟨d, mem', e, h⟩ := C67_copy_6d_violated (dst := bbTarget) (src := bbSource) bbMem (by decide) (by decide)
    (by decide) (by decide) (by decide)
  obtain ⟨h1, h2⟩ := h 35 3 0 (by omega) (by omega) (by decide) (by omega)
  exact ⟨d, mem', e, h1.trans (by decide), h2.trans (by decide)⟩

example : ∃ dst src : BbObj, dst.addr ≠ 0 ∧ src.addr ≠ 0 ∧ src.size = 11 ∧ 11 ≤ dst.size ∧ src.addr + 11 ≤ dst.addr :=
  ⟨⟨11, 200⟩, ⟨11, 100⟩, by decide⟩

example : ∃ src : Beam.SCQGauss ℝ, src.qParam < ((3 : Nat) : ℝ) ∧ Beam.cqOf src.qParam = .ok src.cq ∧ src.enabled = 1 := by
  refine ⟨⟨1, 1, 1, 1, 1, 0, 0, 0, 1, Real.sqrt Real.pi, 1⟩, by norm_num, ?_, rfl⟩
  exact QG.cqOf_near (by norm_num)

end SixTrack

import Verif.ClNodes
import Verif.Props.NodeInfo

/-! # Lemmas about the available OpenCL nodes -/

namespace SixTrack.ClNodes

open SixTrack.Node SixTrack.CInfo

theorem _root_.SixTrack.Replaced.refl (m : Mem) : Replaced m m [] [] := ⟨fun q => by simp, fun q _ _ => rfl, by simp⟩

theorem _root_.SixTrack.Replaced.le {m m' : Mem} {own : List Nat} (h : Replaced m m' [] own) : m.length ≤ m'.length := by
  by_contra hc
  have h1 : m'.length < m.length := by omega
  have := h.kept m'.length h1 (by simp)
  rw [List.getElem?_eq_none (Nat.le_refl _)] at this
  rw [eq_comm, List.getElem?_eq_none_iff] at this
  omega

theorem _root_.SixTrack.Replaced.trans {m m1 m2 : Mem} {a b : List Nat} (h1 : Replaced m m1 [] a) (h2 : Replaced m1 m2 [] b) :
    Replaced m m2 [] (a ++ b) := by
  refine ⟨fun q => ?_, fun q hq _ => ?_, fun q hq => ?_⟩
  · rw [h2.live, h1.live]
    simp [or_assoc]
  · rw [h2.kept q (by have := h1.le; omega) (by simp), h1.kept q hq (by simp)]
  · rcases List.mem_append.mp hq with h | h
    · exact h1.fresh q h
    · have := h2.fresh q h
      have := h1.le
      omega

theorem readStr_lt {m : Mem} {p : Ptr} {s : Str} (h : readStr m p = .ok s) : ∃ q, p = some q ∧ q < m.length := by
  cases p with
  | none => simp [readStr] at h
  | some q =>
    refine ⟨q, rfl, ?_⟩
    by_contra hq
    unfold readStr at h
    simp only at h
    rw [List.getElem?_eq_none (by omega)] at h
    simp at h

theorem readStr_congr {m m' : Mem} {q : Nat} (h : m'[q]? = m[q]?) : readStr m' (some q) = readStr m (some q) := by
  unfold readStr
  simp only [h]

theorem _root_.SixTrack.Replaced.read {m m' : Mem} {own : List Nat} (h : Replaced m m' [] own) {p : Ptr} {s : Str}
    (hr : readStr m p = .ok s) : readStr m' p = .ok s := by
  obtain ⟨q, rfl, hq⟩ := readStr_lt hr
  rw [readStr_congr (h.kept q hq (by simp)), hr]

/-- A text at a pointer; for the empty text there is no pointer. -/
def OptText (m : Mem) (p : Ptr) (s : Str) : Prop := if s = [] then p = none else readStr m p = .ok s

/-- The description of a device. -/
structure Described (m : Mem) (i : Info) (platform : Str) (d : Device) (id : CId) : Prop where
  id : i.id = id
  arch : readStr m i.arch = .ok OPENCL
  name : readStr m i.name = .ok d.name
  platform : OptText m i.platform platform
  extensions : OptText m i.description d.extensions

theorem Described.mono {m m' : Mem} {own : List Nat} (h : Replaced m m' [] own) {i : Info} {p : Str} {d : Device}
    {id : CId} (hd : Described m i p d id) : Described m' i p d id := by
  refine ⟨hd.id, h.read hd.arch, h.read hd.name, ?_, ?_⟩
  · have := hd.platform
    unfold OptText at this ⊢
    split_ifs at this ⊢
    · exact this
    · exact h.read this
  · have := hd.extensions
    unfold OptText at this ⊢
    split_ifs at this ⊢
    · exact this
    · exact h.read this

theorem owned_preset (m : Mem) : Owned m Info.preset :=
  ⟨List.nodup_nil, fun q hq => absurd hq (by simp [Info.ptrs, Info.preset])⟩

theorem kill_nil (m : Mem) : kill m Info.preset.ptrs = m := rfl

/-- Whether a device gets a description. -/
def Room (av : Nat → Bool) (platform : Str) (d : Device) : Prop :=
  d.name ≠ [] ∧ av 0 = true ∧ av 1 = true ∧ (platform = [] ∨ av 2 = true) ∧ (d.extensions = [] ∨ av 3 = true)

theorem store_text (m r : Mem) (s : Str) (k : Nat) (hk : k = m.length) :
    store (m ++ zeros s.length :: r) (some k) s = .ok (m ++ textBlock s.length s :: r) :=
  store_zeros m r _ k s hk (by omega)

theorem describe_eq {av : Nat → Bool} {m : Mem} {platform : Str} {d : Device} (id : CId) (h : Room av platform d) :
    describe av m platform d id =
      .ok (m ++ (textBlock OPENCL.length OPENCL :: textBlock d.name.length d.name ::
        ((if platform = [] then [] else [textBlock platform.length platform]) ++
          (if d.extensions = [] then [] else [textBlock d.extensions.length d.extensions]))),
        { freshInfo m.length platform.length d.extensions.length with id := id }) := by
  obtain ⟨hn, h0, h1, h2, h3⟩ := h
  unfold describe
  rw [reserve_ok (owned_preset m) (by decide) (List.length_pos_of_ne_nil hn) h0 h1
    (h2.imp (fun e => by simp [e]) fun e => e) (h3.imp (fun e => by simp [e]) fun e => e), Res.ok_bind]
  simp only [if_true, kill_nil, strncpy_self]
  unfold CInfo.fresh
  rw [show (freshInfo m.length platform.length d.extensions.length).arch = some m.length from rfl,
    store_text m _ OPENCL m.length rfl, Res.ok_bind,
    show (freshInfo m.length platform.length d.extensions.length).name = some (m.length + 1) from rfl,
    show ∀ (x : Mem) (y : Option Block) (z : Mem), x ++ y :: z = (x ++ [y]) ++ z by simp,
    store_text _ _ d.name (m.length + 1) (by simp), Res.ok_bind]
  unfold copyNonEmpty
  by_cases hp : platform = []
  · have hp0 : platform.length = 0 := by simp [hp]
    rw [if_neg (by simp [hp]), Res.ok_bind]
    by_cases he : d.extensions = []
    · rw [if_neg (by simp [he]), Res.ok_bind]
      simp [hp, he]
    · have he0 : d.extensions.length ≠ 0 := by simpa using he
      rw [if_pos he, if_pos hp0, if_neg he0, strncpy_self,
        show (freshInfo m.length platform.length d.extensions.length).description = some (m.length + 2) by
          simp [freshInfo, hp0, he0],
        show ∀ (x : Mem) (y w : Option Block) (z : Mem), (x ++ [y]) ++ w :: z = (x ++ [y, w]) ++ z by simp]
      simp only [List.nil_append]
      rw [store_text _ _ d.extensions (m.length + 2) (by simp), Res.ok_bind]
      simp [hp, he]
  · have hp0 : platform.length ≠ 0 := by simpa using hp
    rw [if_pos hp, if_neg hp0, strncpy_self,
      show (freshInfo m.length platform.length d.extensions.length).platform = some (m.length + 2) by
        simp [freshInfo, hp0],
      show ∀ (x : Mem) (y w : Option Block) (z : Mem), (x ++ [y]) ++ w :: z = (x ++ [y, w]) ++ z by simp]
    simp only [List.cons_append, List.nil_append]
    rw [store_text _ _ platform (m.length + 2) (by simp), Res.ok_bind]
    by_cases he : d.extensions = []
    · rw [if_neg (by simp [he]), Res.ok_bind]
      simp [hp, he]
    · have he0 : d.extensions.length ≠ 0 := by simpa using he
      rw [if_pos he, if_neg he0, strncpy_self,
        show (freshInfo m.length platform.length d.extensions.length).description = some (m.length + 3) by
          simp [freshInfo, hp0, he0],
        show ∀ (x : Mem) (y w v : Option Block) (z : Mem), (x ++ [y, w]) ++ v :: z = (x ++ [y, w, v]) ++ z by simp,
        store_text _ _ d.extensions (m.length + 3) (by simp), Res.ok_bind]
      simp [hp, he]

/-- Texts without a NUL. -/
def Clean (platform : Str) (d : Device) : Prop := 0 ∉ platform ∧ 0 ∉ d.name ∧ 0 ∉ d.extensions

theorem describe_ok {av : Nat → Bool} {m : Mem} {platform : Str} {d : Device} (id : CId) (h : Room av platform d)
    (hc : Clean platform d) :
    ∃ m' i', describe av m platform d id = .ok (m', i') ∧ Owned m' i' ∧ Replaced m m' [] i'.ptrs ∧
      Described m' i' platform d id := by
  refine ⟨_, _, describe_eq id h, ?_⟩
  have hR : Replaced m (m ++ (textBlock OPENCL.length OPENCL :: textBlock d.name.length d.name ::
        ((if platform = [] then [] else [textBlock platform.length platform]) ++
          (if d.extensions = [] then [] else [textBlock d.extensions.length d.extensions])))) []
      (freshInfo m.length platform.length d.extensions.length).ptrs := by
    have := @Replaced.of_append m [] (freshInfo m.length platform.length d.extensions.length).ptrs
      (textBlock OPENCL.length OPENCL :: textBlock d.name.length d.name ::
        ((if platform = [] then [] else [textBlock platform.length platform]) ++
          (if d.extensions = [] then [] else [textBlock d.extensions.length d.extensions]))) ?_ ?_
    · exact this
    · intro q
      rw [← fresh_live m.length 0 platform.length 0 d.extensions.length q]
      unfold CInfo.fresh zeros textBlock
      match q with
      | 0 => simp
      | 1 => simp
      | 2 => by_cases hp : platform = [] <;> by_cases he : d.extensions = [] <;> simp [hp, he]
      | 3 => by_cases hp : platform = [] <;> by_cases he : d.extensions = [] <;> simp [hp, he]
      | q + 4 => by_cases hp : platform = [] <;> by_cases he : d.extensions = [] <;> simp [hp, he]
    · intro q hq
      rw [freshInfo_ptrs] at hq
      split_ifs at hq <;> omega
  refine ⟨⟨freshInfo_nodup m.length _ _, fun q hq => (hR.live q).mpr (.inr hq)⟩, hR, rfl, ?_, ?_, ?_, ?_⟩
  · exact read_block rfl (by decide) (Nat.le_refl _)
  · simp only [freshInfo]
    rw [show ∀ (x : Mem) (a : Option Block) (z : Mem), x ++ a :: z = (x ++ [a]) ++ z by simp]
    exact read_block (by simp) hc.2.1 (Nat.le_refl _)
  · unfold OptText
    by_cases hp : platform = []
    · rw [if_pos hp]
      simp [freshInfo, hp]
    · have hp0 : platform.length ≠ 0 := by simpa using hp
      simp only [freshInfo, if_neg hp0, if_neg hp, List.cons_append, List.nil_append]
      rw [show ∀ (x : Mem) (a b : Option Block) (z : Mem), x ++ a :: b :: z = (x ++ [a, b]) ++ z by simp]
      exact read_block (by simp) hc.1 (Nat.le_refl _)
  · unfold OptText
    split_ifs with he hp
    · simp [freshInfo, he]
    · have he0 : d.extensions.length ≠ 0 := by simpa using he
      simp only [freshInfo, if_neg he0, hp, List.length_nil, if_true, List.nil_append]
      rw [show ∀ (x : Mem) (a b : Option Block) (z : Mem), x ++ a :: b :: z = (x ++ [a, b]) ++ z by simp]
      exact read_block (by simp) hc.2.2 (Nat.le_refl _)
    · have he0 : d.extensions.length ≠ 0 := by simpa using he
      have hp0 : platform.length ≠ 0 := by simpa using hp
      simp only [freshInfo, if_neg he0, if_neg hp0, List.cons_append, List.nil_append]
      rw [show ∀ (x : Mem) (a b c : Option Block) (z : Mem), x ++ a :: b :: c :: z = (x ++ [a, b, c]) ++ z by simp]
      exact read_block (by simp) hc.2.2 (Nat.le_refl _)

theorem describe_fail {av : Nat → Bool} {m : Mem} {platform : Str} {d : Device} (id : CId)
    (h : ¬ Room av platform d) :
    ∃ m', describe av m platform d id = .ok (m', Info.preset) ∧ Replaced m m' [] [] := by
  obtain ⟨m', e, hr⟩ := C92_reserve_fails av m Info.preset OPENCL.length platform.length d.name.length
    d.extensions.length (by
      rintro ⟨-, g1, g2, g3, g4, g5⟩
      exact h ⟨List.ne_nil_of_length_pos g1, g2, g3, g4.imp List.eq_nil_of_length_eq_zero fun e => e,
        g5.imp List.eq_nil_of_length_eq_zero fun e => e⟩)
  refine ⟨m', ?_, hr⟩
  unfold describe
  rw [e]
  rfl

end SixTrack.ClNodes

import Verif.NodeController
import Verif.Props.NodeId

/-! Lemmas about the controller of nodes (no property statements). -/

namespace SixTrack.NodeController
open Node

/-- What holds between two calls. -/
structure Good (c : Ctrl) : Prop where
  len : c.nodes.length ≤ UNDEF
  idx : ∀ (i : Nat) (x : Info), c.nodes[i]? = some x →
    x.id.index = i ∧ 0 ≤ x.id.platform ∧ 0 ≤ x.id.device
  uniq : ∀ (i j : Nat) (x y : Info), c.nodes[i]? = some x → c.nodes[j]? = some y →
    x.id.platform = y.id.platform → x.id.device = y.id.device → i = j
  bounds : (c.nodes = [] ∧ c.min = UNDEF ∧ c.max = UNDEF) ∨
    (c.nodes ≠ [] ∧ c.min = 0 ∧ c.max + 1 = c.nodes.length)
  dflt : c.dflt = .null ∨ ∃ (i : Nat) (x : Info), c.dflt = .node i ∧ c.nodes[i]? = some x ∧
    x.isDefault = true
  sel : (c.selected = .null ∧ c.idStr = List.replicate CAP 0) ∨
    ∃ (i : Nat) (x : Info), c.selected = .node i ∧ c.nodes[i]? = some x ∧ x.isSelected = true ∧
      x.id.print.length < CAP - 1 ∧ c.idStr = x.id.print ++ List.replicate (CAP - x.id.print.length) 0

/-- Index of the selected node. -/
def Ctrl.sel? (c : Ctrl) : Option Nat := match c.selected with
  | .node i => some i
  | _ => none

def Ctrl.dflt? (c : Ctrl) : Option Nat := match c.dflt with
  | .node i => some i
  | _ => none

theorem lt_of_some {α} {l : List α} {i : Nat} {x : α} (h : l[i]? = some x) : i < l.length :=
  (List.getElem?_eq_some_iff.1 h).1

theorem Good.valid {c : Ctrl} (g : Good c) {i : Nat} {x : Info} (h : c.nodes[i]? = some x) :
    x.id.valid = true := by
  obtain ⟨-, hp, hd⟩ := g.idx i x h
  have h1 : x.id.platform ≠ -1 := by omega
  have h2 : x.id.device ≠ -1 := by omega
  simp [Id.valid, h1, h2]

theorem Good.lt_undef {c : Ctrl} (g : Good c) {i : Nat} {x : Info} (h : c.nodes[i]? = some x) :
    i < UNDEF := by
  have := lt_of_some h
  have := g.len
  omega

theorem Good.sel?_cases {c : Ctrl} (g : Good c) :
    (c.sel? = none ∧ c.selected = .null) ∨ ∃ (i : Nat) (x : Info), c.sel? = some i ∧
      c.selected = .node i ∧ c.nodes[i]? = some x ∧ i < UNDEF ∧ x.id.index = i := by
  rcases g.sel with ⟨h, -⟩ | ⟨i, x, h, hx, -⟩
  · exact .inl ⟨by simp [Ctrl.sel?, h], h⟩
  · exact .inr ⟨i, x, by simp [Ctrl.sel?, h], h, hx, g.lt_undef hx, (g.idx i x hx).1⟩

theorem Good.dflt?_cases {c : Ctrl} (g : Good c) :
    (c.dflt? = none ∧ c.dflt = .null) ∨ ∃ (i : Nat) (x : Info), c.dflt? = some i ∧
      c.dflt = .node i ∧ c.nodes[i]? = some x ∧ i < UNDEF ∧ x.id.index = i := by
  rcases g.dflt with h | ⟨i, x, h, hx, -⟩
  · exact .inl ⟨by simp [Ctrl.dflt?, h], h⟩
  · exact .inr ⟨i, x, by simp [Ctrl.dflt?, h], h, hx, g.lt_undef hx, (g.idx i x hx).1⟩

theorem Good.selectedIndex {c : Ctrl} (g : Good c) :
    c.selectedIndex = .ok (c.sel?.getD UNDEF) := by
  rcases g.sel?_cases with ⟨h, h'⟩ | ⟨i, x, h, h', hx, hi, hix⟩
  · simp [Ctrl.selectedIndex, h, h', Ctrl.deref, Res.ok_bind]
  · have : x.id.index ≠ UNDEF := by omega
    simp only [Ctrl.selectedIndex, h, h', Ctrl.deref, Res.ok_bind, hx, Option.getD_some, hix]
    rw [if_pos (by omega)]

theorem Good.hasSelected {c : Ctrl} (g : Good c) : c.hasSelected = .ok c.sel?.isSome := by
  unfold Ctrl.hasSelected
  rw [g.selectedIndex]
  rcases g.sel?_cases with ⟨h, h'⟩ | ⟨i, x, h, h', hx, hi, hix⟩
  · simp [h, h']
  · have := lt_of_some hx
    simp [h, h', Res.ok_bind, this]

theorem Good.isSelectedNode {c : Ctrl} (g : Good c) (i : Nat) :
    c.isSelectedNode i = .ok (decide (c.sel? = some i)) := by
  unfold Ctrl.isSelectedNode
  rw [g.selectedIndex, g.hasSelected]
  rcases g.sel?_cases with ⟨h, h'⟩ | ⟨j, x, h, h', hx, hi, hix⟩
  · simp [h, Res.ok_bind]
  · by_cases hu : i = UNDEF
    · have : j ≠ i := by omega
      simp [h, hu]
      omega
    · simp [h, hu, Res.ok_bind]

theorem Good.defaultIndex {c : Ctrl} (g : Good c) :
    c.defaultIndex = .ok (c.dflt?.getD UNDEF) := by
  rcases g.dflt?_cases with ⟨h, h'⟩ | ⟨i, x, h, h', hx, hi, hix⟩
  · simp [Ctrl.defaultIndex, h, h', Ctrl.deref, Res.ok_bind]
  · have h1 : i ≠ UNDEF := by omega
    have := lt_of_some hx
    simp only [Ctrl.defaultIndex, h, h', Ctrl.deref, Res.ok_bind, hx, hix, Option.getD_some]
    rw [if_pos ⟨h1, this⟩]

theorem Good.hasDefault {c : Ctrl} (g : Good c) : c.hasDefault = .ok c.dflt?.isSome := by
  rcases g.dflt?_cases with ⟨h, h'⟩ | ⟨i, x, h, h', hx, hi, hix⟩
  · simp [Ctrl.hasDefault, h, h', Ctrl.deref, Res.ok_bind]
  · have h1 : i ≠ UNDEF := by omega
    have := lt_of_some hx
    simp only [Ctrl.hasDefault, h, h', Ctrl.deref, Res.ok_bind, hx, hix, Option.isSome_some]
    rw [decide_eq_true ⟨h1, this⟩]

theorem Good.isDefaultNode {c : Ctrl} (g : Good c) (i : Nat) :
    c.isDefaultNode i = .ok (decide (c.dflt? = some i)) := by
  unfold Ctrl.isDefaultNode
  rw [g.defaultIndex, g.hasDefault]
  rcases g.dflt?_cases with ⟨h, h'⟩ | ⟨j, x, h, h', hx, hi, hix⟩ <;> simp [h, Res.ok_bind]

theorem Good.isAvailable {c : Ctrl} (g : Good c) (i : Nat) :
    c.isAvailable i = decide (i < c.nodes.length) := by
  have := g.len
  unfold Ctrl.isAvailable
  by_cases h : i < c.nodes.length
  · have : i ≠ UNDEF := by omega
    simp [h, this]
  · simp [h]

/-! ## Selecting -/

/-- The controller with node `i` selected. -/
def Ctrl.withSel (c : Ctrl) (i : Nat) (x : Info) : Ctrl :=
  { c with
    nodes := c.nodes.set i { x with isSelected := true }
    idStr := x.id.print ++ List.replicate (CAP - x.id.print.length) 0
    selected := .node i }

/-- The controller without a selected node. -/
def Ctrl.noSel (c : Ctrl) : Ctrl := { c with idStr := List.replicate CAP 0, selected := .null }

theorem modify_eq_set {α} {l : List α} {i : Nat} {x : α} (f : α → α) (h : l[i]? = some x) :
    l.modify i f = l.set i (f x) := by
  apply List.ext_getElem?
  intro j
  rw [List.getElem?_modify, List.getElem?_set]
  by_cases hj : i = j
  · subst hj
    rw [if_pos rfl, if_pos (lt_of_some h), h]
    simp
  · simp [hj]

theorem Good.idStr_len {c : Ctrl} (g : Good c) : c.idStr.length = CAP := by
  rcases g.sel with ⟨-, h⟩ | ⟨i, x, -, -, -, hl, h⟩
  · simp [h]
  · rw [h]
    simp [CAP] at *
    omega

theorem Good.doSelect_some {c : Ctrl} (g : Good c) (i : Nat) (h : c.sel?.isSome = true) :
    c.doSelect i = .ok (false, c) := by
  unfold Ctrl.doSelect
  rw [g.hasSelected, Res.ok_bind, h]
  rfl

theorem Good.doSelect_out {c : Ctrl} (g : Good c) (i : Nat) (h : c.nodes[i]? = none) :
    c.doSelect i = .ok (false, c) := by
  unfold Ctrl.doSelect
  rw [g.hasSelected, Res.ok_bind]
  have : ¬ (i ≠ UNDEF ∧ i < c.nodes.length) := by
    have := List.getElem?_eq_none_iff.1 h
    omega
  rw [if_neg this]
  split <;> rfl

theorem Good.idStr_none {c : Ctrl} (g : Good c) (h : c.sel? = none) :
    c.idStr = List.replicate CAP 0 := by
  rcases g.sel with ⟨-, h'⟩ | ⟨i, x, h', -⟩
  · exact h'
  · simp [Ctrl.sel?, h'] at h

theorem Good.doSelect_none {c : Ctrl} (g : Good c) (i : Nat) (h : c.sel? = none) {x : Info}
    (hx : c.nodes[i]? = some x) :
    c.doSelect i = .ok (if x.id.print.length < CAP - 1 then (true, c.withSel i x) else (false, c)) := by
  unfold Ctrl.doSelect
  have hi := g.lt_undef hx
  have hv := g.valid hx
  have hs := g.idStr_none h
  rw [g.hasSelected, Res.ok_bind, h]
  have hc : i ≠ UNDEF ∧ i < c.nodes.length := ⟨by omega, lt_of_some hx⟩
  simp only [Option.isSome_none, Bool.false_eq_true, if_false]
  rw [if_pos hc, hx]
  simp only
  by_cases hl : x.id.print.length < CAP - 1
  · have hstr : x.id.print ++ List.replicate (CAP - 1 - x.id.print.length) 0 ++
        List.replicate (CAP - (CAP - 1)) 0 = x.id.print ++ List.replicate (CAP - x.id.print.length) 0 := by
      rw [List.append_assoc, List.replicate_append_replicate]
      congr 2
      unfold CAP at *
      omega
    have hix := (g.idx i x hx).1
    simp only [Id.toChars, hv, hl, decide_true, Bool.and_self, if_true, hs, List.drop_replicate]
    rw [hstr]
    unfold Ctrl.withSel Ctrl.modify
    rw [modify_eq_set _ hx]
    have : ({ x.id with index := i } : Id) = x.id := by rw [← hix]
    simp only [this]
  · simp only [Id.toChars, hv, hl, decide_false, Bool.and_false, Bool.false_eq_true, if_false, hs,
      List.drop_replicate]
    have : List.replicate (CAP - 1) 0 ++ List.replicate (CAP - (CAP - 1)) 0 = List.replicate CAP 0 := by
      decide
    rw [this, ← hs]

theorem get_set {l : List Info} {i j : Nat} {x y : Info} (b : Info) (hx : l[i]? = some x)
    (h : (l.set i b)[j]? = some y) : (i = j ∧ y = b) ∨ (i ≠ j ∧ l[j]? = some y) := by
  rw [List.getElem?_set] at h
  by_cases hj : i = j
  · subst hj
    simp [lt_of_some hx] at h
    exact .inl ⟨rfl, h.symm⟩
  · rw [if_neg hj] at h
    exact .inr ⟨hj, h⟩

/-- Changing the flags of a node keeps the ids. -/
theorem get_set_id {l : List Info} {i j : Nat} {x y b : Info} (hx : l[i]? = some x) (hb : b.id = x.id)
    (h : (l.set i b)[j]? = some y) : ∃ z, l[j]? = some z ∧ z.id = y.id := by
  rcases get_set b hx h with ⟨rfl, rfl⟩ | ⟨-, h'⟩
  · exact ⟨x, hx, hb.symm⟩
  · exact ⟨y, h', rfl⟩

theorem Good.withSel {c : Ctrl} (g : Good c) {i : Nat} {x : Info} (hx : c.nodes[i]? = some x)
    (hl : x.id.print.length < CAP - 1) : Good (c.withSel i x) := by
  have hb : ({ x with isSelected := true } : Info).id = x.id := rfl
  refine ⟨by simpa [Ctrl.withSel] using g.len, ?_, ?_, ?_, ?_, ?_⟩
  · intro j y hy
    obtain ⟨z, hz, hid⟩ := get_set_id hx hb hy
    rw [← hid]
    exact g.idx j z hz
  · intro j k y z hy hz h1 h2
    obtain ⟨y', hy', e1⟩ := get_set_id hx hb hy
    obtain ⟨z', hz', e2⟩ := get_set_id hx hb hz
    rw [← e1, ← e2] at h1 h2
    exact g.uniq j k y' z' hy' hz' h1 h2
  · rcases g.bounds with ⟨h, -⟩ | ⟨h, h1, h2⟩
    · simp [h] at hx
    · refine .inr ⟨?_, h1, ?_⟩
      · simpa [Ctrl.withSel] using h
      · simpa [Ctrl.withSel] using h2
  · rcases g.dflt with h | ⟨j, y, h, hy, hd⟩
    · exact .inl h
    · refine .inr ⟨j, ?_⟩
      by_cases hj : i = j
      · subst hj
        rw [hx] at hy
        obtain rfl := Option.some.inj hy
        exact ⟨{ x with isSelected := true }, h, by simp [Ctrl.withSel, lt_of_some hx], hd⟩
      · exact ⟨y, h, by simp [Ctrl.withSel, hj, hy], hd⟩
  · exact .inr ⟨i, { x with isSelected := true }, rfl, by simp [Ctrl.withSel, lt_of_some hx], rfl, hl, rfl⟩

theorem Good.noSel {c : Ctrl} (g : Good c) : Good c.noSel :=
  ⟨g.len, g.idx, g.uniq, g.bounds, g.dflt, .inl ⟨rfl, rfl⟩⟩

theorem noSel_sel? (c : Ctrl) : c.noSel.sel? = none := rfl

theorem withSel_sel? (c : Ctrl) (i : Nat) (x : Info) : (c.withSel i x).sel? = some i := rfl

theorem Good.doSelect {c : Ctrl} (g : Good c) (i : Nat) :
    ∃ b c', c.doSelect i = .ok (b, c') ∧ Good c' := by
  cases hs : c.sel? with
  | some j => exact ⟨_, _, g.doSelect_some i (by simp [hs]), g⟩
  | none =>
    cases hx : c.nodes[i]? with
    | none => exact ⟨_, _, g.doSelect_out i hx, g⟩
    | some x =>
      rw [g.doSelect_none i hs hx]
      split
      · rename_i hl
        exact ⟨_, _, rfl, g.withSel hx hl⟩
      · exact ⟨_, _, rfl, g⟩

theorem Good.removeSelection {c : Ctrl} (g : Good c) (i : Nat) :
    c.removeSelection i = .ok (if c.sel? = some i then c.noSel else c) := by
  unfold Ctrl.removeSelection
  rw [g.isSelectedNode, Res.ok_bind]
  by_cases h : c.sel? = some i
  · simp [h, Ctrl.noSel, g.idStr_len]
  · simp [h]

theorem Good.doUnselect {c : Ctrl} (g : Good c) (i : Nat) :
    c.doUnselect i = .ok (if c.sel? = some i ∧ c.unsel = true then (true, c.noSel) else (false, c)) := by
  unfold Ctrl.doUnselect
  rw [g.isSelectedNode, Res.ok_bind]
  by_cases h : c.sel? = some i
  · by_cases hu : c.unsel = true
    · rw [g.removeSelection, if_pos h]
      simp [h, hu, Res.ok_bind, g.noSel.isSelectedNode, noSel_sel?]
    · simp [h, hu]
  · simp [h]

theorem Good.swap {c : Ctrl} (g : Good c) (sel : Select) {cur : Nat} (new : Nat)
    (hs : c.sel? = some cur) (hc : c.direct = true ∨ c.unsel = true) :
    c.swap sel cur new = sel c.noSel new := by
  unfold Ctrl.swap
  by_cases hd : c.direct = true
  · rw [if_pos hd, g.removeSelection, if_pos hs, Res.ok_bind, g.noSel.isSelectedNode, noSel_sel?, Res.ok_bind]
    simp
  · rcases hc with hc | hc
    · exact absurd hc hd
    · rw [if_neg hd, if_pos hc, g.selectedIndex, Res.ok_bind, g.doUnselect]
      simp [hs, hc, Res.ok_bind]

/-- When a change is attempted. -/
def Ctrl.canChange (c : Ctrl) (cur new : Nat) : Prop :=
  c.sel? = some cur ∧ cur ≠ new ∧ new < c.nodes.length ∧ (c.direct = true ∨ c.unsel = true)

theorem Good.doChange_pos {c : Ctrl} (g : Good c) (sel : Select) {cur new : Nat} (h : c.canChange cur new) :
    c.doChange sel cur new = sel c.noSel new := by
  obtain ⟨hs, hne, hl, hc⟩ := h
  unfold Ctrl.doChange
  rw [g.hasSelected, Res.ok_bind, g.isSelectedNode, Res.ok_bind, g.isSelectedNode, Res.ok_bind,
    g.isAvailable]
  have h2 : (c.direct || c.unsel) = true := by simpa using hc
  rw [if_pos (by simp [hs, hne, hl, h2])]
  exact g.swap sel new hs hc

theorem Good.doChange_neg {c : Ctrl} (g : Good c) (sel : Select) {cur new : Nat} (h : ¬ c.canChange cur new) :
    c.doChange sel cur new = .ok (false, c) := by
  unfold Ctrl.doChange
  rw [g.hasSelected, Res.ok_bind, g.isSelectedNode, Res.ok_bind, g.isSelectedNode, Res.ok_bind,
    g.isAvailable]
  rw [if_neg]
  intro h'
  apply h
  simp only [Bool.and_eq_true, decide_eq_true_eq, Bool.or_eq_true] at h'
  exact ⟨h'.1.1.2, h'.1.1.1.1.2, h'.1.1.1.2, h'.2⟩

theorem Good.doChange {c : Ctrl} (g : Good c) (cur new : Nat) :
    ∃ b c', c.doChange Ctrl.doSelect cur new = .ok (b, c') ∧ Good c' := by
  by_cases h : c.canChange cur new
  · rw [g.doChange_pos _ h]
    exact g.noSel.doSelect new
  · rw [g.doChange_neg _ h]
    exact ⟨_, _, rfl, g⟩

theorem Good.selectNode {c : Ctrl} (g : Good c) (i : Nat) :
    ∃ b c', c.selectNode i = .ok (b, c') ∧ Good c' := by
  unfold Ctrl.selectNode Ctrl.selectNodeWith
  rw [g.hasSelected, Res.ok_bind]
  split
  · split
    · rw [g.selectedIndex, Res.ok_bind]
      exact g.doChange _ _
    · exact ⟨_, _, rfl, g⟩
  · exact g.doSelect i

theorem Good.changeSelected {c : Ctrl} (g : Good c) (i : Nat) :
    ∃ b c', c.changeSelected i = .ok (b, c') ∧ Good c' := by
  unfold Ctrl.changeSelected
  rw [g.selectedIndex, Res.ok_bind]
  exact g.doChange _ _

theorem Good.unselectNode {c : Ctrl} (g : Good c) :
    ∃ b c', c.unselectNode = .ok (b, c') ∧ Good c' := by
  unfold Ctrl.unselectNode
  rw [g.selectedIndex, Res.ok_bind, g.doUnselect]
  split
  · exact ⟨_, _, rfl, g.noSel⟩
  · exact ⟨_, _, rfl, g⟩

theorem Good.unselectIndex_eq {c : Ctrl} (g : Good c) (i : Nat) :
    c.unselectIndex i =
      if c.sel? = some i ∧ c.unsel = true then
        if c.auto = true ∧ c.dflt? ≠ some i ∧ c.dflt?.isSome = true then c.noSel.doSelect (c.dflt?.getD UNDEF)
        else .ok (true, c.noSel)
      else .ok (false, c) := by
  unfold Ctrl.unselectIndex
  rw [g.isDefaultNode, Res.ok_bind, g.doUnselect, Res.ok_bind]
  by_cases h : c.sel? = some i ∧ c.unsel = true
  · rw [if_pos h, if_pos h]
    have h1 : c.noSel.dflt? = c.dflt? := rfl
    have h2 : c.noSel.auto = c.auto := rfl
    simp only [h2, g.noSel.hasDefault, g.noSel.defaultIndex, h1, Res.ok_bind, Bool.true_and]
    by_cases ha : c.auto = true
    · by_cases hd : c.dflt? = some i
      · simp [ha, hd]
      · cases hdd : c.dflt? with
        | none => simp [ha]
        | some j =>
          rw [hdd] at hd
          have : j ≠ i := fun e => hd (by rw [e])
          simp [ha, this]
    · simp [ha]
  · rw [if_neg h, if_neg h]
    simp

theorem Good.unselectIndex {c : Ctrl} (g : Good c) (i : Nat) :
    ∃ b c', c.unselectIndex i = .ok (b, c') ∧ Good c' := by
  rw [g.unselectIndex_eq]
  split
  · split
    · exact g.noSel.doSelect _
    · exact ⟨_, _, rfl, g.noSel⟩
  · exact ⟨_, _, rfl, g⟩

/-! ## The default node -/

theorem Good.setDefault_some {c : Ctrl} (g : Good c) {i : Nat} {x : Info} (hx : c.nodes[i]? = some x) :
    c.setDefault i = { c with nodes := c.nodes.set i { x with isDefault := true }, dflt := .node i } := by
  unfold Ctrl.setDefault
  have hi := g.lt_undef hx
  have hix := (g.idx i x hx).1
  rw [if_pos (by omega), hx]
  simp only [Ctrl.modify]
  rw [modify_eq_set _ hx]
  have h1 : ¬ x.id.index = UNDEF := by omega
  have : ({ x.id with index := if x.id.index = UNDEF then i else x.id.index } : Id) = x.id := by
    rw [if_neg h1]
  simp only [this]

theorem Good.setDefault {c : Ctrl} (g : Good c) (i : Nat) : Good (c.setDefault i) := by
  by_cases hu : i = UNDEF
  · have : c.setDefault i = { c with dflt := .null } := by simp [Ctrl.setDefault, hu]
    rw [this]
    exact ⟨g.len, g.idx, g.uniq, g.bounds, .inl rfl, g.sel⟩
  · cases hx : c.nodes[i]? with
    | none =>
      have : c.setDefault i = c := by
        unfold Ctrl.setDefault
        rw [if_pos hu, hx]
      rw [this]
      exact g
    | some x =>
      rw [g.setDefault_some hx]
      have hb : ({ x with isDefault := true } : Info).id = x.id := rfl
      refine ⟨by simpa using g.len, ?_, ?_, ?_, ?_, ?_⟩
      · intro j y hy
        obtain ⟨z, hz, hid⟩ := get_set_id hx hb hy
        rw [← hid]
        exact g.idx j z hz
      · intro j k y z hy hz h1 h2
        obtain ⟨y', hy', e1⟩ := get_set_id hx hb hy
        obtain ⟨z', hz', e2⟩ := get_set_id hx hb hz
        rw [← e1, ← e2] at h1 h2
        exact g.uniq j k y' z' hy' hz' h1 h2
      · rcases g.bounds with ⟨h, -⟩ | ⟨h, h1, h2⟩
        · simp [h] at hx
        · refine .inr ⟨?_, h1, ?_⟩
          · simpa using h
          · simpa using h2
      · exact .inr ⟨i, { x with isDefault := true }, rfl, by simp [lt_of_some hx], rfl⟩
      · rcases g.sel with h | ⟨j, y, h, hy, hd, hl, hstr⟩
        · exact .inl h
        · refine .inr ⟨j, ?_⟩
          by_cases hj : i = j
          · subst hj
            rw [hx] at hy
            obtain rfl := Option.some.inj hy
            exact ⟨{ x with isDefault := true }, h, by simp [lt_of_some hx], hd, hl, hstr⟩
          · exact ⟨y, h, by simp [hj, hy], hd, hl, hstr⟩

/-! ## Finding -/

theorem find_eq {c : Ctrl} (g : Good c) {i : Nat} {x : Info} (hx : c.nodes[i]? = some x) :
    c.find x.id.platform x.id.device = i := by
  have hlt := lt_of_some hx
  obtain ⟨-, hp, hd⟩ := g.idx i x hx
  unfold Ctrl.find
  rw [if_pos ⟨by omega, by omega, by omega⟩]
  have : c.nodes.findIdx? (fun y => y.id.platform = x.id.platform ∧ y.id.device = x.id.device) = some i := by
    rw [List.findIdx?_eq_some_iff_getElem]
    have hxi : c.nodes[i] = x := by
      have := List.getElem?_eq_some_iff.1 hx
      exact this.2
    refine ⟨hlt, by simp [hxi], ?_⟩
    intro j hj
    have hjl : j < c.nodes.length := by omega
    simp only [decide_eq_true_eq, not_and]
    intro h1 h2
    have := g.uniq j i c.nodes[j] x (List.getElem?_eq_getElem hjl) hx h1 h2
    omega
  rw [this]

theorem find_none {c : Ctrl} {p d : Int}
    (h : ∀ (i : Nat) (x : Info), c.nodes[i]? = some x → ¬ (x.id.platform = p ∧ x.id.device = d)) :
    c.find p d = UNDEF := by
  unfold Ctrl.find
  split
  · have : c.nodes.findIdx? (fun y => y.id.platform = p ∧ y.id.device = d) = none := by
      rw [List.findIdx?_eq_none_iff]
      intro x hx
      obtain ⟨i, hi⟩ := List.mem_iff_getElem?.1 hx
      simpa using h i x hi
    rw [this]
  · rfl

theorem find_undef {c : Ctrl} (g : Good c) {p d : Int} (hp : p ≠ -1) (hd : d ≠ -1)
    (h : c.find p d = UNDEF) (i : Nat) (x : Info) (hx : c.nodes[i]? = some x) :
    ¬ (x.id.platform = p ∧ x.id.device = d) := by
  rintro ⟨rfl, rfl⟩
  rw [find_eq g hx] at h
  have := g.lt_undef hx
  omega

/-! ## Adding -/

theorem inc_ok {z n : Int} (h : inc z = .ok n) : n = z + 1 := by
  unfold inc at h
  split at h
  · exact ((Res.ok_inj _ _).1 h).symm
  · cases h

theorem nextPlatform_gt : ∀ (l : List Info) (n m : Int), nextPlatform l n = .ok m →
    n ≤ m ∧ ∀ x ∈ l, x.id.valid = true → x.id.platform < m
  | [], n, m, h => by
    obtain rfl := (Res.ok_inj _ _).1 h
    exact ⟨Int.le_refl _, by simp⟩
  | x :: xs, n, m, h => by
    unfold nextPlatform at h
    split at h
    · rename_i hc
      obtain ⟨n', hn, h'⟩ := (Res.bind_eq_ok).1 h
      obtain rfl := inc_ok hn
      obtain ⟨h1, h2⟩ := nextPlatform_gt xs _ m h'
      refine ⟨by omega, ?_⟩
      intro y hy hv
      rcases List.mem_cons.1 hy with rfl | hy
      · omega
      · exact h2 y hy hv
    · rename_i hc
      obtain ⟨h1, h2⟩ := nextPlatform_gt xs _ m h
      refine ⟨h1, ?_⟩
      intro y hy hv
      rcases List.mem_cons.1 hy with rfl | hy
      · simp only [hv, true_and] at hc
        omega
      · exact h2 y hy hv

theorem nextDevice_gt (p : Int) : ∀ (l : List Info) (n m : Int), nextDevice p l n = .ok m →
    (∀ x ∈ l, x.id.platform = p → 0 ≤ x.id.device) → -1 ≤ n →
    n ≤ m ∧ ∀ x ∈ l, x.id.valid = true → x.id.platform = p → x.id.device < m
  | [], n, m, h, _, _ => by
    obtain rfl := (Res.ok_inj _ _).1 h
    exact ⟨Int.le_refl _, by simp⟩
  | x :: xs, n, m, h, h0, hn0 => by
    have h0' : ∀ x ∈ xs, x.id.platform = p → 0 ≤ x.id.device := fun y hy => h0 y (by simp [hy])
    unfold nextDevice at h
    split at h
    · rename_i hc
      obtain ⟨n', hn, h'⟩ := (Res.bind_eq_ok).1 h
      obtain rfl := inc_ok hn
      have hx := h0 x (by simp) hc.2.1
      obtain ⟨h1, h2⟩ := nextDevice_gt p xs _ m h' h0' (by omega)
      refine ⟨by omega, ?_⟩
      intro y hy hv hp
      rcases List.mem_cons.1 hy with rfl | hy
      · omega
      · exact h2 y hy hv hp
    · rename_i hc
      obtain ⟨h1, h2⟩ := nextDevice_gt p xs _ m h h0' hn0
      refine ⟨h1, ?_⟩
      intro y hy hv hp
      rcases List.mem_cons.1 hy with rfl | hy
      · simp only [hv, hp, true_and] at hc
        omega
      · exact h2 y hy hv hp

theorem Good.push {c : Ctrl} (g : Good c) {x : Info} (hp : 0 ≤ x.id.platform) (hd : 0 ≤ x.id.device)
    (hn : ∀ (i : Nat) (y : Info), c.nodes[i]? = some y →
      ¬ (y.id.platform = x.id.platform ∧ y.id.device = x.id.device)) : Good (c.push x).2 := by
  unfold Ctrl.push
  by_cases hu : c.nodes.length = UNDEF
  · simpa [hu] using g
  · have hlen := g.len
    simp only [ne_eq, hu, not_false_eq_true, if_true]
    generalize hb : ({ x with id := { x.id with index := c.nodes.length } } : Info) = b
    have hbp : b.id.platform = x.id.platform := by rw [← hb]
    have hbd : b.id.device = x.id.device := by rw [← hb]
    have hbi : b.id.index = c.nodes.length := by rw [← hb]
    have get : ∀ {j : Nat} {y : Info}, (c.nodes ++ [b])[j]? = some y →
        (j < c.nodes.length ∧ c.nodes[j]? = some y) ∨ (j = c.nodes.length ∧ y = b) := by
      intro j y hy
      have hl := lt_of_some hy
      simp only [List.length_append, List.length_singleton] at hl
      by_cases hj : j < c.nodes.length
      · rw [List.getElem?_append_left hj] at hy
        exact .inl ⟨hj, hy⟩
      · have : j = c.nodes.length := by omega
        subst this
        simp at hy
        exact .inr ⟨rfl, hy.symm⟩
    have keep : ∀ {j : Nat} {y : Info}, c.nodes[j]? = some y → (c.nodes ++ [b])[j]? = some y := by
      intro j y hy
      rw [List.getElem?_append_left (lt_of_some hy)]
      exact hy
    refine ⟨?_, ?_, ?_, ?_, ?_, ?_⟩
    · simp only [List.length_append, List.length_singleton]
      omega
    · intro j y hy
      rcases get hy with ⟨-, h⟩ | ⟨rfl, rfl⟩
      · exact g.idx j y h
      · exact ⟨hbi, by omega, by omega⟩
    · intro j k y z hy hz h1 h2
      rcases get hy with ⟨-, hy'⟩ | ⟨rfl, rfl⟩ <;> rcases get hz with ⟨-, hz'⟩ | ⟨rfl, rfl⟩
      · exact g.uniq j k y z hy' hz' h1 h2
      · exact absurd ⟨h1.trans hbp, h2.trans hbd⟩ (hn j y hy')
      · exact absurd ⟨h1.symm.trans hbp, h2.symm.trans hbd⟩ (hn k z hz')
      · rfl
    · refine .inr ⟨by simp, ?_, ?_⟩
      · rcases g.bounds with ⟨h, h1, -⟩ | ⟨h, h1, -⟩
        · simp [h1, h]
        · rw [h1]; simp [UNDEF]
      · rcases g.bounds with ⟨h, -, h1⟩ | ⟨h, -, h1⟩
        · simp [h1, h]
        · have : c.max < c.nodes.length := by omega
          simp [this]
    · rcases g.dflt with h | ⟨j, y, h, hy, hd⟩
      · exact .inl h
      · exact .inr ⟨j, y, h, keep hy, hd⟩
    · rcases g.sel with h | ⟨j, y, h, hy, hd, hr⟩
      · exact .inl h
      · exact .inr ⟨j, y, h, keep hy, hd, hr⟩

/-- The ids given to a node are not those of another node. -/
theorem idsFor_fresh {c : Ctrl} (g : Good c) {x : Info} (hinv : x.id.valid = false) {p d : Int}
    (h : c.idsFor x = .ok (p, d)) (h1 : p ≠ -1) (h2 : d ≠ -1) :
    0 ≤ p ∧ 0 ≤ d ∧ ∀ (i : Nat) (y : Info), c.nodes[i]? = some y →
      ¬ (y.id.platform = p ∧ y.id.device = d) := by
  have hnode : ∀ y ∈ c.nodes, 0 ≤ y.id.platform ∧ 0 ≤ y.id.device ∧ y.id.valid = true := by
    intro y hy
    obtain ⟨i, hi⟩ := List.mem_iff_getElem?.1 hy
    exact ⟨(g.idx i y hi).2.1, (g.idx i y hi).2.2, g.valid hi⟩
  have platform : ∀ p', nextPlatform c.nodes 0 = .ok p' →
      0 ≤ p' ∧ ∀ (i : Nat) (y : Info), c.nodes[i]? = some y → y.id.platform ≠ p' := by
    intro p' hp'
    obtain ⟨a, b⟩ := nextPlatform_gt _ _ _ hp'
    refine ⟨a, ?_⟩
    intro i y hy
    have := b y (List.mem_of_getElem? hy) (g.valid hy)
    omega
  unfold Ctrl.idsFor at h
  by_cases hn : x.name ≠ []
  · simp only [hn, ne_eq, not_false_eq_true, if_true, true_and] at h
    by_cases hq : c.platformByName x.name = -1
    · simp only [hq, not_true_eq_false, if_false, Res.ok_bind, if_true] at h
      obtain ⟨p', hp', h'⟩ := (Res.bind_eq_ok).1 h
      have e := (Res.ok_inj _ _).1 h'
      obtain ⟨rfl, rfl⟩ := Prod.mk.inj e
      obtain ⟨a, b⟩ := platform _ hp'
      exact ⟨a, by omega, fun i y hy hh => b i y hy hh.1⟩
    · simp only [hq, not_false_eq_true, if_true, if_false] at h
      obtain ⟨d', hd', h'⟩ := (Res.bind_eq_ok).1 h
      have e := (Res.ok_inj _ _).1 h'
      obtain ⟨rfl, rfl⟩ := Prod.mk.inj e
      obtain ⟨a, b⟩ := nextDevice_gt _ _ _ _ hd' (fun y hy _ => (hnode y hy).2.1) (by omega)
      refine ⟨?_, by omega, ?_⟩
      · unfold Ctrl.platformByName at hq ⊢
        split
        · rename_i hf
          rw [hf] at hq
          exact absurd rfl hq
        · rename_i y hf
          exact (hnode y (List.mem_of_find?_eq_some hf)).1
      · rintro i y hy ⟨e1, e2⟩
        have := b y (List.mem_of_getElem? hy) (g.valid hy) e1
        omega
  · simp only [ne_eq] at hn
    simp only [hn, false_and, if_false, Res.ok_bind] at h
    by_cases hq : x.id.platform = -1
    · simp only [hq, if_true] at h
      obtain ⟨p', hp', h'⟩ := (Res.bind_eq_ok).1 h
      have e := (Res.ok_inj _ _).1 h'
      obtain ⟨rfl, rfl⟩ := Prod.mk.inj e
      obtain ⟨a, b⟩ := platform _ hp'
      exact ⟨a, by omega, fun i y hy hh => b i y hy hh.1⟩
    · simp only [hq, if_false] at h
      have e := (Res.ok_inj _ _).1 h
      obtain ⟨rfl, rfl⟩ := Prod.mk.inj e
      simp [Id.valid, hq, h2] at hinv

theorem Good.append {c c' : Ctrl} (g : Good c) {x : Info} {i : Nat} (hp : -1 ≤ x.id.platform)
    (hd : -1 ≤ x.id.device) (h : c.append x = .ok (i, c')) : Good c' := by
  unfold Ctrl.append at h
  cases hv : x.id.valid with
  | true =>
    rw [hv, if_pos rfl] at h
    have hv' : x.id.platform ≠ -1 ∧ x.id.device ≠ -1 := by simpa [Id.valid] using hv
    split at h
    · rename_i hf
      have e := (Res.ok_inj _ _).1 h
      have e2 : (c.push x).2 = c' := by rw [e]
      rw [← e2]
      exact g.push (by omega) (by omega) (fun i y hy => find_undef g hv'.1 hv'.2 hf i y hy)
    · have e := (Res.ok_inj _ _).1 h
      obtain ⟨-, rfl⟩ := Prod.mk.inj e
      exact g
  | false =>
    rw [hv, if_neg (by simp)] at h
    obtain ⟨⟨p, d⟩, hi, h⟩ := (Res.bind_eq_ok).1 h
    simp only at h
    split at h
    · rename_i hc
      have e := (Res.ok_inj _ _).1 h
      have e2 := congrArg Prod.snd e
      simp only at e2
      rw [← e2]
      obtain ⟨a, b, f⟩ := idsFor_fresh g hv hi hc.1 hc.2
      exact g.push (x := { x with id := { x.id with platform := p, device := d } }) a b f
    · have e := (Res.ok_inj _ _).1 h
      obtain ⟨-, rfl⟩ := Prod.mk.inj e
      exact g

/-! ## Listing -/

theorem Good.listFrom {c : Ctrl} (g : Good c) (hlt : c.nodes.length < UNDEF) :
    ∀ (steps ii room : Nat), c.max + 1 = c.nodes.length → c.max < ii + steps →
      c.listFrom steps ii room = List.range' ii (Nat.min room (c.nodes.length - ii))
  | 0, ii, room, hm, hs => by
    have : c.nodes.length - ii = 0 := by omega
    rw [this]
    simp [Ctrl.listFrom]
  | steps + 1, ii, room, hm, hs => by
    unfold Ctrl.listFrom
    by_cases h1 : ii ≤ c.max
    · have h2 : ii < c.nodes.length := by omega
      have h3 : ii ≠ UNDEF := by omega
      cases room with
      | zero => simp
      | succ k =>
        rw [if_pos ⟨h1, h3, by omega⟩, g.isAvailable, if_pos (by simpa using h2),
          g.listFrom hlt steps (ii + 1) (k + 1 - 1) hm (by omega)]
        have : Nat.min (k + 1) (c.nodes.length - ii) = Nat.min k (c.nodes.length - (ii + 1)) + 1 := by
          show min _ _ = min _ _ + 1
          omega
        rw [this, List.range'_succ]
        rfl
    · rw [if_neg (by omega)]
      have : c.nodes.length - ii = 0 := by omega
      rw [this]
      simp

theorem Good.init (direct unsel auto : Bool) : Good (Ctrl.init direct unsel auto) :=
  ⟨by simp [Ctrl.init], by simp [Ctrl.init], by simp [Ctrl.init], .inl ⟨rfl, rfl, rfl⟩, .inl rfl,
    .inl ⟨rfl, rfl⟩⟩

end SixTrack.NodeController

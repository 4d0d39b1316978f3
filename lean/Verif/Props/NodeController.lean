import Verif.NodeControllerLemmas

/-!
# C79: what a controller of nodes does

The controller (`node_controller_base.cpp`) keeps a list of nodes with a default node and a selected node.
-/

namespace SixTrack
open Node NodeController

namespace NodeController

/-- The calls that change a controller between its creation and `clear`. -/
inductive Op
  | append (x : Info)
  | setDefault (i : Nat)
  | select (i : Nat)
  | change (cur new : Nat)
  | changeSelected (i : Nat)
  | unselect
  | unselectIndex (i : Nat)
  | flags (direct unsel auto : Bool)

def Op.run (c : Ctrl) : Op → Res Ctrl
  | .append x => do .ok (← c.append x).2
  | .setDefault i => .ok (c.setDefault i)
  | .select i => do .ok (← c.selectNode i).2
  | .change a b => do .ok (← c.doChange Ctrl.doSelect a b).2
  | .changeSelected i => do .ok (← c.changeSelected i).2
  | .unselect => do .ok (← c.unselectNode).2
  | .unselectIndex i => do .ok (← c.unselectIndex i).2
  | .flags d u a => .ok { c with direct := d, unsel := u, auto := a }

def runAll : Ctrl → List Op → Res Ctrl
  | c, [] => .ok c
  | c, o :: os => do
    let c' ← o.run c
    runAll c' os

/-- The ids of added nodes are not negative, or the illegal id -1. -/
def Op.Fine : Op → Prop
  | .append x => -1 ≤ x.id.platform ∧ -1 ≤ x.id.device
  | _ => True

/-- A controller as it can be after any calls. -/
def Reached (c : Ctrl) : Prop :=
  ∃ d u a ops, (∀ o ∈ ops, Op.Fine o) ∧ runAll (Ctrl.init d u a) ops = .ok c

theorem Op.good {c c' : Ctrl} (g : Good c) {o : Op} (hf : o.Fine) (h : o.run c = .ok c') : Good c' := by
  cases o with
  | append x =>
    obtain ⟨r, hr, h⟩ := Res.bind_eq_ok.1 h
    obtain rfl := (Res.ok_inj _ _).1 h
    exact g.append hf.1 hf.2 hr
  | setDefault i =>
    obtain rfl := (Res.ok_inj _ _).1 h
    exact g.setDefault i
  | select i =>
    obtain ⟨b, c1, e, g1⟩ := g.selectNode i
    simp only [Op.run, e, Res.ok_bind] at h
    obtain rfl := (Res.ok_inj _ _).1 h
    exact g1
  | change a b =>
    obtain ⟨b, c1, e, g1⟩ := g.doChange a b
    simp only [Op.run, e, Res.ok_bind] at h
    obtain rfl := (Res.ok_inj _ _).1 h
    exact g1
  | changeSelected i =>
    obtain ⟨b, c1, e, g1⟩ := g.changeSelected i
    simp only [Op.run, e, Res.ok_bind] at h
    obtain rfl := (Res.ok_inj _ _).1 h
    exact g1
  | unselect =>
    obtain ⟨b, c1, e, g1⟩ := g.unselectNode
    simp only [Op.run, e, Res.ok_bind] at h
    obtain rfl := (Res.ok_inj _ _).1 h
    exact g1
  | unselectIndex i =>
    obtain ⟨b, c1, e, g1⟩ := g.unselectIndex i
    simp only [Op.run, e, Res.ok_bind] at h
    obtain rfl := (Res.ok_inj _ _).1 h
    exact g1
  | flags d u a =>
    obtain rfl := (Res.ok_inj _ _).1 h
    exact ⟨g.len, g.idx, g.uniq, g.bounds, g.dflt, g.sel⟩

theorem runAll_good : ∀ (ops : List Op) (c c' : Ctrl), Good c → (∀ o ∈ ops, Op.Fine o) →
    runAll c ops = .ok c' → Good c'
  | [], c, c', g, _, h => by
    obtain rfl := (Res.ok_inj _ _).1 h
    exact g
  | o :: os, c, c', g, hf, h => by
    obtain ⟨c1, h1, h2⟩ := Res.bind_eq_ok.1 h
    exact runAll_good os c1 c' (Op.good g (hf o (by simp)) h1) (fun o ho => hf o (by simp [ho])) h2

theorem Reached.good {c : Ctrl} : Reached c → Good c := by
  rintro ⟨d, u, a, ops, hf, h⟩
  exact runAll_good ops _ c (Good.init d u a) hf h

theorem cstr_zeros (n : Nat) : cstr (List.replicate n 0) = [] := by
  cases n <;> simp [cstr, List.replicate_succ]

theorem Good.toString {c : Ctrl} (g : Good c) {i : Nat} {x : Info} (hx : c.nodes[i]? = some x) :
    x.id.toString = x.id.print := by
  unfold Id.toString
  rw [if_pos (g.valid hx)]

theorem cstr_print (d : Id) (h : d.print.length < CAP - 1) :
    cstr (d.print ++ List.replicate (CAP - d.print.length) 0) = d.print := by
  obtain ⟨k, hk⟩ : ∃ k, CAP - d.print.length = k + 1 := ⟨CAP - d.print.length - 1, by omega⟩
  rw [hk, List.replicate_succ]
  apply cstr_of
  intro c hc
  unfold Id.print at hc
  simp only [List.mem_append, List.mem_singleton] at hc
  rcases hc with (hc | rfl) | hc
  · exact printInt_ne_zero _ c hc
  · decide
  · exact printInt_ne_zero _ c hc

/-! Controllers for the examples. -/

instance {α} (r : Res α) (P : α → Prop) [∀ a, Decidable (P a)] : Decidable (∃ a, r = .ok a ∧ P a) :=
  match r with
  | .ok a => decidable_of_iff (P a) ⟨fun h => ⟨a, rfl, h⟩, by
      rintro ⟨b, e, h⟩
      rwa [(Res.ok_inj _ _).1 e]⟩
  | .ub => isFalse (by rintro ⟨b, e, -⟩; cases e)

def node (p d : Int) (name : Str := []) : Info := ⟨⟨p, d, UNDEF⟩, name, false, false⟩

/-- Nodes "0.0", "0.1" and "12345678901234.12" (17 characters), all changes allowed. -/
def demo : List Op := [.append (node 0 0 [65]), .append (node 0 1 [65]), .append (node 12345678901234 12)]

end NodeController

/-! ## The list of nodes -/

/-- After any calls: every node has its position as index and a valid id, no two nodes have the same id,
the lowest and the highest index are those of the list. -/
theorem C79_nodes (c : Ctrl) (hr : Reached c) :
    (∀ (i : Nat) (x : Info), c.nodes[i]? = some x → x.id.index = i ∧ x.id.valid = true) ∧
      (∀ (i j : Nat) (x y : Info), c.nodes[i]? = some x → c.nodes[j]? = some y →
        x.id.platform = y.id.platform → x.id.device = y.id.device → i = j) ∧
      (c.nodes = [] → c.min = UNDEF ∧ c.max = UNDEF) ∧
      (c.nodes ≠ [] → c.min = 0 ∧ c.max + 1 = c.nodes.length) := by
  have g := hr.good
  refine ⟨fun i x hx => ⟨(g.idx i x hx).1, g.valid hx⟩, g.uniq, ?_, ?_⟩
  · intro h
    rcases g.bounds with ⟨-, h1⟩ | ⟨h', -⟩
    · exact h1
    · exact absurd h h'
  · intro h
    rcases g.bounds with ⟨h', -⟩ | ⟨-, h1⟩
    · exact absurd h' h
    · exact h1

example : ∃ c, runAll (Ctrl.init true true true) (demo ++ [.setDefault 1, .select 0, .select 1, .unselectIndex 1]) =
    .ok c ∧ c.nodes.length = 3 := by decide +kernel

/-- Looking up: a node is found by its ids and by its text, and no other ids are found. -/
theorem C79_lookup (c : Ctrl) (hr : Reached c) :
    (∀ (i : Nat) (x : Info), c.nodes[i]? = some x →
      c.find x.id.platform x.id.device = i ∧ (x.id.Ranged → c.findStr x.id.toString = .ok i)) ∧
      (∀ p d, (∀ x ∈ c.nodes, ¬ (x.id.platform = p ∧ x.id.device = d)) → c.find p d = UNDEF) ∧
      (∀ p d, c.find p d ≠ UNDEF →
        ∃ x, c.nodes[c.find p d]? = some x ∧ x.id.platform = p ∧ x.id.device = d) := by
  have g := hr.good
  refine ⟨?_, ?_, ?_⟩
  · intro i x hx
    refine ⟨find_eq g hx, ?_⟩
    intro hrg
    unfold Ctrl.findStr
    have hv := g.valid hx
    rw [if_pos (by have := lt_of_some hx; omega), C44_round_trip x.id _ hrg hv, Res.ok_bind]
    have : (⟨x.id.platform, x.id.device, UNDEF⟩ : Id).valid = true := by
      simpa [Id.valid] using hv
    simp only [this, if_true, find_eq g hx]
  · intro p d h
    exact find_none (fun i x hx => h x (List.mem_of_getElem? hx))
  · intro p d h
    by_cases hex : ∃ (i : Nat) (x : Info), c.nodes[i]? = some x ∧ x.id.platform = p ∧ x.id.device = d
    · obtain ⟨i, x, hx, rfl, rfl⟩ := hex
      rw [find_eq g hx]
      exact ⟨x, hx, rfl, rfl⟩
    · refine absurd (find_none ?_) h
      intro i x hx hh
      exact hex ⟨i, x, hx, hh⟩

example : ∃ c, runAll (Ctrl.init true true true) demo = .ok c ∧ c.find 0 1 = 1 ∧
    c.findStr [48, 46, 49] = .ok 1 := by decide +kernel

/-- Listing the indices: as many as there are nodes or as the array holds, in order; the rest of the array
is filled with the undefined index. -/
theorem C79_listing (c : Ctrl) (hr : Reached c) (arr : List Nat) (h0 : c.nodes ≠ [])
    (hlt : c.nodes.length < UNDEF) :
    c.indices arr = (Nat.min arr.length c.nodes.length,
      List.range (Nat.min arr.length c.nodes.length) ++
        List.replicate (arr.length - c.nodes.length) UNDEF) := by
  have g := hr.good
  obtain ⟨h1, h2⟩ : c.min = 0 ∧ c.max + 1 = c.nodes.length := by
    rcases g.bounds with ⟨h', -⟩ | ⟨-, h1⟩
    · exact absurd h' h0
    · exact h1
  have hpos : 0 < c.nodes.length := List.length_pos_iff.2 h0
  unfold Ctrl.indices
  rw [if_pos ⟨hpos, by omega⟩, h1, g.listFrom hlt _ _ _ h2 (by omega)]
  simp only [List.length_range', Nat.sub_zero, List.range_eq_range']
  have : arr.length - Nat.min arr.length c.nodes.length = arr.length - c.nodes.length := by
    show _ - min _ _ = _
    omega
  rw [this]

example : ∃ c, runAll (Ctrl.init true true true) demo = .ok c ∧ c.indices [7, 7, 7, 7] = (3, [0, 1, 2, UNDEF]) := by decide +kernel

/-! ## Adding -/

/-- A node with a valid id is added at the end, with all nodes before it unchanged and the default and the
selected node kept, unless there is a node with the same id: then nothing changes and the undefined index is
returned. -/
theorem C79_append (c : Ctrl) (hr : Reached c) (x : Info) (hv : x.id.valid = true)
    (hlt : c.nodes.length < UNDEF) :
    ((∃ y ∈ c.nodes, y.id.platform = x.id.platform ∧ y.id.device = x.id.device) →
        c.append x = .ok (UNDEF, c)) ∧
      ((∀ y ∈ c.nodes, ¬ (y.id.platform = x.id.platform ∧ y.id.device = x.id.device)) →
        ∃ c', c.append x = .ok (c.nodes.length, c') ∧
          c'.nodes = c.nodes ++ [{ x with id := ⟨x.id.platform, x.id.device, c.nodes.length⟩ }] ∧
          c'.selected = c.selected ∧ c'.dflt = c.dflt ∧ c'.idStr = c.idStr) := by
  have g := hr.good
  unfold Ctrl.append
  rw [if_pos hv]
  constructor
  · rintro ⟨y, hy, e1, e2⟩
    obtain ⟨i, hi⟩ := List.mem_iff_getElem?.1 hy
    rw [← e1, ← e2, find_eq g hi, if_neg]
    have := g.lt_undef hi
    omega
  · intro h
    rw [if_pos (find_none (fun i y hy => h y (List.mem_of_getElem? hy)))]
    unfold Ctrl.push
    simp only
    rw [if_pos (by omega)]
    exact ⟨_, rfl, rfl, rfl, rfl, rfl⟩

example : ∃ c, runAll (Ctrl.init true true true) demo = .ok c ∧ (node 0 2).id.valid = true ∧
    c.append (node 0 1) = .ok (UNDEF, c) := by decide +kernel

/-- A node without a platform id gets new ids: device 0 of a platform that no node has, or, if its platform name
is that of a node, that node's platform and a device that the platform does not have.
Missing for more: a platform id without a device id (`C79_given_platform_violated`). -/
theorem C79_new_ids_partial (c c' : Ctrl) (hr : Reached c) (x : Info) (i : Nat)
    (hp : x.id.platform = -1) (hlt : c.nodes.length < UNDEF)
    (h : c.append x = .ok (i, c')) :
    i = c.nodes.length ∧ ∃ y, c'.nodes = c.nodes ++ [y] ∧ y.name = x.name ∧
      0 ≤ y.id.platform ∧ 0 ≤ y.id.device ∧
      (∀ z ∈ c.nodes, ¬ (z.id.platform = y.id.platform ∧ z.id.device = y.id.device)) ∧
      ((x.name = [] ∨ ∀ z ∈ c.nodes, z.name ≠ x.name) →
        y.id.device = 0 ∧ ∀ z ∈ c.nodes, z.id.platform < y.id.platform) ∧
      ((x.name ≠ [] ∧ ∃ z ∈ c.nodes, z.name = x.name) →
        ∃ z ∈ c.nodes, z.name = x.name ∧ y.id.platform = z.id.platform) := by
  have g := hr.good
  have hv : x.id.valid = false := by simp [Id.valid, hp]
  have mem : ∀ z ∈ c.nodes, z.id.valid = true ∧ 0 ≤ z.id.platform ∧ 0 ≤ z.id.device := by
    intro z hz
    obtain ⟨j, hj⟩ := List.mem_iff_getElem?.1 hz
    exact ⟨g.valid hj, (g.idx j z hj).2⟩
  unfold Ctrl.append at h
  rw [hv, if_neg (by simp)] at h
  obtain ⟨⟨p, d⟩, hids, h⟩ := Res.bind_eq_ok.1 h
  -- which ids
  have key : p ≠ -1 ∧ d ≠ -1 ∧ ((x.name = [] ∨ ∀ z ∈ c.nodes, z.name ≠ x.name) →
        d = 0 ∧ ∀ z ∈ c.nodes, z.id.platform < p) ∧
      ((x.name ≠ [] ∧ ∃ z ∈ c.nodes, z.name = x.name) → ∃ z ∈ c.nodes, z.name = x.name ∧ p = z.id.platform) := by
    have hi := hids
    unfold Ctrl.idsFor at hi
    have newp : ∀ p', nextPlatform c.nodes 0 = .ok p' → 0 ≤ p' ∧ ∀ z ∈ c.nodes, z.id.platform < p' := by
      intro p' hp'
      obtain ⟨a, b⟩ := nextPlatform_gt _ _ _ hp'
      exact ⟨a, fun z hz => b z hz (mem z hz).1⟩
    by_cases hn : x.name = []
    · simp only [hn, ne_eq, not_true_eq_false, if_false, false_and, hp, if_true, Res.ok_bind] at hi
      obtain ⟨p', hp', h'⟩ := Res.bind_eq_ok.1 hi
      obtain ⟨rfl, rfl⟩ := Prod.mk.inj ((Res.ok_inj _ _).1 h')
      obtain ⟨a, b⟩ := newp _ hp'
      exact ⟨by omega, by omega, fun _ => ⟨rfl, b⟩, fun hh => absurd hn hh.1⟩
    · simp only [hn, ne_eq, not_false_eq_true, if_true, true_and] at hi
      cases hf : c.nodes.find? (fun y => y.id.valid && decide (y.name ≠ []) && decide (y.name = x.name)) with
      | none =>
        have hq : c.platformByName x.name = -1 := by
          unfold Ctrl.platformByName
          rw [hf]
        simp only [hq, not_true_eq_false, if_false, Res.ok_bind, if_true] at hi
        obtain ⟨p', hp', h'⟩ := Res.bind_eq_ok.1 hi
        obtain ⟨rfl, rfl⟩ := Prod.mk.inj ((Res.ok_inj _ _).1 h')
        obtain ⟨a, b⟩ := newp _ hp'
        refine ⟨by omega, by omega, fun _ => ⟨rfl, b⟩, ?_⟩
        rintro ⟨-, z, hz, hzn⟩
        have := List.find?_eq_none.1 hf z hz
        rw [hzn] at this
        simp [(mem z hz).1, hn] at this
      | some y =>
        have hq : c.platformByName x.name = y.id.platform := by
          unfold Ctrl.platformByName
          rw [hf]
        have hy := List.mem_of_find?_eq_some hf
        have hyp := mem y hy
        have hyn : y.name = x.name := by
          have := List.find?_some hf
          simp at this
          exact this.2
        have hne : y.id.platform ≠ -1 := by omega
        simp only [hq, hne, not_false_eq_true, if_true, if_false] at hi
        obtain ⟨d', hd', h'⟩ := Res.bind_eq_ok.1 hi
        obtain ⟨rfl, rfl⟩ := Prod.mk.inj ((Res.ok_inj _ _).1 h')
        obtain ⟨a, b⟩ := nextDevice_gt _ _ _ _ hd' (fun z hz _ => (mem z hz).2.2) (by omega)
        have := b y hy hyp.1 rfl
        refine ⟨hne, by omega, ?_, fun _ => ⟨y, hy, hyn, rfl⟩⟩
        rintro (h1 | h1)
        · exact absurd h1 hn
        · exact absurd hyn (h1 y hy)
  obtain ⟨k1, k2, k3, k4⟩ := key
  simp only at h
  rw [if_pos ⟨k1, k2⟩] at h
  have e := (Res.ok_inj _ _).1 h
  unfold Ctrl.push at e
  simp only at e
  rw [if_pos (by omega)] at e
  obtain ⟨rfl, rfl⟩ := Prod.mk.inj e
  obtain ⟨f1, f2, f3⟩ := idsFor_fresh g hv hids k1 k2
  refine ⟨rfl, _, rfl, rfl, f1, f2, ?_, k3, k4⟩
  intro z hz
  obtain ⟨j, hj⟩ := List.mem_iff_getElem?.1 hz
  exact f3 j z hj

example : ∃ c, runAll (Ctrl.init true true true) demo = .ok c ∧ ∃ r, c.append (node (-1) (-1) [65]) = .ok r ∧
    r.1 = 3 ∧ (r.2.nodes.map fun x => (x.id.platform, x.id.device)) =
      [(0, 0), (0, 1), (12345678901234, 12), (0, 2)] := by decide +kernel

/-- A platform id that the new node comes with is not kept: with a name no node has it is replaced by the
next free one, and without a name the node is not added at all. -/
theorem C79_given_platform_violated :
    (∃ c, runAll (Ctrl.init true true true) [.append (node 0 0 [65])] = .ok c ∧
      ∃ r, c.append (node 7 (-1) [66]) = .ok r ∧ r.1 = 1 ∧
      (r.2.nodes.map fun x => (x.id.platform, x.id.device)) = [(0, 0), (1, 0)]) ∧
      (∃ c, runAll (Ctrl.init true true true) [.append (node 0 0 [65])] = .ok c ∧
        c.append (node 7 (-1)) = .ok (UNDEF, c)) := by decide +kernel

/-- With negative device ids below -1 two nodes get the same id. -/
theorem C79_duplicate_violated :
    ∃ c, runAll (Ctrl.init true true true) [.append (node 0 (-2) [65]), .append (node 0 (-3) [65])] = .ok c ∧
      ∃ r, c.append (node (-1) (-1) [65]) = .ok r ∧ r.1 = 2 ∧
      (r.2.nodes.map fun x => (x.id.platform, x.id.device)) = [(0, -2), (0, -3), (0, -2)] := by decide +kernel

/-! ## Selecting -/

/-- The accessors after any calls: without a selected node the index is undefined and the text is empty,
otherwise the text is that of the selected node, which is flagged as selected. -/
theorem C79_selected (c : Ctrl) (hr : Reached c) :
    (c.hasSelected = .ok false ∧ c.selectedIndex = .ok UNDEF ∧ cstr c.idStr = []) ∨
      ∃ (i : Nat) (x : Info), c.hasSelected = .ok true ∧ c.selectedIndex = .ok i ∧
        c.nodes[i]? = some x ∧ x.isSelected = true ∧ cstr c.idStr = x.id.toString := by
  have g := hr.good
  rw [g.hasSelected, g.selectedIndex]
  rcases g.sel with ⟨h, hs⟩ | ⟨i, x, h, hx, hf, hl, hs⟩
  · have : c.sel? = none := by simp [Ctrl.sel?, h]
    rw [this, hs]
    exact .inl ⟨rfl, rfl, cstr_zeros _⟩
  · have : c.sel? = some i := by simp [Ctrl.sel?, h]
    rw [this, hs, cstr_print _ hl]
    exact .inr ⟨i, x, rfl, rfl, hx, hf, (g.toString hx).symm⟩

example : ∃ c, runAll (Ctrl.init true true true) (demo ++ [.select 1]) = .ok c ∧ c.selectedIndex = .ok 1 ∧
    cstr c.idStr = [48, 46, 49] := by decide +kernel

/-- The same for the default node. -/
theorem C79_default (c : Ctrl) (hr : Reached c) (i : Nat) (x : Info) (hx : c.nodes[i]? = some x) :
    (c.setDefault i).hasDefault = .ok true ∧ (c.setDefault i).defaultIndex = .ok i ∧
      (c.setDefault i).isDefaultNode i = .ok true ∧
      (c.setDefault i).nodes[i]? = some { x with isDefault := true } ∧
      (∀ j : Nat, j ≠ i → (c.setDefault i).nodes[j]? = c.nodes[j]?) ∧
      (c.setDefault UNDEF).hasDefault = .ok false := by
  have g := hr.good
  have g' := g.setDefault i
  have g'' := g.setDefault UNDEF
  have hd : (c.setDefault i).dflt? = some i := by rw [g.setDefault_some hx]; rfl
  have hd' : (c.setDefault UNDEF).dflt? = none := by simp [Ctrl.setDefault, Ctrl.dflt?]
  refine ⟨by rw [g'.hasDefault, hd]; rfl, by rw [g'.defaultIndex, hd]; rfl,
    by rw [g'.isDefaultNode, hd]; simp, ?_, ?_, by rw [g''.hasDefault, hd']; rfl⟩
  · rw [g.setDefault_some hx]
    simp [lt_of_some hx]
  · intro j hj
    rw [g.setDefault_some hx]
    simp only
    rw [List.getElem?_set, if_neg (fun h => hj h.symm)]

example : ∃ c, runAll (Ctrl.init true true true) demo = .ok c ∧ (c.nodes[2]?).isSome = true ∧
    (c.setDefault 2).defaultIndex = .ok 2 := by decide +kernel

/-- Selecting a node while none is selected succeeds exactly for the nodes whose text has at most 16
characters.  Then that node is selected and flagged, with its text, and the other nodes are unchanged;
otherwise nothing changes. -/
theorem C79_select (c : Ctrl) (hr : Reached c) (h0 : c.hasSelected = .ok false) (i : Nat) :
    (∀ x, c.nodes[i]? = some x → x.id.toString.length ≤ 16 →
      ∃ c', c.selectNode i = .ok (true, c') ∧ c'.hasSelected = .ok true ∧ c'.selectedIndex = .ok i ∧
        cstr c'.idStr = x.id.toString ∧ c'.nodes = c.nodes.set i { x with isSelected := true } ∧
        c'.dflt = c.dflt) ∧
      ((∀ x, c.nodes[i]? = some x → 16 < x.id.toString.length) → c.selectNode i = .ok (false, c)) := by
  have g := hr.good
  have hs : c.sel? = none := by
    rw [g.hasSelected] at h0
    have := (Res.ok_inj _ _).1 h0
    simpa using this
  have hsel : c.selectNode i = c.doSelect i := by
    unfold Ctrl.selectNode Ctrl.selectNodeWith
    rw [h0, Res.ok_bind]
    rfl
  rw [hsel]
  constructor
  · intro x hx hl
    rw [g.toString hx] at hl ⊢
    have hl' : x.id.print.length < CAP - 1 := by unfold CAP; omega
    have g' := g.withSel hx hl'
    refine ⟨c.withSel i x, by rw [g.doSelect_none i hs hx, if_pos hl'], by rw [g'.hasSelected]; rfl,
      by rw [g'.selectedIndex]; rfl, cstr_print _ hl', rfl, rfl⟩
  · intro h
    cases hx : c.nodes[i]? with
    | none => exact g.doSelect_out i hx
    | some x =>
      have hl := h x hx
      rw [g.toString hx] at hl
      rw [g.doSelect_none i hs hx, if_neg (by unfold CAP; omega)]

example : ∃ c, runAll (Ctrl.init true true true) demo = .ok c ∧ c.hasSelected = .ok false ∧
    (∃ r, c.selectNode 0 = .ok r ∧ r.1 = true) ∧ c.selectNode 2 = .ok (false, c) := by decide +kernel

/-- Selecting another node while one is selected, if changes are allowed: as selecting it when none is
selected; the node selected before stays as it is. -/
theorem C79_change_partial (c : Ctrl) (hr : Reached c) (cur i : Nat) (hs : c.selectedIndex = .ok cur)
    (h0 : c.hasSelected = .ok true) (hne : i ≠ cur) (hc : c.direct = true ∨ c.unsel = true) (x : Info)
    (hx : c.nodes[i]? = some x) (hl : x.id.toString.length ≤ 16) :
    ∃ c', c.selectNode i = .ok (true, c') ∧ c.changeSelected i = .ok (true, c') ∧
      c'.hasSelected = .ok true ∧ c'.selectedIndex = .ok i ∧
      cstr c'.idStr = x.id.toString ∧ c'.nodes = c.nodes.set i { x with isSelected := true } ∧
      c'.dflt = c.dflt := by
  have g := hr.good
  have hsel : c.sel? = some cur := by
    rw [g.hasSelected] at h0
    rw [g.selectedIndex] at hs
    have h1 := (Res.ok_inj _ _).1 h0
    have h2 := (Res.ok_inj _ _).1 hs
    cases h : c.sel? with
    | none => rw [h] at h1; simp at h1
    | some j => rw [h] at h2; simpa using h2
  have hcc : c.canChange cur i := ⟨hsel, fun h => hne h.symm, lt_of_some hx, hc⟩
  have hb : (c.direct || c.unsel) = true := by simpa using hc
  have e1 : c.selectNode i = c.noSel.doSelect i := by
    unfold Ctrl.selectNode Ctrl.selectNodeWith
    rw [h0, Res.ok_bind, if_pos rfl, if_pos hb, hs, Res.ok_bind]
    exact g.doChange_pos _ hcc
  have e2 : c.changeSelected i = c.noSel.doSelect i := by
    unfold Ctrl.changeSelected
    rw [hs, Res.ok_bind]
    exact g.doChange_pos _ hcc
  rw [e1, e2]
  rw [g.toString hx] at hl ⊢
  have hl' : x.id.print.length < CAP - 1 := by unfold CAP; omega
  have g' := g.noSel.withSel (i := i) hx hl'
  refine ⟨c.noSel.withSel i x, ?_, ?_, by rw [g'.hasSelected]; rfl, by rw [g'.selectedIndex]; rfl,
    cstr_print _ hl', rfl, rfl⟩ <;>
    rw [g.noSel.doSelect_none i rfl (x := x) hx, if_pos hl']

example : ∃ c, runAll (Ctrl.init true false true) (demo ++ [.select 0]) = .ok c ∧ c.selectedIndex = .ok 0 ∧
    ∃ r, c.selectNode 1 = .ok r ∧ r.1 = true ∧ r.2.selectedIndex = .ok 1 := by decide +kernel

/-- Unselecting: if it is allowed nothing is selected afterwards; by index, and with automatic selection, the
default node is selected instead if it is another one and its text is short enough. -/
theorem C79_unselect (c : Ctrl) (hr : Reached c) (cur : Nat) (hs : c.selectedIndex = .ok cur)
    (h0 : c.hasSelected = .ok true) :
    (c.unsel = false → c.unselectNode = .ok (false, c) ∧ c.unselectIndex cur = .ok (false, c)) ∧
      (c.unsel = true → ∃ c', c.unselectNode = .ok (true, c') ∧ c'.hasSelected = .ok false ∧
        c'.selectedIndex = .ok UNDEF ∧ cstr c'.idStr = [] ∧ c'.nodes = c.nodes ∧ c'.dflt = c.dflt ∧
        (c.auto = false ∨ c.hasDefault = .ok false ∨ c.isDefaultNode cur = .ok true →
          c.unselectIndex cur = .ok (true, c')) ∧
        (∀ (d : Nat) (x : Info), c.auto = true → c.hasDefault = .ok true → c.defaultIndex = .ok d → d ≠ cur →
          c.nodes[d]? = some x → x.id.toString.length ≤ 16 →
          ∃ c'', c.unselectIndex cur = .ok (true, c'') ∧ c''.selectedIndex = .ok d ∧
            cstr c''.idStr = x.id.toString)) := by
  have g := hr.good
  have hsel : c.sel? = some cur := by
    rw [g.hasSelected] at h0
    rw [g.selectedIndex] at hs
    have h1 := (Res.ok_inj _ _).1 h0
    have h2 := (Res.ok_inj _ _).1 hs
    cases h : c.sel? with
    | none => rw [h] at h1; simp at h1
    | some j => rw [h] at h2; simpa using h2
  have e1 : c.unselectNode = c.doUnselect cur := by
    unfold Ctrl.unselectNode
    rw [hs, Res.ok_bind]
  rw [e1, g.doUnselect, g.unselectIndex_eq]
  constructor
  · intro hu
    rw [if_neg (by simp [hu]), if_neg (by simp [hu])]
    exact ⟨rfl, rfl⟩
  · intro hu
    rw [if_pos ⟨hsel, hu⟩, if_pos ⟨hsel, hu⟩]
    refine ⟨c.noSel, rfl, by rw [g.noSel.hasSelected]; rfl, by rw [g.noSel.selectedIndex]; rfl,
      cstr_zeros _, rfl, rfl, ?_, ?_⟩
    · rw [g.hasDefault, g.isDefaultNode]
      intro h
      rw [if_neg]
      rintro ⟨ha, hd, hd'⟩
      rcases h with h | h | h
      · rw [ha] at h; cases h
      · have := (Res.ok_inj _ _).1 h
        rw [this] at hd'
        cases hd'
      · have := (Res.ok_inj _ _).1 h
        exact hd (by simpa using this)
    · intro d x ha hd hdi hne hx hl
      have hdd : c.dflt? = some d := by
        rw [g.hasDefault] at hd
        rw [g.defaultIndex] at hdi
        have h1 := (Res.ok_inj _ _).1 hd
        have h2 := (Res.ok_inj _ _).1 hdi
        cases h : c.dflt? with
        | none => rw [h] at h1; simp at h1
        | some j => rw [h] at h2; simpa using h2
      rw [if_pos ⟨ha, by rw [hdd]; simpa using hne, by rw [hdd]; rfl⟩, hdd]
      rw [g.toString hx] at hl ⊢
      have hl' : x.id.print.length < CAP - 1 := by unfold CAP; omega
      have g' := g.noSel.withSel (i := d) hx hl'
      refine ⟨c.noSel.withSel d x, ?_, by rw [g'.selectedIndex]; rfl, cstr_print _ hl'⟩
      rw [Option.getD_some, g.noSel.doSelect_none d rfl (x := x) hx, if_pos hl']

example : ∃ c, runAll (Ctrl.init true true true) (demo ++ [.setDefault 1, .select 0]) = .ok c ∧
    c.selectedIndex = .ok 0 ∧ ∃ r, c.unselectIndex 0 = .ok r ∧ r.1 = true ∧ r.2.selectedIndex = .ok 1 := by decide +kernel

/-! ## What does not hold -/

/-- A node that is not selected any more keeps its flag: after a change two nodes say they are selected. -/
theorem C79_flag_violated :
    ∃ c, runAll (Ctrl.init true true true) (demo ++ [.select 0, .select 1]) = .ok c ∧ c.selectedIndex = .ok 1 ∧
      c.nodes.map Info.isSelected = [true, true, false] := by decide +kernel

/-- The same for the default node; and taking the default away leaves the flag. -/
theorem C79_default_flag_violated :
    ∃ c, runAll (Ctrl.init true true true) (demo ++ [.setDefault 0, .setDefault 1]) = .ok c ∧
      c.defaultIndex = .ok 1 ∧ c.nodes.map Info.isDefault = [true, true, false] ∧
      (c.setDefault UNDEF).hasDefault = .ok false ∧
      (c.setDefault UNDEF).nodes.map Info.isDefault = [true, true, false] := by decide +kernel

/-- Selecting the node that is selected fails, in whatever state. -/
theorem C79_again_violated (c : Ctrl) (hr : Reached c) (cur : Nat) (hs : c.selectedIndex = .ok cur)
    (h0 : c.hasSelected = .ok true) : c.selectNode cur = .ok (false, c) := by
  have g := hr.good
  unfold Ctrl.selectNode Ctrl.selectNodeWith
  rw [h0, Res.ok_bind, if_pos rfl]
  split
  · rw [hs, Res.ok_bind, g.doChange_neg]
    intro h
    exact h.2.1 rfl
  · rfl

example : ∃ c, runAll (Ctrl.init true true true) (demo ++ [.select 1]) = .ok c ∧ c.selectedIndex = .ok 1 ∧
    c.hasSelected = .ok true := by decide +kernel

/-- A node whose text has more than 16 characters can not be selected although there is room for 17 and the
terminating zero; the attempt to change to it leaves nothing selected. -/
theorem C79_long_violated (c : Ctrl) (hr : Reached c) (cur i : Nat) (hs : c.selectedIndex = .ok cur)
    (h0 : c.hasSelected = .ok true) (hne : i ≠ cur) (hc : c.direct = true ∨ c.unsel = true) (x : Info)
    (hx : c.nodes[i]? = some x) (hl : 16 < x.id.toString.length) :
    ∃ c', c.selectNode i = .ok (false, c') ∧ c'.hasSelected = .ok false := by
  have g := hr.good
  have hsel : c.sel? = some cur := by
    rw [g.hasSelected] at h0
    rw [g.selectedIndex] at hs
    have h1 := (Res.ok_inj _ _).1 h0
    have h2 := (Res.ok_inj _ _).1 hs
    cases h : c.sel? with
    | none => rw [h] at h1; simp at h1
    | some j => rw [h] at h2; simpa using h2
  have hb : (c.direct || c.unsel) = true := by simpa using hc
  refine ⟨c.noSel, ?_, by rw [g.noSel.hasSelected]; rfl⟩
  unfold Ctrl.selectNode Ctrl.selectNodeWith
  rw [h0, Res.ok_bind, if_pos rfl, if_pos hb, hs, Res.ok_bind,
    g.doChange_pos _ ⟨hsel, fun h => hne h.symm, lt_of_some hx, hc⟩]
  rw [g.toString hx] at hl
  rw [g.noSel.doSelect_none i rfl (x := x) hx, if_neg (by unfold CAP; omega)]

example : ∃ c, runAll (Ctrl.init true true true) (demo ++ [.select 1]) = .ok c ∧ c.selectedIndex = .ok 1 ∧
    c.nodes[2]?.map (fun x => x.id.toString.length) = some 17 := by decide +kernel

/-- After `clear` the pointer to the id of the default node leads nowhere: asking whether there is a default
node is undefined behaviour.  The text of the selected node is still there although nothing is selected. -/
theorem C79_clear_violated (c : Ctrl) (hr : Reached c) :
    ∃ c', c.clear = .ok c' ∧ c'.nodes = [] ∧ c'.hasSelected = .ok false ∧
      (c.hasDefault = .ok true → c'.hasDefault = .ub) ∧ (c.hasDefault = .ok false → c'.hasDefault = .ok false) ∧
      c'.idStr = c.idStr := by
  have g := hr.good
  unfold Ctrl.clear
  rw [g.hasSelected, Res.ok_bind]
  refine ⟨_, rfl, rfl, ?_, ?_, ?_, rfl⟩
  · rcases g.sel?_cases with ⟨h, h'⟩ | ⟨i, x, h, h', -⟩
    · simp [Ctrl.hasSelected, h, h', Ptr.lost]
    · simp [Ctrl.hasSelected, h]
  · rw [g.hasDefault]
    rcases g.dflt?_cases with ⟨h, h'⟩ | ⟨i, x, h, h', -⟩
    · simp [h]
    · intro _
      simp [Ctrl.hasDefault, h', Ptr.lost, Ctrl.deref, Res.ub_bind]
  · rw [g.hasDefault]
    rcases g.dflt?_cases with ⟨h, h'⟩ | ⟨i, x, h, h', -⟩
    · intro _
      simp [Ctrl.hasDefault, h', Ptr.lost, Ctrl.deref, Res.ok_bind]
    · simp [h]

example : ∃ c, runAll (Ctrl.init true true true) (demo ++ [.setDefault 1, .select 1]) = .ok c ∧
    c.hasDefault = .ok true ∧ ∃ c', c.clear = .ok c' ∧ cstr c'.idStr = [48, 46, 49] := by decide +kernel

/-! ## The CUDA controller -/

/-- In the CUDA controller (direct changes, no unselecting) a change of the selected node that works is
reported as a failure, whatever the nodes and devices. -/
theorem C79_cuda_change_violated (devOf : Nat → Option Nat) (works : Nat → Bool) (c : Ctrl)
    (hr : Reached c) (hd : c.direct = true) (cur i d : Nat) (hs : c.selectedIndex = .ok cur)
    (h0 : c.hasSelected = .ok true) (hne : i ≠ cur) (x : Info) (hx : c.nodes[i]? = some x)
    (hl : x.id.toString.length ≤ 16) (hdev : devOf i = some d) (hw : works d = true) :
    ∃ c', cudaSelectNode devOf works c i = .ok (false, c') ∧ c'.selectedIndex = .ok i ∧
      c'.device = some d := by
  have g := hr.good
  have hsel : c.sel? = some cur := by
    rw [g.hasSelected] at h0
    rw [g.selectedIndex] at hs
    have h1 := (Res.ok_inj _ _).1 h0
    have h2 := (Res.ok_inj _ _).1 hs
    cases h : c.sel? with
    | none => rw [h] at h1; simp at h1
    | some j => rw [h] at h2; simpa using h2
  rw [g.toString hx] at hl
  have hl' : x.id.print.length < CAP - 1 := by unfold CAP; omega
  have gd : Good { c.noSel with device := some d } :=
    ⟨g.noSel.len, g.noSel.idx, g.noSel.uniq, g.noSel.bounds, g.noSel.dflt, g.noSel.sel⟩
  have g' := gd.withSel (i := i) hx hl'
  refine ⟨({ c.noSel with device := some d } : Ctrl).withSel i x, ?_, by rw [g'.selectedIndex]; rfl, rfl⟩
  have hlt := lt_of_some hx
  have hch : c.doChange (cudaSelect devOf works) cur i =
      .ok (true, ({ c.noSel with device := some d } : Ctrl).withSel i x) := by
    rw [g.doChange_pos _ ⟨hsel, fun h => hne h.symm, hlt, .inl hd⟩]
    unfold cudaSelect
    rw [if_pos (show i < c.noSel.nodes.length from hlt), hdev]
    simp only
    rw [if_pos hw, gd.doSelect_none i rfl (x := x) hx, if_pos hl']
  unfold cudaSelectNode Ctrl.selectNodeWith
  rw [h0, Res.ok_bind, if_pos rfl, if_pos (by simp [hd]), hs, Res.ok_bind]
  unfold cudaChange
  rw [hdev]
  simp only
  rw [if_pos (by rw [g.isAvailable]; simpa using hlt), hch, Res.ok_bind]
  rfl

example : ∃ c, runAll (Ctrl.init true false true) (demo ++ [.select 0]) = .ok c ∧ c.selectedIndex = .ok 0 ∧
    c.hasSelected = .ok true := by decide +kernel

/-- And a change that is refused is reported as a success, with the device of the other node made active
while the selected node stays the same: here the selected node is selected again, and a change from a node
that is not selected is asked for. -/
theorem C79_cuda_refused_violated (devOf : Nat → Option Nat) (works : Nat → Bool) (c : Ctrl)
    (hr : Reached c) (sel cur i d : Nat) (hs : c.selectedIndex = .ok sel)
    (h0 : c.hasSelected = .ok true) (hne : cur ≠ sel ∨ i = cur) (x : Info) (hx : c.nodes[i]? = some x)
    (hdev : devOf i = some d) (hw : works d = true) :
    ∃ c', cudaChange devOf works c cur i = .ok (true, c') ∧ c'.selectedIndex = .ok sel ∧
      c'.device = some d ∧ c'.nodes = c.nodes := by
  have g := hr.good
  have hsel : c.sel? = some sel := by
    rw [g.hasSelected] at h0
    rw [g.selectedIndex] at hs
    have h1 := (Res.ok_inj _ _).1 h0
    have h2 := (Res.ok_inj _ _).1 hs
    cases h : c.sel? with
    | none => rw [h] at h1; simp at h1
    | some j => rw [h] at h2; simpa using h2
  have gd : Good { c with device := some d } := ⟨g.len, g.idx, g.uniq, g.bounds, g.dflt, g.sel⟩
  have hsd : ({ c with device := some d } : Ctrl).sel? = some sel := hsel
  have hlt := lt_of_some hx
  refine ⟨{ c with device := some d }, ?_, by rw [gd.selectedIndex, hsd]; rfl, rfl, rfl⟩
  unfold cudaChange
  rw [hdev]
  simp only
  rw [if_pos (by rw [g.isAvailable]; simpa using hlt), g.doChange_neg, Res.ok_bind]
  · unfold cudaAfter
    simp only [hw, if_true, Bool.not_false]
    rw [gd.hasSelected, hsd, Res.ok_bind]
    simp
  · rintro ⟨h1, h2, -⟩
    rw [hsel] at h1
    have := Option.some.inj h1
    omega

example : ∃ c, runAll (Ctrl.init true false true) (demo ++ [.select 0]) = .ok c ∧
    ∃ r, cudaChange (fun i => some i) (fun _ => true) c 2 1 = .ok r ∧ r.1 = true ∧
      r.2.selectedIndex = .ok 0 ∧ r.2.device = some 1 := by decide +kernel

/-- If a change from a node that is not selected is asked for, the device of the other node does not work and
nodes may be unselected, then the call fails and nothing changes. -/
theorem C79_cuda_broken (devOf : Nat → Option Nat) (works : Nat → Bool) (c : Ctrl)
    (hr : Reached c) (hu : c.unsel = true) (sel cur i d : Nat) (hs : c.selectedIndex = .ok sel)
    (h0 : c.hasSelected = .ok true) (hne : cur ≠ sel ∨ i = cur) (hdev : devOf i = some d)
    (hw : works d = false) : cudaChange devOf works c cur i = .ok (false, c) := by
  have g := hr.good
  have hsel : c.sel? = some sel := by
    rw [g.hasSelected] at h0
    rw [g.selectedIndex] at hs
    have h1 := (Res.ok_inj _ _).1 h0
    have h2 := (Res.ok_inj _ _).1 hs
    cases h : c.sel? with
    | none => rw [h] at h1; simp at h1
    | some j => rw [h] at h2; simpa using h2
  unfold cudaChange
  rw [hdev]
  simp only
  split
  · rw [g.doChange_neg, Res.ok_bind]
    · unfold cudaAfter
      simp only [hw, Bool.not_false, if_true, Bool.false_eq_true, if_false, g.hasSelected, Res.ok_bind, hu]
      rfl
    · rintro ⟨h1, h2, -⟩
      rw [hsel] at h1
      have := Option.some.inj h1
      omega
  · rfl

example : ∃ c, runAll (Ctrl.init true true true) (demo ++ [.select 0]) = .ok c ∧
    c.unsel = true ∧ c.selectedIndex = .ok 0 ∧ c.hasSelected = .ok true ∧
    cudaChange (fun i => some i) (fun d => d != 1) c 2 1 = .ok (false, c) := by decide +kernel

/-- In every state there is a default node exactly if its index is known, and the index is then that of a
node. -/
theorem C79_default_known (c : Ctrl) (b : Bool) (i : Nat) (hb : c.hasDefault = .ok b)
    (hi : c.defaultIndex = .ok i) : (b = true ↔ i ≠ UNDEF) ∧ (b = true → i < c.nodes.length) := by
  unfold Ctrl.hasDefault at hb
  unfold Ctrl.defaultIndex at hi
  cases hd : c.deref c.dflt with
  | ub => rw [hd] at hb; cases hb
  | ok o =>
    rw [hd, Res.ok_bind] at hb hi
    cases o with
    | none =>
      have hb := (Res.ok_inj _ _).1 hb
      have hi := (Res.ok_inj _ _).1 hi
      subst hb hi; simp
    | some x =>
      have hb := (Res.ok_inj _ _).1 hb
      have hi := (Res.ok_inj _ _).1 hi
      subst hb hi
      by_cases hx : x.index ≠ UNDEF ∧ x.index < c.nodes.length
      · rw [if_pos hx]; simp [hx]
      · rw [if_neg hx]; simp [hx]

example : ∃ c, runAll (Ctrl.init true true true) (demo ++ [.setDefault 1]) = .ok c ∧ c.hasDefault = .ok true ∧
    c.defaultIndex = .ok 1 := by decide +kernel

end SixTrack

import Verif.Props.RfMultipole
import Verif.Props.TrackElements

/-!
# C40: whole lattices are symplectic
-/

namespace SixTrack
open Elem

namespace Elem

/-- What an element does to the coordinates of a particle. -/
noncomputable def coordMap (e : Element ℝ) (c : Coord ℝ) : Coord ℝ :=
  match e with
  | .drift l => drift l c
  | .driftExact l => driftExact l c
  | .multipole m => multipole m c
  | .rfMultipole m => rfMultipole m c
  | .cavity cv => cavity cv c
  | .xyShift dx dy => xyShift dx dy c
  | .sRotation co si => sRotation co si c
  | .dipEdge r21 r43 => dipEdge r21 r43 c
  | _ => c

/-- The elements for which the map is known to be symplectic at a point, with the conditions under which
it is: apertures and monitors do not move particles. -/
def Good (c0 : Coord ℝ) (e : Element ℝ) (v : V) : Prop :=
  match e with
  | .drift _ => True
  | .driftExact _ => v.2.1 ^ 2 + v.2.2.2.1 ^ 2 < 1 + 2 * v.2.2.2.2.2 + c0.beta0 ^ 2 * v.2.2.2.2.2 ^ 2
  | .multipole m => (m.hxl = 0 ∧ m.hyl = 0) ∨ c0.chi = 1
  | .rfMultipole m => m.order = 0 ∧ (c0.chi = c0.q0 * c0.chargeRatio ∧
      c0.p0c = c0.beta0 * Real.sqrt (c0.p0c ^ 2 + c0.mass0 ^ 2) ∧
      0 < Real.sqrt (c0.p0c ^ 2 + c0.mass0 ^ 2)) ∧ Dom c0.beta0 (rf0V m c0 v)
  | .cavity cv => Dom c0.beta0 (v.1, v.2.1, v.2.2.1, v.2.2.2.1, v.2.2.2.2.1,
      v.2.2.2.2.2 + cavKick cv c0 v.2.2.2.2.1)
  | .xyShift _ _ => True
  | .sRotation co si => si ^ 2 + co ^ 2 = 1
  | .dipEdge _ _ => True
  | .monitor _ _ _ => True
  | .limitRect _ => True
  | .limitEllipse _ => True
  | .limitRectEllipse _ => True
  | _ => False

/-- Forget the path length, which no map depends on. -/
def noS (c : Coord ℝ) : Coord ℝ := { c with s := 0 }

theorem coordMap_noS (e : Element ℝ) (c : Coord ℝ) : noS (coordMap e (noS c)) = noS (coordMap e c) := by
  unfold coordMap noS
  cases e <;> dsimp only <;> try rfl
  · unfold multipole
    dsimp only
    split
    · rfl
    · rfl

theorem toCanon_noS (c : Coord ℝ) : toCanon (noS c) = toCanon c := rfl

/-- The element in canonical variables, and that it leads from consistent particles to consistent
particles with the same reference quantities. -/
theorem coordMap_ofCanon {c0 : Coord ℝ} {e : Element ℝ} {v : V} (hb : 0 < c0.beta0) (h : Dom c0.beta0 v)
    (hg : Good c0 e v) :
    Dom c0.beta0 (inCanon (coordMap e) c0 v) ∧
    noS (coordMap e (ofCanon c0 v)) = noS (ofCanon c0 (inCanon (coordMap e) c0 v)) := by
  have hc := ofCanon_consistent hb h
  have plain : ∀ c : Coord ℝ, Consistent c → (∀ w, noS (ofCanon c w) = noS (ofCanon c0 w)) →
      c.beta0 = c0.beta0 → Dom c0.beta0 (toCanon c) ∧ noS c = noS (ofCanon c0 (toCanon c)) := by
    intro c hc1 href hbb
    refine ⟨hbb ▸ toCanon_dom hc1, ?_⟩
    rw [← href, ofCanon_toCanon hc1]
  obtain ⟨a1, a2, a3, a4, a5, a6⟩ := hc
  unfold inCanon
  cases e with
  | drift l => exact plain _ ⟨a1, a2, a3, a4, a5, a6⟩ (fun _ => rfl) rfl
  | driftExact l => exact plain _ ⟨a1, a2, a3, a4, a5, a6⟩ (fun _ => rfl) rfl
  | multipole m =>
    simp only [coordMap]
    by_cases hs : m.hxl = 0 ∧ m.hyl = 0
    · rw [C38_kick m _ hs.1 hs.2]
      exact plain _ ⟨a1, a2, a3, a4, a5, a6⟩ (fun _ => rfl) rfl
    · have hc' : m.hxl ≠ 0 ∨ m.hyl ≠ 0 := by
        by_cases h0 : m.hxl = 0
        · right; intro h1; exact hs ⟨h0, h1⟩
        · left; exact h0
      rw [C38_kick_curved m _ hc']
      exact plain _ ⟨a1, a2, a3, a4, a5, a6⟩ (fun _ => rfl) rfl
  | rfMultipole m =>
    obtain ⟨ho, _, hd⟩ := hg
    simp only [coordMap]
    rw [rf0_ofCanon m ho hb h hd, toCanon_ofCanon hd]
    exact ⟨hd, rfl⟩
  | cavity cv =>
    simp only [coordMap]
    rw [inCanon_cavity cv hb h hg, toCanon_ofCanon hg]
    exact ⟨hg, rfl⟩
  | xyShift dx dy => exact plain _ ⟨a1, a2, a3, a4, a5, a6⟩ (fun _ => rfl) rfl
  | sRotation co si => exact plain _ ⟨a1, a2, a3, a4, a5, a6⟩ (fun _ => rfl) rfl
  | dipEdge r21 r43 => exact plain _ ⟨a1, a2, a3, a4, a5, a6⟩ (fun _ => rfl) rfl
  | monitor _ _ _ => exact plain _ ⟨a1, a2, a3, a4, a5, a6⟩ (fun _ => rfl) rfl
  | limitRect _ => exact plain _ ⟨a1, a2, a3, a4, a5, a6⟩ (fun _ => rfl) rfl
  | limitEllipse _ => exact plain _ ⟨a1, a2, a3, a4, a5, a6⟩ (fun _ => rfl) rfl
  | limitRectEllipse _ => exact plain _ ⟨a1, a2, a3, a4, a5, a6⟩ (fun _ => rfl) rfl
  | field _ _ => exact hg.elim
  | triCub _ => exact hg.elim
  | triCubData => exact hg.elim
  | other => exact hg.elim

theorem Good.eventually {c0 : Coord ℝ} {e : Element ℝ} {v : V} (hg : Good c0 e v) :
    ∀ᶠ w in nhds v, Good c0 e w := by
  cases e with
  | driftExact l =>
    have hc : Continuous (fun w : V => 1 + 2 * w.2.2.2.2.2 + c0.beta0 ^ 2 * w.2.2.2.2.2 ^ 2 -
        (w.2.1 ^ 2 + w.2.2.2.1 ^ 2)) := by fun_prop
    have h0 : 0 < 1 + 2 * v.2.2.2.2.2 + c0.beta0 ^ 2 * v.2.2.2.2.2 ^ 2 - (v.2.1 ^ 2 + v.2.2.2.1 ^ 2) := by
      have : v.2.1 ^ 2 + v.2.2.2.1 ^ 2 < 1 + 2 * v.2.2.2.2.2 + c0.beta0 ^ 2 * v.2.2.2.2.2 ^ 2 := hg
      linarith
    filter_upwards [hc.continuousAt.eventually (lt_mem_nhds h0)] with w hw
    show w.2.1 ^ 2 + w.2.2.2.1 ^ 2 < 1 + 2 * w.2.2.2.2.2 + c0.beta0 ^ 2 * w.2.2.2.2.2 ^ 2
    linarith
  | rfMultipole m =>
    obtain ⟨h1, h2, h3⟩ := hg
    filter_upwards [(rf0V_continuousAt m c0 v).eventually h3.eventually] with w hw
    exact ⟨h1, h2, hw⟩
  | cavity cv =>
    filter_upwards [(cavV_continuousAt cv c0 v).eventually (Dom.eventually hg)] with w hw
    exact hw
  | _ => exact Filter.Eventually.of_forall fun _ => hg

/-- Every element of the kinds covered by `Good` is symplectic. -/
theorem coordMap_symplectic {c0 : Coord ℝ} {e : Element ℝ} {v : V} (hb : 0 < c0.beta0)
    (h : Dom c0.beta0 v) (hg : Good c0 e v) : SymplecticAt (inCanon (coordMap e) c0) v := by
  have hid : SymplecticAt (inCanon (fun c => c) c0) v := by
    refine SymplecticAt.congr (G := fun w => w) ⟨ContinuousLinearMap.id ℝ V, hasFDerivAt_id v, fun _ _ => rfl⟩
      (h.eventually.mono fun w hw => toCanon_ofCanon hw)
  cases e with
  | drift l => exact C40_drift l c0 v h
  | driftExact l => exact C40_exact_drift l c0 v h hg
  | multipole m => exact C40_multipole_partial m c0 v h hg
  | rfMultipole m =>
    exact C50_symplectic_partial m c0 v hg.1 hb hg.2.1.2.1 hg.2.1.2.2 hg.2.1.1 h hg.2.2
  | cavity cv => exact C40_cavity cv c0 v hb h hg
  | xyShift dx dy => exact C40_shift dx dy c0 v h
  | sRotation co si => exact sRotation_symplectic co si hg c0 v h
  | dipEdge r21 r43 => exact C40_dipole_edge r21 r43 c0 v h
  | monitor _ _ _ => exact hid
  | limitRect _ => exact hid
  | limitEllipse _ => exact hid
  | limitRectEllipse _ => exact hid
  | field _ _ => exact hg.elim
  | triCub _ => exact hg.elim
  | triCubData => exact hg.elim
  | other => exact hg.elim

/-- The elements one after the other. -/
noncomputable def lineMap (es : List (Element ℝ)) (c : Coord ℝ) : Coord ℝ := es.foldl (fun c e => coordMap e c) c

/-- The conditions of `Good` along the trajectory that starts at `v`. -/
def GoodLine (c0 : Coord ℝ) : List (Element ℝ) → V → Prop
  | [], _ => True
  | e :: es, v => Good c0 e v ∧ GoodLine c0 es (inCanon (coordMap e) c0 v)

theorem lineMap_noS (es : List (Element ℝ)) (c c' : Coord ℝ) (h : noS c = noS c') :
    noS (lineMap es c) = noS (lineMap es c') := by
  induction es generalizing c c' with
  | nil => exact h
  | cons e es ih =>
    apply ih
    rw [← coordMap_noS e c, ← coordMap_noS e c', h]

theorem inCanon_cons {c0 : Coord ℝ} {e : Element ℝ} (es : List (Element ℝ)) {v : V} (hb : 0 < c0.beta0)
    (h : Dom c0.beta0 v) (hg : Good c0 e v) :
    inCanon (lineMap (e :: es)) c0 v = inCanon (lineMap es) c0 (inCanon (coordMap e) c0 v) := by
  have h1 := (coordMap_ofCanon hb h hg).2
  have h2 := lineMap_noS es _ _ h1
  show toCanon (lineMap es (coordMap e (ofCanon c0 v))) = toCanon (lineMap es (ofCanon c0 _))
  rw [← toCanon_noS, h2, toCanon_noS]

end Elem

/-- A line of elements is symplectic wherever each of its elements is, along the trajectory. -/
theorem C40_line_partial (es : List (Element ℝ)) (c0 : Coord ℝ) (v : V) (hb : 0 < c0.beta0)
    (h : Dom c0.beta0 v) (hg : GoodLine c0 es v) : SymplecticAt (inCanon (lineMap es) c0) v := by
  induction es generalizing v with
  | nil =>
    exact SymplecticAt.congr (G := fun w => w)
      ⟨ContinuousLinearMap.id ℝ V, hasFDerivAt_id v, fun _ _ => rfl⟩
      (h.eventually.mono fun w hw => toCanon_ofCanon hw)
  | cons e es ih =>
    obtain ⟨h1, h2⟩ := hg
    have hs := (coordMap_symplectic hb h h1).comp (ih _ (coordMap_ofCanon hb h h1).1 h2)
    refine hs.congr ?_
    filter_upwards [h.eventually, h1.eventually] with w hw hw'
    exact inCanon_cons es hb hw hw'

namespace Elem

/-- Elements whose effect on the coordinates does not depend on the configuration. -/
def Plain : Element ℝ → Prop
  | .field _ _ => False
  | .triCub _ => False
  | _ => True

theorem dispatch_coord (cfg : Config ℝ) {e : Element ℝ} (he : Plain e) (p : Particle ℝ)
    {o : Track.Outcome (Coord ℝ) (Record ℝ)} (ho : dispatch cfg e p = .ok o) :
    o.coord = coordMap e p.coord := by
  cases e with
  | drift l =>
    simp only [dispatch, Res.ok_inj, drifted] at ho
    split at ho <;> (subst ho; rfl)
  | driftExact l =>
    simp only [dispatch, Res.ok_inj, drifted] at ho
    split at ho <;> (subst ho; rfl)
  | monitor m size base =>
    simp only [dispatch] at ho
    split at ho
    · rw [Res.bind_eq_ok] at ho
      obtain ⟨i, -, ho⟩ := ho
      split at ho
      · split at ho <;> (simp only [Res.pure_eq, Res.ok_inj] at ho; subst ho; rfl)
      · simp only [Res.pure_eq, Res.ok_inj] at ho; subst ho; rfl
    · simp only [Res.ok_inj] at ho; subst ho; rfl
  | field _ _ => exact he.elim
  | triCub _ => exact he.elim
  | triCubData =>
    simp only [dispatch, Res.ok_inj] at ho
    split at ho <;> (subst ho; rfl)
  | _ =>
    simp only [dispatch, Res.ok_inj] at ho
    subst ho
    rfl

theorem lineLoop_coord (cfg : Config ℝ)
    (undef : Element ℝ → Particle ℝ → Track.Outcome (Coord ℝ) (Record ℝ)) (hu : Stops undef)
    (es : List (Element ℝ)) (he : ∀ e ∈ es, Plain e) (s : Int) (w : Track.World (Coord ℝ) (Record ℝ))
    (h : (Track.turnElems (sem cfg undef) es s w).2.1 = true) :
    (Track.turnElems (sem cfg undef) es s w).2.2.part.coord = lineMap es w.part.coord := by
  induction es generalizing s w with
  | nil => rfl
  | cons e es ih =>
    simp only [Track.turnElems] at h ⊢
    split at h
    · rename_i hc
      rw [if_pos hc]
      rw [ih (fun e he' => he e (List.mem_cons_of_mem _ he')) _ _ h]
      show lineMap es ((sem cfg undef).dispatch e w.part).coord = lineMap es (coordMap e w.part.coord)
      congr 1
      have hst : ((sem cfg undef).dispatch e w.part).state = 1 := hc.2
      simp only [sem] at hst ⊢
      cases ho : dispatch cfg e w.part with
      | ok o => exact dispatch_coord cfg (he e (by simp)) w.part ho
      | ub => rw [ho] at hst; dsimp only at hst; rw [(hu e w.part).1] at hst; cases hst
    · cases h

end Elem

/-- What tracking does to the coordinates: a particle that is not lost within `n` turns has been sent
`n` times through the maps of the elements (up to the path length `s`, which is reset every turn). -/
theorem C40_tracking_is_line_map (cfg : Config ℝ)
    (undef : Element ℝ → Particle ℝ → Track.Outcome (Coord ℝ) (Record ℝ)) (hu : Stops undef)
    (lat : List (Element ℝ)) (hl : lat ≠ []) (he : ∀ e ∈ lat, Plain e) (n : Nat)
    (w : Track.World (Coord ℝ) (Record ℝ)) (hw : w.part.notLost)
    (h : (Track.trackUntil (sem cfg undef) lat (w.part.atTurn + n) w).2.part.notLost) :
    toCanon (Track.trackUntil (sem cfg undef) lat (w.part.atTurn + n) w).2.part.coord =
      toCanon (lineMap (List.replicate n lat).flatten w.part.coord) := by
  suffices hs : ∀ m : Nat, m ≤ n → (Track.trackUntil (sem cfg undef) lat (w.part.atTurn + m) w).2.part.atTurn =
        w.part.atTurn + m ∧ (Track.trackUntil (sem cfg undef) lat (w.part.atTurn + m) w).2.part.notLost ∧
      noS (Track.trackUntil (sem cfg undef) lat (w.part.atTurn + m) w).2.part.coord =
        noS (lineMap (List.replicate m lat).flatten w.part.coord) by
    rw [← toCanon_noS, (hs n (Nat.le_refl _)).2.2, toCanon_noS]
  intro m
  induction m with
  | zero =>
    intro _
    rw [Track.trackUntil_done (by omega)]
    exact ⟨by omega, hw, rfl⟩
  | succ m ih =>
    intro hm
    obtain ⟨i1, i2, i3⟩ := ih (by omega)
    have hr := C30_interrupt_resume (sem cfg undef) lat (w.part.atTurn + m) (w.part.atTurn + (m + 1 : Nat))
      (by omega) w
    rw [← hr]
    generalize hv : (Track.trackUntil (sem cfg undef) lat (w.part.atTurn + m) w).2 = v at *
    have hal : (Track.trackUntil (sem cfg undef) lat (w.part.atTurn + (m + 1 : Nat)) v).2.part.notLost := by
      by_contra hlost
      have hrn := C30_interrupt_resume (sem cfg undef) lat (w.part.atTurn + (m + 1 : Nat)) (w.part.atTurn + n)
        (by omega) w
      rw [← hr, Track.trackUntil_lost hlost] at hrn
      rw [← hrn] at h
      exact hlost h
    have hrun := Track.trackUntil_run (S := sem cfg undef) hl
      (show v.part.atTurn < w.part.atTurn + (m + 1 : Nat) by omega) i2 0
    rw [hrun] at hal ⊢
    rw [Track.untilLoop] at hal ⊢
    dsimp only at hal ⊢
    have ht := Track.turnElems_atTurn (sem cfg undef) lat 0 v
    by_cases hc : (Track.turnElems (sem cfg undef) lat 0 v).2.1 = true
    · rw [if_pos hc] at hal ⊢
      have hend : ¬ ((Track.turnElems (sem cfg undef) lat 0 v).2.2.map
          ((sem cfg undef).endTurn v.part.atElement)).part.atTurn < w.part.atTurn + (m + 1 : Nat) := by
        show ¬ ((Track.turnElems (sem cfg undef) lat 0 v).2.2.part.atTurn + 1 < _)
        omega
      rw [if_neg hend] at hal ⊢
      refine ⟨?_, hal, ?_⟩
      · show (Track.turnElems (sem cfg undef) lat 0 v).2.2.part.atTurn + 1 = _
        omega
      · have hco := lineLoop_coord cfg undef hu lat he 0 v hc
        show noS (noS (Track.turnElems (sem cfg undef) lat 0 v).2.2.part.coord) = _
        rw [hco]
        have e1 : (List.replicate (m + 1) lat).flatten = (List.replicate m lat).flatten ++ lat := by
          rw [List.replicate_succ', List.flatten_append]; simp
        rw [e1]
        unfold lineMap
        rw [List.foldl_append]
        exact lineMap_noS lat _ _ i3
    · rw [if_neg hc] at hal
      simp [Track.World.map, Track.Part.markLost, Track.Part.notLost] at hal

/-- A cavity, a drift, a quadrupole, another drift and an aperture, for a particle off the axis at the
zero crossing of the cavity. -/
example : GoodLine sample [.cavity ⟨1, 1, 0⟩, .driftExact 1, .multipole ⟨1, 0, 0, 0, fun i => if i = 2 then 1 else 0⟩,
    .drift 1, .limitRect ⟨-1, 1, -1, 1⟩] (1 / 10, 1 / 3, 1 / 5, -1 / 4, 0, 0) ∧
    Dom sample.beta0 (1 / 10, 1 / 3, 1 / 5, -1 / 4, 0, 0) ∧ 0 < sample.beta0 := by
  have hb : 0 < sample.beta0 := by simp only [sample]; norm_num
  have hd : Dom sample.beta0 (1 / 10, 1 / 3, 1 / 5, -1 / 4, 0, 0) := by unfold Dom; simp
  have hk : cavKick ⟨1, 1, 0⟩ sample 0 = 0 := by simp [cavKick]
  have hd' : Dom sample.beta0 (1 / 10, 1 / 3, 1 / 5, -1 / 4, 0, 0 + cavKick ⟨1, 1, 0⟩ sample 0) := by
    rw [hk, add_zero]; exact hd
  refine ⟨⟨hd', ?_, Or.inl ⟨rfl, rfl⟩, trivial, trivial, trivial⟩, hd, hb⟩
  have he : inCanon (coordMap (.cavity ⟨1, 1, 0⟩)) sample (1 / 10, 1 / 3, 1 / 5, -1 / 4, 0, 0) =
      (1 / 10, 1 / 3, 1 / 5, -1 / 4, 0, 0) := by
    unfold inCanon
    simp only [coordMap]
    rw [inCanon_cavity _ hb hd hd']
    dsimp only
    rw [hk, add_zero]
    exact toCanon_ofCanon hd
  rw [he]
  simp only [Good]
  norm_num

end SixTrack

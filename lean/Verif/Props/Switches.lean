import Verif.Elements
import Mathlib.Data.Real.Basic

/-!
# Property C61: kinds of elements can be switched off

The configuration can enable, skip or disable the maps of beam-beam, space-charge and `TriCub` elements.
-/

namespace SixTrack
open Elem

variable {K : Type} [Field K] [LinearOrder K] [RealOps K]

/-- The setting which belongs to an element with a map that can be switched. -/
def switchOf (cfg : Config K) : Element K → Option (MapFlag × (Coord K → Coord K))
  | .field .beamBeam4D f => some (cfg.beamBeam4D, f)
  | .field .beamBeam6D f => some (cfg.beamBeam6D, f)
  | .field .scCoasting f => some (cfg.spaceCharge, f)
  | .field .scQGaussian f => some (cfg.spaceCharge, f)
  | .field .scInterpolated f => some (cfg.spaceCharge, f)
  | .triCub f => some (cfg.triCub, f)
  | _ => none

/-- The element is not a space-charge element with an interpolated profile. -/
def NotInterpolated : Element K → Prop
  | .field .scInterpolated _ => False
  | _ => True

/-- An enabled element applies its map and leaves the state alone. -/
theorem C61_enabled (cfg : Config K) (e : Element K) (f : Coord K → Coord K) (h : switchOf cfg e = some (.enabled, f))
    (p : Particle K) :
    ∃ o, dispatch cfg e p = .ok o ∧ o.status = 0 ∧ o.coord = f p.coord ∧ o.state = p.state ∧ o.write = none := by
  unfold switchOf at h
  split at h <;> simp only [Option.some.injEq, Prod.mk.injEq, reduceCtorEq] at h <;> obtain ⟨h1, rfl⟩ := h <;>
    exact ⟨_, rfl, by simp [h1, flagged, moved]⟩

/-- A skipped element leaves the particle as it is and succeeds; this holds for all kinds but one. -/
theorem C61_skip_partial (cfg : Config K) (e : Element K) (f : Coord K → Coord K) (h : switchOf cfg e = some (.skip, f))
    (he : NotInterpolated e) (p : Particle K) :
    ∃ o, dispatch cfg e p = .ok o ∧ o.status = 0 ∧ o.coord = p.coord ∧ o.state = p.state ∧ o.write = none := by
  unfold switchOf at h
  split at h <;> simp only [Option.some.injEq, Prod.mk.injEq, reduceCtorEq] at h <;> obtain ⟨h1, rfl⟩ := h <;>
    first
      | exact absurd he id
      | exact ⟨_, rfl, by simp [h1, flagged, moved]⟩

/-- A disabled element fails and leaves the particle as it is; this holds for all kinds but one. -/
theorem C61_disabled_partial (cfg : Config K) (e : Element K) (f : Coord K → Coord K)
    (h : switchOf cfg e = some (.disabled, f)) (he : NotInterpolated e) (p : Particle K) :
    ∃ o, dispatch cfg e p = .ok o ∧ o.status = -1 ∧ o.coord = p.coord ∧ o.state = p.state ∧ o.write = none := by
  unfold switchOf at h
  split at h <;> simp only [Option.some.injEq, Prod.mk.injEq, reduceCtorEq] at h <;> obtain ⟨h1, rfl⟩ := h <;>
    first
      | exact absurd he id
      | exact ⟨_, rfl, by simp [h1, flagged, refused]⟩

/-- **C61 is false of the code** for space charge with an interpolated profile: its `case` label is only compiled
if space charge is enabled, so with the setting `skip` (or `disabled`) every particle is lost at the element. -/
theorem C61_skip_interpolated_violated (cfg : Config K) (hc : cfg.spaceCharge ≠ .enabled) (f : Coord K → Coord K)
    (p : Particle K) :
    ∃ o, dispatch cfg (.field .scInterpolated f) p = .ok o ∧ o.status = -1 ∧ o.state = 0 :=
  ⟨_, rfl, by simp [hc, rejected], by simp [hc, rejected]⟩

/-- The settings of the other kinds and the aperture check have no influence. -/
theorem C61_own_switch (cfg cfg' : Config K) (e : Element K) (s : MapFlag × (Coord K → Coord K))
    (h : switchOf cfg e = some s) (h' : switchOf cfg' e = some s) (p : Particle K) :
    dispatch cfg e p = dispatch cfg' e p := by
  unfold switchOf at h
  split at h <;> simp only [Option.some.injEq, reduceCtorEq] at h <;> subst h <;>
    simp only [switchOf, Option.some.injEq, Prod.mk.injEq, and_true] at h' <;> simp [dispatch, h']

/-- The data of a `TriCub` element is no obstacle for a particle unless the map is disabled. -/
theorem C61_tricub_data (cfg : Config K) (p : Particle K) :
    ∃ o, dispatch cfg (.triCubData) p = .ok o ∧ o.coord = p.coord ∧ o.state = p.state ∧
      (o.status = 0 ↔ cfg.triCub ≠ .disabled) := by
  refine ⟨_, rfl, ?_⟩
  by_cases h : cfg.triCub = .disabled <;> simp [h, refused, moved]

example : ∃ cfg : Config ℚ, switchOf cfg (.field .scCoasting id) = some (.skip, id) ∧
    NotInterpolated (.field .scCoasting (id : Coord ℚ → Coord ℚ)) ∧ cfg.spaceCharge ≠ .enabled :=
  ⟨⟨.never, 0, 1, 1, .enabled, .enabled, .skip, .disabled⟩, rfl, trivial, by decide⟩

example : ∃ cfg : Config ℚ, switchOf cfg (.field .beamBeam4D id) = some (.enabled, id) ∧
    switchOf cfg (.triCub id) = some (.disabled, id) :=
  ⟨⟨.never, 0, 1, 1, .enabled, .enabled, .skip, .disabled⟩, rfl, rfl⟩

end SixTrack

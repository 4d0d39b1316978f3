import Verif.ElemByElem
import Verif.Particles

/-!
# Tracking loops

Source: `sixtracklib/common/track/track.h`, `sixtracklib/common/track/track_kernel_impl.h`,
`sixtracklib/common/particles.h`.

The loops are modelled for any set of beam elements: `Sem` says what the dispatcher
(`Track_particle_beam_element_obj_dispatcher`, track.h:175-623) does for one element.  By its type it
may look at everything of the particle, and it may change the coordinates and the state and write one
output record (beam monitors); like the element maps of the code it cannot change the id, the element
counter or the turn counter.  Concrete elements are in `Verif.Elements`.

The counters are mathematical integers: overflow of a turn or element counter is not modelled.
-/

namespace SixTrack
namespace Track

open EBE

/-- One particle: coordinates (of an arbitrary type) and the four index attributes. -/
structure Part (C : Type) where
  coord : C
  id : Int
  atElement : Int
  atTurn : Int
  state : Int
  deriving DecidableEq, Repr

/-- `Particles_is_not_lost_value` (particles.h:6533-6543). -/
def Part.notLost {C : Type} (p : Part C) : Prop := p.state = 1

instance {C : Type} (p : Part C) : Decidable p.notLost := by unfold Part.notLost; infer_instance

/-- What the dispatcher does: status, new coordinates, new state, and possibly a record written by a
beam monitor (position in the output, contents). -/
structure Outcome (C R : Type) where
  status : Int
  coord : C
  state : Int
  write : Option (Nat × R)

/-- Meaning of beam elements of type `E`. -/
structure Sem (E C R : Type) where
  dispatch : E → Part C → Outcome C R
  /-- `Particles_set_s_value( p, idx, 0.0 )` -/
  zeroS : C → C

/-- One particle together with the output records of the beam monitors. -/
structure World (C R : Type) where
  part : Part C
  out : Nat → R

/-- Effect of a dispatcher call on the output records. -/
def applyWrite {R : Type} (out : Nat → R) : Option (Nat × R) → (Nat → R)
  | none => out
  | some (i, r) => Particles.setAt out i r

/-- Effect of a dispatcher call on the particle. -/
def applyPart {C R : Type} (p : Part C) (o : Outcome C R) : Part C :=
  { p with coord := o.coord, state := o.state }

/-- One dispatcher call. -/
def Sem.run {E C R : Type} (S : Sem E C R) (e : E) (w : World C R) : Int × World C R :=
  let o := S.dispatch e w.part
  (o.status, ⟨applyPart w.part o, applyWrite w.out o.write⟩)

/-- `Particles_increment_at_element_id_value`. -/
def Part.incElem {C : Type} (p : Part C) : Part C := { p with atElement := p.atElement + 1 }

/-- `Particles_mark_as_lost_value` (particles.h:6500-6507). -/
def Part.markLost {C : Type} (p : Part C) : Part C := { p with state := 0 }

/-- End of a turn in `Track_particle_until_turn_objs` (track.h:693-697). -/
def Sem.endTurn {E C R : Type} (S : Sem E C R) (start : Int) (p : Part C) : Part C :=
  { p with atElement := start, atTurn := p.atTurn + 1, coord := S.zeroS p.coord }

def World.map {C R : Type} (f : Part C → Part C) (w : World C R) : World C R := ⟨f w.part, w.out⟩

/-- `Track_particle_beam_element_obj` (track.h:625-649). -/
def trackObj {E C R : Type} (S : Sem E C R) (e : E) (w : World C R) : Int × World C R :=
  if w.part.notLost then
    let r := S.run e w
    if r.1 = 0 ∧ r.2.part.notLost then (r.1, r.2.map Part.incElem) else r
  else (0, w)

/-- The inner loop of `Track_particle_until_turn_objs` (track.h:679-691): status, whether to continue,
and the world. -/
def turnElems {E C R : Type} (S : Sem E C R) :
    List E → Int → World C R → Int × Bool × World C R
  | [], s, w => (s, true, w)
  | e :: es, _, w =>
    let r := S.run e w
    if r.1 = 0 ∧ r.2.part.notLost then turnElems S es r.1 (r.2.map Part.incElem)
    else (r.1, false, r.2)

theorem turnElems_atTurn {E C R : Type} (S : Sem E C R) (es : List E) (s : Int) (w : World C R) :
    (turnElems S es s w).2.2.part.atTurn = w.part.atTurn := by
  induction es generalizing s w with
  | nil => rfl
  | cons e es ih =>
    simp only [turnElems]
    split
    · rw [ih]; rfl
    · rfl

/-- The outer loop of `Track_particle_until_turn_objs` (track.h:675-709). -/
def untilLoop {E C R : Type} (S : Sem E C R) (lat : List E) (start untilTurn : Int)
    (s : Int) (w : World C R) : Int × World C R :=
  let r := turnElems S lat s w
  if r.2.1 = true then
    let w' := r.2.2.map (S.endTurn start)
    if w'.part.atTurn < untilTurn then untilLoop S lat start untilTurn r.1 w' else (r.1, w')
  else (r.1, r.2.2.map Part.markLost)
termination_by (untilTurn - w.part.atTurn).toNat
decreasing_by
  rename_i h
  have h2 : (turnElems S lat s w).2.2.part.atTurn = w.part.atTurn := turnElems_atTurn S lat s w
  have h3 : ((turnElems S lat s w).2.2.map (S.endTurn start)).part.atTurn =
      (turnElems S lat s w).2.2.part.atTurn + 1 := rfl
  have h4 : w'.part.atTurn = (turnElems S lat s w).2.2.part.atTurn + 1 := h3
  omega

/-- `Track_particle_until_turn_objs` (track.h:651-712). -/
def trackUntil {E C R : Type} (S : Sem E C R) (lat : List E) (untilTurn : Int) (w : World C R) :
    Int × World C R :=
  let s : Int := if lat = [] then -1 else 0
  if s = 0 ∧ untilTurn > w.part.atTurn ∧ w.part.notLost then
    untilLoop S lat w.part.atElement untilTurn s w
  else (s, w)

/-- The loop of `Track_particle_line_objs` (track.h:820-833). -/
def lineLoop {E C R : Type} (S : Sem E C R) : List E → Int → World C R → Int × World C R
  | [], s, w => (s, w)
  | e :: es, _, w =>
    let r := S.run e w
    if r.1 = 0 ∧ r.2.part.notLost then lineLoop S es r.1 (r.2.map Part.incElem) else r

/-- `Track_particle_line_objs` (track.h:802-845). -/
def trackLine {E C R : Type} (S : Sem E C R) (line : List E) (finish : Bool) (w : World C R) :
    Int × World C R :=
  let r := if w.part.notLost then lineLoop S line 0 w else (0, w)
  if finish = true ∧ r.1 = 0 ∧ r.2.part.notLost then (r.1, r.2.map (S.endTurn 0)) else r

/-- A particle, the monitor output and the element-by-element output. -/
structure EWorld (C R : Type) where
  w : World C R
  recs : Nat → Part C

/-- One turn of `Track_particle_element_by_element_until_turn_objs` (track.h:749-795): the inner loop.
`nn` is the number of records of the output store.  The result is the status, whether to continue, and
the world.  (The copy to the output cannot fail: both indices have been checked.) -/
def ebeTurn {E C R : Type} (S : Sem E C R) (cfg : Cfg) (nn : Int) (partId start untilTurn : Int) :
    List E → Int → Int → Int → EWorld C R → Res (Int × Bool × EWorld C R)
  | [], _, _, s, v => .ok (s, true, v)
  | e :: es, atE, atT, _, v => do
    let idx ← cfg.storeIndex partId atE atT
    let recs' := if 0 ≤ idx ∧ idx < nn then Particles.setAt v.recs idx.toNat v.w.part else v.recs
    let r := S.run e v.w
    if r.1 = 0 ∧ r.2.part.notLost then
      if es ≠ [] then
        ebeTurn S cfg nn partId start untilTurn es (atE + 1) atT r.1 ⟨r.2.map Part.incElem, recs'⟩
      else
        .ok (r.1, decide (atT + 1 < untilTurn), ⟨r.2.map (S.endTurn start), recs'⟩)
    else .ok (r.1, false, ⟨r.2, recs'⟩)

/-- The outer loop; `fuel` is the number of turns left, `untilTurn - atT` (the loop stops as soon as
the turn reaches `untilTurn`, so it runs at most that often). -/
def ebeLoop {E C R : Type} (S : Sem E C R) (cfg : Cfg) (nn : Int) (lat : List E)
    (partId start untilTurn : Int) : Nat → Int → Int → EWorld C R → Res (Int × EWorld C R)
  | 0, _, s, v => .ok (s, v)
  | n + 1, atT, s, v => do
    let r ← ebeTurn S cfg nn partId start untilTurn lat start atT s v
    if r.2.1 = true then ebeLoop S cfg nn lat partId start untilTurn n (atT + 1) r.1 r.2.2
    else pure (r.1, r.2.2)

/-- `Track_particle_element_by_element_until_turn_objs` (track.h:714-800) with an output store of `nn`
records (without one, the function is `Track_particle_until_turn_objs`). -/
def trackEbe {E C R : Type} (S : Sem E C R) (cfg : Cfg) (nn : Int) (lat : List E) (untilTurn : Int)
    (v : EWorld C R) : Res (Int × EWorld C R) :=
  let p := v.w.part
  if lat ≠ [] ∧ untilTurn > p.atTurn ∧ p.atTurn ≥ 0 ∧ p.atElement ≥ 0 ∧ p.id ≥ 0 then
    ebeLoop S cfg nn lat p.id p.atElement untilTurn (untilTurn - p.atTurn).toNat p.atTurn 0 v
  else .ok (0, v)

/-! ### Kernels -/

/-- Particles of a set and output records. -/
structure Mem (C R : Type) where
  parts : Nat → Part C
  out : Nat → R

/-- Track one particle of a set. -/
def trackOne {E C R : Type} (S : Sem E C R) (lat : List E) (untilTurn : Int) (i : Nat)
    (m : Mem C R) : Mem C R :=
  let r := (trackUntil S lat untilTurn ⟨m.parts i, m.out⟩).2
  ⟨Particles.setAt m.parts i r.part, r.out⟩

/-- `for( ; pidx < num_particles ; pidx += stride )` of
`Track_particles_until_turn_kernel_impl` (track_kernel_impl.h:138-142); the returned status is not
modelled.  `n` bounds the number of iterations. -/
def kernel {E C R : Type} (S : Sem E C R) (lat : List E) (untilTurn : Int) (num stride : Nat) :
    Nat → Nat → Mem C R → Mem C R
  | 0, _, m => m
  | n + 1, pidx, m =>
    if pidx < num then kernel S lat untilTurn num stride n (pidx + stride)
      (trackOne S lat untilTurn pidx m)
    else m

/-- Control state of a work-item: the particle it is working on, and where in the turn it is. -/
structure Ctrl (E : Type) where
  pidx : Nat
  /-- `none`: about to start with particle `pidx`; `some (rest, start)`: in the middle of a turn, the
  elements `rest` still to be done, and the saved `start_at_element`. -/
  pos : Option (List E × Int)

/-- Shared memory and the control states of all work-items. -/
structure Global (E C R : Type) where
  mem : Mem C R
  ctrl : Nat → Ctrl E

/-- One atomic step of work-item `k` of `stride` work-items that all run
`Track_particles_until_turn_kernel_impl`: one iteration of one of the loops, that is at most one
element map of one particle. -/
def itemStep {E C R : Type} (S : Sem E C R) (lat : List E) (untilTurn : Int) (num stride : Nat)
    (k : Nat) (g : Global E C R) : Global E C R :=
  let c := g.ctrl k
  let setC := fun (c' : Ctrl E) => Particles.setAt g.ctrl k c'
  if c.pidx < num then
    let p := g.mem.parts c.pidx
    let next : Ctrl E := ⟨c.pidx + stride, none⟩
    let setP := fun (q : Part C) => Particles.setAt g.mem.parts c.pidx q
    match c.pos with
    | none =>
      if lat ≠ [] ∧ untilTurn > p.atTurn ∧ p.notLost then
        ⟨g.mem, setC ⟨c.pidx, some (lat, p.atElement)⟩⟩
      else ⟨g.mem, setC next⟩
    | some (e :: es, start) =>
      let o := S.dispatch e p
      let q := applyPart p o
      let out := applyWrite g.mem.out o.write
      if o.status = 0 ∧ q.notLost then
        ⟨⟨setP q.incElem, out⟩, setC ⟨c.pidx, some (es, start)⟩⟩
      else ⟨⟨setP q.markLost, out⟩, setC next⟩
    | some ([], start) =>
      let q := S.endTurn start p
      if q.atTurn < untilTurn then ⟨⟨setP q, g.mem.out⟩, setC ⟨c.pidx, some (lat, start)⟩⟩
      else ⟨⟨setP q, g.mem.out⟩, setC next⟩
  else g

end Track
end SixTrack

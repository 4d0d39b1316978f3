import Verif.BeamLineLemmas

/-!
# C65: lines of beam elements

Copying a line into a buffer, the capacity which is predicted for it, new elements for a line
and copies between the objects of two lines.
-/

namespace SixTrack

open Buf BeamLine

namespace BeamLine

theorem Ty.ofId_some {n : Nat} {t : Ty} : Ty.ofId n = some t → n = t.id := by
  unfold Ty.ofId
  split <;> intro e <;> simp only [Option.some.injEq, reduceCtorEq] at e <;> subst e <;> rfl

theorem lineUsed_eq (l : List (Ty × Obj)) : ∀ n : Caps, lineUsed n l =
    ⟨n.objs + l.length, n.slots + (l.map fun x => x.2.total / 8).sum,
      n.dataptrs + (l.map fun x => x.2.attrs.length).sum, n.garbage⟩ := by
  induction l with
  | nil => exact fun n => rfl
  | cons x l ih =>
    intro n
    rw [lineUsed, ih]
    simp only [addUsed, List.length_cons, List.map_cons, List.sum_cons, Caps.mk.injEq, and_true]
    omega

/-! ## A particular line -/

/-- The client's memory with a line of four elements (drift, multipole of order 1, space charge of a coasting
beam, drift): the records from 2^30 on, the handles behind. -/
def lineMem : Mem :=
  (((((((((((⟨[(2 ^ 30, 4096)], fun x => UInt8.ofNat x⟩ : Mem).put (2 ^ 30) (2 ^ 30 + 1024)).put (2 ^ 30 + 8) 2).put
    (2 ^ 30 + 24) (2 ^ 30 + 1056)).put (2 ^ 30 + 32) 4).put (2 ^ 30 + 48) (2 ^ 30 + 1200)).put (2 ^ 30 + 56) 13).put
    (2 ^ 30 + 72) (2 ^ 30 + 1024)).put (2 ^ 30 + 80) 2).put (2 ^ 30 + 1056) 1).put (2 ^ 30 + 1088) (2 ^ 30 + 1104))

theorem lineMem_blocks : lineMem.blocks = [(2 ^ 30, 4096)] := by simp [lineMem]

/-- The element with the handle at `p` in that memory. -/
def lineObj (t : Ty) (p : Nat) (as : List AttrSpec) : Obj :=
  ⟨t.id, t.size, as, fun j => lineMem.byte (p + j), fun a j => lineMem.byte (lineMem.word (p + a.off) + j)⟩

def theLine : List (Ty × Obj) :=
  [(.drift, lineObj .drift (2 ^ 30 + 1024) []), (.multipole, lineObj .multipole (2 ^ 30 + 1056) [⟨32, 8, 4⟩]),
    (.scCoasting, lineObj .scCoasting (2 ^ 30 + 1200) []), (.drift, lineObj .drift (2 ^ 30 + 1024) [])]

section
variable {s : St}

theorem line_word (hf : ∀ x, 2 ^ 30 ≤ x → x < 2 ^ 30 + 4096 → s.mem.byte x = lineMem.byte x) {x v : Nat} (h1 : 2 ^ 30 ≤ x)
    (h2 : x + 8 ≤ 2 ^ 30 + 4096) (hv : lineMem.word x = v) : s.mem.word x = v := by
  rw [← hv]
  exact Mem.word_congr fun y h3 h4 => hf y (by omega) (by omega)

theorem line_elem (hb : (2 ^ 30, 4096) ∈ s.mem.blocks) (hp : s.pool.buffer ≠ 2 ^ 30)
    (hf : ∀ x, 2 ^ 30 ≤ x → x < 2 ^ 30 + 4096 → s.mem.byte x = lineMem.byte x) {rec p : Nat} {t : Ty} {as : List AttrSpec}
    (h1 : 2 ^ 30 ≤ rec ∧ rec + 16 ≤ 2 ^ 30 + 4096 ∧ rec % 8 = 0) (h2 : lineMem.word rec = p)
    (h3 : lineMem.word (rec + 8) = t.id) (h4 : 2 ^ 30 ≤ p ∧ p + t.size ≤ 2 ^ 30 + 4096 ∧ p % 8 = 0)
    (ok : (lineObj t p as).Ok) (har : Arrays (lineMem.word p) as t)
    (hat : ∀ a ∈ as, 2 ^ 30 ≤ lineMem.word (p + a.off) ∧ lineMem.word (p + a.off) + a.count * a.size ≤ 2 ^ 30 + 4096) :
    IsElem s rec t (lineObj t p as) := by
  have ext : ∀ a n, 2 ^ 30 ≤ a → a + n ≤ 2 ^ 30 + 4096 → s.mem.ext s.pool.buffer a n := fun a n h1 h2 =>
    Or.inr ⟨_, hb, Ne.symm hp, h1, h2⟩
  have e1 : s.mem.word rec = p := line_word hf (by omega) (by omega) h2
  have hs := t.size_ge
  have hoff : ∀ a ∈ as, a.off + 8 ≤ t.size := fun a ha => (ok.off a ha).2
  refine ⟨by omega, by omega, ext _ _ (by omega) (by omega), line_word hf (by omega) (by omega) h3, by rw [e1]; omega, ?_, ok,
    rfl, rfl, ?_⟩
  · rw [e1]
    refine ⟨by omega, ext _ _ (by omega) h4.2.1, fun j hj _ => hf _ (by omega) ?_, fun a ha => Or.inr ?_⟩
    · have : j < t.size := hj
      omega
    · have := hoff a ha
      have q := hat a ha
      rw [line_word hf (x := p + a.off) (by omega) (by omega) rfl]
      exact ⟨by omega, ext _ _ q.1 q.2, fun j hj => hf _ (by omega) (by omega)⟩
  · rw [e1, line_word hf (x := p) (by omega) (by omega) rfl]
    exact har

theorem theLine_is (hb : (2 ^ 30, 4096) ∈ s.mem.blocks) (hp : s.pool.buffer ≠ 2 ^ 30)
    (hf : ∀ x, 2 ^ 30 ≤ x → x < 2 ^ 30 + 4096 → s.mem.byte x = lineMem.byte x) : IsLine s (2 ^ 30) theLine := by
  have w0 : lineMem.word (2 ^ 30) = 2 ^ 30 + 1024 := by decide +kernel
  have w1 : lineMem.word (2 ^ 30 + 8) = 2 := by decide +kernel
  have w2 : lineMem.word (2 ^ 30 + 24) = 2 ^ 30 + 1056 := by decide +kernel
  have w3 : lineMem.word (2 ^ 30 + 32) = 4 := by decide +kernel
  have w4 : lineMem.word (2 ^ 30 + 48) = 2 ^ 30 + 1200 := by decide +kernel
  have w5 : lineMem.word (2 ^ 30 + 56) = 13 := by decide +kernel
  have w6 : lineMem.word (2 ^ 30 + 72) = 2 ^ 30 + 1024 := by decide +kernel
  have w7 : lineMem.word (2 ^ 30 + 80) = 2 := by decide +kernel
  have w8 : lineMem.word (2 ^ 30 + 1056) = 1 := by decide +kernel
  have w9 : lineMem.word (2 ^ 30 + 1056 + 32) = 2 ^ 30 + 1104 := by decide +kernel
  have okD : (lineObj .drift (2 ^ 30 + 1024) []).Ok :=
    ⟨by decide, by simp [lineObj], by simp [lineObj], by decide, by simp [lineObj, Obj.total, Ty.size]⟩
  have okS : (lineObj .scCoasting (2 ^ 30 + 1200) []).Ok :=
    ⟨by decide, by simp [lineObj], by simp [lineObj], by decide, by simp [lineObj, Obj.total, Ty.size]⟩
  have okM : (lineObj .multipole (2 ^ 30 + 1056) [⟨32, 8, 4⟩]).Ok :=
    ⟨by decide, by simp [lineObj, Ty.size], by simp [lineObj], by decide, by simp [lineObj, Obj.total, Ty.size]⟩
  refine ⟨line_elem hb hp hf (by decide) w0 w1 (by decide) okD rfl (by simp),
    line_elem hb hp hf (by decide) w2 w3 (by decide) okM (by rw [w8]; rfl) ?_,
    line_elem hb hp hf (by decide) w4 w5 (by decide) okS rfl (by simp),
    line_elem hb hp hf (by decide) w6 w7 (by decide) okD rfl (by simp), trivial⟩
  intro a ha
  rw [List.mem_singleton] at ha
  subst ha
  rw [w9]
  decide

end

/-- An empty buffer with the given capacities beside the line. -/
theorem line_start (c : Caps) (hc : c.len ≤ 2 ^ 16) : ∃ s, Reach s [] ∧ Used s ⟨0, 0, 0, 0⟩ ∧ Capacity s c ∧
    IsLine s (2 ^ 30) theLine := by
  obtain ⟨s, r, g, d, -, b, -, f⟩ := start lineMem_blocks c hc
  exact ⟨s, r, g.used, g.capacity, theLine_is (by rw [b]; simp) (by rw [g.pbuf, d]; decide) f⟩

end BeamLine

/-! ## Types -/

/-- The members of the structures; every one is aligned to 8 bytes and has 8 bytes
(be_drift.h:28-31, 159-162, be_multipole.h:27-34, be_rfmultipole.h:29-37, be_xyshift.h:26-30, be_srotation.h:26-30,
be_cavity.h:27-32, be_monitor.h:35-45, be_limit_rect.h:26-33, be_limit_ellipse.h:28-33, be_limit_rect_ellipse.h:26-33,
be_dipedge.h:29-33, be_tricub.h:33-52, 309-319, be_beamfields.h:36-40, 194-198, 418-429, 638-651, 887-896, 1281-1294). -/
def members : Ty → List String
  | .drift | .driftExact => ["length"]
  | .multipole => ["order", "length", "hxl", "hyl", "bal_addr"]
  | .cavity => ["voltage", "frequency", "lag"]
  | .xyShift => ["dx", "dy"]
  | .sRotation => ["cos_z", "sin_z"]
  | .beamBeam4D | .beamBeam6D => ["data_size", "data_addr"]
  | .beamMonitor => ["num_stores", "start", "skip", "out_address", "max_particle_id", "min_particle_id", "is_rolling",
      "is_turn_ordered"]
  | .limitRect => ["min_x", "max_x", "min_y", "max_y"]
  | .limitEllipse => ["a_squ", "b_squ", "a_b_squ"]
  | .scCoasting => ["number_of_particles", "circumference", "sigma_x", "sigma_y", "length", "x_co", "y_co",
      "min_sigma_diff", "enabled"]
  | .scQGauss => ["number_of_particles", "bunchlength_rms", "sigma_x", "sigma_y", "length", "x_co", "y_co",
      "min_sigma_diff", "q_param", "cq", "enabled"]
  | .limitRectEllipse => ["max_x", "max_y", "a_squ", "b_squ", "a_squ_b_squ"]
  | .dipoleEdge => ["r21", "r43"]
  | .rfMultipole => ["order", "voltage", "frequency", "lag", "bal_addr", "phase_addr"]
  | .scInterpolated => ["number_of_particles", "sigma_x", "sigma_y", "length", "x_co", "y_co",
      "interpol_data_addr", "line_density_prof_fallback", "min_sigma_diff", "enabled"]
  | .lineDensity => ["method", "capacity", "values_addr", "derivatives_addr", "z0", "dz", "num_values"]
  | .triCubData => ["x0", "dx", "nx", "y0", "dy", "ny", "z0", "dz", "nz", "mirror_x", "mirror_y", "mirror_z",
      "table_addr"]
  | .triCub => ["x_shift", "y_shift", "tau_shift", "dipolar_kick_px", "dipolar_kick_py", "dipolar_kick_ptau", "length",
      "data_addr"]

/-- The bytes that are stored and copied for an element are those of its members. -/
theorem C65_sizes (t : Ty) : t.size = 8 * (members t).length := by
  cases t <;> rfl

example : Ty.size .beamMonitor = 64 := by rw [C65_sizes]; rfl

/-- **C65** (types). The types which are beam elements. -/
theorem C65_is_beam_element (id : Nat) : isBeamElement id = true ↔
    id ∈ [2, 3, 4, 5, 6, 7, 8, 9, 10, 11, 12, 13, 14, 16, 24, 256, 257, 261] := by
  cases h : Ty.ofId id with
  | none =>
    simp only [isBeamElement, h, Bool.false_eq_true, false_iff]
    intro hm
    simp only [List.mem_cons, List.not_mem_nil, or_false] at hm
    rcases hm with rfl | rfl | rfl | rfl | rfl | rfl | rfl | rfl | rfl | rfl | rfl | rfl | rfl | rfl | rfl | rfl | rfl | rfl <;>
      exact absurd h (by decide)
  | some t =>
    obtain rfl := Ty.ofId_some h
    cases t <;> decide

/-- **C65** (types of a line). -/
theorem C65_all_beam_elements (ids : List Nat) : allBeamElements ids = true ↔ ∀ id ∈ ids, isBeamElement id = true := by
  induction ids with
  | nil => simp [allBeamElements]
  | cons id ids ih =>
    unfold allBeamElements
    by_cases h : isBeamElement id = true
    · simp [h, ih]
    · simp [h]

/-! ## Required capacity -/

/-- **C65** (required capacity; partial: see `C65_predicted_violated`). For a line of elements of which the type is none
of four, the predicted numbers are those that the elements need: one record each, their slots and their arrays. -/
theorem C65_predicted_partial {s : St} {rec : Nat} {l : List (Ty × Obj)} (h0 : rec ≠ 0) (h : IsLine s rec l)
    (ht : ∀ x ∈ l, x.1 ≠ .scCoasting ∧ x.1 ≠ .scInterpolated ∧ x.1 ≠ .triCubData ∧ x.1 ≠ .lineDensity) (n : Caps) :
    calcLine s.mem 8 n rec l.length = .ok (⟨n.objs + l.length, n.slots + (l.map fun x => x.2.total / 8).sum,
      n.dataptrs + (l.map fun x => x.2.attrs.length).sum, n.garbage⟩, 0) := by
  rw [calcLine, if_neg h0, calcLoop_line l n h ht, lineUsed_eq]

/-- **C65 is violated** (required capacity). For space charge elements of a coasting beam or with an
interpolated profile, and for tables of the tricubic interpolation, no slots are predicted, so that the
element does not fit in a buffer of the predicted capacity.  For line densities the prediction fails. -/
theorem C65_predicted_violated {s : St} {rec : Nat} {t : Ty} {o : Obj} (h : IsElem s rec t o) :
    (t = .scCoasting ∨ t = .scInterpolated ∨ t = .triCubData →
      calcLine s.mem 8 ⟨0, 0, 0, 0⟩ rec 1 = .ok (⟨1, 0, o.attrs.length, 0⟩, 0) ∧
      ¬ Room ⟨0, 0, 0, 0⟩ ⟨1, 0, o.attrs.length, 0⟩ o) ∧
    (t = .lineDensity → calcLine s.mem 8 ⟨0, 0, 0, 0⟩ rec 1 = .ok (⟨0, 0, 0, 0⟩, -1)) := by
  refine ⟨fun ht => ⟨?_, fun hr => ?_⟩, fun ht => ?_⟩
  · rw [calcLine, if_neg h.nz, calcLoop, calcObject, if_pos ⟨h.nz, by decide⟩, h.load_addr, Res.ok_bind, h.load_id,
      Res.ok_bind, Ty.ofId_id, ← h.numDataptrs]
    rcases ht with rfl | rfl | rfl <;> rfl
  · have := hr.slots
    have hz := h.ok.pos
    simp only [Obj.total] at this
    omega
  · rw [calcLine, if_neg h.nz, calcLoop, calcObject, if_pos ⟨h.nz, by decide⟩, h.load_addr, Res.ok_bind, h.load_id,
      Res.ok_bind, Ty.ofId_id]
    subst ht
    rfl

/-- The first two elements of the line, and the third one. -/
example : ∃ s, IsLine s (2 ^ 30) (theLine.take 2) ∧ (∀ x ∈ theLine.take 2, x.1.Counted) ∧
    calcLine s.mem 8 ⟨0, 0, 0, 0⟩ (2 ^ 30) 2 = .ok (⟨2, 10, 1, 0⟩, 0) ∧
    calcLine s.mem 8 ⟨0, 0, 0, 0⟩ (2 ^ 30 + 48) 1 = .ok (⟨1, 0, 0, 0⟩, 0) := by
  obtain ⟨s, -, -, -, h⟩ := line_start ⟨8, 200, 8, 0⟩ (by decide)
  have h2 : IsLine s (2 ^ 30) (theLine.take 2) := ⟨h.1, h.2.1, trivial⟩
  have ht : ∀ x ∈ theLine.take 2, x.1.Counted := by simp [theLine, Ty.Counted]
  exact ⟨s, h2, ht, C65_predicted_partial (by omega) h2 ht _, ((C65_predicted_violated h.2.2.1).1 (Or.inl rfl)).1⟩

/-! ## Copies in a buffer -/

/-- **C65** (copies; partial: see the theorems below).  Copying a line, none of whose elements is of one of seven
types, is defined; the result is 0 or -1, and if it is 0, the buffer holds in addition the elements of the line, in
their order, and nothing outside of the buffer is changed. -/
theorem C65_copy_line_partial {malloc : Mem → Nat → Nat} (hm : ∀ m, MallocOk (malloc m) m) {s : St} {os : List Obj}
    {rec : Nat} {l : List (Ty × Obj)} (h : Reach s os) (h0 : l ≠ []) (hl : IsLine s rec l)
    (ht : ∀ x ∈ l, x.1 ∉ [.beamBeam4D, .beamBeam6D, .scCoasting, .scQGauss, .scInterpolated, .lineDensity, .triCubData]) :
    ∃ s' ret, copyToBuffer malloc s rec l.length = .ok (s', ret) ∧ (ret = 0 ∨ ret = -1) ∧
      (ret = 0 → Reach s' (os ++ l.map Prod.snd) ∧ Holds s' (os ++ l.map Prod.snd) ∧
        ∀ x, s.mem.ext s.pool.buffer x 1 → s'.mem.valid x 1 ∧ s'.mem.byte x = s.mem.byte x) := by
  have hp : ∀ x ∈ l, x.1.Plain := by
    intro x hx
    have := ht x hx
    simp only [List.mem_cons, not_or, List.not_mem_nil, not_false_eq_true, and_true] at this
    exact ⟨⟨this.2.2.2.2.1, this.2.2.2.2.2.1, this.2.2.2.2.2.2⟩, by
      rintro (e | e | e | e)
      · exact this.1 e
      · exact this.2.1 e
      · exact this.2.2.1 e
      · exact this.2.2.2.1 e⟩
  have hne : ¬ (rec = 0 ∨ l.length = 0) := by
    rintro (e | e)
    · cases l with
      | nil => exact h0 rfl
      | cons x l => exact hl.1.nz e
    · exact h0 (List.length_eq_zero_iff.1 e)
  unfold copyToBuffer
  rw [if_neg hne]
  rcases copyLoop_plain hm 0 l h hl hp with ⟨s', e, r, k, -⟩ | ⟨s', e, -⟩
  · refine ⟨s', 0, e, Or.inl rfl, fun _ => ⟨r, C02_list_of_objects_partial r, fun x hx => ⟨?_, k.byte x hx⟩⟩⟩
    exact (k.ext x 1 hx).valid
  · exact ⟨s', -1, e, Or.inr rfl, fun e => by simp at e⟩

/-- **C65** (copies with reserved capacity). If the capacities of the buffer exceed what is used by the predicted numbers, the
line is copied, without changing the capacities or moving the buffer. -/
theorem C65_copy_reserved_partial {malloc : Mem → Nat → Nat} (hm : ∀ m, MallocOk (malloc m) m) {s : St} {os : List Obj}
    {rec : Nat} {l : List (Ty × Obj)} {n c p : Caps} (h : Reach s os) (h0 : l ≠ []) (hl : IsLine s rec l)
    (ht : ∀ x ∈ l, x.1 ∉ [.beamBeam4D, .beamBeam6D, .scCoasting, .scQGauss, .scInterpolated, .lineDensity, .triCubData])
    (hn : Used s n) (hc : Capacity s c) (hp : calcLine s.mem 8 ⟨0, 0, 0, 0⟩ rec l.length = .ok (p, 0))
    (h1 : n.objs + p.objs ≤ c.objs) (h2 : n.slots + p.slots ≤ c.slots) (h3 : n.dataptrs + p.dataptrs ≤ c.dataptrs) :
    ∃ s', copyToBuffer malloc s rec l.length = .ok (s', 0) ∧ Holds s' (os ++ l.map Prod.snd) ∧ Capacity s' c ∧
      s'.buf.dataAddr = s.buf.dataAddr := by
  have ht' : ∀ x ∈ l, x.1.Plain ∧ x.1.Counted := by
    intro x hx
    have := ht x hx
    obtain ⟨t, o⟩ := x
    revert this
    dsimp only
    generalize t = t
    cases t <;> decide
  have hr : rec ≠ 0 := by
    cases l with
    | nil => exact absurd rfl h0
    | cons x l => exact hl.1.nz
  rw [C65_predicted_partial hr hl (fun x hx => (ht' x hx).2)] at hp
  simp only [Res.ok.injEq, Prod.mk.injEq, and_true, Nat.zero_add] at hp
  subst hp
  have room : LineRoom n c l := by
    rw [LineRoom, lineUsed_eq]
    exact ⟨h1, h2, h3⟩
  unfold copyToBuffer
  rw [if_neg (by rintro (e | e); exacts [hr e, h0 (List.length_eq_zero_iff.1 e)])]
  rcases copyLoop_plain hm 0 l h hl (fun x hx => (ht' x hx).1) with ⟨s', e, r, k, u⟩ | ⟨s', e, u⟩
  · obtain ⟨-, a, b⟩ := u n c hn hc room
    exact ⟨s', e, C02_list_of_objects_partial r, a, b⟩
  · exact absurd room (u n c hn hc)

/-- The first two elements of the line are copied in a buffer with 2 records, 10 slots and a data pointer. -/
example : ∃ s, Reach s [] ∧ IsLine s (2 ^ 30) (theLine.take 2) ∧ ∃ s', copyToBuffer (fun _ => noMem) s (2 ^ 30) 2 = .ok (s', 0) ∧
    Holds s' ((theLine.take 2).map Prod.snd) := by
  obtain ⟨s, r, u, c, h⟩ := line_start ⟨2, 10, 1, 0⟩ (by decide)
  have h2 : IsLine s (2 ^ 30) (theLine.take 2) := ⟨h.1, h.2.1, trivial⟩
  have ht : ∀ x ∈ theLine.take 2, x.1.Counted := by simp [theLine, Ty.Counted]
  obtain ⟨s', e, hh, -⟩ := C65_copy_reserved_partial (malloc := fun _ => noMem) (fun m => noMem_ok m) r (by simp [theLine]) h2
    (by simp [theLine]) u c (C65_predicted_partial (by omega) h2 ht _) (by decide) (by decide) (by decide)
  exact ⟨s, r, h2, s', e, by simpa using hh⟩

/-- **C65 is violated** (copies of some types). If the first element which is not of a plain type is a beam-beam
element or a space charge element of a coasting beam or with a q-Gaussian profile, and there is enough room for the line up to this
element, it is stored, but the result is 1 and the rest of the line is not copied. -/
theorem C65_copy_stops_violated {malloc : Mem → Nat → Nat} (hm : ∀ m, MallocOk (malloc m) m) {s : St} {os : List Obj} {rec : Nat}
    {l l' : List (Ty × Obj)} {t : Ty} {o : Obj} {n c : Caps} (h : Reach s os) (hl : IsLine s rec (l ++ (t, o) :: l'))
    (hp : ∀ x ∈ l, x.1 ∉ [.beamBeam4D, .beamBeam6D, .scCoasting, .scQGauss, .scInterpolated, .lineDensity, .triCubData])
    (ht : t = .beamBeam4D ∨ t = .beamBeam6D ∨ t = .scCoasting ∨ t = .scQGauss)
    (hn : Used s n) (hc : Capacity s c) (h1 : n.objs + l.length + 1 ≤ c.objs)
    (h2 : n.slots + (l.map fun x => x.2.total / 8).sum + o.total / 8 ≤ c.slots)
    (h3 : n.dataptrs + (l.map fun x => x.2.attrs.length).sum + o.attrs.length ≤ c.dataptrs) :
    ∃ s', copyToBuffer malloc s rec (l ++ (t, o) :: l').length = .ok (s', 1) ∧
      Holds s' (os ++ l.map Prod.snd ++ [{ o with typeId := if t = .beamBeam6D then 8 else o.typeId }]) := by
  have hp' : ∀ x ∈ l, x.1.Plain := by
    intro x hx
    have := hp x hx
    obtain ⟨t, o⟩ := x
    revert this
    dsimp only
    generalize t = t
    cases t <;> decide
  obtain ⟨hl1, hl2, -⟩ := hl.append
  have hr : rec ≠ 0 := by
    cases l with
    | nil => simpa using hl2.nz
    | cons x l => exact hl1.1.nz
  have room : LineRoom n c l := by
    rw [LineRoom, lineUsed_eq]
    exact ⟨by dsimp only; omega, by dsimp only; omega, by dsimp only; omega⟩
  unfold copyToBuffer
  rw [if_neg (by rintro (e | e); exacts [hr e, by simp at e])]
  have len : (l ++ (t, o) :: l').length = l.length + (l'.length + 1) := by simp
  rw [len]
  rcases copyLoop_plain hm (l'.length + 1) l h hl1 hp' with ⟨s1, e1, r1, k1, u1⟩ | ⟨s1, e1, u1⟩
  · obtain ⟨a1, a2, a3⟩ := u1 n c hn hc room
    rw [lineUsed_eq] at a1
    have hmod := Obj.total_mod o
    rcases copySingle_cases r1 (hm _) (hl2.keeps k1) (Ty.Inverted.copyable ht) with ⟨s2, q, e2, nq, r2, -, -⟩ | ⟨s2, e2, u2⟩
    · refine ⟨s2, ?_, ?_⟩
      · rw [e1, copyLoop, e2, Res.ok_bind, copyStatus_inverted ht, if_pos nq]
        rfl
      · have := C02_list_of_objects_partial r2
        have e3 : asStored t o = { o with typeId := if t = .beamBeam6D then 8 else o.typeId } := by
          unfold asStored
          rw [hl2.id]
          rcases ht with rfl | rfl | rfl | rfl <;> rfl
        rwa [e3] at this
    · exact absurd ⟨by dsimp only; omega, by dsimp only; omega, by dsimp only; omega⟩ (u2 _ c a1 a2)
  · exact absurd room (u1 n c hn hc)

/-- For the line of four elements the copy ends with the third one, although the buffer has room for all. -/
example : ∃ s s', Reach s [] ∧ IsLine s (2 ^ 30) theLine ∧ Capacity s ⟨8, 200, 8, 0⟩ ∧
    copyToBuffer (fun _ => noMem) s (2 ^ 30) 4 = .ok (s', 1) ∧ Holds s' ((theLine.take 3).map Prod.snd) := by
  obtain ⟨s, r, u, c, h⟩ := line_start ⟨8, 200, 8, 0⟩ (by decide)
  obtain ⟨s', e, hh⟩ := C65_copy_stops_violated (malloc := fun _ => noMem) (fun m => noMem_ok m) (l := theLine.take 2)
    (l' := theLine.drop 3) (o := lineObj .scCoasting (2 ^ 30 + 1200) []) r h (by simp [theLine])
    (Or.inr (Or.inr (Or.inl rfl))) u c (by decide) (by decide) (by decide)
  exact ⟨s, s', r, h, c, e, by simpa [theLine] using hh⟩

/-- **C65 is violated** (failed copies). If an element of a space charge type cannot be stored, as in `C10_add_violated`, it is left
out without notice: the buffer is unchanged and the result is 0. -/
theorem C65_copy_failure_violated (malloc : Mem → Nat → Nat) {s : St} {os : List Obj} {rec : Nat} {t : Ty} {o : Obj} {n c : Caps}
    (h : Reach s os) (hl : IsElem s rec t o) (ht : t = .scCoasting ∨ t = .scQGauss) (hn : Used s n) (hc : Capacity s c)
    (h1 : n.objs = c.objs) (h2 : n.dataptrs = c.dataptrs) (h4 : 8 * n.slots + o.total + 24 < 8 * c.slots) :
    copyToBuffer malloc s rec 1 = .ok (s, 0) := by
  have hat : o.attrs = [] := by
    have := hl.arrays
    rcases ht with rfl | rfl <;> exact this
  have hti : t.Inverted := by rcases ht with rfl | rfl <;> decide
  have hst : asStored t o = o := asStored_eq hl (by rcases ht with rfl | rfl <;> decide)
  have hadd := C10_add_violated (malloc := malloc s.mem) h hl.ok hl.given hn hc h1 h2 hat h4
  unfold copyToBuffer
  rw [if_neg (by rintro (e | e); exacts [hl.nz e, by omega]), copyLoop, copySingle_eq hl hti.copyable, hst, hadd]
  simp only [Res.ok_bind, beginAddr, if_true, Res.pure_eq, copyStatus_inverted hti, ne_eq, not_true_eq_false, if_false]
  rfl

/-- A buffer without records, but with slots. -/
example : ∃ s, Reach s [] ∧ IsLine s (2 ^ 30) theLine ∧ copyToBuffer (fun _ => oneBlock) s (2 ^ 30 + 48) 1 = .ok (s, 0) ∧ Holds s [] := by
  obtain ⟨s, r, u, c, h⟩ := line_start ⟨0, 200, 0, 0⟩ (by decide)
  exact ⟨s, r, h, C65_copy_failure_violated _ r h.2.2.1 (Or.inl rfl) u c rfl rfl (by decide), C02_list_of_objects_partial r⟩

/-- **C65 is violated** (types which are not copied). Space charge elements with an interpolated profile, line densities and tables of
the tricubic interpolation are never copied. -/
theorem C65_copy_missing_violated (malloc : Mem → Nat → Nat) {s : St} {rec : Nat} {t : Ty} {o : Obj} (hl : IsElem s rec t o)
    (ht : t = .scInterpolated ∨ t = .lineDensity ∨ t = .triCubData) (n : Nat) :
    copyToBuffer malloc s rec (n + 1) = .ok (s, -1) := by
  unfold copyToBuffer
  rw [if_neg (by rintro (e | e); exacts [hl.nz e, by omega]), copyLoop, copySingle, if_neg hl.nz, hl.load_id, Res.ok_bind,
    hl.load_addr, Res.ok_bind, Ty.ofId_id]
  rcases ht with rfl | rfl | rfl
  · rfl
  · rfl
  · simp only [addCopy, if_neg hl.given.nz, attrsOf, Res.ok_bind, Res.pure_eq, copyStatus]
    rfl

/-- **C65 is violated** (6D beam-beam elements). A copy of a 6D beam-beam element is stored with the type of the 4D ones. -/
theorem C65_copy_6d_violated {malloc : Mem → Nat → Nat} (hm : ∀ m, MallocOk (malloc m) m) {s : St} {os : List Obj} {rec : Nat}
    {o : Obj} {n c : Caps} (h : Reach s os) (hl : IsElem s rec .beamBeam6D o) (hn : Used s n) (hc : Capacity s c) (room : Room n c o) :
    ∃ s' r, copyToBuffer malloc s rec 1 = .ok (s', 1) ∧ bufGetObject s' os.length = .ok r ∧
      s'.mem.load64 (r + 8) = .ok Ty.beamBeam4D.id := by
  obtain ⟨r1, r2, r3⟩ := room
  have hmod := Obj.total_mod o
  obtain ⟨s', e, hh⟩ := C65_copy_stops_violated hm (l := []) (l' := []) h ⟨hl, trivial⟩ (by simp) (Or.inr (Or.inl rfl)) hn hc
    (by simpa using r1) (by simp; omega) (by simpa using r3)
  obtain ⟨r, p, h1, -, -, h2, -⟩ := hh.objs os.length { o with typeId := 8 } (by simp)
  exact ⟨s', r, e, h1, h2⟩

/-! ## New elements -/

namespace BeamLine

/-- The elements of the types are made, one after the other. -/
inductive Made {S : Type} (mk : S → Ty → Res (S × Nat)) : S → List Ty → S → Prop
  | nil (s : S) : Made mk s [] s
  | cons {s s1 s2 : S} {t : Ty} {ts : List Ty} {q : Nat} : mk s t = .ok (s1, q) → q ≠ 0 → Made mk s1 ts s2 → Made mk s (t :: ts) s2

/-- The objects are copied, one after the other. -/
inductive Copied {M : Type} (cp : M → Ty → Nat → Nat → M × Int) : M → List (Rec × Rec) → M → Prop
  | nil (m : M) : Copied cp m [] m
  | cons {m m1 m2 : M} {dst src : Rec} {t : Ty} {l : List (Rec × Rec)} : src.id = t.id → dst.id = t.id → src.addr ≠ 0 →
    dst.addr ≠ 0 → src.addr ≠ dst.addr → src.size ≤ dst.size → cp m t dst.addr src.addr = (m1, 0) → Copied cp m1 l m2 →
    Copied cp m ((dst, src) :: l) m2

end BeamLine

/-- **C65** (new elements; partial: see `C65_new_violated`). For a line in which only certain types occur, the result is 0 exactly
if the line is not empty and for each of its elements a new element of the same type is made. -/
theorem C65_new_line_partial {S : Type} (mk : S → Ty → Res (S × Nat)) (s s' : S) (ts : List Ty)
    (ht : ∀ t ∈ ts, t ∉ [.beamBeam4D, .beamBeam6D, .scCoasting, .scQGauss, .scInterpolated, .beamMonitor, .limitRect,
      .limitEllipse, .limitRectEllipse, .dipoleEdge, .lineDensity]) :
    newToBuffer mk s (ts.map Ty.id) = .ok (s', 0) ↔ ts ≠ [] ∧ Made mk s ts s' := by
  have loop : ∀ (ts : List Ty) (s : S), (∀ t ∈ ts, t ∉ [.beamBeam4D, .beamBeam6D, .scCoasting, .scQGauss, .scInterpolated,
      .beamMonitor, .limitRect, .limitEllipse, .limitRectEllipse, .dipoleEdge, .lineDensity]) →
      (newLoop mk s (ts.map Ty.id) = .ok (s', 0) ↔ Made mk s ts s') := by
    intro ts
    induction ts with
    | nil =>
      intro s _
      rw [List.map_nil, newLoop]
      simp only [Res.ok.injEq, Prod.mk.injEq, and_true]
      constructor
      · rintro rfl; exact .nil _
      · intro h; cases h; rfl
    | cons t ts ih =>
      intro s ht
      have h1 := ht t (by simp)
      have e1 : newSingle mk s t.id = (do let (s', q) ← mk s t; return (s', if q ≠ 0 then 0 else -1)) := by
        unfold newSingle
        rw [Ty.ofId_id]
        cases t <;> first | rfl | exact absurd h1 (by decide)
      rw [List.map_cons, newLoop, e1]
      cases hmk : mk s t with
      | ub =>
        simp only [Res.ub_bind, reduceCtorEq, false_iff]
        intro h
        cases h with
        | cons h1 _ _ => rw [hmk] at h1; simp at h1
      | ok x =>
        obtain ⟨s1, q⟩ := x
        simp only [Res.ok_bind, Res.pure_eq]
        by_cases hq : q = 0
        · simp only [hq, ne_eq, not_true_eq_false, if_false]
          constructor
          · intro h; simp at h
          · intro h
            cases h with
            | cons h1 h2 _ =>
              rw [hmk] at h1
              simp only [Res.ok.injEq, Prod.mk.injEq] at h1
              exact absurd (h1.2.symm.trans hq) h2
        · simp only [ne_eq, hq, not_false_eq_true, if_true, not_true_eq_false, if_false]
          rw [ih s1 fun t h => ht t (by simp [h])]
          constructor
          · exact fun h => .cons hmk hq h
          · intro h
            cases h with
            | cons h1 h2 h3 =>
              rw [hmk] at h1
              simp only [Res.ok.injEq, Prod.mk.injEq] at h1
              rw [h1.1]; exact h3
  unfold newToBuffer
  by_cases h0 : ts = []
  · simp [h0]
  · rw [if_neg (by simpa using h0), loop ts s ht]
    simp [h0]

/-- **C65 is violated** (new elements). For ten types a success is reported as 1, with which the function ends, and a failure
as 0, with which it goes on. -/
theorem C65_new_violated {S : Type} (mk : S → Ty → Res (S × Nat)) (s s1 : S) (t : Ty) (q : Nat) (ids : List Nat)
    (ht : t ∈ [.beamBeam4D, .beamBeam6D, .scCoasting, .scQGauss, .scInterpolated, .beamMonitor, .limitRect,
      .limitEllipse, .limitRectEllipse, .dipoleEdge]) (hm : mk s t = .ok (s1, q)) :
    (q ≠ 0 → newToBuffer mk s (t.id :: ids) = .ok (s1, 1)) ∧ (q = 0 → newToBuffer mk s [t.id] = .ok (s1, 0)) := by
  have e1 : newSingle mk s t.id = .ok (s1, if q ≠ 0 then 1 else 0) := by
    unfold newSingle
    rw [Ty.ofId_id]
    have : ∀ (x : Res (S × Int)) (y : Ty → Res (S × Int)),
        (match some t with | none => x | some .lineDensity => x | some t => y t) = y t := by
      intro x y
      cases t <;> first | rfl | exact absurd ht (by decide)
    refine (this _ _).trans ?_
    rw [hm, Res.ok_bind]
    cases t <;> first | rfl | exact absurd ht (by decide)
  refine ⟨fun hq => ?_, fun hq => ?_⟩
  · rw [newToBuffer, if_neg (by simp), newLoop, e1, if_pos hq]
    rfl
  · rw [newToBuffer, if_neg (by simp), newLoop, e1, if_neg (by simpa using hq)]
    rfl

/-- Two drifts are made, of two monitors only one; the state counts the elements. -/
example : newToBuffer (fun n _ => .ok (n + 1, 1)) 0 [2, 2] = .ok (2, 0) ∧
    newToBuffer (fun n _ => .ok (n + 1, 1)) 0 [10, 10] = .ok (1, 1) := ⟨rfl, rfl⟩

/-! ## Copies between objects -/

/-- **C65** (copies between lines; partial: see `C65_copy_objects_violated`). If no element is of one of four types, the result is
0 exactly if all pairs of objects are of the same type, different, and the copies of their handles succeed. -/
theorem C65_copy_objects_partial {M : Type} (cp : M → Ty → Nat → Nat → M × Int) (l : List (Rec × Rec)) :
    ∀ (m m' : M), (∀ x ∈ l, x.2.id ∉ [8, 9, 257, 258]) → (copyLine cp m l = (m', 0) ↔ Copied cp m l m') := by
  induction l with
  | nil =>
    intro m m' _
    simp only [copyLine, Prod.mk.injEq, and_true]
    constructor
    · rintro rfl; exact .nil _
    · intro h; cases h; rfl
  | cons x l ih =>
    intro m m' h
    obtain ⟨dst, src⟩ := x
    have h1 : src.id ∉ [8, 9, 257, 258] := h (dst, src) (by simp)
    have h2 := fun m => ih m m' fun x hx => h x (by simp [hx])
    by_cases hc : src.id = dst.id ∧ src.addr ≠ 0 ∧ src.addr ≠ dst.addr ∧ dst.addr ≠ 0 ∧ src.size ≤ dst.size
    · cases ht : Ty.ofId src.id with
      | none =>
        have e : copyObject cp m dst src = (m, -1) := by rw [copyObject, if_pos hc, ht]
        rw [copyLine, e, if_pos (by simp)]
        constructor
        · intro h; simp at h
        · intro h
          cases h with
          | cons q1 => rw [q1, Ty.ofId_id] at ht; simp at ht
      | some t =>
        have hid := Ty.ofId_some ht
        have e : copyObject cp m dst src = cp m t dst.addr src.addr := by
          rw [copyObject, if_pos hc, ht]
          rw [hid] at h1
          cases t <;> first | rfl | exact absurd h1 (by decide)
        rw [copyLine, e]
        constructor
        · intro hh
          by_cases hz : (cp m t dst.addr src.addr).2 = 0
          · rw [if_neg (by simpa using hz), h2] at hh
            exact .cons hid (hc.1 ▸ hid) hc.2.1 hc.2.2.2.1 hc.2.2.1 hc.2.2.2.2 (Prod.ext rfl hz) hh
          · rw [if_pos hz] at hh
            rw [hh] at hz
            exact absurd rfl hz
        · intro hh
          cases hh with
          | cons q1 q2 q3 q4 q5 q6 q7 q8 =>
            rw [q1, Ty.ofId_id, Option.some.injEq] at ht
            subst ht
            rw [q7, if_neg (by simp), h2]
            exact q8
    · have e : copyObject cp m dst src = (m, -1) := by rw [copyObject, if_neg hc]
      rw [copyLine, e, if_pos (by simp)]
      constructor
      · intro h; simp at h
      · intro h
        cases h with
        | cons q1 q2 q3 q4 q5 q6 q7 q8 => exact absurd ⟨q1.trans q2.symm, q3, q5, q4, q6⟩ hc

/-- **C65 is violated** (copies of beam-beam elements). A successful copy of a beam-beam element is reported as 1 and a failed one
as 0, so that the copy of a line ends with the first of them that succeeds. -/
theorem C65_copy_objects_violated {M : Type} (cp : M → Ty → Nat → Nat → M × Int) (m m1 : M) (st : Int) (dst src : Rec) (t : Ty)
    (l : List (Rec × Rec)) (ht : t = .beamBeam4D ∨ t = .beamBeam6D) (h1 : src.id = t.id) (h2 : dst.id = t.id) (h3 : src.addr ≠ 0)
    (h4 : dst.addr ≠ 0) (h5 : src.addr ≠ dst.addr) (h6 : src.size ≤ dst.size) (h7 : cp m t dst.addr src.addr = (m1, st)) :
    (st = 0 → copyLine cp m ((dst, src) :: l) = (m1, 1)) ∧ (st ≠ 0 → copyLine cp m [(dst, src)] = (m1, 0)) := by
  have e : copyObject cp m dst src = (m1, if st = 0 then 1 else 0) := by
    rw [copyObject, if_pos ⟨h1.trans h2.symm, h3, h5, h4, h6⟩, h1, Ty.ofId_id]
    rcases ht with rfl | rfl <;> dsimp only <;> rw [h7] <;> rfl
  refine ⟨fun h => ?_, fun h => ?_⟩
  · rw [copyLine, e, if_pos h]; rfl
  · rw [copyLine, e, if_neg h]; rfl

/-- Two drifts and two beam-beam elements; the memory counts the copies. -/
example : copyLine (fun n _ _ _ => (n + 1, 0)) 0 [(⟨8, 2, 8⟩, ⟨16, 2, 8⟩), (⟨24, 2, 8⟩, ⟨32, 2, 8⟩)] = (2, 0) ∧
    copyLine (fun n _ _ _ => (n + 1, 0)) 0 [(⟨8, 8, 8⟩, ⟨16, 8, 8⟩), (⟨24, 8, 8⟩, ⟨32, 8, 8⟩)] = (1, 1) := by decide

end SixTrack

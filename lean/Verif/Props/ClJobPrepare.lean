import Verif.Props.ClJob
import Verif.Props.ClTrackAssign

/-! # C97: what preparing and resetting the OpenCL job leaves in its context -/

namespace SixTrack
open ClContext ClRun ClTrack ClJob

/-- The arguments in the list have these values now, and nothing else has changed. -/
def NowHas (K : Task → Nat) (c c' : Ctx) (l : List ((Task × Nat) × ClVal)) : Prop :=
  OnlyArgs c c' ∧ (∀ x ∈ l, kArg c' (K x.1.1) x.1.2 = some x.2) ∧
    ∀ k i, (∀ x ∈ l, K x.1.1 = k → x.1.2 ≠ i) → kArg c' k i = kArg c k i

theorem Becomes.nowHas {K : Task → Nat} {c c' : Ctx} {P : List (Task × Nat)} {v : ClVal}
    (h : Becomes K c c' (fun w i => (w, i) ∈ P) v) : NowHas K c c' (P.map fun x => (x, v)) := by
  refine ⟨h.1, fun x hx => ?_, fun k i hi => h.2.2 k i fun w hw e => ?_⟩
  · obtain ⟨y, hy, rfl⟩ := List.mem_map.1 hx
    exact h.2.1 _ _ hy
  · exact hi ((w, i), v) (List.mem_map.2 ⟨(w, i), hw, rfl⟩) e rfl

theorem NowHas.trans {K : Task → Nat} (inj : ∀ w w', K w = K w' → w = w') {a b c : Ctx} {l l' : List ((Task × Nat) × ClVal)}
    (h : NowHas K a b l) (h' : NowHas K b c l') (hd : ∀ x ∈ l, ∀ y ∈ l', x.1 = y.1 → x.2 = y.2) :
    NowHas K a c (l ++ l') := by
  refine ⟨h.1.trans h'.1, fun x hx => ?_, fun k i hi => ?_⟩
  · rcases List.mem_append.1 hx with hx | hx
    · by_cases hy : ∃ y ∈ l', x.1 = y.1
      · obtain ⟨y, hy, e⟩ := hy
        rw [hd x hx y hy e, e]
        exact h'.2.1 y hy
      · rw [h'.2.2 _ _ fun y hy' e e' => hy ⟨y, hy', Prod.ext (inj _ _ e).symm e'.symm⟩]
        exact h.2.1 x hx
    · exact h'.2.1 x hx
  · rw [h'.2.2 k i fun x hx => hi x (by simp [hx]), h.2.2 k i fun x hx => hi x (by simp [hx])]

theorem NowHas.keep {t : Tracker} {K : Task → Nat} (h : Staffed t K) {c c' : Ctx} {l : List ((Task × Nat) × ClVal)}
    (ha : NowHas K c c' l) {w : Task} {i : Nat} (hp : ∀ x ∈ l, x.1 ≠ (w, i)) : kArg c' (K w) i = kArg c (K w) i :=
  ha.2.2 _ _ fun x hx e e' => hp x hx (Prod.ext (h.inj _ _ e) e')

theorem NowHas.refl (K : Task → Nat) (c : Ctx) : NowHas K c c [] := ⟨OnlyArgs.refl c, by simp, fun _ _ _ => rfl⟩

theorem arg_holds {e : ClJob.Env} {c : Nat} (h : e.made c = true) : (e.arg c).Holds (e.content c).1 :=
  ⟨(e.content c).2, by simp [Env.arg, h]⟩

theorem arg_cobj (e : ClJob.Env) (c : Nat) : (e.arg c).cobj.isSome = e.made c := by
  cases h : e.made c <;> simp [Env.arg, h]

theorem arg_none {e : ClJob.Env} {c : Nat} (h : e.made c = false) : (e.arg c).cobj = none := by simp [Env.arg, h]

/-! ## Particles -/

theorem storeAddr_spec {e : ClJob.Env} {j : ClJob.Job} {K : Task → Nat} (h : Staffed j.t K) :
    (e.made j.addr = false → storeAddr e j = .ok (false, { j with addresses := some ⟨e.arg j.addr, j.addr⟩ })) ∧
    (e.made j.addr = true → ∃ c', storeAddr e j =
        .ok (true, { j with addresses := some ⟨e.arg j.addr, j.addr⟩, t := { j.t with ctx := c' } }) ∧
      NowHas K j.t.ctx c' [((.fetch, 1), .buffer (e.mem j.addr))]) := by
  unfold storeAddr
  refine ⟨fun hm => ?_, fun hm => ?_⟩
  · simp only [arg_cobj, hm, Bool.false_eq_true, false_and, if_false]
  · obtain ⟨c', h1, h2⟩ := C95_addr_buffer h (arg_holds hm)
    refine ⟨c', ?_, h2.nowHas⟩
    simp only [arg_cobj, hm, true_and]
    rw [if_pos (show (e.arg _).mine = true from rfl), if_pos h.node, h1, Res.ok_bind]
    rfl

/-- the values the arguments for the particles get -/
def particleArgs (buf addr set : Nat) : List ((Task × Nat) × ClVal) :=
  [((.fetch, 1), .buffer addr), ((.turn, 0), .buffer buf), ((.line, 0), .buffer buf), ((.elem, 0), .buffer buf),
    ((.fetch, 0), .buffer buf), ((.turn, 1), .value set), ((.line, 1), .value set), ((.elem, 1), .value set)]

/-- Preparing particles that have been written to the device (see `C97_particles_violated`): the kernels get them, the first
of the particle sets and the buffer of the addresses. -/
theorem C97_particles_partial {e : ClJob.Env} {base : ClJob.Base} {j : ClJob.Job} {K : Task → Nat} (h : Staffed j.t K)
    {pb p n : Nat} {rest : List (Nat × Nat)} (hs : j.sets = (p, n) :: rest) (hp : e.made pb = true)
    (ha : e.made j.addr = true) (hn : 0 < base.total) :
    ∃ c', prepareParticles e base j (some pb) = .ok (true, { j with
        particles := some ⟨e.arg pb, pb⟩, addresses := some ⟨e.arg j.addr, j.addr⟩
        t := { j.t with ctx := c', pset := p, particles := n } }) ∧
      NowHas K j.t.ctx c' (particleArgs (e.mem pb) (e.mem j.addr) p) := by
  obtain ⟨c1, r1, a1⟩ := (storeAddr_spec (e := e) (j := { j with particles := some ⟨e.arg pb, pb⟩ }) h).2 ha
  have h1 : Staffed { j.t with ctx := c1 } K := h.update a1.1 rfl
  obtain ⟨c2, r2, b2⟩ := C95_particles h1 (arg_holds hp)
  have h2 : Staffed { j.t with ctx := c2 } K := h1.update b2.1 rfl
  obtain ⟨c3, r3, b3⟩ := C95_set h2 p n
  refine ⟨c3, ?_, ?_⟩
  · unfold prepareParticles
    simp only
    rw [r1, Res.ok_bind]
    simp only
    rw [if_pos ⟨trivial, hn, by rw [arg_cobj, hp], rfl, h1.node⟩]
    unfold assignFirst
    simp only
    rw [r2, Res.ok_bind]
    simp only [if_true, hs]
    rw [r3]
    rfl
  · exact (a1.trans h.inj b2.nowHas (by simp)).trans h.inj b3.nowHas (by simp)

/-- Whether preparing particles succeeds only depends on the buffer of the addresses. -/
theorem C97_particles_status {e : ClJob.Env} {base : ClJob.Base} {j : ClJob.Job} {K : Task → Nat} (h : Staffed j.t K)
    (hs : j.sets ≠ []) (pb : Nat) : ∃ j', prepareParticles e base j (some pb) = .ok (e.made j.addr, j') := by
  have hsp := storeAddr_spec (e := e) (j := { j with particles := some ⟨e.arg pb, pb⟩ }) h
  unfold prepareParticles
  simp only
  cases ha : e.made j.addr with
  | false =>
    rw [hsp.1 ha, Res.ok_bind]
    simp only [Bool.false_eq_true, false_and, if_false]
    exact ⟨_, rfl⟩
  | true =>
    obtain ⟨c1, r1, a1⟩ := hsp.2 ha
    rw [r1, Res.ok_bind]
    simp only
    by_cases hc : 0 < base.total ∧ e.made pb = true
    · have h1 : Staffed { j.t with ctx := c1 } K := h.update a1.1 rfl
      rw [if_pos ⟨trivial, hc.1, by rw [arg_cobj, hc.2], rfl, h1.node⟩]
      obtain ⟨c2, r2, b2⟩ := C95_particles h1 (arg_holds hc.2)
      unfold assignFirst
      simp only
      rw [r2, Res.ok_bind]
      match hj : j.sets with
      | [] => exact absurd hj hs
      | (p, n) :: _ =>
        obtain ⟨c3, r3, -⟩ := C95_set (h1.update (t' := { j.t with ctx := c2 }) b2.1 rfl) p n
        simp only [if_true]
        rw [r3]
        exact ⟨_, rfl⟩
    · rw [if_neg (fun hh => hc ⟨hh.2.1, by rw [← arg_cobj]; exact hh.2.2.1⟩)]
      exact ⟨_, rfl⟩

/-- If the particles have not been written to the device, or there are none, preparing them still succeeds; the kernels for
tracking keep the particles and the set they had before. -/
theorem C97_particles_violated {e : ClJob.Env} {base : ClJob.Base} {j : ClJob.Job} {K : Task → Nat} (h : Staffed j.t K)
    {pb : Nat} (hbad : e.made pb = false ∨ base.total = 0) (ha : e.made j.addr = true) :
    ∃ c', prepareParticles e base j (some pb) = .ok (true, { j with
        particles := some ⟨e.arg pb, pb⟩, addresses := some ⟨e.arg j.addr, j.addr⟩, t := { j.t with ctx := c' } }) ∧
      NowHas K j.t.ctx c' [((.fetch, 1), .buffer (e.mem j.addr))] := by
  obtain ⟨c1, r1, a1⟩ := (storeAddr_spec (e := e) (j := { j with particles := some ⟨e.arg pb, pb⟩ }) h).2 ha
  refine ⟨c1, ?_, a1⟩
  unfold prepareParticles
  simp only
  rw [r1, Res.ok_bind]
  simp only
  rw [if_neg]
  · rfl
  · rintro ⟨-, h1, h2, -⟩
    rw [arg_cobj] at h2
    rcases hbad with hb | hb
    · rw [hb] at h2; simp at h2
    · omega

/-- Particles that are null are refused without effect. -/
theorem C97_particles_null (e : ClJob.Env) (base : ClJob.Base) (j : ClJob.Job) :
    prepareParticles e base j none = .ok (false, j) := rfl

/-! ## Beam elements -/

/-- the values the arguments for the beam elements get -/
def elementArgs (buf : Nat) : List ((Task × Nat) × ClVal) :=
  [((.turn, 2), .buffer buf), ((.line, 2), .buffer buf), ((.elem, 2), .buffer buf), ((.monOut, 0), .buffer buf),
    ((.clear, 0), .buffer buf)]

/-- Preparing beam elements succeeds if and only if they have been written to the device and there are any; then the kernels
get them, otherwise the kernels keep what they had. -/
theorem C97_elements {e : ClJob.Env} {j : ClJob.Job} {K : Task → Nat} (h : Staffed j.t K) (be : Nat) :
    (e.made be = true ∧ 0 < (e.content be).1 → ∃ c', prepareElements e j (some be) =
        .ok (true, { j with elements := some ⟨e.arg be, be⟩, t := { j.t with ctx := c' } }) ∧
      NowHas K j.t.ctx c' (elementArgs (e.mem be))) ∧
    (¬ (e.made be = true ∧ 0 < (e.content be).1) →
      prepareElements e j (some be) = .ok (false, { j with elements := some ⟨e.arg be, be⟩ })) ∧
    prepareElements e j none = .ok (false, j) := by
  refine ⟨fun ⟨hm, hn⟩ => ?_, fun hbad => ?_, rfl⟩
  · obtain ⟨c', h1, h2⟩ := C95_elements h (arg_holds hm) hn
    refine ⟨c', ?_, h2.nowHas⟩
    unfold prepareElements
    simp only [arg_cobj, hm, true_and]
    rw [if_pos (show (e.arg _).mine = true from rfl), if_pos h.node, h1, Res.ok_bind]
    rfl
  · unfold prepareElements
    simp only [arg_cobj]
    cases hm : e.made be with
    | false => simp only [Bool.false_eq_true, false_and, if_false]
    | true =>
      have hz : (e.content be).1 = 0 := by
        by_contra hne
        exact hbad ⟨hm, by omega⟩
      have hr : j.t.assignElements (e.arg be) = .ok (false, j.t) := by
        unfold Tracker.assignElements Env.arg
        simp only [hm, if_true]
        rw [if_pos (by rw [hz]; decide)]
      simp only [true_and]
      rw [if_pos (show (e.arg be).mine = true from rfl), if_pos h.node, hr]
      rfl

/-! ## Output -/

/-- the values the arguments for the output buffer get -/
def outputArgs (buf : Nat) : List ((Task × Nat) × ClVal) := [((.monOut, 1), .buffer buf), ((.elemOut, 2), .buffer buf)]

/-- the values the arguments for the configuration get -/
def configValues (buf : Nat) : List ((Task × Nat) × ClVal) :=
  [((.elem, 3), .buffer buf), ((.elemOut, 0), .buffer buf), ((.elem, 4), .value 0), ((.elemOut, 1), .value 0)]

/-- Preparing the output succeeds if and only if the output buffer has been written to the device and so has, if there is
one, the configuration; then the kernels get both. -/
theorem C97_output {e : ClJob.Env} {base : ClJob.Base} {j : ClJob.Job} {K : Task → Nat} (h : Staffed j.t K) (out : Nat) :
    (e.made out = false → prepareOutput e base j out = .ok (false, { j with output := some ⟨e.arg out, out⟩ })) ∧
    (e.made out = true → base.config = none → ∃ c', prepareOutput e base j out =
        .ok (true, { j with output := some ⟨e.arg out, out⟩, t := { j.t with ctx := c' } }) ∧
      NowHas K j.t.ctx c' (outputArgs (e.mem out))) ∧
    (∀ c, e.made out = true → base.config = some c → e.writes c = true → ∃ c', prepareOutput e base j out =
        .ok (true, { j with
          output := some ⟨e.arg out, out⟩, config := some ⟨{ e.arg c with cobj := some (e.content c) }, c⟩
          t := { j.t with ctx := c', config := 0 } }) ∧
      NowHas K j.t.ctx c' (outputArgs (e.mem out) ++ configValues (e.mem c))) ∧
    (∀ c, e.made out = true → base.config = some c → e.writes c = false → ∃ c', prepareOutput e base j out =
        .ok (false, { j with
          output := some ⟨e.arg out, out⟩, config := some ⟨e.arg c, c⟩, t := { j.t with ctx := c' } }) ∧
      NowHas K j.t.ctx c' (outputArgs (e.mem out))) := by
  have hbad : e.made out = false → assignOut e j out = .ok (false, { j with output := some ⟨e.arg out, out⟩ }) := by
    intro hm
    unfold assignOut
    simp only
    rw [if_pos h.node, ((C95_assign_refused j.t (e.arg out)).1 (arg_none hm)).2.2.1]
    rfl
  have hgood : e.made out = true → ∃ c', assignOut e j out =
      .ok (true, { j with output := some ⟨e.arg out, out⟩, t := { j.t with ctx := c' } }) ∧
      NowHas K j.t.ctx c' (outputArgs (e.mem out)) := by
    intro hm
    obtain ⟨c', h1, h2⟩ := C95_output h (arg_holds hm)
    refine ⟨c', ?_, h2.nowHas⟩
    unfold assignOut
    simp only
    rw [if_pos h.node, h1]
    rfl
  unfold prepareOutput
  refine ⟨fun hm => ?_, fun hm hc => ?_, fun c hm hc hw => ?_, fun c hm hc hw => ?_⟩
  · rw [hbad hm]
    rfl
  · obtain ⟨c', h1, h2⟩ := hgood hm
    refine ⟨c', ?_, h2⟩
    rw [h1, Res.ok_bind, hc]
    rfl
  · obtain ⟨c1, h1, a1⟩ := hgood hm
    have s1 : Staffed { j.t with ctx := c1 } K := h.update a1.1 rfl
    obtain ⟨c2, h2, b2⟩ := C95_config s1 (b := { e.arg c with cobj := some (e.content c) }) ⟨_, rfl⟩
    have s2 : Staffed { j.t with ctx := c2 } K := s1.update b2.1 rfl
    obtain ⟨c3, h3, b3⟩ := C95_config_index s2 0
    have a3 : NowHas K c1 c3 (configValues (e.mem c)) := NowHas.trans h.inj b2.nowHas b3.nowHas (by simp)
    refine ⟨c3, ?_, a1.trans h.inj a3 (by simp [outputArgs, configValues])⟩
    rw [h1, Res.ok_bind, hc]
    simp only [if_true]
    unfold prepareConfig
    rw [if_pos hw]
    simp only
    rw [h2, Res.ok_bind]
    simp only [if_true]
    rw [h3]
    rfl
  · obtain ⟨c1, h1, a1⟩ := hgood hm
    refine ⟨c1, ?_, a1⟩
    rw [h1, Res.ok_bind, hc]
    simp only [if_true]
    unfold prepareConfig
    rw [if_neg (by simp [hw])]

end SixTrack

import Verif.ClTrack
import Verif.ClContextLemmas
import Mathlib.Data.List.Basic

/-! # Lemmas about the OpenCL context for tracking -/

namespace SixTrack
open ClContext ClRun ClTrack

/-! ## What can be said about arguments -/

/-- What the argument `i` of the kernel `k` has been set to. -/
def kArg (c : Ctx) (k i : Nat) : Option ClVal := (c.kernels[k]?).bind fun x => (x.cl[i]?).join

/-- A kernel without its arguments. -/
def Kernel.shape (x : Kernel) : Kernel := { x with args := [], cl := List.replicate x.cl.length none }

/-- The contexts differ at most in the arguments of kernels. -/
def OnlyArgs (c c' : Ctx) : Prop :=
  c' = { c with kernels := c'.kernels } ∧ ∀ k : Nat, (c'.kernels[k]?).map Kernel.shape = (c.kernels[k]?).map Kernel.shape

/-- OpenCL has as many arguments as the record says. -/
def TidyArgs (c : Ctx) : Prop := ∀ (k : Nat) (x : Kernel), c.kernels[k]? = some x → x.cl.length = x.numArgs

theorem Sound.tidyArgs {c : Ctx} (h : Sound c) : TidyArgs c := fun _ x hx => (h.args x (List.mem_of_getElem? hx)).2

theorem OnlyArgs.refl (c : Ctx) : OnlyArgs c c := ⟨rfl, fun _ => rfl⟩

theorem OnlyArgs.trans {a b c : Ctx} (h : OnlyArgs a b) (h' : OnlyArgs b c) : OnlyArgs a c := by
  refine ⟨?_, fun k => (h'.2 k).trans (h.2 k)⟩
  rw [h'.1, h.1]

theorem OnlyArgs.hasNode {c c' : Ctx} (h : OnlyArgs c c') : c'.hasNode = c.hasNode := by rw [h.1]; rfl

theorem OnlyArgs.debug {c c' : Ctx} (h : OnlyArgs c c') : c'.debug = c.debug := by rw [h.1]

theorem OnlyArgs.length {c c' : Ctx} (h : OnlyArgs c c') : c'.kernels.length = c.kernels.length := by
  have e : ∀ k : Nat, c'.kernels[k]? = none ↔ c.kernels[k]? = none := fun k => by
    have := h.2 k
    cases h1 : c'.kernels[k]? <;> cases h2 : c.kernels[k]? <;> simp_all
  apply Nat.le_antisymm
  · have := (e c.kernels.length).2 (by simp)
    simpa using this
  · have := (e c'.kernels.length).1 (by simp)
    simpa using this

theorem OnlyArgs.kernel {c c' : Ctx} (h : OnlyArgs c c') {k : Nat} {x : Kernel} (hx : c.kernels[k]? = some x) :
    ∃ y, c'.kernels[k]? = some y ∧ y.numArgs = x.numArgs ∧ y.cl.length = x.cl.length ∧ y.name = x.name ∧ y.prog = x.prog ∧
      y.group = x.group ∧ y.maxGroup = x.maxGroup ∧ y.preferred = x.preferred := by
  have := h.2 k
  rw [hx] at this
  cases hy : c'.kernels[k]? with
  | none => rw [hy] at this; simp at this
  | some y =>
    rw [hy] at this
    simp only [Option.map_some, Option.some.injEq, Kernel.shape, Kernel.mk.injEq] at this
    refine ⟨y, rfl, this.2.2.1, ?_, this.1, this.2.1, this.2.2.2.1, this.2.2.2.2.1, this.2.2.2.2.2.1⟩
    have := congrArg List.length this.2.2.2.2.2.2.2.2
    simpa using this

theorem OnlyArgs.numArgs {c c' : Ctx} (h : OnlyArgs c c') (k : Nat) : c'.kernelNumArgs k = c.kernelNumArgs k := by
  unfold Ctx.kernelNumArgs
  rw [h.hasNode]
  cases hx : c.kernels[k]? with
  | none =>
    have : c'.kernels[k]? = none := by
      have := h.2 k
      rw [hx] at this
      simpa using this
    rw [this]
  | some x =>
    obtain ⟨y, hy, hn, -⟩ := h.kernel hx
    rw [hy]
    simp only [hn]

theorem OnlyArgs.tidy {c c' : Ctx} (h : OnlyArgs c c') (ht : TidyArgs c) : TidyArgs c' := by
  intro k y hy
  cases hx : c.kernels[k]? with
  | none =>
    have := h.2 k
    rw [hx, hy] at this
    simp at this
  | some x =>
    obtain ⟨y', hy', h1, h2, -⟩ := h.kernel hx
    rw [hy] at hy'
    obtain rfl := Option.some.inj hy'
    rw [h1, h2, ht k x hx]

theorem setBoth_shape (x : Kernel) (i : Nat) (a : Arg) (v : ClVal) :
    Kernel.shape ((x.setArg i a).setCl i v) = Kernel.shape x ∧ ((x.setArg i a).setCl i v).cl = x.cl.set i (some v) := by
  unfold Kernel.setArg Kernel.setCl Kernel.shape
  by_cases h : i < x.args.length
  · rw [if_pos h]
    simp
  · rw [if_neg h]
    simp

theorem OnlyArgs.assign (c : Ctx) (k i : Nat) (a : Arg) (v : ClVal) : OnlyArgs c (c.assign k i a v) := by
  refine ⟨rfl, fun j => ?_⟩
  unfold Ctx.assign
  simp only [List.getElem?_modify]
  cases hx : c.kernels[j]? with
  | none => simp
  | some x =>
    by_cases hj : k = j
    · simp [hj, (setBoth_shape x i a v).1]
    · simp [hj]

theorem kArg_assign {c : Ctx} {k i : Nat} {x : Kernel} (hx : c.kernels[k]? = some x) (hi : i < x.cl.length) (a : Arg)
    (v : ClVal) (j l : Nat) :
    kArg (c.assign k i a v) j l = if j = k ∧ l = i then some v else kArg c j l := by
  unfold kArg Ctx.assign
  simp only [List.getElem?_modify]
  by_cases hj : j = k
  · subst hj
    rw [hx]
    simp only [if_true, Option.map_eq_map, Option.map_some, Option.bind_some, (setBoth_shape x i a v).2, true_and]
    rw [List.getElem?_set]
    by_cases hl : l = i
    · subst hl
      simp [hi]
    · rw [if_neg (Ne.symm hl), if_neg hl]
  · rw [if_neg (by tauto)]
    cases c.kernels[j]? with
    | none => rfl
    | some y => simp [Ne.symm hj]

/-! ## Tables -/

/-- A kernel can take the argument of a row. -/
def FitsRow (c : Ctx) (p : Nat × Row) : Prop :=
  p.1 ≠ ILLEGAL ∧ p.2.index < c.kernelNumArgs p.1 ∧ p.2.min ≤ c.kernelNumArgs p.1

theorem numArgs_some {c : Ctx} {k i : Nat} (h : i < c.kernelNumArgs k) :
    ∃ x, c.kernels[k]? = some x ∧ x.numArgs = c.kernelNumArgs k := by
  unfold Ctx.kernelNumArgs at h ⊢
  split_ifs at h ⊢ with hn
  · cases hx : c.kernels[k]? with
    | none => simp [hx] at h
    | some x => exact ⟨x, rfl, rfl⟩
  · omega

open Classical in
theorem putLoop_spec (a : Arg) (v : ClVal) (ks : List (Nat × Row)) : ∀ (c : Ctx) (ok : Bool), TidyArgs c →
    ∃ c', putLoop a v c ok ks = .ok (ok && ks.all (fun p => decide (p.1 = ILLEGAL ∨ FitsRow c p)), c') ∧ OnlyArgs c c' ∧
      ∀ j l, kArg c' j l = if ∃ p ∈ ks, FitsRow c p ∧ p.1 = j ∧ p.2.index = l then some v else kArg c j l := by
  induction ks with
  | nil => exact fun c ok _ => ⟨c, by simp [putLoop], OnlyArgs.refl c, fun j l => by simp⟩
  | cons p ks ih =>
    obtain ⟨k, r⟩ := p
    intro c ok ht
    unfold putLoop
    by_cases hk : k = ILLEGAL
    · rw [if_pos hk]
      obtain ⟨c', h1, h2, h3⟩ := ih c ok ht
      refine ⟨c', ?_, h2, fun j l => ?_⟩
      · rw [h1]
        simp [hk]
      · rw [h3]
        have : ¬ FitsRow c (k, r) := fun h => h.1 hk
        simp [this]
    · rw [if_neg hk]
      by_cases hf : c.kernelNumArgs k ≤ r.index ∨ c.kernelNumArgs k < r.min
      · rw [if_pos hf]
        have hn : ¬ FitsRow c (k, r) := by
          rintro ⟨-, h1, h2⟩
          simp only at h1 h2
          omega
        obtain ⟨c', h1, h2, h3⟩ := ih c false ht
        refine ⟨c', ?_, h2, fun j l => ?_⟩
        · rw [h1]
          simp [hk, hn]
        · rw [h3]
          simp [hn]
      · rw [if_neg hf]
        have hy : FitsRow c (k, r) := ⟨hk, by simp only; omega, by simp only; omega⟩
        obtain ⟨x, hx, hxn⟩ := numArgs_some hy.2.1
        have hlt : k < c.kernels.length := (List.getElem?_eq_some_iff.1 hx).1
        have hil : r.index < x.cl.length := by
          rw [ht k x hx, hxn]
          exact hy.2.1
        have hoa := OnlyArgs.assign c k r.index a v
        obtain ⟨c', h1, h2, h3⟩ := ih (c.assign k r.index a v) ok (hoa.tidy ht)
        have hfit : ∀ p, FitsRow (c.assign k r.index a v) p ↔ FitsRow c p := fun p => by
          unfold FitsRow
          rw [hoa.numArgs]
        refine ⟨c', ?_, hoa.trans h2, fun j l => ?_⟩
        · unfold put
          rw [if_pos hlt, Res.ok_bind, h1]
          simp [hfit, hy]
        · rw [h3, kArg_assign hx hil]
          simp only [hfit, List.mem_cons, exists_eq_or_imp]
          by_cases he : ∃ p ∈ ks, FitsRow c p ∧ p.1 = j ∧ p.2.index = l
          · rw [if_pos he, if_pos (Or.inr he)]
          · rw [if_neg he]
            by_cases hj : j = k ∧ l = r.index
            · rw [if_pos hj, if_pos (Or.inl ⟨hy, hj.1.symm, hj.2.symm⟩)]
            · rw [if_neg hj, if_neg]
              rintro (⟨-, h4, h5⟩ | h)
              · exact hj ⟨h4.symm, h5.symm⟩
              · exact he h

/-! ## Contexts whose kernels are there -/

/-- The numbers of arguments of the kernels: track_particles.cl:13-17, 27-34, 45-50, be_monitors_assign_out_buffer.cl:12-17,
28-30, elem_by_elem_assign_out_buffer.cl:16-21, fetch_particles_addr.cl:15-18 and assign_address_item.cl:11-19.  The kernels
for debugging have the buffer of the status flags as the last argument. -/
def arity (debug : Bool) (w : Task) : Nat :=
  match w with
  | .turn => if debug then 6 else 5
  | .line => if debug then 8 else 7
  | .elem => if debug then 8 else 7
  | .monOut => if debug then 6 else 5
  | .clear => if debug then 3 else 2
  | .elemOut => if debug then 6 else 5
  | .fetch => 3
  | .addr => 8

/-- A node has been selected, and the task `w` is done by the kernel `K w`, which has the arguments it should have. -/
structure Staffed (t : Tracker) (K : Task → Nat) : Prop where
  node : t.ctx.hasNode = true
  tidy : TidyArgs t.ctx
  legal : t.ctx.kernels.length ≤ ILLEGAL
  ids : ∀ w, t.kernel w = some (K w)
  inj : ∀ w w', K w = K w' → w = w'
  args : ∀ w, ∃ x, t.ctx.kernels[K w]? = some x ∧ x.numArgs = arity t.ctx.debug w

theorem Staffed.lt {t : Tracker} {K : Task → Nat} (h : Staffed t K) (w : Task) : K w < t.ctx.kernels.length := by
  obtain ⟨x, hx, -⟩ := h.args w
  exact (List.getElem?_eq_some_iff.1 hx).1

theorem Staffed.numArgs {t : Tracker} {K : Task → Nat} (h : Staffed t K) (w : Task) :
    t.ctx.kernelNumArgs (K w) = arity t.ctx.debug w := by
  obtain ⟨x, hx, hn⟩ := h.args w
  simp [Ctx.kernelNumArgs, h.node, hx, hn]

theorem Staffed.ne_illegal {t : Tracker} {K : Task → Nat} (h : Staffed t K) (w : Task) : K w ≠ ILLEGAL := by
  have := h.lt w
  have := h.legal
  omega

theorem Staffed.has {t : Tracker} {K : Task → Nat} (h : Staffed t K) (w : Task) : t.has w = .ok true := by
  unfold Tracker.has
  rw [if_pos h.node, h.ids w]
  simp [ClTrack.read, Res.pure_eq, h.lt w]

theorem Staffed.id {t : Tracker} {K : Task → Nat} (h : Staffed t K) (w : Task) : t.id w = .ok (K w) := by
  have : ∀ w', t.idIf w' w = .ok (K w) := fun w' => by
    unfold Tracker.idIf
    rw [h.has, Res.ok_bind, if_pos rfl, h.ids]
    rfl
  cases w
  all_goals first | exact this _ | (unfold Tracker.id; rw [h.ids]; rfl)

theorem Staffed.idsRows {t : Tracker} {K : Task → Nat} (h : Staffed t K) (rows : List Row) :
    t.ids rows = .ok (rows.map fun r => (K r.task, r)) := by
  induction rows with
  | nil => rfl
  | cons r rs ih =>
    unfold Tracker.ids
    rw [h.id, Res.ok_bind, ih, Res.ok_bind]
    rfl

/-- The context stays as it should be if only arguments and other members change. -/
theorem Staffed.update {t t' : Tracker} {K : Task → Nat} (h : Staffed t K) (hc : OnlyArgs t.ctx t'.ctx)
    (hk : t'.kernel = t.kernel) : Staffed t' K where
  node := by rw [hc.hasNode]; exact h.node
  tidy := hc.tidy h.tidy
  legal := by rw [hc.length]; exact h.legal
  ids w := by rw [hk]; exact h.ids w
  inj := h.inj
  args w := by
    obtain ⟨x, hx, hn⟩ := h.args w
    obtain ⟨y, hy, hm, -⟩ := hc.kernel hx
    exact ⟨y, hy, by rw [hm, hn, hc.debug]⟩

/-- The arguments for which `P` holds have the value `v` now, and nothing else has changed. -/
def Becomes (K : Task → Nat) (c c' : Ctx) (P : Task → Nat → Prop) (v : ClVal) : Prop :=
  OnlyArgs c c' ∧ (∀ w i, P w i → kArg c' (K w) i = some v) ∧
    ∀ k i, (∀ w, P w i → K w ≠ k) → kArg c' k i = kArg c k i

theorem putRows_staffed {t : Tracker} {K : Task → Nat} (h : Staffed t K) (rows : List Row) (a : Arg) (v : ClVal)
    (P : Task → Nat → Prop) (hP : ∀ w i, P w i ↔ ∃ r ∈ rows, r.task = w ∧ r.index = i)
    (hf : ∀ r ∈ rows, r.index < arity t.ctx.debug r.task ∧ r.min ≤ arity t.ctx.debug r.task) :
    ∃ c', t.putRows rows a v = .ok (true, { t with ctx := c' }) ∧ Becomes K t.ctx c' P v := by
  classical
  have hfit : ∀ r ∈ rows, FitsRow t.ctx (K r.task, r) := fun r hr =>
    ⟨h.ne_illegal _, by simpa only [h.numArgs] using (hf r hr).1, by simpa only [h.numArgs] using (hf r hr).2⟩
  obtain ⟨c', h1, h2, h3⟩ := putLoop_spec a v (rows.map fun r => (K r.task, r)) t.ctx true h.tidy
  refine ⟨c', ?_, h2, fun w i hp => ?_, fun k i hp => ?_⟩
  · unfold Tracker.putRows
    rw [h.idsRows, Res.ok_bind, h1, Res.ok_bind]
    have : (rows.map fun r => (K r.task, r)).all (fun p => decide (p.1 = ILLEGAL ∨ FitsRow t.ctx p)) = true := by
      rw [List.all_eq_true]
      intro p hp
      obtain ⟨r, hr, rfl⟩ := List.mem_map.1 hp
      simp [hfit r hr]
    rw [this]
    rfl
  · rw [h3, if_pos]
    obtain ⟨r, hr, rfl, rfl⟩ := (hP w i).1 hp
    exact ⟨_, List.mem_map.2 ⟨r, hr, rfl⟩, hfit r hr, rfl, rfl⟩
  · rw [h3, if_neg]
    rintro ⟨p, hp', -, h4, h5⟩
    obtain ⟨r, hr, rfl⟩ := List.mem_map.1 hp'
    exact hp r.task ((hP _ _).2 ⟨r, hr, rfl, h5⟩) h4

end SixTrack

import Verif.ClContext
import Mathlib.Data.List.Basic
import Mathlib.Tactic.SplitIfs

/-!
# Lemmas on OpenCL contexts
-/

namespace SixTrack.ClContext

/-- the ids of the kernels of a program, in ascending order -/
def kernelsOf (ks : List Kernel) (i : Nat) : List Nat :=
  (List.range ks.length).filter fun k => (ks[k]?).any fun x => x.prog == i

theorem kernelsOf_nil (i : Nat) : kernelsOf [] i = [] := rfl

theorem kernelsOf_append (ks : List Kernel) (k : Kernel) (i : Nat) :
    kernelsOf (ks ++ [k]) i = kernelsOf ks i ++ if k.prog = i then [ks.length] else [] := by
  unfold kernelsOf
  rw [List.length_append, List.length_singleton, List.range_succ, List.filter_append]
  congr 1
  · refine List.filter_congr fun a ha => ?_
    rw [List.getElem?_append_left (by simpa using ha)]
  · by_cases h : k.prog = i <;> simp [h]

theorem mem_kernelsOf {ks : List Kernel} {i a : Nat} :
    a ∈ kernelsOf ks i ↔ ∃ k, ks[a]? = some k ∧ k.prog = i := by
  unfold kernelsOf
  rw [List.mem_filter, List.mem_range]
  constructor
  · rintro ⟨h1, h2⟩
    rw [List.getElem?_eq_getElem h1] at h2 ⊢
    simp at h2
    exact ⟨_, rfl, h2⟩
  · rintro ⟨k, h1, h2⟩
    obtain ⟨h3, -⟩ := List.getElem?_eq_some_iff.1 h1
    rw [h1]
    simp [h3, h2]

/-- What always holds between the programs and the kernels of a context. -/
structure Sound (c : Ctx) : Prop where
  node : c.selected = -1 ∨ (0 ≤ c.selected ∧ c.selected.toNat < c.nodes.length)
  unselected : c.hasNode = false →
    c.kernels = [] ∧ c.clPrograms = [] ∧ ∀ p ∈ c.programs, p.compiled = false
  sources : c.hasNode = true → c.clPrograms = c.programs.map (·.source)
  source : ∀ p ∈ c.programs, p.source ≠ ""
  lists : ∀ (i : Nat) (p : Program), c.programs[i]? = some p → p.kernels = kernelsOf c.kernels i
  owner : ∀ k ∈ c.kernels, ∃ p, c.programs[k.prog]? = some p ∧ p.compiled = true
  named : ∀ k ∈ c.kernels, k.name ≠ ""
  unique : ∀ (a b : Nat) (x y : Kernel), c.kernels[a]? = some x → c.kernels[b]? = some y →
    x.name = y.name → x.prog = y.prog → a = b
  args : ∀ k ∈ c.kernels, k.args.length = k.numArgs ∧ k.cl.length = k.numArgs
  remap : c.remapKernel = ILLEGAL ∨ ∃ k, c.kernels[c.remapKernel]? = some k ∧ k.prog = c.remapProgram

theorem hasNode_iff {c : Ctx} : c.hasNode = true ↔ 0 ≤ c.selected ∧ c.selected.toNat < c.nodes.length := by
  unfold Ctx.hasNode; simp

/-! ## Steps -/

theorem compile_keeps (e : Env) (i : Nat) (p : Program) :
    (compile e i p).2.source = p.source ∧ (compile e i p).2.path = p.path ∧
      (compile e i p).2.options = p.options ∧ (compile e i p).2.kernels = p.kernels ∧
      (p.compiled = true → (compile e i p).2.compiled = true) := by
  unfold compile
  split_ifs with h
  · refine ⟨rfl, rfl, rfl, rfl, fun hc => ?_⟩
    rw [h.1] at hc
    cases hc
  · exact ⟨rfl, rfl, rfl, rfl, id⟩

/-- a program after an update that does not concern its kernels -/
structure Updated (node : Bool) (p p' : Program) : Prop where
  source : p'.source = p.source
  kernels : p'.kernels = p.kernels
  mono : p.compiled = true → p'.compiled = true
  same : node = false → p'.compiled = p.compiled

theorem Sound.updated {c : Ctx} (h : Sound c) (ps : List Program) (hl : ps.length = c.programs.length)
    (hq : ∀ (i : Nat) (p p' : Program), c.programs[i]? = some p → ps[i]? = some p' → Updated c.hasNode p p') :
    Sound { c with programs := ps } := by
  have back : ∀ (i : Nat) (p' : Program), ps[i]? = some p' →
      ∃ p, c.programs[i]? = some p ∧ Updated c.hasNode p p' := by
    intro i p' hp'
    obtain ⟨h1, -⟩ := List.getElem?_eq_some_iff.1 hp'
    have h2 := List.getElem?_eq_getElem (l := c.programs) (i := i) (by omega)
    exact ⟨_, h2, hq i _ p' h2 hp'⟩
  have fwd : ∀ (i : Nat) (p : Program), c.programs[i]? = some p →
      ∃ p', ps[i]? = some p' ∧ Updated c.hasNode p p' := by
    intro i p hp
    obtain ⟨h1, -⟩ := List.getElem?_eq_some_iff.1 hp
    have h2 := List.getElem?_eq_getElem (l := ps) (i := i) (by omega)
    exact ⟨_, h2, hq i p _ hp h2⟩
  constructor
  · exact h.node
  · intro hn
    obtain ⟨h1, h2, h3⟩ := h.unselected hn
    refine ⟨h1, h2, fun p' hp' => ?_⟩
    obtain ⟨i, hi⟩ := List.mem_iff_getElem?.1 hp'
    obtain ⟨p, hp, hu⟩ := back i p' hi
    rw [hu.same hn]
    exact h3 p (List.mem_iff_getElem?.2 ⟨i, hp⟩)
  · intro hn
    rw [h.sources hn]
    apply List.ext_getElem?
    intro i
    rw [List.getElem?_map, List.getElem?_map]
    cases hp : c.programs[i]? with
    | some p =>
      obtain ⟨p', hp', hu⟩ := fwd i p hp
      simp only
      rw [hp']
      simp [hu.source]
    | none =>
      have : ps[i]? = none := by rw [List.getElem?_eq_none_iff] at hp ⊢; omega
      simp only
      rw [this]
  · intro p' hp'
    obtain ⟨i, hi⟩ := List.mem_iff_getElem?.1 hp'
    obtain ⟨p, hp, hu⟩ := back i p' hi
    rw [hu.source]
    exact h.source p (List.mem_iff_getElem?.2 ⟨i, hp⟩)
  · intro i p' hp'
    obtain ⟨p, hp, hu⟩ := back i p' hp'
    rw [hu.kernels]
    exact h.lists i p hp
  · intro k hk
    obtain ⟨p, hp, hc⟩ := h.owner k hk
    obtain ⟨p', hp', hu⟩ := fwd _ p hp
    exact ⟨p', hp', hu.mono hc⟩
  · exact h.named
  · exact h.unique
  · exact h.args
  · exact h.remap

theorem Sound.kernel_prog {c : Ctx} (h : Sound c) {k : Kernel} (hk : k ∈ c.kernels) :
    k.prog < c.programs.length := by
  obtain ⟨p, hp, -⟩ := h.owner k hk
  exact (List.getElem?_eq_some_iff.1 hp).1

/-- a new program without kernels -/
theorem Sound.push {c : Ctx} (h : Sound c) (p : Program) (hs : p.source ≠ "") (hk : p.kernels = [])
    (hc : c.hasNode = false → p.compiled = false) :
    Sound { c with programs := c.programs ++ [p],
                   clPrograms := if c.hasNode then c.clPrograms ++ [p.source] else c.clPrograms } := by
  have none_at : kernelsOf c.kernels c.programs.length = [] := by
    rw [List.eq_nil_iff_forall_not_mem]
    intro a ha
    obtain ⟨k, h1, h2⟩ := mem_kernelsOf.1 ha
    have := h.kernel_prog (List.mem_iff_getElem?.2 ⟨a, h1⟩)
    omega
  constructor
  · exact h.node
  · intro hn
    have hn' : c.hasNode = false := hn
    obtain ⟨h1, h2, h3⟩ := h.unselected hn'
    refine ⟨h1, by simp [hn', h2], fun q hq => ?_⟩
    rcases List.mem_append.1 hq with hq | hq
    · exact h3 q hq
    · rw [List.mem_singleton.1 hq]
      exact hc hn'
  · intro hn
    have hn' : c.hasNode = true := hn
    simp only [hn', if_true, List.map_append, List.map_cons, List.map_nil]
    rw [h.sources hn']
  · intro q hq
    rcases List.mem_append.1 hq with hq | hq
    · exact h.source q hq
    · rw [List.mem_singleton.1 hq]
      exact hs
  · intro i q hq
    simp only at hq ⊢
    rcases Nat.lt_or_ge i c.programs.length with hi | hi
    · rw [List.getElem?_append_left hi] at hq
      exact h.lists i q hq
    · rw [List.getElem?_append_right hi] at hq
      have hi' : i = c.programs.length := by
        have := (List.getElem?_eq_some_iff.1 hq).1
        simp at this
        omega
      subst hi'
      simp at hq
      rw [← hq, hk, none_at]
  · intro k hkm
    obtain ⟨q, hq, hqc⟩ := h.owner k hkm
    refine ⟨q, ?_, hqc⟩
    simp only
    rw [List.getElem?_append_left (List.getElem?_eq_some_iff.1 hq).1]
    exact hq
  · exact h.named
  · exact h.unique
  · exact h.args
  · exact h.remap

theorem Sound.addCode {c : Ctx} (h : Sound c) (e : Env) (s o : String) : Sound (c.addCode e s o).2 := by
  unfold Ctx.addCode
  split_ifs with h1 h2
  · have := h.push (compile e c.selected.toNat ⟨"", s, o, [], false⟩).2
      (by rw [(compile_keeps e _ _).1]; exact h1) (by rw [(compile_keeps e _ _).2.2.2.1])
      (by intro hn; rw [hn] at h2; cases h2)
    rw [(compile_keeps e _ _).1] at this
    simpa only [h2, if_true] using this
  · have := h.push ⟨"", s, o, [], false⟩ h1 rfl (fun _ => rfl)
    rw [if_neg h2] at this
    exact this
  · exact h

theorem Sound.setPath {c : Ctx} (h : Sound c) (i : Nat) (path : String) : Sound (c.setPath i path) := by
  refine h.updated _ (by simp) fun j p p' hp hp' => ?_
  rw [List.getElem?_modify, hp] at hp'
  simp only [Option.map_eq_map, Option.map_some, Option.some.injEq] at hp'
  subst hp'
  split_ifs <;> exact ⟨rfl, rfl, id, fun _ => rfl⟩

theorem Sound.addFile {c : Ctx} (h : Sound c) (e : Env) (p o : String) (t : Nat) :
    Sound (c.addFile e p o t).2 := by
  unfold Ctx.addFile
  simp only
  by_cases h1 : c.fullPath p t ≠ ""
  · rw [if_pos h1]
    split
    · rename_i src _
      by_cases h2 : src ≠ ""
      · rw [if_pos h2]
        exact (h.addCode e _ _).setPath _ _
      · rw [if_neg h2]
        exact h
    · exact h
  · rw [if_neg h1]
    exact h

theorem Sound.compileProgram {c : Ctx} (h : Sound c) (e : Env) (i : Nat) : Sound (c.compileProgram e i).2 := by
  unfold Ctx.compileProgram
  split
  · rename_i p hp
    split_ifs with hc
    · refine h.updated _ (by simp) fun j q q' hq hq' => ?_
      rw [List.getElem?_set] at hq'
      split_ifs at hq' with h1 h2
      · subst h1
        rw [hp] at hq
        simp only [Option.some.injEq] at hq hq'
        subst hq hq'
        obtain ⟨k1, -, -, k4, k5⟩ := compile_keeps e c.selected.toNat p
        refine ⟨k1, k4, k5, fun hn => ?_⟩
        rw [hc.1] at hn
        cases hn
      · rw [hq] at hq'
        simp only [Option.some.injEq] at hq'
        subst hq'
        exact ⟨rfl, rfl, id, fun _ => rfl⟩
    · exact h
  · exact h

theorem nameTaken_iff {c : Ctx} (h : Sound c) {name : String} {i : Nat} {p : Program}
    (hp : c.programs[i]? = some p) (hn : name ≠ "") :
    nameTaken c.kernels name p.kernels = true ↔ ∃ k ∈ c.kernels, k.name = name ∧ k.prog = i := by
  unfold nameTaken
  rw [List.any_eq_true, h.lists i p hp]
  constructor
  · rintro ⟨a, ha, hb⟩
    obtain ⟨k, h1, h2⟩ := mem_kernelsOf.1 ha
    rw [h1] at hb
    simp at hb
    exact ⟨k, List.mem_iff_getElem?.2 ⟨a, h1⟩, hb.2, h2⟩
  · rintro ⟨k, hk, h1, h2⟩
    obtain ⟨a, ha⟩ := List.mem_iff_getElem?.1 hk
    refine ⟨a, mem_kernelsOf.2 ⟨k, ha, h2⟩, ?_⟩
    rw [ha]
    simp [h1, hn]

theorem Sound.addKernel {c : Ctx} (h : Sound c) (e : Env) {name : String} {i : Nat} {p : Program}
    (hp : c.programs[i]? = some p) (hcomp : p.compiled = true) (hn : name ≠ "") (hsel : c.hasNode = true)
    (hfree : ∀ k ∈ c.kernels, k.name = name → k.prog ≠ i) : Sound (c.addKernel e name i p).2 := by
  have hi : i < c.programs.length := (List.getElem?_eq_some_iff.1 hp).1
  unfold Ctx.addKernel
  constructor
  · exact h.node
  · intro hn'
    have : c.hasNode = false := hn'
    rw [hsel] at this
    cases this
  · intro _
    simp only
    rw [h.sources hsel, List.map_set]
    apply List.ext_getElem?
    intro j
    rw [List.getElem?_set]
    split_ifs with h1 h2
    · subst h1
      rw [List.getElem?_map, hp]
      rfl
    · subst h1
      rw [List.getElem?_eq_none_iff]
      simpa using h2
    · rfl
  · intro q hq
    rcases List.mem_or_eq_of_mem_set hq with hq | hq
    · exact h.source q hq
    · rw [hq]
      exact h.source p (List.mem_iff_getElem?.2 ⟨i, hp⟩)
  · intro j q hq
    simp only at hq ⊢
    rw [kernelsOf_append]
    rw [List.getElem?_set] at hq
    split_ifs at hq with h1
    · subst h1
      simp only [Option.some.injEq] at hq
      rw [← hq]
      simp only [newKernel, if_true]
      rw [h.lists i p hp]
    · rw [h.lists j q hq]
      simp [newKernel, h1]
  · intro k hk
    simp only at hk ⊢
    have key : ∀ (j : Nat) (q : Program), c.programs[j]? = some q → q.compiled = true →
        ∃ q' : Program, (c.programs.set i { p with kernels := p.kernels ++ [c.kernels.length] })[j]? = some q' ∧
          q'.compiled = true := by
      intro j q hq hqc
      rw [List.getElem?_set]
      split_ifs with h1
      · exact ⟨_, rfl, hcomp⟩
      · exact ⟨q, hq, hqc⟩
    rcases List.mem_append.1 hk with hk | hk
    · obtain ⟨q, hq, hqc⟩ := h.owner k hk
      exact key _ q hq hqc
    · rw [List.mem_singleton.1 hk]
      exact key i p hp hcomp
  · intro k hk
    rcases List.mem_append.1 hk with hk | hk
    · exact h.named k hk
    · rw [List.mem_singleton.1 hk]
      exact hn
  · intro a b x y hx hy hxy hpp
    simp only at hx hy
    have bound : ∀ (a : Nat) (x : Kernel), (c.kernels ++ [newKernel (e.kernel c.selected.toNat p.source name) name i])[a]? = some x →
        c.kernels[a]? = some x ∨ (a = c.kernels.length ∧ x.name = name ∧ x.prog = i) := by
      intro a x hx
      rcases Nat.lt_or_ge a c.kernels.length with ha | ha
      · rw [List.getElem?_append_left ha] at hx
        exact .inl hx
      · rw [List.getElem?_append_right ha] at hx
        have hl := (List.getElem?_eq_some_iff.1 hx).1
        simp at hl
        have : a = c.kernels.length := by omega
        subst this
        simp at hx
        rw [← hx]
        exact .inr ⟨rfl, rfl, rfl⟩
    rcases bound a x hx with hx | ⟨ha, hx1, hx2⟩ <;> rcases bound b y hy with hy | ⟨hb, hy1, hy2⟩
    · exact h.unique a b x y hx hy hxy hpp
    · exact absurd (hpp.trans hy2) (hfree x (List.mem_iff_getElem?.2 ⟨a, hx⟩) (hxy.trans hy1))
    · exact absurd (hpp.symm.trans hx2) (hfree y (List.mem_iff_getElem?.2 ⟨b, hy⟩) (hxy.symm.trans hx1))
    · omega
  · intro k hk
    rcases List.mem_append.1 hk with hk | hk
    · exact h.args k hk
    · rw [List.mem_singleton.1 hk]
      simp [newKernel]
  · rcases h.remap with hr | ⟨k, hk, hkp⟩
    · exact .inl hr
    · refine .inr ⟨k, ?_, hkp⟩
      simp only
      rw [List.getElem?_append_left (List.getElem?_eq_some_iff.1 hk).1]
      exact hk

theorem compileProgram_ok {c : Ctx} {e : Env} {i : Nat} (h : (c.compileProgram e i).1 = true) :
    ∃ p, c.programs[i]? = some p ∧ p.compiled = false ∧ p.kernels = [] ∧ p.options ≠ "" ∧
      e.builds c.selected.toNat p.source p.options = true ∧ c.hasNode = true ∧
      c.clPrograms.length = c.programs.length ∧
      (c.compileProgram e i).2 = { c with programs := c.programs.set i { p with compiled := true } } := by
  unfold Ctx.compileProgram at h ⊢
  split at h
  · rename_i p hp
    split_ifs at h ⊢ with hc
    unfold compile at h ⊢
    split_ifs at h ⊢ with hd
    exact ⟨p, hp, hd.1, hd.2.1, hd.2.2, h, hc.1, hc.2, by simp only at h ⊢; rw [h]⟩
  · cases h

/-- What `enableKernel` does: it adds a kernel to a program that is compiled or can be compiled now, or gives the illegal
id and at most tries to compile the program. -/
theorem enableKernel_cases {c : Ctx} (hs : Sound c) (e : Env) (name : String) (i : Nat) :
    ((c.enableKernel e name i).1 = ILLEGAL ∧
      ((c.enableKernel e name i).2 = c ∨ (c.enableKernel e name i).2 = (c.compileProgram e i).2)) ∨
    ∃ (c' : Ctx) (p : Program), (c' = c ∨ (c' = (c.compileProgram e i).2 ∧ (c.compileProgram e i).1 = true)) ∧
      c.hasNode = true ∧ name ≠ "" ∧ c'.programs[i]? = some p ∧ p.compiled = true ∧
      (∀ k ∈ c'.kernels, k.name = name → k.prog ≠ i) ∧ c.enableKernel e name i = c'.addKernel e name i p := by
  unfold Ctx.enableKernel
  split_ifs with h1
  · split
    · rename_i p hp
      split_ifs with h2 h3
      · exact .inl ⟨rfl, .inl rfl⟩
      · refine .inr ⟨c, p, .inl rfl, h1.1, h1.2.1, hp, h2, fun k hk hkn hkp => ?_, rfl⟩
        exact h3 ((nameTaken_iff hs hp h1.2.1).2 ⟨k, hk, hkn, hkp⟩)
      · cases hc : (c.compileProgram e i).1 with
        | false =>
          refine .inl ?_
          simp only
          split
          · rw [hc, if_neg (by simp)]
            exact ⟨rfl, .inr rfl⟩
          · exact ⟨rfl, .inr rfl⟩
        | true =>
          obtain ⟨q, hq, -, hk, -, -, -, -, he⟩ := compileProgram_ok hc
          have hi : i < c.programs.length := (List.getElem?_eq_some_iff.1 hq).1
          have hg : (c.compileProgram e i).2.programs[i]? = some { q with compiled := true } := by
            rw [he]
            simp [hi]
          simp only [hg]
          rw [if_pos hc]
          refine .inr ⟨_, _, .inr ⟨rfl, trivial⟩, h1.1, h1.2.1, hg, rfl, fun k hk' hkn hkp => ?_, rfl⟩
          rw [he] at hk'
          have := hs.lists i q hq
          rw [hk] at this
          obtain ⟨a, ha⟩ := List.mem_iff_getElem?.1 hk'
          have : a ∈ kernelsOf c.kernels i := mem_kernelsOf.2 ⟨k, ha, hkp⟩
          rw [← ‹[] = kernelsOf c.kernels i›] at this
          cases this
    · exact .inl ⟨rfl, .inl rfl⟩
  · exact .inl ⟨rfl, .inl rfl⟩

theorem compileProgram_members (c : Ctx) (e : Env) (i : Nat) :
    (c.compileProgram e i).2 = { c with programs := (c.compileProgram e i).2.programs } := by
  unfold Ctx.compileProgram
  split
  · split_ifs <;> rfl
  · rfl

theorem Sound.enableKernel {c : Ctx} (h : Sound c) (e : Env) (name : String) (i : Nat) :
    Sound (c.enableKernel e name i).2 := by
  rcases enableKernel_cases h e name i with ⟨-, h1 | h1⟩ | ⟨c', p, h1, h2, h3, h4, h5, h6, h7⟩
  · rw [h1]
    exact h
  · rw [h1]
    exact h.compileProgram e i
  · rw [h7]
    rcases h1 with rfl | ⟨rfl, -⟩
    · exact h.addKernel e h4 h5 h3 h2 h6
    · refine (h.compileProgram e i).addKernel e h4 h5 h3 ?_ h6
      rw [compileProgram_members]
      exact h2

theorem Sound.setRemapKernel {c : Ctx} (h : Sound c) (k : Nat) : Sound (c.setRemapKernel k).2 := by
  unfold Ctx.setRemapKernel
  split
  · rename_i x hx
    split_ifs
    · exact ⟨h.node, h.unselected, h.sources, h.source, h.lists, h.owner, h.named, h.unique, h.args,
        .inr ⟨x, hx, rfl⟩⟩
    · exact h
  · exact h

theorem Kernel.setArg_keeps (k : Kernel) (i : Nat) (a : Arg) (v : ClVal) :
    ((k.setArg i a).setCl i v).name = k.name ∧ ((k.setArg i a).setCl i v).prog = k.prog ∧
      ((k.setArg i a).setCl i v).numArgs = k.numArgs ∧ ((k.setArg i a).setCl i v).args.length = k.args.length ∧
      ((k.setArg i a).setCl i v).cl.length = k.cl.length := by
  unfold Kernel.setArg Kernel.setCl
  split_ifs <;> simp

/-- kernels whose arguments, sizes of groups or times have been changed -/
theorem Sound.kernels {c : Ctx} (h : Sound c) (f : Kernel → Kernel) (n : Nat)
    (hf : ∀ k, (f k).name = k.name ∧ (f k).prog = k.prog ∧ (f k).numArgs = k.numArgs ∧
      (f k).args.length = k.args.length ∧ (f k).cl.length = k.cl.length) :
    Sound { c with kernels := c.kernels.modify n f } := by
  have back : ∀ (a : Nat) (x : Kernel), (c.kernels.modify n f)[a]? = some x →
      ∃ y, c.kernels[a]? = some y ∧ x.name = y.name ∧ x.prog = y.prog ∧ x.numArgs = y.numArgs ∧
        x.args.length = y.args.length ∧ x.cl.length = y.cl.length := by
    intro a x hx
    rw [List.getElem?_modify] at hx
    cases hy : c.kernels[a]? with
    | none => rw [hy] at hx; cases hx
    | some y =>
      rw [hy] at hx
      simp only [Option.map_eq_map, Option.map_some, Option.some.injEq] at hx
      refine ⟨y, rfl, ?_⟩
      rw [← hx]
      split_ifs
      · exact hf y
      · exact ⟨rfl, rfl, rfl, rfl, rfl⟩
  have backm : ∀ x ∈ c.kernels.modify n f, ∃ y ∈ c.kernels, x.name = y.name ∧ x.prog = y.prog ∧
      x.numArgs = y.numArgs ∧ x.args.length = y.args.length ∧ x.cl.length = y.cl.length := by
    intro x hx
    obtain ⟨a, ha⟩ := List.mem_iff_getElem?.1 hx
    obtain ⟨y, hy, hh⟩ := back a x ha
    exact ⟨y, List.mem_iff_getElem?.2 ⟨a, hy⟩, hh⟩
  have same : ∀ i, kernelsOf (c.kernels.modify n f) i = kernelsOf c.kernels i := by
    intro i
    unfold kernelsOf
    rw [List.length_modify]
    refine List.filter_congr fun a ha => ?_
    rw [List.getElem?_modify]
    cases c.kernels[a]? with
    | none => rfl
    | some y =>
      simp only [Option.map_eq_map, Option.map_some, Option.any_some]
      split_ifs
      · rw [(hf y).2.1]
      · rfl
  constructor
  · exact h.node
  · intro hn
    obtain ⟨h1, h2, h3⟩ := h.unselected hn
    exact ⟨by simp [h1], h2, h3⟩
  · exact h.sources
  · exact h.source
  · intro i p hp
    rw [same]
    exact h.lists i p hp
  · intro x hx
    obtain ⟨y, hy, -, h2, -⟩ := backm x hx
    simp only
    rw [h2]
    exact h.owner y hy
  · intro x hx
    obtain ⟨y, hy, h1, -⟩ := backm x hx
    rw [h1]
    exact h.named y hy
  · intro a b x y hx hy hxy hpp
    obtain ⟨x', hx', n1, p1, -⟩ := back a x hx
    obtain ⟨y', hy', n2, p2, -⟩ := back b y hy
    exact h.unique a b x' y' hx' hy' (by rw [← n1, ← n2, hxy]) (by rw [← p1, ← p2, hpp])
  · intro x hx
    obtain ⟨y, hy, -, -, h3, h4, h5⟩ := backm x hx
    rw [h3, h4, h5]
    exact h.args y hy
  · rcases h.remap with hr | ⟨k, hk, hkp⟩
    · exact .inl hr
    · refine .inr ⟨if n = c.remapKernel then f k else k, ?_, ?_⟩
      · simp only
        rw [List.getElem?_modify, hk]
        split_ifs <;> rfl
      · split_ifs
        · rw [(hf k).2.1]
          exact hkp
        · exact hkp

theorem Sound.assign {c : Ctx} (h : Sound c) (k i : Nat) (a : Arg) (v : ClVal) : Sound (c.assign k i a v) :=
  h.kernels _ _ fun x => Kernel.setArg_keeps x i a v

theorem Sound.assignSlotSize {c : Ctx} (h : Sound c) (n : Nat) : Sound (c.assignSlotSize n).2 := by
  unfold Ctx.assignSlotSize
  split_ifs <;> first | exact h | exact h.assign _ _ _ _

theorem Sound.assignStatusFlags {c : Ctx} (h : Sound c) (b : Nat) : Sound (c.assignStatusFlags b).2 := by
  unfold Ctx.assignStatusFlags
  split_ifs <;> first | exact h | exact h.assign _ _ _ _

theorem addCode_members (c : Ctx) (e : Env) (s o : String) :
    (c.addCode e s o).2 = { c with programs := (c.addCode e s o).2.programs
                                   clPrograms := (c.addCode e s o).2.clPrograms } := by
  unfold Ctx.addCode
  split_ifs <;> rfl

theorem addFile_members (c : Ctx) (e : Env) (p o : String) (t : Nat) :
    (c.addFile e p o t).2 = { c with programs := (c.addFile e p o t).2.programs
                                     clPrograms := (c.addFile e p o t).2.clPrograms } := by
  unfold Ctx.addFile
  simp only
  by_cases h1 : c.fullPath p t ≠ ""
  · rw [if_pos h1]
    split
    · rename_i src _
      by_cases h2 : src ≠ ""
      · rw [if_pos h2]
        unfold Ctx.setPath
        simp only
        rw [addCode_members]
      · rw [if_neg h2]
    · rfl
  · rw [if_neg h1]

theorem Sound.initPrograms {c : Ctx} (h : Sound c) (e : Env) (hn : c.hasNode = false) :
    Sound (c.initPrograms e).2 := by
  have h1 := h.addFile e c.remapPath (c.remapOptions e) 1
  have h2 := (h.unselected hn).1
  have h3 : c.remapKernel = ILLEGAL := by
    rcases h.remap with hr | ⟨k, hk, -⟩
    · exact hr
    · rw [h2] at hk
      cases hk
  unfold Ctx.initPrograms
  refine ⟨h1.node, h1.unselected, h1.sources, h1.source, h1.lists, h1.owner, h1.named, h1.unique, h1.args, .inl ?_⟩
  simp only
  rw [addFile_members]
  exact h3

theorem initPrograms_hasNode (c : Ctx) (e : Env) : (c.initPrograms e).2.hasNode = c.hasNode := by
  unfold Ctx.initPrograms
  simp only
  rw [addFile_members]
  rfl

theorem Sound.initKernels {c : Ctx} (h : Sound c) (e : Env) : Sound (c.initKernels e).2 := by
  unfold Ctx.initKernels
  split_ifs
  · exact (h.enableKernel e _ _).setRemapKernel _
  · exact h

theorem Sound.selectBase {c : Ctx} (h : Sound c) (e : Env) (i : Nat) : Sound (c.selectBase e i).2 := by
  unfold Ctx.selectBase
  split_ifs with hc
  · obtain ⟨h1, h2, h3⟩ := h.unselected hc.1
    have hr : c.remapKernel = ILLEGAL := by
      rcases h.remap with hr | ⟨k, hk, -⟩
      · exact hr
      · rw [h1] at hk
        cases hk
    constructor
    · exact .inr ⟨Int.natCast_nonneg i, by simpa using hc.2.1⟩
    · intro hn
      exfalso
      have : (true : Bool) = false := by
        rw [← hn, eq_comm, hasNode_iff]
        exact ⟨Int.natCast_nonneg i, by simpa using hc.2.1⟩
      cases this
    · intro _
      simp only [List.map_map]
      apply List.map_congr_left
      intro p _
      exact ((compile_keeps e i p.fresh).1).symm
    · intro p hp
      obtain ⟨q, hq, rfl⟩ := List.mem_map.1 hp
      rw [(compile_keeps e i q.fresh).1]
      exact h.source q hq
    · intro j p hp
      obtain ⟨q, hq, rfl⟩ := List.mem_map.1 (List.mem_of_getElem? hp)
      rw [(compile_keeps e i q.fresh).2.2.2.1]
      rfl
    · intro k hk
      cases hk
    · intro k hk
      cases hk
    · intro a b x y hx
      cases hx
    · intro k hk
      cases hk
    · exact .inl hr
  · exact h

theorem Sound.ready {c : Ctx} (h : Sound c) (e : Env) (b : Nat) : Sound (c.ready e b).2 := by
  unfold Ctx.ready
  simp only
  split_ifs
  · exact ((h.initKernels e).assignSlotSize _).assignStatusFlags b
  · exact (h.initKernels e).assignSlotSize _
  · exact h.initKernels e

theorem Sound.selectNode {c : Ctx} (h : Sound c) (e : Env) (i b : Nat) : Sound (c.selectNode e i b).2 := by
  unfold Ctx.selectNode
  simp only
  split_ifs
  · exact (h.selectBase e i).ready e b
  · exact h.selectBase e i

theorem Sound.selectAt {c : Ctx} (h : Sound c) (e : Env) (i : Nat) : Sound (c.selectAt e i).2 := by
  unfold Ctx.selectAt
  simp only
  split_ifs
  · exact (h.selectBase e i).initKernels e
  · exact h.selectBase e i

theorem doClear_hasNode (c : Ctx) : c.doClear.hasNode = false := by
  unfold Ctx.doClear Ctx.hasNode; simp

theorem Sound.doClear (c : Ctx) : Sound c.doClear := by
  constructor
  · exact .inl rfl
  · exact fun _ => ⟨rfl, rfl, fun p hp => by cases hp⟩
  · intro hn
    rw [doClear_hasNode] at hn
    cases hn
  · intro p hp
    cases hp
  · intro i p hp
    cases hp
  · intro k hk
    cases hk
  · intro k hk
    cases hk
  · intro a b x y hx
    cases hx
  · intro k hk
    cases hk
  · exact .inl rfl

theorem Sound.clear (c : Ctx) (e : Env) : Sound (c.clear e) :=
  (Sound.doClear c).initPrograms e (doClear_hasNode c)

theorem clear_hasNode (c : Ctx) (e : Env) : (c.clear e).hasNode = false := by
  unfold Ctx.clear
  rw [initPrograms_hasNode, doClear_hasNode]

theorem Sound.reinit {c : Ctx} (h : Sound c) (e : Env) : Sound (c.reinit e).2 := by
  unfold Ctx.reinit
  split_ifs
  · exact h
  · exact ((Sound.clear c e).initPrograms e (clear_hasNode c e)).initKernels e

theorem Sound.setDebug {c : Ctx} (h : Sound c) (e : Env) (on : Bool) : Sound (c.setDebug e on) := by
  unfold Ctx.setDebug
  split_ifs
  · exact (Sound.clear _ e).initPrograms e (clear_hasNode _ e)
  · exact h

/-- members that do not concern programs and kernels -/
theorem Sound.other {c : Ctx} (h : Sound c) (f : List (String × String)) (k i o : String) :
    Sound { c with flags := f, kernelDir := k, incDir := i, options := o } :=
  ⟨h.node, h.unselected, h.sources, h.source, h.lists, h.owner, h.named, h.unique, h.args, h.remap⟩

theorem Sound.setFlag {c : Ctx} (h : Sound c) (n v : String) : Sound (c.setFlag n v) := by
  unfold Ctx.setFlag
  split_ifs
  · exact h.other _ _ _ _
  · exact h

theorem Sound.base (e : Env) (nodes : List NodeId) : Sound (base e nodes) := by
  unfold ClContext.base
  refine Sound.setFlag (Sound.setFlag (Sound.setFlag ?_ _ _) _ _) _ _
  constructor
  · exact .inl rfl
  · exact fun _ => ⟨rfl, rfl, fun p hp => by cases hp⟩
  · intro hn
    unfold Ctx.hasNode at hn
    simp at hn
  · intro p hp
    cases hp
  · intro i p hp
    cases hp
  · intro k hk
    cases hk
  · intro k hk
    cases hk
  · intro a b x y hx
    cases hx
  · intro k hk
    cases hk
  · exact .inl rfl

theorem base_members (e : Env) (nodes : List NodeId) :
    base e nodes = { nodes := nodes, selected := -1, debug := false, kernelDir := e.kernelDir, incDir := e.incDir
                     options := e.options, programs := [], clPrograms := [], kernels := []
                     remapProgram := ILLEGAL, remapKernel := ILLEGAL
                     flags := [("_GPUCODE", "1"), ("SIXTRL_BUFFER_ARGPTR_DEC", "__private"),
                       ("SIXTRL_BUFFER_DATAPTR_DEC", "__global")] } := by
  rfl

theorem base_hasNode (e : Env) (nodes : List NodeId) : (base e nodes).hasNode = false := by
  rw [base_members]
  unfold Ctx.hasNode
  simp

theorem Sound.make (e : Env) (nodes : List NodeId) : Sound (make e nodes) :=
  (Sound.base e nodes).initPrograms e (base_hasNode e nodes)

theorem make_hasNode (e : Env) (nodes : List NodeId) : (make e nodes).hasNode = false := by
  unfold ClContext.make
  rw [initPrograms_hasNode, base_hasNode]

theorem make_nodes (e : Env) (nodes : List NodeId) : (make e nodes).nodes = nodes := by
  unfold ClContext.make Ctx.initPrograms
  simp only
  rw [addFile_members]
  rfl

theorem Sound.makeOn (e : Env) (nodes : List NodeId) (i b : Nat) : Sound (makeOn e nodes i b) := by
  unfold ClContext.makeOn
  simp only
  split_ifs
  · exact (((Sound.make e nodes).selectBase e i).initKernels e |>.assignSlotSize _).assignStatusFlags b
  · exact (Sound.make e nodes).selectBase e i
  · exact Sound.make e nodes

end SixTrack.ClContext

import Verif.ClArgument

/-!
# Lemmas about arguments of OpenCL kernels
-/

namespace SixTrack.ClArg

open SixTrack.Arg (Bytes Fmt Host Loc hostRemap readFirst overwrite)
open SixTrack.ClContext

/-- A context with a node and the remapping kernel `x`. -/
structure Ready (s : Sys) (x : Kernel) : Prop where
  node : s.ctx.hasNode = true
  kernel : s.ctx.kernels[s.ctx.remapKernel]? = some x
  num : x.numArgs = x.cl.length

/-- what a kernel is launched with -/
def workItems (x : Kernel) : Nat := ClRun.launchItems (min x.group x.maxGroup) x.preferred

/-- the remapping kernel after its first two arguments have been set -/
def argsSet (s : Sys) (b : Nat) : Ctx :=
  ((s.ctx.assign s.ctx.remapKernel 1 ⟨.clBuffer, some s.flagsId⟩ (.buffer s.flagsId)).assign
    s.ctx.remapKernel 0 ⟨.clBuffer, some b⟩ (.buffer b)).assign s.ctx.remapKernel 1 ⟨.value, none⟩ (.value 8)

/-- the state in which the remapping kernel is launched -/
def sent (s : Sys) (b : Nat) (x d : Bytes) : Sys :=
  { s with ctx := argsSet s b, flags := 0#64
           dev := fun k => if k = b then some (x ++ d.drop x.length) else s.dev k }

theorem Ready.lt {s : Sys} {x : Kernel} (h : Ready s x) : s.ctx.remapKernel < s.ctx.kernels.length := by
  obtain ⟨h1, _⟩ := List.getElem?_eq_some_iff.mp h.kernel
  exact h1

theorem Ready.has {s : Sys} {x : Kernel} (h : Ready s x) : s.ctx.hasRemapKernel = true := by
  simp [Ctx.hasRemapKernel, h.node, h.lt]

theorem Ready.id {s : Sys} {x : Kernel} (h : Ready s x) : s.ctx.remapKernelId = s.ctx.remapKernel := by
  simp [Ctx.remapKernelId, h.has]

theorem Ready.numArgs {s : Sys} {x : Kernel} (h : Ready s x) : s.ctx.kernelNumArgs s.ctx.remapKernel = x.numArgs := by
  simp [Ctx.kernelNumArgs, h.node, h.kernel]

theorem hasNode_assign (c : Ctx) (k i : Nat) (a : ClContext.Arg) (v : ClVal) : (c.assign k i a v).hasNode = c.hasNode := rfl

theorem length_assign (c : Ctx) (k i : Nat) (a : ClContext.Arg) (v : ClVal) :
    (c.assign k i a v).kernels.length = c.kernels.length := by
  simp [Ctx.assign]

theorem setBoth_keeps (x : Kernel) (i : Nat) (a : ClContext.Arg) (v : ClVal) :
    ((x.setArg i a).setCl i v).cl = x.cl.set i (some v) ∧ ((x.setArg i a).setCl i v).group = x.group ∧
    ((x.setArg i a).setCl i v).maxGroup = x.maxGroup ∧ ((x.setArg i a).setCl i v).preferred = x.preferred ∧
    ((x.setArg i a).setCl i v).numArgs = x.numArgs := by
  unfold Kernel.setArg Kernel.setCl
  by_cases h : i < x.args.length
  · rw [if_pos h]
    exact ⟨rfl, rfl, rfl, rfl, rfl⟩
  · rw [if_neg h]
    exact ⟨rfl, rfl, rfl, rfl, rfl⟩

theorem assign_kernel {c : Ctx} {k : Nat} {x : Kernel} (h : c.kernels[k]? = some x) (i : Nat) (a : ClContext.Arg) (v : ClVal) :
    ∃ y, (c.assign k i a v).kernels[k]? = some y ∧ y.cl = x.cl.set i (some v) ∧ y.group = x.group ∧
      y.maxGroup = x.maxGroup ∧ y.preferred = x.preferred ∧ y.numArgs = x.numArgs := by
  refine ⟨(x.setArg i a).setCl i v, ?_, setBoth_keeps x i a v⟩
  simp [Ctx.assign, h]

/-- Another kernel is left alone. -/
theorem assign_other (c : Ctx) (k i : Nat) (a : ClContext.Arg) (v : ClVal) {j : Nat} (h : j ≠ k) :
    (c.assign k i a v).kernels[j]? = c.kernels[j]? := by
  simp [Ctx.assign, Ne.symm h]

theorem argsSet_kernel {s : Sys} {x : Kernel} (h : Ready s x) (b : Nat) :
    ∃ y, (argsSet s b).kernels[s.ctx.remapKernel]? = some y ∧
      y.cl = (x.cl.set 0 (some (.buffer b))).set 1 (some (.value 8)) ∧ workItems y = workItems x ∧
      y.preferred = x.preferred ∧ y.numArgs = x.numArgs ∧ min y.group y.maxGroup = min x.group x.maxGroup := by
  obtain ⟨y1, k1, c1, g1, m1, p1, n1⟩ :=
    assign_kernel h.kernel 1 ⟨.clBuffer, some s.flagsId⟩ (.buffer s.flagsId)
  obtain ⟨y2, k2, c2, g2, m2, p2, n2⟩ := assign_kernel k1 0 ⟨.clBuffer, some b⟩ (.buffer b)
  obtain ⟨y3, k3, c3, g3, m3, p3, n3⟩ := assign_kernel k2 1 ⟨.value, none⟩ (.value 8)
  refine ⟨y3, k3, ?_, ?_, by rw [p3, p2, p1], by rw [n3, n2, n1], by rw [g3, g2, g1, m3, m2, m1]⟩
  · rw [c3, c2, c1, List.set_comm _ _ (by decide : (1 : Nat) ≠ 0), List.set_set]
  · unfold workItems
    rw [g3, g2, g1, m3, m2, m1, p3, p2, p1]

theorem argsSet_members (s : Sys) (b : Nat) :
    (argsSet s b).hasNode = s.ctx.hasNode ∧ (argsSet s b).remapKernel = s.ctx.remapKernel ∧
    (argsSet s b).kernels.length = s.ctx.kernels.length := by
  refine ⟨rfl, rfl, ?_⟩
  unfold argsSet
  rw [length_assign, length_assign, length_assign]

theorem argsSet_other (s : Sys) (b : Nat) {j : Nat} (h : j ≠ s.ctx.remapKernel) :
    (argsSet s b).kernels[j]? = s.ctx.kernels[j]? := by
  unfold argsSet
  rw [assign_other _ _ _ _ _ h, assign_other _ _ _ _ _ h, assign_other _ _ _ _ _ h]

/-- The context is as before a write but for the arguments of the remapping kernel, and can be written with again. -/
theorem Ready.again {s t : Sys} {x : Kernel} (h : Ready s x) {b : Nat} (e : t.ctx = argsSet s b) :
    ∃ y, Ready t y ∧ y.cl = (x.cl.set 0 (some (.buffer b))).set 1 (some (.value 8)) ∧ workItems y = workItems x := by
  obtain ⟨y, k, c, w, _, n, _⟩ := argsSet_kernel h b
  refine ⟨y, ⟨?_, ?_, ?_⟩, c, w⟩
  · rw [e, (argsSet_members s b).1, h.node]
  · rw [e, (argsSet_members s b).2.1, k]
  · rw [n, c, List.length_set, List.length_set, h.num]

theorem enqueueWrite_ok {o : Cl} {s : Sys} {b off : Nat} {d x : Bytes} (hw : o.writes = true) (hd : s.dev b = some d)
    (h0 : 0 < x.length) (hl : off + x.length ≤ d.length) :
    enqueueWrite o s (some b) off x = (true, s.put b (d.take off ++ x ++ d.drop (off + x.length))) := by
  simp only [enqueueWrite, hd]
  rw [if_pos ⟨hw, h0, hl⟩]

theorem enqueueWrite_true {o : Cl} {s s' : Sys} {m : Option Nat} {off : Nat} {x : Bytes}
    (h : enqueueWrite o s m off x = (true, s')) :
    ∃ b d, m = some b ∧ s.dev b = some d ∧ 0 < x.length ∧ off + x.length ≤ d.length ∧ o.writes = true ∧
      s' = s.put b (d.take off ++ x ++ d.drop (off + x.length)) := by
  unfold enqueueWrite at h
  split at h
  · split at h
    · rename_i b _ d hd
      split at h
      · rename_i hc
        injection h with _ h
        exact ⟨b, d, rfl, hd, hc.2.1, hc.2.2, hc.1, h.symm⟩
      · simp at h
    · simp at h
  · simp at h

theorem enqueueWrite_false {o : Cl} {s s' : Sys} {m : Option Nat} {off : Nat} {x : Bytes}
    (h : enqueueWrite o s m off x = (false, s')) : s' = s := by
  unfold enqueueWrite at h
  split at h
  · split at h
    · split at h
      · simp at h
      · injection h with _ h
        exact h.symm
    · injection h with _ h
      exact h.symm
  · injection h with _ h
    exact h.symm

theorem enqueueRead_some {o : Cl} {s : Sys} {m : Option Nat} {n : Nat} {x : Bytes} (h : enqueueRead o s m n = some x) :
    ∃ b d, m = some b ∧ s.dev b = some d ∧ 0 < n ∧ n ≤ d.length ∧ o.reads = true ∧ x = d.take n := by
  unfold enqueueRead at h
  split at h
  · split at h
    · rename_i b _ d hd
      split at h
      · rename_i hc
        injection h with h
        exact ⟨b, d, rfl, hd, hc.2.1, hc.2.2, hc.1, h.symm⟩
      · simp at h
    · simp at h
  · simp at h

theorem enqueueRead_ok {o : Cl} {s : Sys} {b n : Nat} {d : Bytes} (hr : o.reads = true) (hd : s.dev b = some d)
    (h0 : 0 < n) (hl : n ≤ d.length) : enqueueRead o s (some b) n = some (d.take n) := by
  simp only [enqueueRead, hd]
  rw [if_pos ⟨hr, h0, hl⟩]

/-- The steps up to the launch. -/
theorem sendSteps_eq {f : Fmt} {o : Cl} {s : Sys} {x : Kernel} {a : Argument} {b : Nat} {d y : Bytes} (h : Ready s x)
    (hn : 2 ≤ x.numArgs) (hf : o.flagWrites = true) (hw : o.writes = true) (ha : a.mem = some b) (hd : s.dev b = some d)
    (h0 : 0 < y.length) (hl : y.length ≤ d.length) :
    sendSteps f o s a y = andThen (runRemap f o (sent s b y d) s.ctx.remapKernel)
      fun s => .ok (lookAtFlags o s x.numArgs, s) := by
  have e1 : clearFlags o s s.ctx.remapKernel x.numArgs = .ok (0, { s with
      ctx := s.ctx.assign s.ctx.remapKernel 1 ⟨.clBuffer, some s.flagsId⟩ (.buffer s.flagsId), flags := 0#64 }) := by
    simp only [clearFlags, hn, hf, if_true, ClRun.assignClBuffer, h.lt, assigned, Res.ok_bind]
  have e2 : sendBytes o { s with
      ctx := s.ctx.assign s.ctx.remapKernel 1 ⟨.clBuffer, some s.flagsId⟩ (.buffer s.flagsId), flags := 0#64 }
      s.ctx.remapKernel (some b) y = .ok (0, sent s b y d) := by
    unfold sendBytes
    have ew := enqueueWrite_ok (s := { s with
      ctx := s.ctx.assign s.ctx.remapKernel 1 ⟨.clBuffer, some s.flagsId⟩ (.buffer s.flagsId), flags := 0#64 })
      (off := 0) (d := d) hw hd h0 (by omega)
    rw [ew]
    have l1 := h.lt
    have l2 : s.ctx.remapKernel < ((s.ctx.assign s.ctx.remapKernel 1 ⟨.clBuffer, some s.flagsId⟩
      (.buffer s.flagsId)).assign s.ctx.remapKernel 0 ⟨.clBuffer, some b⟩ (.buffer b)).kernels.length := by
      rw [length_assign, length_assign]
      exact l1
    have l3 : s.ctx.remapKernel < (s.ctx.assign s.ctx.remapKernel 1 ⟨.clBuffer, some s.flagsId⟩
      (.buffer s.flagsId)).kernels.length := by
      rw [length_assign]
      exact l1
    simp only [Sys.put, if_true, ClRun.assignClBuffer, l3, assigned, Res.ok_bind, ClRun.assignValue, l2]
    simp [sent, argsSet]
  unfold sendSteps
  simp only [h.id, h.numArgs]
  rw [if_pos (by omega), e1, ha]
  simp only [andThen, Res.ok_bind, if_true, e2]

/-- A launch is the kernel's work. -/
theorem launch_eq {f : Fmt} {o : Cl} {s : Sys} {x : Kernel} {b : Nat} {d y : Bytes} (h : Ready s x)
    (hr : o.run.ok = true) (hi : 0 < workItems x) :
    launch f o (sent s b y d) s.ctx.remapKernel (ClRun.preferred (sent s b y d).ctx s.ctx.remapKernel) =
      work f o (sent s b y d) ((x.cl.set 0 (some (.buffer b))).set 1 (some (.value 8))) := by
  obtain ⟨z, k, c, w, p, _, g⟩ := argsSet_kernel h b
  obtain ⟨m1, _, m3⟩ := argsSet_members s b
  have hk : (sent s b y d).ctx.kernels[s.ctx.remapKernel]? = some z := k
  have hnode : (sent s b y d).ctx.hasNode = true := m1.trans h.node
  have hp : ClRun.preferred (sent s b y d).ctx s.ctx.remapKernel = x.preferred := by
    simp [ClRun.preferred, hnode, hk, p]
  have hg : ClRun.groupSize (sent s b y d).ctx s.ctx.remapKernel = min x.group x.maxGroup := by
    simp only [ClRun.groupSize, hnode, hk, if_true, g]
  have hl : s.ctx.remapKernel < (sent s b y d).ctx.kernels.length := lt_of_lt_of_eq h.lt m3.symm
  have hc : clArgs (sent s b y d).ctx s.ctx.remapKernel =
      (x.cl.set 0 (some (.buffer b))).set 1 (some (.value 8)) := by
    simp only [clArgs, hk, c]
  unfold launch ClRun.runDefault ClRun.runKernel
  rw [hg, hp, if_pos hl, hc]
  unfold workItems at hi
  cases o.run.times <;> simp [hr, hi]

/-- The whole of the steps for a kernel with two arguments. -/
theorem sendSteps_two {f : Fmt} {o : Cl} {s : Sys} {x : Kernel} {a : Argument} {b : Nat} {d y : Bytes} (h : Ready s x)
    (hn : x.numArgs = 2) (hf : o.flagWrites = true) (hw : o.writes = true) (hr : o.run.ok = true)
    (hi : 0 < workItems x) (ha : a.mem = some b) (hd : s.dev b = some d) (h0 : 0 < y.length) (hl : y.length ≤ d.length) :
    sendSteps f o s a y =
      (remapBuffer f o (sent s b y d) b false >>= fun t => .ok (0, t)) := by
  have hlen : x.cl.length = 2 := by rw [← h.num, hn]
  obtain ⟨u, v, hc⟩ : ∃ u v, x.cl = [u, v] := by
    revert hlen
    generalize x.cl = l
    intro hlen
    match l, hlen with
    | [u, v], _ => exact ⟨u, v, rfl⟩
  rw [sendSteps_eq h (by omega) hf hw ha hd h0 hl]
  unfold andThen runRemap
  rw [launch_eq h hr hi, hc]
  simp only [List.set, work, SLOT_SIZE, if_true]
  cases remapBuffer f o (sent s b y d) b false with
  | ok t => simp [lookAtFlags, hn]
  | ub => rfl

/-- The whole of the steps for a kernel with three arguments whose last is the buffer of the flags. -/
theorem sendSteps_three {f : Fmt} {o : Cl} {s : Sys} {x : Kernel} {a : Argument} {b : Nat} {d y : Bytes} (h : Ready s x)
    {u v : Option ClVal} (hc : x.cl = [u, v, some (.buffer s.flagsId)]) (hf : o.flagWrites = true)
    (hg : o.flagReads = true) (hw : o.writes = true) (hr : o.run.ok = true)
    (hi : 0 < workItems x) (ha : a.mem = some b) (hd : s.dev b = some d) (h0 : 0 < y.length) (hl : y.length ≤ d.length) :
    sendSteps f o s a y =
      (remapBuffer f o (sent s b y d) b true >>= fun t => .ok ((t.flags.setWidth 32).toInt, t)) := by
  have hn : x.numArgs = 3 := by rw [h.num, hc]; rfl
  rw [sendSteps_eq h (by omega) hf hw ha hd h0 hl]
  unfold andThen runRemap
  rw [launch_eq h hr hi, hc]
  have e : (sent s b y d).flagsId = s.flagsId := rfl
  simp only [List.set, work, SLOT_SIZE, e, and_self, if_true]
  cases remapBuffer f o (sent s b y d) b true with
  | ok t => simp [lookAtFlags, hn, hg]
  | ub => rfl

/-- The whole of the steps for a kernel whose third argument has not been set. -/
theorem sendSteps_unset {f : Fmt} {o : Cl} {s : Sys} {x : Kernel} {a : Argument} {b : Nat} {d y : Bytes} (h : Ready s x)
    {u v : Option ClVal} (hc : x.cl = [u, v, none]) (hf : o.flagWrites = true) (hw : o.writes = true)
    (hr : o.run.ok = true) (hi : 0 < workItems x) (ha : a.mem = some b) (hd : s.dev b = some d) (h0 : 0 < y.length)
    (hl : y.length ≤ d.length) : sendSteps f o s a y = .ok (-8, sent s b y d) := by
  have hn : x.numArgs = 3 := by rw [h.num, hc]; rfl
  rw [sendSteps_eq h (by omega) hf hw ha hd h0 hl]
  unfold andThen runRemap
  rw [launch_eq h hr hi, hc]
  simp [List.set, work]

end SixTrack.ClArg

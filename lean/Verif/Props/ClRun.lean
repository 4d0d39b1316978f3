import Verif.ClRun
import Verif.ClContextLemmas
import Verif.DebugRegLemmas
import Mathlib.Tactic.Linarith
import Mathlib.Tactic.NormNum
import Mathlib.Tactic.Ring
import Mathlib.Tactic.FieldSimp
import Mathlib.Algebra.BigOperators.Group.List.Basic

/-!
# C91: arguments, launches, times and status flags of the kernels of an OpenCL context

An argument that has been assigned is recorded and set, and the others stay.  A launch has enough work items, in whole
groups.  The times are those of the launches since the last reset, and the status flags are those on the device.
-/

namespace SixTrack
open ClContext ClRun

/-! ## Arguments -/

/-- the kernel `k` of `c'` is that of `c` with its argument `index` assigned, and nothing else is different -/
structure Assigned (c c' : Ctx) (k index : Nat) (a : Arg) (v : ClVal) : Prop where
  arg : ∃ x x', c.kernels[k]? = some x ∧ c'.kernels[k]? = some x' ∧ x'.args[index]? = some a ∧
    x'.cl[index]? = some (some v) ∧
    (∀ j, j ≠ index → x'.args[j]? = x.args[j]? ∧ x'.cl[j]? = x.cl[j]?) ∧
    x'.name = x.name ∧ x'.prog = x.prog ∧ x'.numArgs = x.numArgs ∧ x'.group = x.group ∧ x'.maxGroup = x.maxGroup
  others : ∀ l, l ≠ k → c'.kernels[l]? = c.kernels[l]?
  rest : c' = { c with kernels := c'.kernels }

theorem assign_assigned {c : Ctx} (hs : Sound c) {k index : Nat} {x : Kernel} (hx : c.kernels[k]? = some x)
    (hi : index < x.numArgs) (a : Arg) (v : ClVal) : Assigned c (c.assign k index a v) k index a v := by
  obtain ⟨h1, h2⟩ := hs.args x (List.mem_of_getElem? hx)
  have hk : (c.assign k index a v).kernels[k]? = some ((x.setArg index a).setCl index v) := by
    unfold Ctx.assign
    simp only
    rw [List.getElem?_modify, hx]
    simp
  refine ⟨⟨x, _, hx, hk, ?_⟩, fun l hl => ?_, rfl⟩
  · unfold Kernel.setArg Kernel.setCl
    rw [if_pos (by omega)]
    simp only
    refine ⟨List.getElem?_set_self (by omega), List.getElem?_set_self (by omega), fun j hj => ?_, trivial, trivial, trivial, trivial, trivial⟩
    exact ⟨List.getElem?_set_ne (Ne.symm hj), List.getElem?_set_ne (Ne.symm hj)⟩
  · unfold Ctx.assign
    simp only
    rw [List.getElem?_modify]
    cases c.kernels[l]? with
    | none => rfl
    | some y => simp [Ne.symm hl]

/-- **C91 (assigning an argument)**: each of the functions records the type of the argument, sets the argument of the
OpenCL kernel, and leaves the other arguments and kernels. -/
theorem C91_assign {c : Ctx} (hs : Sound c) {k index : Nat} {x : Kernel} (hx : c.kernels[k]? = some x)
    (hi : index < x.numArgs) :
    (∀ arg b, ∃ c', assignArgument c k index arg b = .ok c' ∧
      Assigned c c' k index ⟨.clArgument, some arg⟩ (.buffer b)) ∧
    (∀ n p, ∃ c', assignRawPtr c k index n p = .ok c' ∧ Assigned c c' k index ⟨.rawPtr, some p⟩ (.bytes p n)) ∧
    (∀ b, ∃ c', assignClBuffer c k index b = .ok c' ∧ Assigned c c' k index ⟨.clBuffer, some b⟩ (.buffer b)) ∧
    (∀ n p, ∃ c', assignRawPtrConst c k index n p = .ok c' ∧ Assigned c c' k index ⟨.rawPtr, none⟩ (.bytes p n)) ∧
    (∀ v, ∃ c', assignValue c k index v = .ok c' ∧ Assigned c c' k index ⟨.value, none⟩ (.value v)) ∧
    ∃ c', resetArgument c k index = .ok c' ∧ Assigned c c' k index ⟨.none, none⟩ (.value 0) := by
  have hk := (List.getElem?_eq_some_iff.1 hx).1
  unfold assignArgument assignRawPtr assignClBuffer assignRawPtrConst assignValue resetArgument
  simp only [if_pos hk]
  exact ⟨fun _ _ => ⟨_, rfl, assign_assigned hs hx hi _ _⟩, fun _ _ => ⟨_, rfl, assign_assigned hs hx hi _ _⟩,
    fun _ => ⟨_, rfl, assign_assigned hs hx hi _ _⟩, fun _ _ => ⟨_, rfl, assign_assigned hs hx hi _ _⟩,
    fun _ => ⟨_, rfl, assign_assigned hs hx hi _ _⟩, _, rfl, assign_assigned hs hx hi _ _⟩

/-- **C91 (an argument that is not there), violated**: an index beyond the arguments of the kernel is not reported; the
call returns and nothing has been assigned. -/
theorem C91_index_violated {c : Ctx} (hs : Sound c) {k index : Nat} {x : Kernel} (hx : c.kernels[k]? = some x)
    (hi : x.numArgs ≤ index) (arg b v : Nat) :
    assignArgument c k index arg b = .ok c ∧ assignClBuffer c k index b = .ok c ∧
      assignValue c k index v = .ok c ∧ resetArgument c k index = .ok c := by
  obtain ⟨h1, h2⟩ := hs.args x (List.mem_of_getElem? hx)
  have hk := (List.getElem?_eq_some_iff.1 hx).1
  have key : ∀ a v, c.assign k index a v = c := by
    intro a v
    have : c.kernels.modify k (fun x => (x.setArg index a).setCl index v) = c.kernels := by
      apply List.ext_getElem?
      intro l
      rw [List.getElem?_modify]
      by_cases hl : k = l
      · subst hl
        rw [hx]
        simp only [if_true, Option.map_eq_map, Option.map_some, Option.some.injEq]
        unfold Kernel.setArg Kernel.setCl
        rw [if_neg (by omega), List.set_eq_of_length_le (by omega)]
      · cases c.kernels[l]? with
        | none => rfl
        | some y => simp [hl]
    unfold Ctx.assign
    rw [this]
  unfold assignArgument assignClBuffer assignValue resetArgument
  simp only [if_pos hk, key]
  trivial

/-- **C91 (a kernel that is not there), violated**: the functions do not agree on a kernel that is not there: some throw an
exception, some are undefined, and resetting an argument aborts the program, while resetting all of them does nothing. -/
theorem C91_id_violated (c : Ctx) (k index : Nat) (hk : c.kernels.length ≤ k) (arg b n p v : Nat) :
    assignArgument c k index arg b = .throws ∧ assignRawPtr c k index n p = .throws ∧
      assignClBuffer c k index b = .throws ∧ assignRawPtrConst c k index n p = .ub ∧ assignValue c k index v = .ub ∧
      resetArgument c k index = .terminates ∧ resetArguments c k = c ∧ argumentType c k index = .ok .invalid ∧
      argument c k index = .ok none := by
  have h : ¬k < c.kernels.length := by omega
  unfold assignArgument assignRawPtr assignClBuffer assignRawPtrConst assignValue resetArgument argument argumentType
    resetArguments
  simp only [if_neg h, List.getElem?_eq_none hk, List.modify_eq_self hk]
  trivial

/-- **C91 (reading arguments back)**: the type and the pointer are those which have been assigned; beyond the arguments the
type is invalid and the pointer null.  This is never undefined. -/
theorem C91_read {c : Ctx} (hs : Sound c) {k : Nat} {x : Kernel} (hx : c.kernels[k]? = some x) (index : Nat) :
    (∀ a, x.args[index]? = some a → argumentType c k index = .ok a.type ∧ argument c k index = .ok a.ptr) ∧
      (x.numArgs ≤ index → argumentType c k index = .ok .invalid ∧ argument c k index = .ok none) ∧
      argumentType c k index ≠ .ub ∧ argument c k index ≠ .ub := by
  obtain ⟨h1, -⟩ := hs.args x (List.mem_of_getElem? hx)
  unfold argumentType argument
  rw [hx]
  simp only
  by_cases hi : index < x.numArgs
  · rw [if_pos hi, if_pos hi, List.getElem?_eq_getElem (by omega)]
    simp only
    refine ⟨fun a ha => ?_, fun h => by omega, by simp, by simp⟩
    rw [Option.some.injEq] at ha
    rw [ha]
    exact ⟨rfl, rfl⟩
  · rw [if_neg hi, if_neg hi]
    refine ⟨fun a ha => ?_, fun _ => ⟨rfl, rfl⟩, by simp, by simp⟩
    rw [List.getElem?_eq_none (by omega)] at ha
    cases ha

/-- **C91 (pointer to an argument), violated**: after an OpenCL buffer or a raw pointer has been assigned, asking for the
`ClArgument` gives the address of what is not a `ClArgument`. -/
theorem C91_confusion_violated {c : Ctx} (hs : Sound c) {k index : Nat} {x : Kernel} (hx : c.kernels[k]? = some x)
    (hi : index < x.numArgs) (b : Nat) :
    ∃ c', assignClBuffer c k index b = .ok c' ∧ argumentType c' k index = .ok .clBuffer ∧
      argument c' k index = .ok (some b) := by
  obtain ⟨-, -, h, -⟩ := C91_assign hs hx hi
  obtain ⟨c', h1, h2⟩ := h b
  obtain ⟨y, z, hy, hz, ha, -, -, -, -, hn, -⟩ := h2.arg
  rw [hx, Option.some.injEq] at hy
  subst hy
  refine ⟨c', h1, ?_⟩
  unfold argumentType argument
  rw [hz]
  simp only
  rw [if_pos (by omega), if_pos (by omega), ha]
  exact ⟨rfl, rfl⟩

theorem clearCl_length (as : List Arg) (vs : List (Option ClVal)) : (clearCl as vs).length = vs.length := by
  induction as generalizing vs with
  | nil => rfl
  | cons a as ih =>
    cases vs with
    | nil => rfl
    | cons v vs => simp [clearCl, ih]

theorem clearCl_get (as : List Arg) (vs : List (Option ClVal)) (i : Nat) (a : Arg) (v : Option ClVal)
    (ha : as[i]? = some a) (hv : vs[i]? = some v) :
    (clearCl as vs)[i]? = some (if a.ptr.isSome then some (ClVal.value 0) else v) := by
  induction as generalizing vs i with
  | nil => simp at ha
  | cons b as ih =>
    cases vs with
    | nil => simp at hv
    | cons w vs =>
      unfold clearCl
      cases i with
      | zero =>
        simp at ha hv
        rw [ha, hv]
        rfl
      | succ i => simpa using ih vs i (by simpa using ha) (by simpa using hv)

/-- **C91 (resetting arguments)**: afterwards no argument of the kernel is recorded, those given by a pointer have been set
to null, and the other kernels stay. -/
theorem C91_reset {c : Ctx} (hs : Sound c) {k : Nat} {x : Kernel} (hx : c.kernels[k]? = some x) :
    (∃ y, (resetArguments c k).kernels[k]? = some y ∧ y.args = List.replicate x.numArgs ⟨.none, none⟩ ∧
      y.numArgs = x.numArgs ∧ y.name = x.name ∧ y.cl.length = x.numArgs ∧
      ∀ (i : Nat) (a : Arg), x.args[i]? = some a →
        y.cl[i]? = if a.ptr.isSome then some (some (.value 0)) else x.cl[i]?) ∧
      ∀ l, l ≠ k → (resetArguments c k).kernels[l]? = c.kernels[l]? := by
  obtain ⟨h1, h2⟩ := hs.args x (List.mem_of_getElem? hx)
  have hlen : (clearCl x.args x.cl).length = x.numArgs := by rw [clearCl_length, h2]
  constructor
  · refine ⟨resetArgs { x with cl := clearCl x.args x.cl }, ?_, rfl, rfl, rfl, hlen, ?_⟩
    · unfold resetArguments
      simp only
      rw [List.getElem?_modify, hx]
      simp
    · intro i a ha
      have hi := (List.getElem?_eq_some_iff.1 ha).1
      change (clearCl x.args x.cl)[i]? = _
      have hv := List.getElem?_eq_getElem (show i < x.cl.length by omega)
      rw [clearCl_get _ _ i a _ ha hv, hv]
      split_ifs <;> rfl
  · intro l hl
    unfold resetArguments
    simp only
    rw [List.getElem?_modify]
    cases c.kernels[l]? with
    | none => rfl
    | some y => simp [Ne.symm hl]

/-- **C91 (resetting values), violated**: resetting all arguments leaves those given by value in the OpenCL kernel, though
they are no longer recorded; resetting a single one does not. -/
theorem C91_reset_violated {c : Ctx} (hs : Sound c) {k i : Nat} {x : Kernel} {v : ClVal} (hx : c.kernels[k]? = some x)
    (ha : x.args[i]? = some ⟨.value, none⟩) (hv : x.cl[i]? = some (some v)) :
    ∃ y, (resetArguments c k).kernels[k]? = some y ∧ y.args[i]? = some ⟨.none, none⟩ ∧ y.cl[i]? = some (some v) := by
  obtain ⟨⟨y, h1, h2, -, -, -, h6⟩, -⟩ := C91_reset hs hx
  obtain ⟨g1, -⟩ := hs.args x (List.mem_of_getElem? hx)
  have hi := (List.getElem?_eq_some_iff.1 ha).1
  refine ⟨y, h1, ?_, ?_⟩
  · rw [h2, List.getElem?_replicate, if_pos (by omega)]
  · rw [h6 i _ ha]
    exact hv

/-- **C91 (the lists stay consistent)**: assigning and resetting arguments and setting sizes of groups keep the context
consistent. -/
theorem C91_sound {c : Ctx} (hs : Sound c) (k : Nat) : Sound (resetArguments c k) ∧ ∀ n, Sound (setGroupSize c k n).2 := by
  constructor
  · have h := hs.kernels (fun x => if x.args.length = x.numArgs then resetArgs { x with cl := clearCl x.args x.cl } else x)
      k fun x => by
        split_ifs with hx
        · exact ⟨rfl, rfl, rfl, by simp [resetArgs, hx], clearCl_length _ _⟩
        · exact ⟨rfl, rfl, rfl, rfl, rfl⟩
    have he : c.kernels.modify k (fun x => if x.args.length = x.numArgs then
        resetArgs { x with cl := clearCl x.args x.cl } else x) =
        c.kernels.modify k fun x => resetArgs { x with cl := clearCl x.args x.cl } := by
      apply List.ext_getElem?
      intro l
      rw [List.getElem?_modify, List.getElem?_modify]
      cases hl : c.kernels[l]? with
      | none => rfl
      | some y =>
        have := (hs.args y (List.mem_of_getElem? hl)).1
        simp [this]
    rw [he] at h
    exact h
  · intro n
    unfold setGroupSize
    split_ifs
    · cases hx : c.kernels[k]? with
      | none => exact hs
      | some x =>
        simp only
        split_ifs
        · have h := hs.kernels (fun x => { x with group := n }) k fun x => ⟨rfl, rfl, rfl, rfl, rfl⟩
          have he : c.kernels.modify k (fun x => { x with group := n }) = c.kernels.set k { x with group := n } := by
            apply List.ext_getElem?
            intro l
            rw [List.getElem?_modify, List.getElem?_set]
            by_cases hl : k = l
            · subst hl
              have := (List.getElem?_eq_some_iff.1 hx).1
              rw [hx]
              simp [this]
            · cases c.kernels[l]? <;> simp [hl]
          rw [he] at h
          exact h
        · exact hs
    · exact hs

/-! ## Work items -/

/-- the least multiple of `g` that is not below `n` -/
def LeastMultiple (g n m : Nat) : Prop := g ∣ m ∧ n ≤ m ∧ ∀ m', g ∣ m' → n ≤ m' → m ≤ m'

theorem leastMultiple_ceil {g : Nat} (hg : 0 < g) (n : Nat) : LeastMultiple g n ((n + g - 1) / g * g) := by
  refine ⟨Nat.dvd_mul_left _ _, ?_, ?_⟩
  · have := Nat.lt_div_mul_add (a := n + g - 1) hg
    omega
  · rintro m' ⟨q, rfl⟩ hm
    rw [Nat.mul_comm g q]
    apply Nat.mul_le_mul_right
    rw [Nat.div_le_iff_le_mul_add_pred hg]
    have : q * g = g * q := Nat.mul_comm _ _
    omega

theorem LeastMultiple.eq {g n a b : Nat} (ha : LeastMultiple g n a) (hb : LeastMultiple g n b) : a = b :=
  Nat.le_antisymm (ha.2.2 b hb.1 hb.2.1) (hb.2.2 a ha.1 ha.2.1)

/-- **C91 (rounding)**: with groups, the number of work items is the least multiple of the size of a group that is not
below the number asked for, in both computations; without groups, it is the number asked for. -/
theorem C91_round {g n : Nat} (h : n + g ≤ 2^64) :
    (0 < g → LeastMultiple g n (roundUp g n) ∧ LeastMultiple g n (launchItems g n)) ∧
      roundUp 0 n = n ∧ launchItems 0 n = n ∧ roundUp g n = launchItems g n := by
  have key : 0 < g → roundUp g n = (n + g - 1) / g * g ∧ launchItems g n = (n + g - 1) / g * g := by
    intro hg
    have hlm := leastMultiple_ceil hg n
    have hlt : (n + g - 1) / g * g < 2^64 := by
      have := Nat.div_mul_le_self (n + g - 1) g
      omega
    constructor
    · apply LeastMultiple.eq ?_ hlm
      unfold roundUp
      rw [if_pos hg]
      simp only
      have h1 := Nat.div_mul_le_self n g
      have h2 := Nat.lt_div_mul_add (a := n) hg
      split_ifs with hc
      · have h3 : n / g * g + g = (n + g - 1) / g * g := by
          apply LeastMultiple.eq (g := g) (n := n) ?_ hlm
          refine ⟨Nat.dvd_add (Nat.dvd_mul_left _ _) (Nat.dvd_refl _), by omega, ?_⟩
          rintro m' ⟨q, rfl⟩ hm
          have h4 : n / g < q := by
            by_contra h5
            have : g * q ≤ g * (n / g) := Nat.mul_le_mul_left _ (by omega)
            have : g * (n / g) = n / g * g := Nat.mul_comm _ _
            omega
          have h6 : g * (n / g + 1) ≤ g * q := Nat.mul_le_mul_left _ h4
          have : g * (n / g + 1) = n / g * g + g := by ring
          omega
        rw [h3, Nat.mod_eq_of_lt hlt]
        exact hlm
      · refine ⟨Nat.dvd_mul_left _ _, by omega, fun m' _ hm => by omega⟩
    · unfold launchItems
      rw [if_pos (by omega), Nat.mod_eq_of_lt (show n + g - 1 < 2^64 by omega), Nat.mod_eq_of_lt hlt]
  refine ⟨fun hg => ?_, rfl, rfl, ?_⟩
  · rw [(key hg).1, (key hg).2]
    exact ⟨leastMultiple_ceil hg n, leastMultiple_ceil hg n⟩
  · by_cases hg : 0 < g
    · rw [(key hg).1, (key hg).2]
    · have : g = 0 := by omega
      subst this
      rfl

/-- **C91 (large numbers), violated**: without the bound, the sum wraps and no work item is launched. -/
theorem C91_wrap_violated : launchItems 256 (2^64 - 1) = 0 ∧ roundUp 256 (2^64 - 1) = 0 := by decide +kernel

/-- **C91 (size of the groups)**: setting the size of the groups of a kernel succeeds iff there is a node, the kernel is
there and the size is not above the largest one; afterwards it is this size, and the other kernels keep theirs. -/
theorem C91_group_size (c : Ctx) (k n : Nat) :
    ((setGroupSize c k n).1 = true ↔ c.hasNode = true ∧ ∃ x, c.kernels[k]? = some x ∧ n ≤ x.maxGroup) ∧
      ((setGroupSize c k n).1 = true → groupSize (setGroupSize c k n).2 k = n) ∧
      ((setGroupSize c k n).1 = false → (setGroupSize c k n).2 = c) ∧
      ∀ l, l ≠ k → groupSize (setGroupSize c k n).2 l = groupSize c l := by
  unfold setGroupSize
  by_cases hn : c.hasNode = true
  · rw [if_pos hn]
    cases hx : c.kernels[k]? with
    | none => simp
    | some x =>
      simp only
      by_cases hm : n ≤ x.maxGroup
      · rw [if_pos hm]
        have hn' : ∀ ks, ({ c with kernels := ks } : Ctx).hasNode = true := fun ks => hn
        have hk := (List.getElem?_eq_some_iff.1 hx).1
        refine ⟨by simp [hn, hm], fun _ => ?_, fun h => by simp at h, fun l hl => ?_⟩
        · unfold groupSize
          rw [if_pos (hn' _)]
          simp only
          rw [List.getElem?_set_self hk]
          simp [hm]
        · unfold groupSize
          rw [if_pos (hn' _), if_pos hn]
          simp only
          rw [List.getElem?_set_ne (Ne.symm hl)]
      · rw [if_neg hm]
        simp [hm]
  · rw [if_neg hn]
    simp [hn]

/-- **C91 (launches)**: a kernel that is there is launched with the number of work items computed above, in groups of the
size asked for; the result is whether OpenCL took the launch.  A kernel that is not there is not launched. -/
theorem C91_run (d : Device) (c : Ctx) (xs : List Exec) (k n g : Nat) :
    (k < c.kernels.length → (runKernel d c xs k n g).1 = d.ok ∧
      (runKernel d c xs k n g).2.1 = some ⟨launchItems g n, if g = 0 then none else some g⟩ ∧
      (∀ t, d.times = some t → ∀ x, xs[k]? = some x →
        (runKernel d c xs k n g).2.2[k]? =
          some { x.add (elapsed t.1 t.2) with lastGroup := g, lastItems := launchItems g n }) ∧
      (d.times = none → (runKernel d c xs k n g).2.2 = xs)) ∧
    (c.kernels.length ≤ k → runKernel d c xs k n g = (false, none, xs)) ∧
    ∀ l, l ≠ k → (runKernel d c xs k n g).2.2[l]? = xs[l]? := by
  have hg : (if g ≠ 0 then some g else none) = (if g = 0 then none else some g) := by split_ifs <;> simp_all
  refine ⟨fun hk => ?_, fun hk => ?_, fun l hl => ?_⟩
  · unfold runKernel
    rw [if_pos hk]
    simp only [hg]
    cases ht : d.times with
    | none => exact ⟨rfl, rfl, fun t h => absurd h (by simp), fun _ => rfl⟩
    | some t =>
      refine ⟨rfl, rfl, fun t' h x hx => ?_, fun h => absurd h (by simp)⟩
      rw [Option.some.injEq] at h
      subst h
      simp only
      unfold record
      rw [List.getElem?_modify, hx]
      simp
  · unfold runKernel
    rw [if_neg (by omega)]
  · unfold runKernel
    by_cases hk : k < c.kernels.length
    · rw [if_pos hk]
      simp only
      cases d.times with
      | none => rfl
      | some t =>
        simp only
        unfold record
        rw [List.getElem?_modify]
        cases xs[l]? with
        | none => rfl
        | some y => simp [Ne.symm hl]
    · rw [if_neg hk]

/-- **C91 (the number computed is the number launched), violated**: if no size of groups has been set, the number of work
items computed beforehand is a multiple of the preferred size, but the launch takes the number asked for. -/
theorem C91_computed_violated (d : Device) (c : Ctx) (xs : List Exec) (k n : Nat) (x : Kernel)
    (hn : c.hasNode = true) (hx : c.kernels[k]? = some x) (hg : x.group = 0) (hp : 0 < x.preferred)
    (hd : ¬x.preferred ∣ n) (hb : n + x.preferred ≤ 2^64) :
    (runDefault d c xs k n).2.1 = some ⟨n, none⟩ ∧ n < numWorkItems c k n := by
  have hgs : groupSize c k = 0 := by
    unfold groupSize
    rw [if_pos hn, hx]
    simp [hg]
  have hpr : preferred c k = x.preferred := by
    unfold preferred
    rw [if_pos hn, hx]
  constructor
  · unfold runDefault
    rw [hgs, ((C91_run d c xs k n 0).1 (List.getElem?_eq_some_iff.1 hx).1).2.1]
    rfl
  · unfold numWorkItems
    rw [hgs, if_pos rfl, hpr]
    obtain ⟨h1, h2, -⟩ := ((C91_round hb).1 hp).1
    refine lt_of_le_of_ne h2 fun h => hd ?_
    rw [h]
    exact h1

/-- **C91 (the number computed is the number launched), partial**: it is, if a size of groups has been set. -/
theorem C91_computed_partial (d : Device) (c : Ctx) (xs : List Exec) (k n : Nat)
    (hk : k < c.kernels.length) (hg : groupSize c k ≠ 0) (hb : n + groupSize c k ≤ 2^64) :
    (runDefault d c xs k n).2.1 = some ⟨numWorkItems c k n, some (groupSize c k)⟩ := by
  unfold runDefault
  rw [((C91_run d c xs k n _).1 hk).2.1, if_neg hg]
  unfold numWorkItems
  rw [if_neg hg, (C91_round hb).2.2.2]

/-! ## Times -/

/-- the record after launches that took the times `ts` -/
def execAll (x : Exec) (ts : List ℚ) : Exec := ts.foldl Exec.add x

theorem execAll_spec (ts : List ℚ) (x : Exec) (h : ∀ t ∈ ts, 0 ≤ t) :
    (execAll x ts).count = x.count + ts.length ∧ (execAll x ts).sum = x.sum + ts.sum ∧
      (execAll x ts).last = ts.getLast?.getD x.last ∧
      (∀ t ∈ ts, (execAll x ts).min ≤ t ∧ t ≤ (execAll x ts).max) ∧ (execAll x ts).min ≤ x.min ∧
      x.max ≤ (execAll x ts).max ∧
      ((execAll x ts).min = x.min ∨ (execAll x ts).min ∈ ts) ∧ ((execAll x ts).max = x.max ∨ (execAll x ts).max ∈ ts) ∧
      (execAll x ts).lastGroup = x.lastGroup ∧ (execAll x ts).lastItems = x.lastItems := by
  induction ts generalizing x with
  | nil => simp [execAll]
  | cons t ts ih =>
    have ht := h t List.mem_cons_self
    obtain ⟨i1, i2, i3, i4, i5, i6, i7, i8, i9, i10⟩ := ih (x.add t) fun s hs => h s (List.mem_cons_of_mem _ hs)
    have hx : execAll x (t :: ts) = execAll (x.add t) ts := rfl
    rw [hx]
    have ha : x.add t = { x with
        last := t
        sum := x.sum + t
        count := x.count + 1
        min := if t < x.min then t else x.min
        max := if x.max < t then t else x.max } := by
      unfold Exec.add
      rw [if_pos ht]
    rw [ha] at i1 i2 i3 i5 i6 i7 i8 i9 i10
    rw [ha] at i4
    rw [ha]
    simp only at i1 i2 i3 i5 i6 i7 i8 i9 i10
    have hmin : (if t < x.min then t else x.min) ≤ t ∧ (if t < x.min then t else x.min) ≤ x.min := by
      split_ifs with hc
      · exact ⟨le_refl _, hc.le⟩
      · exact ⟨not_lt.1 hc, le_refl _⟩
    have hmax : t ≤ (if x.max < t then t else x.max) ∧ x.max ≤ (if x.max < t then t else x.max) := by
      split_ifs with hc
      · exact ⟨le_refl _, hc.le⟩
      · exact ⟨not_lt.1 hc, le_refl _⟩
    refine ⟨by rw [i1, List.length_cons]; omega, by rw [i2, List.sum_cons]; ring, ?_, ?_, i5.trans hmin.2,
      hmax.2.trans i6, ?_, ?_, i9, i10⟩
    · rw [i3, List.getLast?_cons]
      rfl
    · intro s hs
      rcases List.mem_cons.1 hs with rfl | hs
      · exact ⟨i5.trans hmin.1, hmax.1.trans i6⟩
      · exact i4 s hs
    · rcases i7 with h7 | h7
      · rw [h7]
        split_ifs
        · exact .inr List.mem_cons_self
        · exact .inl rfl
      · exact .inr (List.mem_cons_of_mem _ h7)
    · rcases i8 with h8 | h8
      · rw [h8]
        split_ifs
        · exact .inr List.mem_cons_self
        · exact .inl rfl
      · exact .inr (List.mem_cons_of_mem _ h8)

/-- **C91 (times)**: after a reset and launches that took the times `ts`, the number, the last one, the average and the
smallest one are those of `ts`, if the times are doubles; the largest one is, if one of them is not below the smallest
normal double. -/
theorem C91_times (x : Exec) (ts : List ℚ) (h : ∀ t ∈ ts, 0 ≤ t ∧ t ≤ DBL_MAX) (hne : ts ≠ []) :
    let y := execAll x.reset ts
    y.count = ts.length ∧ some y.last = ts.getLast? ∧ y.avg = ts.sum / ts.length ∧
      (y.min ∈ ts ∧ ∀ t ∈ ts, y.min ≤ t) ∧
      ((∃ t ∈ ts, DBL_MIN ≤ t) → y.max ∈ ts ∧ ∀ t ∈ ts, t ≤ y.max) := by
  obtain ⟨h1, h2, h3, h4, h5, h6, h7, h8, -, -⟩ := execAll_spec ts x.reset fun t ht => (h t ht).1
  have hpos : 0 < ts.length := List.length_pos_iff.2 hne
  have hx : x.reset.count = 0 ∧ x.reset.sum = 0 ∧ x.reset.min = DBL_MAX ∧ x.reset.max = DBL_MIN :=
    ⟨rfl, rfl, rfl, rfl⟩
  simp only
  refine ⟨by omega, ?_, ?_, ⟨?_, fun t ht => (h4 t ht).1⟩, fun ⟨t, ht, htm⟩ => ⟨?_, fun s hs => (h4 s hs).2⟩⟩
  · rw [h3]
    cases ts with
    | nil => exact absurd rfl hne
    | cons t ts =>
      rw [List.getLast?_cons]
      rfl
  · unfold Exec.avg
    rw [h1, h2, hx.1, hx.2.1, Nat.zero_add, if_pos hpos, zero_add]
  · rcases h7 with h7 | h7
    · obtain ⟨t, ht⟩ := List.exists_mem_of_ne_nil ts hne
      have h9 := (h4 t ht).1
      rw [h7, hx.2.2.1] at h9 ⊢
      rw [← le_antisymm (h t ht).2 h9]
      exact ht
    · exact h7
  · rcases h8 with h8 | h8
    · have h9 := (h4 t ht).2
      rw [h8, hx.2.2.2] at h9 ⊢
      rw [le_antisymm htm h9]
      exact ht
    · exact h8

/-- **C91 (largest time), violated**: if all launches took no time, the largest time is not 0; and without launches, the
smallest time is above the largest. -/
theorem C91_max_violated (x : Exec) (n : Nat) :
    0 < (execAll x.reset (List.replicate n 0)).max ∧ x.reset.max < x.reset.min := by
  have h0 : (0 : ℚ) < DBL_MIN := by unfold DBL_MIN; norm_num
  refine ⟨?_, ?_⟩
  · obtain ⟨-, -, -, -, -, h6, -⟩ := execAll_spec (List.replicate n 0) x.reset fun t ht => by
      rw [List.eq_of_mem_replicate ht]
    exact lt_of_lt_of_le h0 h6
  · change DBL_MIN < DBL_MAX
    have h1 : DBL_MIN ≤ 1 := by
      unfold DBL_MIN
      rw [div_le_iff₀ (by positivity), one_mul]
      exact one_le_pow₀ (by norm_num)
    have h2 : (1 : ℚ) < DBL_MAX := by
      unfold DBL_MAX
      have h3 : (2 : ℚ) ^ 1024 = 2 ^ 971 * 2 ^ 53 := by rw [← pow_add]
      have h4 : (1 : ℚ) ≤ 2 ^ 971 := one_le_pow₀ (by norm_num)
      rw [h3]
      generalize (2 : ℚ) ^ 971 = a at h4
      norm_num
      linarith
    exact lt_of_le_of_lt h1 h2

/-- **C91 (resetting the times), violated**: the last size of groups and the last number of work items stay. -/
theorem C91_last_violated (x : Exec) : x.reset.lastGroup = x.lastGroup ∧ x.reset.lastItems = x.lastItems ∧
    x.reset.count = 0 ∧ x.reset.last = 0 ∧ x.reset.avg = 0 := ⟨rfl, rfl, rfl, rfl, rfl⟩

/-- **C91 (time of a launch)**: the time recorded is that from start to end, in seconds, never negative. -/
theorem C91_elapsed (start stop : Nat) :
    0 ≤ elapsed start stop ∧ (start ≤ stop → elapsed start stop = ((stop : ℚ) - start) / 1000000000) ∧
      (stop < start → elapsed start stop = 0) := by
  unfold elapsed
  refine ⟨?_, fun h => ?_, fun h => by rw [if_neg (by omega)]⟩
  · split_ifs
    · exact div_nonneg (Nat.cast_nonneg _) (by norm_num)
    · exact le_refl _
  · rw [if_pos h, Nat.cast_sub h]
    norm_num

/-! ## Status flags -/

/-- the status part of a register: its lower 32 bits, with a sign -/
def statusPart (r : BitVec 64) : BitVec 32 := r.setWidth 32

theorem put_statusPart (r : BitVec 64) : DebugReg.put r (statusPart r) = r := by
  apply BitVec.eq_of_getLsbD_eq
  intro i hi
  rw [DebugReg.put_bit]
  unfold statusPart
  split_ifs with h
  · rw [BitVec.getLsbD_setWidth]
    simp [h]
  · rfl

theorem getStatus_statusPart {r : BitVec 64} (h : statusPart r ≠ 0x80000000#32) :
    DebugReg.getStatus r = .ok (statusPart r) := by
  have := DebugReg.getStatus_put h r
  rwa [put_statusPart] at this

theorem hasStatusFlags_statusPart (r : BitVec 64) : DebugReg.hasStatusFlags r = true ↔ statusPart r ≠ 0#32 := by
  unfold DebugReg.hasStatusFlags
  have := DebugReg.and_mask_put r (statusPart r)
  rw [put_statusPart] at this
  rw [this, bne_iff_ne, DebugReg.zext_ne_zero]

/-- **C91 (preparing)**: after the flags have been prepared, they are 0, and evaluating them is a success; if this fails,
the flags on the device stay. -/
theorem C91_prepare (f : Flags) :
    (prepare true f).1 = 0#32 ∧ statusFlags true (prepare true f).2 = .ok (0#64, ⟨0#64, 0#64⟩) ∧
      evaluate true (prepare true f).2 = .ok (0#32, ⟨0#64, 0#64⟩) ∧
      (prepare false f).1 = -1#32 ∧ (prepare false f).2.device = f.device := by
  refine ⟨rfl, ?_, ?_, rfl, rfl⟩
  · change statusFlags true ⟨0#64, 0#64⟩ = _
    decide +kernel
  · change evaluate true ⟨0#64, 0#64⟩ = _
    decide +kernel

/-- **C91 (evaluating)**: if the flags can be read, evaluating them gives the status stored in them, a failure if there is
none but a flag is set, and a success iff they are 0; if they cannot be read, a failure. -/
theorem C91_evaluate (f : Flags) (h : statusPart f.device ≠ 0x80000000#32) :
    ∃ s, evaluate true f = .ok (s, ⟨f.device, f.device⟩) ∧ (s = 0#32 ↔ f.device = 0#64) ∧
      (statusPart f.device ≠ 0#32 → s = statusPart f.device) ∧
      (statusPart f.device = 0#32 → f.device ≠ 0#64 → s = -1#32) ∧
      ∃ f', evaluate false f = .ok (-1#32, f') := by
  have hg := getStatus_statusPart h
  have hs := hasStatusFlags_statusPart f.device
  have hno : ∃ f', evaluate false f = .ok (-1#32, f') := ⟨⟨GENERAL_FAILURE, f.device⟩, rfl⟩
  have hf : fetchFlags true f = .ok (statusPart f.device, ⟨f.device, f.device⟩) := by
    unfold fetchFlags
    rw [if_pos rfl, hg]
    rfl
  unfold evaluate
  rw [hf, Res.ok_bind]
  simp only
  by_cases hz : statusPart f.device = 0#32
  · rw [if_pos hz, if_neg (by rw [hs]; exact not_not.2 hz)]
    by_cases hd : f.device = 0#64
    · have : DebugReg.hasAnyFlags f.device = false := by rw [hd]; rfl
      rw [this]
      exact ⟨_, rfl, ⟨fun _ => hd, fun _ => hz⟩, fun h => absurd hz h, fun _ h => absurd hd h, hno⟩
    · have : DebugReg.hasAnyFlags f.device = true := by simpa [DebugReg.hasAnyFlags] using hd
      rw [this]
      refine ⟨_, rfl, ⟨fun h => absurd h (by decide), fun h => absurd h hd⟩, fun h => absurd hz h, fun _ _ => rfl, hno⟩
  · rw [if_neg hz]
    refine ⟨_, rfl, ⟨fun h => absurd h hz, fun h => ?_⟩, fun _ => rfl, fun h => absurd h hz, hno⟩
    rw [h]
    rfl

/-- **C91 (reading the flags), partial**: the flags are those on the device if no status is stored in them; a flag which
has been set is read back. -/
theorem C91_flags_partial (f : Flags) (v : BitVec 64) (h : statusPart v = 0#32) :
    (setStatusFlags true f v).2 = ⟨v, v⟩ ∧
      statusFlags true (setStatusFlags true f v).2 = .ok (v, ⟨v, v⟩) := by
  have hg : DebugReg.getStatus v = .ok 0#32 := by
    rw [getStatus_statusPart (by rw [h]; decide), h]
  refine ⟨rfl, ?_⟩
  unfold statusFlags fetchFlags setStatusFlags setFlags
  simp only [if_true, hg, Res.ok_bind, Res.pure_eq]

/-- **C91 (reading the flags), violated**: if a status is stored in the flags, reading them gives the value for a general
failure instead, in which the status is lost. -/
theorem C91_flags_violated (f : Flags) (v : BitVec 64) (h : statusPart v ≠ 0#32) (h' : statusPart v ≠ 0x80000000#32) :
    statusFlags true (setStatusFlags true f v).2 = .ok (GENERAL_FAILURE, ⟨v, v⟩) ∧ GENERAL_FAILURE ≠ v ∧
      statusPart GENERAL_FAILURE = 0#32 := by
  have hg := getStatus_statusPart h'
  refine ⟨?_, ?_, by decide⟩
  · unfold statusFlags fetchFlags setStatusFlags setFlags
    simp only [if_true, hg, Res.ok_bind, Res.pure_eq, if_neg h]
  · rintro rfl
    exact h (by decide)

/-- **C91 (result of setting the flags), violated**: the result is the status and not the flags: 0 on success, all bits set
otherwise. -/
theorem C91_set_violated (f : Flags) (v : BitVec 64) :
    (setStatusFlags true f v).1 = 0#64 ∧ (setStatusFlags false f v).1 = 0xffffffffffffffff#64 := by
  constructor <;> rfl

/-! ## Cases -/

/-- a node with one kernel of two arguments -/
def clRunDemo : Ctx where
  nodes := [⟨0, 0⟩]
  selected := 0
  debug := false
  kernelDir := ""
  incDir := ""
  options := ""
  flags := []
  programs := [⟨"", "src", "-O", [0], true⟩]
  clPrograms := ["src"]
  kernels := [newKernel ⟨2, 256, 32, 0⟩ "run" 0]
  remapProgram := 0
  remapKernel := 0

theorem clRunDemo_sound : Sound clRunDemo := by
  refine ⟨by decide, by decide, by decide, by decide, ?_, ?_, by decide, ?_, by decide, ?_⟩
  · intro i p hp
    cases i with
    | zero =>
      cases hp
      decide
    | succ i => simp [clRunDemo] at hp
  · intro k hk
    rw [show clRunDemo.kernels = [newKernel ⟨2, 256, 32, 0⟩ "run" 0] from rfl, List.mem_singleton] at hk
    subst hk
    exact ⟨_, rfl, rfl⟩
  · intro a b x y hx hy _ _
    have h1 := (List.getElem?_eq_some_iff.1 hx).1
    have h2 := (List.getElem?_eq_some_iff.1 hy).1
    have : clRunDemo.kernels.length = 1 := rfl
    omega
  · exact .inr ⟨_, rfl, rfl⟩

example : ∃ c', assignValue clRunDemo 0 1 8 = .ok c' ∧ Assigned clRunDemo c' 0 1 ⟨.value, none⟩ (.value 8) :=
  (C91_assign clRunDemo_sound (x := newKernel ⟨2, 256, 32, 0⟩ "run" 0) rfl (by decide)).2.2.2.2.1 8

example : numWorkItems clRunDemo 0 100 = 128 ∧
    (runDefault ⟨true, none⟩ clRunDemo [Exec.new] 0 100).2.1 = some ⟨100, none⟩ := by decide +kernel

example : (runDefault ⟨true, none⟩ (setGroupSize clRunDemo 0 64).2 [Exec.new] 0 100).2.1 = some ⟨128, some 64⟩ := by
  decide +kernel

example : (setGroupSize clRunDemo 0 257).1 = false := by decide +kernel

example : (execAll Exec.new [1, 3]).avg = 2 := by
  norm_num [execAll, Exec.new, Exec.add, Exec.avg]

example : ∃ s, evaluate true ⟨0#64, 0x0000000100000000#64⟩ = .ok (s, ⟨0x0000000100000000#64, 0x0000000100000000#64⟩) ∧
    s = -1#32 := by
  obtain ⟨s, h1, -, -, h4, -⟩ := C91_evaluate ⟨0#64, 0x0000000100000000#64⟩ (by decide)
  exact ⟨s, h1, h4 (by decide) (by decide)⟩

/-- **C91 (new records)**: the times of a new kernel are those after a reset, and there has been no launch. -/
theorem C91_new_record : Exec.new.reset = Exec.new ∧ Exec.new.lastGroup = 0 ∧ Exec.new.lastItems = 0 :=
  ⟨rfl, rfl, rfl⟩

/-- **C91 (records)**: the numbers given out for a kernel are those of its record; they are 0 if there is no kernel. -/
theorem C91_exec_of (xs : List Exec) (k : Nat) :
    (∀ x, xs[k]? = some x → execOf xs k = x) ∧
      (xs.length ≤ k → (execOf xs k).count = 0 ∧ (execOf xs k).lastGroup = 0 ∧ (execOf xs k).lastItems = 0 ∧
        (execOf xs k).min = 0 ∧ (execOf xs k).max = 0 ∧ (execOf xs k).last = 0 ∧ (execOf xs k).sum = 0 ∧
        (execOf xs k).avg = 0) := by
  unfold execOf
  refine ⟨fun x hx => by rw [hx]; rfl, fun h => ?_⟩
  rw [List.getElem?_eq_none h]
  exact ⟨rfl, rfl, rfl, rfl, rfl, rfl, rfl, rfl⟩

example : (execOf [Exec.new, Exec.new.add 3] 1).sum = 3 := by
  rw [(C91_exec_of _ 1).1 (Exec.new.add 3) rfl]
  simp [Exec.new, Exec.add]

end SixTrack

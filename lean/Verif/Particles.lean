import Verif.Basic

/-!
# Particle sets: id range with duplicate check, attribute ranges, copies

Source: `sixtracklib/common/particles/particles.c`, `sixtracklib/common/particles.h`.

Index arrays are functions `Nat → Int` (an element of an array is its value at the index); index
variables, which never become negative in these functions, are natural numbers.
-/

namespace SixTrack
namespace Particles

/-- Write `v` at index `k` of an array. -/
def setAt {α : Type} (a : Nat → α) (k : Nat) (v : α) : Nat → α := fun i => if i = k then v else a i

/-- The loops filling a temporary array with `a[from .. to)` (particles.c:249-260).  Entries of the
temporary array behind the copied ones keep stale values; they are never read, and are `0` here. -/
def copyOut (a : Nat → Int) (from_ to_ : Nat) : Nat → Int :=
  fun i => if i < to_ - from_ then a (from_ + i) else 0

/-- particles.c:292-298 and 300-306: the `while` loop appending the rest of one temporary array. -/
def appendRest (t : Nat → Int) (num : Nat) (ii kk : Nat) (a : Nat → Int) : Nat → Int :=
  if ii < num then appendRest t num (ii + 1) (kk + 1) (setAt a kk (t ii)) else a
termination_by num - ii

/-- particles.c:265-308: the merging `while` loop and everything after it; returns `success` and the
array. -/
def mergeLoop (lhs rhs : Nat → Int) (ln rn : Nat) (ii jj kk : Nat) (a : Nat → Int) :
    Int × (Nat → Int) :=
  if ii < ln ∧ jj < rn then
    if lhs ii < rhs jj then mergeLoop lhs rhs ln rn (ii + 1) jj (kk + 1) (setAt a kk (lhs ii))
    else if lhs ii > rhs jj then
      mergeLoop lhs rhs ln rn ii (jj + 1) (kk + 1) (setAt a kk (rhs jj))
    else (-1, a)
  else if ii < ln then (0, appendRest lhs ln ii kk a)
  else if jj < rn then (0, appendRest rhs rn jj kk a)
  else (0, a)
termination_by (ln - ii) + (rn - jj)

/-- `Particles_particle_id_merge_and_check_for_duplicate` (particles.c:227-309). -/
def merge (a : Nat → Int) (lhsBegin lhsEnd rhsEnd : Nat) : Int × (Nat → Int) :=
  mergeLoop (copyOut a lhsBegin lhsEnd) (copyOut a lhsEnd rhsEnd)
    (lhsEnd - lhsBegin) (rhsEnd - lhsEnd) 0 0 lhsBegin a

/-- `Particles_particle_id_recursive_merge_sort` (particles.c:311-352). -/
def mergeSort (a : Nat → Int) (left right : Nat) : Int × (Nat → Int) :=
  if left < right then
    let mid := left + (right - left) / 2
    let r1 := mergeSort a left mid
    if r1.1 = 0 then
      let r2 := mergeSort r1.2 (mid + 1) right
      if r2.1 = 0 then merge r2.2 left (mid + 1) (right + 1) else (-1, r2.2)
    else (-1, r1.2)
  else if left = right then (0, a) else (-1, a)
termination_by right - left

/-- The debug-only check of the sorted array (particles.c:400-415). -/
def strictlyIncreasing (a : Nat → Int) (n : Nat) : Bool :=
  (List.range (n - 1)).all fun i => a i < a (i + 1)

/-- Absolute value as computed in C: negating `INT64_MIN` is undefined. -/
def absI (z : Int) : Res Int := if z ≥ 0 then .ok z else i64 (-z)

/-- The loop filling the id array (particles.c:379-391). -/
def absAll : List Int → Res (List Int)
  | [] => .ok []
  | z :: zs => do
    let a ← absI z
    let as ← absAll zs
    pure (a :: as)

/-- `Particles_get_min_max_particle_id` (particles.c:354-440) for the ids of a particle set:
`none` is the failure code `-1` (the outputs are then not written), `some (min, max)` is success.
`debug`: whether the `NDEBUG`-guarded check is compiled in.  Memory allocation is assumed to
succeed. -/
def getMinMaxId (debug : Bool) (ids : List Int) : Res (Option (Int × Int)) :=
  if ids.length > 0 then do
    let abs ← absAll ids
    let r := mergeSort (fun i => abs.getD i 0) 0 (ids.length - 1)
    let success := if debug && r.1 == 0 && !strictlyIncreasing r.2 ids.length then -1 else r.1
    if success = 0 then pure (some (r.2 0, r.2 (ids.length - 1))) else pure none
  else .ok none

/-- The attributes of one particle that have ranges: id, element and turn. -/
structure Attr where
  id : Int
  atElement : Int
  atTurn : Int
  deriving DecidableEq, Repr

/-- Six ranges as passed by pointer: `(min, max)` of id, element and turn. -/
structure Ranges where
  minId : Int
  maxId : Int
  minElem : Int
  maxElem : Int
  minTurn : Int
  maxTurn : Int
  deriving DecidableEq, Repr

/-- `Particles_init_min_max_attributes_for_find` (particles.h:2169-2227). -/
def initRanges : Ranges :=
  ⟨2^63 - 1, -2^63, 2^63 - 1, -2^63, 2^63 - 1, -2^63⟩

/-- `if( min > temp ) min = temp;` -/
def updMin (m t : Int) : Int := if m > t then t else m
/-- `if( max < temp ) max = temp;` -/
def updMax (m t : Int) : Int := if m < t then t else m

/-- The loop over the particles from index 1 (particles.h:2392-2412). -/
def rangeLoop : List Attr → Ranges → Res Ranges
  | [], r => .ok r
  | p :: ps, r => do
    let t ← absI p.id
    rangeLoop ps
      ⟨updMin r.minId t, updMax r.maxId t, updMin r.minElem p.atElement,
        updMax r.maxElem p.atElement, updMin r.minTurn p.atTurn, updMax r.maxTurn p.atTurn⟩

/-- `Particles_find_min_max_attributes` (particles.h:2359-2455), all six pointers given, holding `cur`
on entry.  Returns the status and the values behind the pointers. -/
def findMinMax (ps : List Attr) (cur : Ranges) : Res (Int × Ranges) :=
  match ps with
  | [] => .ok (-1, cur)
  | p :: ps => do
    let t ← absI p.id
    let r ← rangeLoop ps ⟨t, t, p.atElement, p.atElement, p.atTurn, p.atTurn⟩
    pure (0, ⟨updMin cur.minId r.minId, updMax cur.maxId r.maxId,
      updMin cur.minElem r.minElem, updMax cur.maxElem r.maxElem,
      updMin cur.minTurn r.minTurn, updMax cur.maxTurn r.maxTurn⟩)

/-- `Particles_get_min_max_attributes` (particles.c:442-466). -/
def getMinMaxAttributes (ps : List Attr) : Res (Int × Ranges) := findMinMax ps initRanges

/-- `Particles_find_min_max_attributes_on_managed_buffer` (particles.h:2230-2295) over the particle
sets of a buffer (objects of other types are skipped by the code and absent here). -/
def findMinMaxSets : List (List Attr) → Nat → Ranges → Res (Int × Ranges)
  | [], found, cur => .ok (if found = 0 then -1 else 0, cur)
  | s :: ss, found, cur => do
    let r ← findMinMax s cur
    if r.1 = 0 then findMinMaxSets ss (found + 1) r.2 else pure r

/-- `Particles_buffer_get_min_max_attributes` (particles.c:495-513). -/
def bufferGetMinMaxAttributes (ss : List (List Attr)) : Res (Int × Ranges) :=
  findMinMaxSets ss 0 initRanges

/-- The loop common to the single-attribute range functions. -/
def minMaxLoop : List Int → Int → Int → Int × Int
  | [], mn, mx => (mn, mx)
  | t :: ts, mn, mx => minMaxLoop ts (updMin mn t) (updMax mx t)

/-- `Particles_get_min_max_at_element_id_value` (particles.h:6153-6203); `none` is failure. -/
def minMaxAtElement : List Attr → Option (Int × Int)
  | [] => none
  | p :: ps => some (minMaxLoop (ps.map Attr.atElement) p.atElement p.atElement)

/-- `Particles_get_min_max_at_turn_value` (particles.h:6388-6432); `none` is failure. -/
def minMaxAtTurn : List Attr → Option (Int × Int)
  | [] => none
  | p :: ps => some (minMaxLoop (ps.map Attr.atTurn) p.atTurn p.atTurn)

/-- `Particles_get_min_max_particle_id_value_no_duplicate_check` (particles.h:5942-5990).  The start
value is the *element* id of particle 0, as in the source. -/
def minMaxIdNoDup : List Attr → Option (Int × Int)
  | [] => none
  | p :: ps => some (minMaxLoop (ps.map Attr.id) p.atElement p.atElement)

/-! ### Copies -/

/-- The arrays of a particle set (`struct Particles`, particles.h:44-71), real-valued ones and
index-valued ones. -/
inductive Field where
  | q0 | mass0 | beta0 | gamma0 | p0c | s | x | y | px | py | zeta | psigma | delta | rpp | rvv | chi
  | chargeRatio | particleId | atElementId | atTurn | state
  deriving DecidableEq, Repr

/-- A particle set: number of particles and arrays.  `V` stands for the contents of an array entry
(a `double` or an `int64_t`); copies never look at it. -/
structure PSet (V : Type) where
  num : Int
  data : Field → Nat → V

/-- `SIXTRACKLIB_COPY_VALUES( T, dest + d, src + s, n )` for one array. -/
def PSet.copyField {V : Type} (dst : PSet V) (src : PSet V) (s d n : Nat) (f : Field) : PSet V :=
  { dst with data := fun g i =>
      if g = f ∧ d ≤ i ∧ i < d + n then src.data f (s + (i - d)) else dst.data g i }

/-- The order in which `Particles_copy_single` writes the fields (particles.h:2860-2921). -/
def singleFields : List Field :=
  [.q0, .mass0, .beta0, .gamma0, .p0c, .s, .x, .y, .px, .py, .zeta, .psigma, .delta, .rpp, .rvv, .chi,
    .chargeRatio, .particleId, .atElementId, .atTurn, .state]

/-- The order in which `Particles_copy_range` copies the arrays (particles.h:3011-3093). -/
def rangeFields : List Field :=
  [.q0, .beta0, .mass0, .gamma0, .p0c, .s, .x, .y, .px, .py, .zeta, .psigma, .delta, .rpp, .rvv, .chi,
    .chargeRatio, .particleId, .atElementId, .atTurn, .state]

/-- `Particles_copy_single` (particles.h:2827-2926).  `same`: destination and source are the same
object.  Both pointers are non-null. -/
def copySingle {V : Type} (same : Bool) (dst : PSet V) (d : Int) (src : PSet V) (s : Int) :
    Int × PSet V :=
  let d' := if (d < 0 ∨ d > dst.num) ∧ s < dst.num then s else d
  if same = false ∧ s ≥ 0 ∧ s < src.num ∧ d' ≥ 0 ∧ d' < dst.num then
    (SUCCESS, singleFields.foldl (fun p f => p.copyField src s.toNat d'.toNat 1 f) dst)
  else (FAILURE, dst)

/-- `Particles_copy_range` (particles.h:2928-3098). -/
def copyRange {V : Type} (same : Bool) (dst src : PSet V) (s e d : Int) : Res (Int × PSet V) := do
  let n ← if s ≤ e then i64 (e - s) else .ok 0
  let d' := if (d < 0 ∨ d ≥ dst.num) ∧ e < dst.num then s else d
  if same = false ∧ s ≥ 0 ∧ e ≥ s ∧ src.num ≥ e ∧ d' ≥ 0 then do
    let last ← i64 (d' + n)
    if dst.num ≥ last then
      pure (SUCCESS, rangeFields.foldl (fun p f => p.copyField src s.toNat d'.toNat n.toNat f) dst)
    else pure (FAILURE, dst)
  else pure (FAILURE, dst)

/-- `Particles_copy` (particles.h:3100-3118). -/
def copy {V : Type} (same : Bool) (dst src : PSet V) : Res (Int × PSet V) :=
  if src.num > 0 ∧ src.num = dst.num then copyRange same dst src 0 src.num 0
  else .ok (FAILURE, dst)

end Particles
end SixTrack

import Verif.Compare
import Verif.TrackOpt

/-!
# Comparing particles

Source: the library that the tests use to decide whether particles agree,
`tests/sixtracklib/testlib/common/particles/particles.h` (called `particles.h` here) and `particles.c` in
the same directory.

The exact comparison looks at bytes, so that a real attribute is a 64 bit word there; the comparison with a
threshold and the search for the largest difference look at numbers.  `dec` turns a word into a number.
-/

namespace SixTrack
namespace Cmp
open TrackOpt

/-- The number with the given IEEE binary64 representation. -/
def dec (w : Nat) : Dbl :=
  let frac : Nat := w % 2 ^ 52
  let exp : Nat := w / 2 ^ 52 % 2 ^ 11
  let negative : Bool := decide (w / 2 ^ 63 % 2 = 1)
  if exp = 2047 then
    if frac = 0 then (if negative then .ninf else .pinf) else .nan
  else
    let m : Rat :=
      if exp = 0 then (frac : Rat) / 2 ^ 1074 else ((2 ^ 52 + frac : Nat) : Rat) * 2 ^ exp / 2 ^ 1075
    .fin (if negative then -m else m)

/-- A set of particles: the number of particles and the arrays at its addresses (`none`: a null pointer;
the numbers are those that may be read).  `V` is what a cell of a real attribute holds. -/
structure PSet (V : Type) where
  num : Nat
  real : RealField → Option (List V)
  ind : IndexField → Option (List Int)

/-- The same particles with the real attributes read as numbers. -/
def PSet.dec (p : PSet Nat) : PSet Dbl :=
  { num := p.num, real := fun f => (p.real f).map (List.map Cmp.dec), ind := p.ind }

/-- Read `n` cells. -/
def readN {α : Type} (l : List α) (n : Nat) : Res (List α) := if n ≤ l.length then .ok (l.take n) else .ub

/-! ### Exact comparison -/

/-- The bytes of a word in memory (little endian). -/
def bytesOf (w : Nat) : List Nat :=
  [w % 256, w / 256 % 256, w / 256 ^ 2 % 256, w / 256 ^ 3 % 256, w / 256 ^ 4 % 256, w / 256 ^ 5 % 256,
    w / 256 ^ 6 % 256, w / 256 ^ 7 % 256]

/-- The word that represents an `int64_t`. -/
def wordOf (z : Int) : Nat := (z % 2 ^ 64).toNat

/-- `memcmp`: of its result only the sign is specified, taken to be `+1` or `-1` here. -/
def memcmp : List Nat → List Nat → Int
  | a :: l, b :: r => if a = b then memcmp l r else if b < a then 1 else -1
  | _, _ => 0

/-- `Particles_compare_sequences_exact` (particles.h:234-288, on the host) for arrays of words. -/
def seqExact (lhs rhs : Option (List Nat)) (n : Nat) : Res Int :=
  if n = 0 then .ok (-1)
  else
    match lhs, rhs with
    | some l, some r => do
      let l ← readN l n
      let r ← readN r n
      return memcmp (l.flatMap bytesOf) (r.flatMap bytesOf)
    | some _, none => .ok 1
    | none, some _ => .ok (-1)
    | none, none => .ok (-1)

/-- One comparison after the other until one is not zero. -/
def chain {β : Type} (f : β → Res Int) : List β → Res Int
  | [] => .ok 0
  | b :: bs => do
    let c ← f b
    if c = 0 then chain f bs else return c

/-- What the comparisons do with the two pointers before they look at the attributes
(`Particles_have_same_structure`, particles.h:450-457; 524, 668-675): `body` is run for two sets with the
same number of particles. -/
def withSets {V : Type} (lhs rhs : Option (PSet V)) (body : PSet V → PSet V → Res Int) : Res Int :=
  match lhs, rhs with
  | some a, some b => if a.num = b.num then body a b else .ok (-1)
  | some _, none => .ok 1
  | none, _ => .ok (-1)

/-- `Particles_compare_real_values` (particles.h:517-676). -/
def compareReal (lhs rhs : Option (PSet Nat)) : Res Int :=
  withSets lhs rhs fun a b => chain (fun f => seqExact (a.real f) (b.real f) a.num) realFields

/-- `Particles_compare_integer_values` (particles.h:678-734). -/
def compareInt {V : Type} (lhs rhs : Option (PSet V)) : Res Int :=
  withSets lhs rhs fun a b =>
    chain (fun f => seqExact ((a.ind f).map (List.map wordOf)) ((b.ind f).map (List.map wordOf)) a.num)
      indexFields

/-- `Particles_compare_values` (particles.h:895-907). -/
def compareSets (lhs rhs : Option (PSet Nat)) : Res Int := do
  let c ← compareReal lhs rhs
  if c = 0 then compareInt lhs rhs else return c

/-! ### Comparison with a threshold -/

/-- Two numbers are out of bounds (particles.h:313-316). -/
def cellOut (R : Rnd) (t a b : Dbl) : Bool :=
  (Dbl.zero.le (R.sub a b) && t.lt (R.sub a b)) ||
    ((R.sub a b).lt .zero && t.lt (R.sub a b).neg)

/-- The loop of `Particles_compare_real_sequences_with_treshold` (particles.h:309-326): the result and the
index that is stored for the caller. -/
def thrLoop (R : Rnd) (t : Dbl) : List Dbl → List Dbl → Nat → Int × Option Nat
  | a :: l, b :: r, i =>
    if cellOut R t a b then (if b.le a then 1 else -1, some i) else thrLoop R t l r (i + 1)
  | _, _, _ => (0, none)

/-- `Particles_compare_real_sequences_with_treshold` (particles.h:290-337).  All `n` cells are taken to be
readable (the loop ends at the first one that is out of bounds). -/
def seqThr (R : Rnd) (t : Dbl) (lhs rhs : Option (List Dbl)) (n : Nat) : Res (Int × Option Nat) :=
  match lhs, rhs with
  | some l, some r => do
    let l ← readN l n
    let r ← readN r n
    return thrLoop R t l r 0
  | some _, none => .ok (1, none)
  | none, some _ => .ok (-1, none)
  | none, none => .ok (-1, none)

/-- `Particles_compare_real_values_with_treshold` (particles.h:736-893). -/
def compareRealThr (R : Rnd) (t : Dbl) (lhs rhs : Option (PSet Dbl)) : Res Int :=
  withSets lhs rhs fun a b =>
    chain (fun f => do
      let c ← seqThr R t (a.real f) (b.real f) a.num
      return c.1) realFields

/-- `Particles_compare_values_with_treshold` (particles.h:910-924). -/
def compareSetsThr (R : Rnd) (t : Dbl) (lhs rhs : Option (PSet Dbl)) : Res Int := do
  let c ← compareRealThr R t lhs rhs
  if c = 0 then compareInt lhs rhs else return c

/-! ### Buffers of particles -/

/-- One set after the other (particles.c:949-961). -/
def bufLoop {V : Type} (cmp : Option (PSet V) → Option (PSet V) → Res Int) :
    List (Option (PSet V)) → List (Option (PSet V)) → Res Int
  | a :: l, b :: r => do
    let c ← cmp a b
    if c = 0 then bufLoop cmp l r else return c
  | _, _ => .ok 0

/-- `Particles_buffers_compare_values` and `..._with_treshold` (particles.c:917-966, 968-1018).  A buffer is
the list of its objects (`none`: not a set of particles; the buffers are initialised, so that the addresses
of their objects are not zero). -/
def bufCompare {V : Type} (cmp : Option (PSet V) → Option (PSet V) → Res Int)
    (lhs rhs : Option (List (Option (PSet V)))) : Res Int :=
  match lhs, rhs with
  | some l, some r => if l.length = r.length then bufLoop cmp l r else .ok (-1)
  | _, _ => .ok (-1)

/-! ### The largest difference -/

/-- The loop of `compare_real_sequences_and_get_max_difference` (particles.c:124-136, 147-159): the largest
absolute value so far, the difference, its index. -/
def maxLoop : List Dbl → Nat → Dbl × Dbl × Nat → Dbl × Dbl × Nat
  | [], _, st => st
  | d :: ds, i, st =>
    let c := if Dbl.zero.lt d then d else d.neg
    maxLoop ds (i + 1) (if st.1.lt c then (c, d, i) else st)

/-- The differences of two arrays. -/
def realDiffs (R : Rnd) (lhs rhs : Option (List Dbl)) (n : Nat) : Res (List Dbl) :=
  match lhs, rhs with
  | some l, some r => do
    let l ← readN l n
    let r ← readN r n
    return List.zipWith R.sub l r
  | some l, none => readN l n
  | none, some r => readN r n
  | none, none => .ok []

/-- `compare_real_sequences_and_get_max_difference` (particles.c:105-165), for a pointer `ptr_max_diff`
that is not null. -/
def maxReal (R : Rnd) (lhs rhs : Option (List Dbl)) (n : Nat) : Res (Dbl × Nat) := do
  let ds ← realDiffs R lhs rhs n
  return ((maxLoop ds 0 (.zero, .zero, 0)).2.1, (maxLoop ds 0 (.zero, .zero, 0)).2.2)

/-- The absolute value of a difference (particles.c:187, `-diff` is undefined if it does not fit). -/
def absInt (d : Int) : Res Int := if 0 < d then .ok d else i64 (-d)

/-- The loop for integers (particles.c:184-195). -/
def maxIntLoop : List Int → Nat → Int × Int × Nat → Res (Int × Int × Nat)
  | [], _, st => .ok st
  | d :: ds, i, st => do
    let c ← absInt d
    maxIntLoop ds (i + 1) (if st.1 < c then (c, d, i) else st)

/-- The differences of two arrays of integers (particles.c:186, undefined if they do not fit). -/
def intDiffs : List Int → List Int → Res (List Int)
  | a :: l, b :: r => do
    let d ← i64 (a - b)
    let ds ← intDiffs l r
    return d :: ds
  | _, _ => .ok []

/-- `compare_int64_sequences_and_get_max_difference` (particles.c:167-225), both arrays given. -/
def maxInt (lhs rhs : List Int) (n : Nat) : Res (Int × Nat) := do
  let l ← readN lhs n
  let r ← readN rhs n
  let ds ← intDiffs l r
  let st ← maxIntLoop ds 0 (0, 0, 0)
  return (st.2.1, st.2.2)

/-- The index written for each of the 21 attributes (particles.c:409-554) and the index printed for it
(`Particles_print_max_diff`, particles.c:660-796). -/
def writtenIndex : List Nat := [0, 1, 2, 3, 4, 5, 6, 7, 8, 9, 10, 11, 12, 13, 14, 15, 16, 17, 18, 19, 20]
def printedIndex : List Nat := [0, 1, 2, 3, 4, 5, 6, 7, 8, 9, 10, 11, 12, 13, 14, 15, 15, 16, 17, 18, 19]

/-- Store a number in the first cell of an array. -/
def setFirst {V : Type} (v : V) : List V → Res (List V)
  | [] => .ub
  | _ :: l => .ok (v :: l)

/-- `Particles_get_max_difference` (particles.c:383-556), the part for the real attributes and for sets
whose arrays all exist: the first particle of `md` gets the differences. -/
def getMaxReal (R : Rnd) (md lhs rhs : RealField → List Dbl) (n : Nat) :
    List RealField → Res (RealField → List Dbl)
  | [] => .ok md
  | f :: fs => do
    let d ← maxReal R (some (lhs f)) (some (rhs f)) n
    let c ← setFirst d.1 (md f)
    getMaxReal R (fun g => if g = f then c else md g) lhs rhs n fs

/-- The real attributes of the sets of a buffer. -/
abbrev RealSet := RealField → List Dbl

/-- `Particles_get_max_difference` with the test at its begin (particles.c:389-392) for two sets with `n`
particles each and an `md` that has at least one; `indices`: an array for the indices is given. -/
def maxSets (R : Rnd) (indices : Bool) (md lhs rhs : RealSet) (n : Nat) : Res RealSet :=
  if indices = true ∧ n ≠ 0 then getMaxReal R md lhs rhs n realFields else .ok md

/-- What `Particles_buffers_get_max_difference` (particles.c:1018-1082) does to the real attributes of the
sets of the three buffers, each set with `n` particles: the iterator `max_diff_it` starts at the objects of
`lhs_buffer` (1051-1052), so that the sets of that buffer are written.  (Each array is read before its first
cell is written, and the arrays of a set are disjoint.) -/
def bufMax (R : Rnd) (indices : Bool) (n : Nat) : List RealSet → List RealSet → Res (List RealSet)
  | l :: ls, r :: rs => do
    let a ← maxSets R indices l l r n
    let as ← bufMax R indices n ls rs
    return a :: as
  | ls, _ => .ok ls

/-- The three buffers after `Particles_buffers_get_max_difference`. -/
def buffersMax (R : Rnd) (indices : Bool) (n : Nat) (md lhs rhs : List RealSet) :
    Res (List RealSet × List RealSet × List RealSet) :=
  if lhs.length = rhs.length ∧ md.length = lhs.length then do
    let l ← bufMax R indices n lhs rhs
    return (md, l, rhs)
  else .ok (md, lhs, rhs)

end Cmp
end SixTrack

import Verif.Monitor
import Verif.ElemByElem

/-!
# Preparing the output of a tracking run

Model of `/repo/sixtracklib/common/output/output_buffer.{c,h}` and
`/repo/sixtracklib/common/output/elem_by_elem_output_buffer.{c,h}`: which output a tracking run
needs, how large it has to be, and how the output buffer is prepared: one particles object for the
element-by-element output, followed by one for every active beam monitor.

Simplifications: those of `Verif.Monitor` (a lattice is the list of its elements, creating an output
object succeeds, `fresh k` is the address at which the `k`-th new object ends up); the buffers are
not null and do not need remapping.
-/

namespace SixTrack.Output
open Monitor EBE

/-- Conversion of an unsigned 64 bit number to `NS(particle_index_t)` (int64_t). -/
def toIndex (n : Nat) : Int := if n < 2^63 then n else (n : Int) - 2^64

/-! ## the range of the element ids -/

/-- The types that are not counted as elements, elem_by_elem_output_buffer.h:191-195 (the same test
in 207-211): `OBJECT_TYPE_NONE`, `_PARTICLE`, `_INVALID`, `_LINE`, `_ELEM_BY_ELEM_CONF` with the
values of objects_type_id.h:18-53. -/
def countsAsElement (type : Nat) : Bool :=
  type ≠ 0 && type ≠ 1 && type ≠ 0x7fffffff && type ≠ 1024 && type ≠ 65534

/-- The first loop, elem_by_elem_output_buffer.h:187-203: the number of objects before the first
element and the objects after it; `none` if there is no element. -/
def skipLoop : List Nat → Nat → Option (Nat × List Nat)
  | [], _ => none
  | t :: ts, k => if countsAsElement t then some (k, ts) else skipLoop ts (k + 1)

/-- The second loop, elem_by_elem_output_buffer.h:207-219: the elements that follow. -/
def countLoop : List Nat → Nat → Nat
  | [], n => n
  | t :: ts, n => if countsAsElement t then countLoop ts (n + 1) else countLoop ts n

/-- `ElemByElemConfig_find_min_max_element_id_from_buffer`, elem_by_elem_output_buffer.h:162-265:
widens the range `[curMin, curMax]` by the ids of the elements; returns it with the number of
elements, `none` if the call fails.  `types` are the types of the objects in the element buffer.
The test of 235-239 always holds if there is an element and never if there is none. -/
def findElementRange (types : List Nat) (curMin curMax start : Int) : Option (Int × Int × Nat) :=
  if types.length > 0 ∧ 0 ≤ start then
    match skipLoop types 0 with
    | none => none
    | some (k, rest) =>
      let more := countLoop rest 0
      let lo := start + k
      let hi := lo + more
      if start ≤ lo ∧ lo ≤ hi ∧ hi < lo + (1 + more : Nat) then
        some (if lo < curMin then lo else curMin, if curMax < hi then hi else curMax, 1 + more)
      else none
  else none

/-! ## the element-by-element output -/

/-- `ElemByElemConfig_get_stored_num_particles_detailed`, elem_by_elem_config.h:1448-1489: the
number of records; the three factors are computed in int64_t, their product modulo 2^64. -/
def storedNum (minP maxP minE maxE minT maxT : Int) : Res Nat :=
  if 0 ≤ minP ∧ minP ≤ maxP ∧ 0 ≤ minE ∧ minE ≤ maxE ∧ 0 ≤ minT ∧ minT ≤ maxT then do
    let p ← i64 (1 + maxP)
    let e ← i64 (1 + maxE)
    let t ← i64 (1 + maxT)
    return (((p - minP) * (e - minE) * (t - minT)) % 2^64).toNat
  else return 0

/-- `ElemByElemConfig_prepare_output_buffer_detailed`, elem_by_elem_output_buffer.c:245-342: status,
objects of the output buffer and the index of the new one (0 if it is not set). -/
def prepareEbe (outs : List OutObj) (minP maxP minE maxE minT maxT : Int) (addr : Nat) :
    Res (Int × List OutObj × Nat) :=
  if 0 ≤ minP ∧ minP ≤ maxP ∧ 0 ≤ minE ∧ minE ≤ maxE ∧ 0 ≤ minT ∧ minT ≤ maxT then do
    let n ← storedNum minP maxP minE maxE minT maxT
    return (SUCCESS, outs ++ [{ addr := addr, particles := some n }], outs.length)
  else return (FAILURE, outs, 0)

/-- `ElemByElemConfig_calculate_output_buffer_params_detailed`,
elem_by_elem_output_buffer.c:90-172: the numbers of objects, slots and data pointers, `none` if the
call fails.  `slots n` are the slots of an output object for `n` particles, `nptrs` the data
pointers of a particles object. -/
def predictEbe (minP maxP minE maxE minT maxT : Int) (untilTurn : Nat) (slots : Nat → Nat)
    (nptrs : Nat) : Res (Option (Nat × Nat × Nat)) :=
  if minP ≤ maxP ∧ minT ≤ maxT ∧ -1 < minP ∧ -1 < minT then
    if minT < untilTurn then do
      let n ← storedNum minP maxP minE maxE minT (toIndex (untilTurn - 1))
      return if 0 < n then some (1, slots n, nptrs) else none
    else return some (0, 0, 0)
  else return none

/-- `ElemByElemConfig_assign_managed_output_buffer`, output_buffer.h:314-361 (what the
`SIXTRL_ASSERT`s require is not tested): status and configuration. -/
def assignEbe (cfg : Cfg) (outs : List OutObj) (offset : Nat) : Int × Cfg :=
  match outs[offset]? with
  | some o => if o.particles.isSome then (SUCCESS, { cfg with outAddr := o.addr }) else (FAILURE, cfg)
  | none => (FAILURE, cfg)

/-! ## everything together -/

/-- `SIXTRL_OUTPUT_BUFFER_ELEM_BY_ELEM` and `SIXTRL_OUTPUT_BUFFER_BEAM_MONITORS`,
output_buffer.h:34-40: which of the two flags are set. -/
structure Flags where
  ebe : Bool
  monitors : Bool
  deriving DecidableEq, Repr

/-- The loop over the elements, from the last to the first, output_buffer.c:176-206: does some
monitor have `num_stores > 0`? -/
def anyStores (es : List Elem) : Bool :=
  es.reverse.any fun e => match e with
    | .monitor m => decide (0 < m.numStores)
    | .other => false

/-- `OutputBuffer_required_for_tracking_detailed`, output_buffer.c:133-210 -/
def required (es : List Elem) (minP maxP minE maxE minT maxT : Int) (untilTurn : Nat) : Flags :=
  if 0 ≤ minP ∧ minP ≤ maxP ∧ 0 ≤ minE ∧ minE ≤ maxE ∧ 0 ≤ minT ∧ minT ≤ maxT then
    { ebe := decide (minT < untilTurn ∧ 0 < es.length)
      monitors := anyStores es }
  else { ebe := false, monitors := false }

/-- What `OutputBuffer_prepare_detailed` leaves behind. -/
structure Prepared where
  status : Int
  elems : List Elem
  outs : List OutObj
  ebeOffset : Nat
  monOffset : Nat
  maxTurn : Int
  deriving DecidableEq, Repr

/-- The second half of `OutputBuffer_prepare_detailed`, output_buffer.c:334-359: the monitors, and
the numbers that are handed back if everything succeeded (0 here if they are not written). -/
def prepareMonitors (es : List Elem) (outs : List OutObj) (minP maxP minT : Int)
    (fresh : Nat → Nat) (off : Nat) (maxTurn : Int) : Prepared :=
  let r := prepareDetailed es outs minP maxP minT fresh
  if r.1 = SUCCESS then ⟨r.1, r.2.1, r.2.2.1, off, r.2.2.2, maxTurn⟩
  else ⟨r.1, r.2.1, r.2.2.1, 0, 0, 0⟩

/-- `OutputBuffer_prepare_detailed`, output_buffer.c:288-363. -/
def prepare (es : List Elem) (outs : List OutObj) (minP maxP minE maxE minT : Int) (untilTurn : Nat)
    (fresh : Nat → Nat) : Res Prepared :=
  if 0 ≤ minT ∧ minT < untilTurn then do
    let r ← prepareEbe outs minP maxP minE maxE minT (toIndex (untilTurn - 1)) (fresh 0)
    return if r.1 = SUCCESS then
        prepareMonitors es r.2.1 minP maxP minT (fun k => fresh (k + 1)) r.2.2
          (toIndex (untilTurn - 1))
      else ⟨r.1, es, r.2.1, 0, 0, 0⟩
  else
    return prepareMonitors es outs minP maxP minT (fun k => fresh (k + 1)) 0 0

/-- The first half of `OutputBuffer_calculate_output_buffer_params_detailed`,
output_buffer.c:467-478. -/
def predictEbePart (minP maxP minE maxE minT maxT : Int) (untilTurn : Nat) (slots : Nat → Nat)
    (nptrs : Nat) : Res (Option (Nat × Nat × Nat)) :=
  if 0 < untilTurn then predictEbe minP maxP minE maxE minT maxT untilTurn slots nptrs
  else pure (some (0, 0, 0))

/-- `OutputBuffer_calculate_output_buffer_params_detailed`, output_buffer.c:433-516: the numbers of
objects, slots and data pointers, `none` if the call fails. -/
def predictAll (es : List Elem) (minP maxP minE maxE minT maxT : Int) (untilTurn : Nat)
    (slots : Nat → Nat) (nptrs : Nat) : Res (Option (Nat × Nat × Nat)) := do
  let e ← predictEbePart minP maxP minE maxE minT maxT untilTurn slots nptrs
  pure (e.bind fun x => (predict es minP maxP minT slots nptrs).map fun y =>
    (x.1 + y.1, x.2.1 + y.2.1, x.2.2 + y.2.2))

end SixTrack.Output

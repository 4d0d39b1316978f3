import Verif.Basic

/-!
# Element-by-element output configuration

Model of `sixtracklib/common/output/elem_by_elem_config.h`.
-/

namespace SixTrack.EBE

/-- `NS(ElemByElemConfig)`, elem_by_elem_config.h:38-53.  `order` is
`NS(ELEM_BY_ELEM_ORDER_*)`, elem_by_elem_config.h:31-37. -/
structure Cfg where
  order : Int
  numP : Int
  numE : Int
  numT : Int
  minP : Int
  minE : Int
  minT : Int
  maxP : Int
  maxE : Int
  maxT : Int
  rolling : Int
  outAddr : Nat
  deriving DecidableEq, Repr

/-- `NS(ELEM_BY_ELEM_ORDER_INVALID)`, elem_by_elem_config.h:33 -/
def ORDER_INVALID : Int := -1
/-- `NS(ELEM_BY_ELEM_ORDER_TURN_ELEM_PARTICLES)`, elem_by_elem_config.h:34 -/
def ORDER_TEP : Int := 0

/-- `NS(ElemByElemConfig_is_rolling)`, elem_by_elem_config.h:638-645 -/
def Cfg.isRolling (c : Cfg) : Bool := c.rolling ≠ 0

/-- `NS(ElemByElemConfig_is_active)`, elem_by_elem_config.h:532-545 -/
def Cfg.isActive (c : Cfg) : Bool :=
  0 < c.numP && 0 < c.numE && 0 < c.numT && c.order ≠ ORDER_INVALID

/-- `NS(ElemByElemConfig_get_out_store_num_particles)`,
elem_by_elem_config.h:547-556: number of records of the output. -/
def Cfg.outStoreNum (c : Cfg) : Res Int := do
  let a ← i64 (c.numP * c.numE)
  i64 (a * c.numT)

/-- `NS(ElemByElemConfig_clear)`, elem_by_elem_config.h:1126-1153 -/
def Cfg.clear (c : Cfg) : Cfg :=
  { c with numP := 0, numE := 0, numT := 0, minP := -1, maxP := -1, minE := -1,
           maxE := -1, minT := -1, maxT := -1, outAddr := 0 }

/-- `NS(ElemByElemConfig_preset)`, elem_by_elem_config.h:1110-1124 -/
def Cfg.preset (c : Cfg) : Cfg := { c.clear with order := ORDER_INVALID, rolling := 1 }

/-- `NS(ElemByElemConfig_init_detailed)`, elem_by_elem_config.h:1050-1106.
Returns the status and the new configuration.  `config` is not null. -/
def Cfg.initDetailed (c : Cfg) (order minP maxP minE maxE minT maxT : Int)
    (isRolling : Bool) : Res (Int × Cfg) :=
  if order ≠ ORDER_INVALID ∧ 0 ≤ minP ∧ minP ≤ maxP ∧ 0 ≤ minE ∧ minE ≤ maxE ∧
      0 ≤ minT ∧ minT ≤ maxT then do
    let np ← i64 (maxP - minP + 1)
    let ne ← i64 (maxE - minE + 1)
    let nt ← i64 (maxT - minT + 1)
    let c1 := { c with order := order }.clear
    let c2 := { c1 with rolling := if isRolling then 1 else 0 }
    pure (SUCCESS, { c2 with
      numP := np, numE := ne, numT := nt, minP := minP, maxP := maxP,
      minE := minE, maxE := maxE, minT := minT, maxT := maxT })
  else pure (FAILURE, c)

/-- `NS(ElemByElemConfig_get_particles_store_index_details)`,
elem_by_elem_config.h:666-758.  `-1` means "not stored". The order of the
operations in the `TURN_ELEM_PARTICLES` branch is that of the C expressions, so
that overflow is detected where it happens. -/
def Cfg.storeIndex (c : Cfg) (particle elem turn : Int) : Res Int :=
  if c.minP ≤ particle ∧ particle ≤ c.maxP ∧ c.minE ≤ elem ∧ elem ≤ c.maxE ∧
      c.minT ≤ turn ∧ (turn ≤ c.maxT ∨ c.isRolling = true) then do
    let pOff ← i64 (particle - c.minP)
    let eOff ← i64 (elem - c.minE)
    let tOff ← i64 (turn - c.minT)
    let (idx, cap) ← (if c.order = ORDER_TEP then do
        let a ← i64 (tOff * c.numP)
        let a ← i64 (a * c.numE)
        let b ← i64 (eOff * c.numP)
        let a ← i64 (a + b)
        let a ← i64 (a + pOff)
        let k ← i64 (c.numP * c.numE)
        let k ← i64 (k * c.numT)
        pure (a, k)
      else pure (-1, 0) : Res (Int × Int))
    if cap ≤ idx ∧ 0 < cap ∧ c.isRolling = true then modI idx cap else pure idx
  else pure (-1)

/-- `NS(ElemByElemConfig_get_particles_store_index)`,
elem_by_elem_config.h:761-781: the absolute value of the particle id is used.
`-temp` overflows for `INT64_MIN`. -/
def Cfg.storeIndexOf (c : Cfg) (particleId atElem atTurn : Int) : Res Int := do
  let p ← if 0 ≤ particleId then pure particleId else i64 (-particleId)
  c.storeIndex p atElem atTurn

/-- `NS(ElemByElemConfig_get_particle_id_from_store_index)`,
elem_by_elem_config.h:784-873 -/
def Cfg.particleOf (c : Cfg) (idx : Int) : Res Int := do
  let n ← c.outStoreNum
  if 0 ≤ idx ∧ idx < n then do
    let p ← (if c.order = ORDER_TEP then do
        let per ← i64 (c.numP * c.numE)
        let t ← modI idx per
        modI t c.numP
      else pure (-1) : Res Int)
    if 0 ≤ p then i64 (p + c.minP) else pure p
  else pure (-1)

/-- `NS(ElemByElemConfig_get_at_element_id_from_store_index)`,
elem_by_elem_config.h:875-961 -/
def Cfg.elemOf (c : Cfg) (idx : Int) : Res Int := do
  let n ← c.outStoreNum
  if 0 ≤ idx ∧ idx < n then do
    let e ← (if c.order = ORDER_TEP then do
        let per ← i64 (c.numP * c.numE)
        let t ← modI idx per
        divI t c.numP
      else pure (-1) : Res Int)
    if 0 ≤ e then i64 (e + c.minE) else pure e
  else pure (-1)

/-- `NS(ElemByElemConfig_get_at_turn_from_store_index)`,
elem_by_elem_config.h:963-1048 -/
def Cfg.turnOf (c : Cfg) (idx : Int) : Res Int := do
  let n ← c.outStoreNum
  if 0 ≤ idx ∧ idx < n then do
    let t ← (if c.order = ORDER_TEP then do
        let per ← i64 (c.numP * c.numE)
        divI idx per
      else pure (-1) : Res Int)
    if 0 ≤ t then i64 (t + c.minT) else pure t
  else pure (-1)

/-- The selection of the last turn in `NS(ElemByElemConfig_init)`,
elem_by_elem_config.c:275-284 (same in `_init_on_particle_sets`): the requested
`until_turn` is compared with the smallest *element* id. -/
def selectMaxTurn (untilTurn minElem maxTurn : Int) : Int :=
  if minElem ≤ untilTurn then
    if minElem < untilTurn then untilTurn - 1 else maxTurn
  else maxTurn

/-! ## Helper lemmas -/

/-- A configuration that came out of a successful `initDetailed`. -/
structure Cfg.WF (c : Cfg) : Prop where
  np : c.numP = c.maxP - c.minP + 1
  ne : c.numE = c.maxE - c.minE + 1
  nt : c.numT = c.maxT - c.minT + 1
  p0 : 0 ≤ c.minP
  p1 : c.minP ≤ c.maxP
  e0 : 0 ≤ c.minE
  e1 : c.minE ≤ c.maxE
  t0 : 0 ≤ c.minT
  t1 : c.minT ≤ c.maxT
  pI : I64 c.maxP
  eI : I64 c.maxE
  tI : I64 c.maxT
  valid : c.order ≠ ORDER_INVALID

end SixTrack.EBE

import Verif.NodeId

/-!
# The controller of nodes

Model of `/repo/sixtracklib/common/control/node_controller_base.cpp`, of the parts of `node_info.cpp` it
uses, and of the functions of `/repo/sixtracklib/cuda/control/controller.cpp` that select a node.

* The nodes are kept by unique pointers, which are never null (1039-1040); the pointers to the ids of the
  default and of the selected node point into them, and stay valid while nodes are added.
* `node_index_t` has 32 bits (definitions.h:26); the undefined index is 0xFFFFFFFF.
* The assertions are not modelled (release build).  Statuses are `true` for success.
-/

namespace SixTrack.NodeController
open Node

/-- `NODE_UNDEFINED_INDEX`, definitions.h:445-446 -/
def UNDEF : Nat := 0xFFFFFFFF

/-- `NODE_ID_STR_CAPACITY`, node_controller_base.hpp:282-283 -/
def CAP : Nat := 18

/-- `NodeInfoBase`, as far as the controller uses it. -/
structure Info where
  id : Id
  /-- name of the platform, may be empty -/
  name : Str
  isDefault : Bool
  isSelected : Bool
  deriving DecidableEq, Repr

/-- A pointer to the id of a node. -/
inductive Ptr
  | null
  | node (i : Nat)
  /-- the node does not exist any more -/
  | dangling
  deriving DecidableEq, Repr

structure Ctrl where
  nodes : List Info
  /-- `m_selected_node_id_str` -/
  idStr : Str
  dflt : Ptr
  selected : Ptr
  min : Nat
  max : Nat
  /-- `m_can_directly_change_selected_node`, `m_can_unselect_node`, `m_use_autoselect` -/
  direct : Bool
  unsel : Bool
  auto : Bool
  /-- the active device of the CUDA runtime; only the CUDA controller uses it -/
  device : Option Nat
  deriving DecidableEq, Repr

/-- The constructor (857-874), and the flags that a derived controller sets. -/
def Ctrl.init (direct unsel auto : Bool) : Ctrl :=
  ⟨[], List.replicate CAP 0, .null, .null, UNDEF, UNDEF, direct, unsel, auto, none⟩

/-- The id a pointer leads to. -/
def Ctrl.deref (c : Ctrl) : Ptr → Res (Option Id)
  | .null => .ok none
  | .dangling => .ub
  | .node i => match c.nodes[i]? with
    | none => .ub
    | some x => .ok (some x.id)

/-- `defaultNodeIndex` (58-73) -/
def Ctrl.defaultIndex (c : Ctrl) : Res Nat := do
  match ← c.deref c.dflt with
  | none => .ok UNDEF
  | some d => .ok (if d.index ≠ UNDEF ∧ d.index < c.nodes.length then d.index else UNDEF)

/-- `hasDefaultNode` (31-50) -/
def Ctrl.hasDefault (c : Ctrl) : Res Bool := do
  match ← c.deref c.dflt with
  | none => .ok false
  | some d => .ok (decide (d.index ≠ UNDEF ∧ d.index < c.nodes.length))

/-- `isNodeAvailable` (105-111) -/
def Ctrl.isAvailable (c : Ctrl) (i : Nat) : Bool := decide (i ≠ UNDEF ∧ i < c.nodes.length)

/-- `isDefaultNode` (177-182) -/
def Ctrl.isDefaultNode (c : Ctrl) (i : Nat) : Res Bool := do
  if ← c.hasDefault then
    let d ← c.defaultIndex
    .ok (decide (d = i))
  else .ok false

/-- `selectedNodeIndex` (523-530) -/
def Ctrl.selectedIndex (c : Ctrl) : Res Nat := do
  match ← c.deref c.selected with
  | none => .ok UNDEF
  | some d => .ok (if d.index ≠ UNDEF then d.index else UNDEF)

/-- `hasSelectedNode` (508-521) -/
def Ctrl.hasSelected (c : Ctrl) : Res Bool :=
  if c.selected = .null then .ok false
  else do
    let i ← c.selectedIndex
    .ok (decide (i < c.nodes.length))

/-- `isSelectedNode` (215-221) -/
def Ctrl.isSelectedNode (c : Ctrl) (i : Nat) : Res Bool :=
  if i = UNDEF then .ok false
  else do
    if ← c.hasSelected then
      let s ← c.selectedIndex
      .ok (decide (s = i))
    else .ok false

/-- `doFindAvailableNodesIndex` (946-983) by the two ids: the first node that has them. -/
def Ctrl.find (c : Ctrl) (platform device : Int) : Nat :=
  if platform ≠ -1 ∧ device ≠ -1 ∧ 0 < c.nodes.length then
    match c.nodes.findIdx? (fun x => x.id.platform = platform ∧ x.id.device = device) with
    | none => UNDEF
    | some i => i
  else UNDEF

/-- `doFindAvailableNodesIndex` (985-1006) by a string; a null pointer counts as the empty string. -/
def Ctrl.findStr (c : Ctrl) (s : Str) : Res Nat :=
  if 0 < c.nodes.length then do
    let r ← (⟨-1, -1, UNDEF⟩ : Id).fromString s
    .ok (if r.1.valid then c.find r.1.platform r.1.device else UNDEF)
  else .ok UNDEF

/-- Change node `i`. -/
def Ctrl.modify (c : Ctrl) (i : Nat) (f : Info → Info) : Ctrl := { c with nodes := c.nodes.modify i f }

/-- `doSelectNodeNodeControllerBaseImpl` (1318-1370).  `toString` gets one character less than there is
room. -/
def Ctrl.doSelect (c : Ctrl) (i : Nat) : Res (Bool × Ctrl) := do
  if ← c.hasSelected then .ok (false, c)
  else if i ≠ UNDEF ∧ i < c.nodes.length then
    match c.nodes[i]? with
    | none => .ok (false, c)
    | some x =>
      let r := x.id.toChars (CAP - 1)
      let str := r.1 ++ c.idStr.drop (CAP - 1)
      if r.2 then
        .ok (true, { c.modify i (fun x => { x with isSelected := true, id := { x.id with index := i } }) with
          idStr := str, selected := .node i })
      else .ok (false, { c with idStr := str })
  else .ok (false, c)

/-- `doRemoveNodeFromSelection` (1016-1028) -/
def Ctrl.removeSelection (c : Ctrl) (i : Nat) : Res Ctrl := do
  if ← c.isSelectedNode i then
    .ok { c with idStr := List.replicate c.idStr.length 0, selected := .null }
  else .ok c

/-- `doUnselectNode` (927-944) -/
def Ctrl.doUnselect (c : Ctrl) (i : Nat) : Res (Bool × Ctrl) := do
  let s ← c.isSelectedNode i
  if s && c.unsel then
    let c' ← c.removeSelection i
    let t ← c'.isSelectedNode i
    .ok (!t, c')
  else .ok (false, c)

/-- How a derived controller selects a node (`doSelectNode` is virtual). -/
abbrev Select := Ctrl → Nat → Res (Bool × Ctrl)

/-- The inner part of `doChangeSelectedNode` (904-921). -/
def Ctrl.swap (sel : Select) (c : Ctrl) (cur new : Nat) : Res (Bool × Ctrl) :=
  if c.direct then do
    let c' ← c.removeSelection cur
    let t ← c'.isSelectedNode cur
    if t then .ok (false, c') else sel c' new
  else if c.unsel then do
    let s ← c.selectedIndex
    let r ← c.doUnselect s
    if r.1 then sel r.2 new else .ok r
  else .ok (false, c)

/-- `doChangeSelectedNode` (891-925) -/
def Ctrl.doChange (sel : Select) (c : Ctrl) (cur new : Nat) : Res (Bool × Ctrl) := do
  let h ← c.hasSelected
  let s1 ← c.isSelectedNode cur
  let s2 ← c.isSelectedNode new
  if h && decide (cur ≠ new) && c.isAvailable new && s1 && !s2 && (c.direct || c.unsel) then
    c.swap sel cur new
  else .ok (false, c)

/-- `selectNode` (590-614) with the (virtual) functions for selecting and changing. -/
def Ctrl.selectNodeWith (sel : Select) (chg : Ctrl → Nat → Nat → Res (Bool × Ctrl)) (c : Ctrl) (i : Nat) :
    Res (Bool × Ctrl) := do
  if ← c.hasSelected then
    if c.direct || c.unsel then do
      let cur ← c.selectedIndex
      chg c cur i
    else .ok (false, c)
  else sel c i

/-- `selectNode` of a controller that keeps the functions of the base class -/
def Ctrl.selectNode (c : Ctrl) (i : Nat) : Res (Bool × Ctrl) :=
  c.selectNodeWith Ctrl.doSelect (Ctrl.doChange Ctrl.doSelect) i

/-- `changeSelectedNode( new )` (659-664) -/
def Ctrl.changeSelected (c : Ctrl) (i : Nat) : Res (Bool × Ctrl) := do
  let cur ← c.selectedIndex
  c.doChange Ctrl.doSelect cur i

/-- `unselectNode()` (681-684) -/
def Ctrl.unselectNode (c : Ctrl) : Res (Bool × Ctrl) := do
  let cur ← c.selectedIndex
  c.doUnselect cur

/-- `unselectNode( index )` (686-702) -/
def Ctrl.unselectIndex (c : Ctrl) (i : Nat) : Res (Bool × Ctrl) := do
  let isD ← c.isDefaultNode i
  let r ← c.doUnselect i
  if r.1 && r.2.auto && !isD then do
    if ← r.2.hasDefault then
      let d ← r.2.defaultIndex
      r.2.doSelect d
    else .ok r
  else .ok r

/-- `++` on a signed 64 bit number -/
def inc (z : Int) : Res Int := if z + 1 ≤ I64MAX then .ok (z + 1) else .ub

/-- `doGetNextPlatformId` (1159-1189) -/
def nextPlatform : List Info → Int → Res Int
  | [], n => .ok n
  | x :: xs, n =>
    if x.id.valid ∧ n ≤ x.id.platform then do
      let n' ← inc x.id.platform
      nextPlatform xs n'
    else nextPlatform xs n

/-- `doGetNextDeviceIdForPlatform` (1191-1229) -/
def nextDevice (platform : Int) : List Info → Int → Res Int
  | [], n => .ok n
  | x :: xs, n =>
    if x.id.valid ∧ x.id.platform = platform ∧ (n = -1 ∨ n ≤ x.id.device) then do
      let n' ← inc x.id.device
      nextDevice platform xs n'
    else nextDevice platform xs n

/-- `doGetPlatformIdByPlatformName` (1231-1268) for a name that is not empty -/
def Ctrl.platformByName (c : Ctrl) (name : Str) : Int :=
  match c.nodes.find? (fun x => x.id.valid && decide (x.name ≠ []) && decide (x.name = name)) with
  | none => -1
  | some x => x.id.platform

/-- The ids given to a node without a valid id, 1058-1079. -/
def Ctrl.idsFor (c : Ctrl) (x : Info) : Res (Int × Int) := do
  let p := if x.name ≠ [] then c.platformByName x.name else x.id.platform
  let d ← if x.name ≠ [] ∧ p ≠ -1 then nextDevice p c.nodes (-1) else .ok x.id.device
  if p = -1 then do
    let p' ← nextPlatform c.nodes 0
    .ok (p', 0)
  else .ok (p, d)

/-- The end of `doAppendAvailableNodeInfoBase`, 1090-1111. -/
def Ctrl.push (c : Ctrl) (x : Info) : Nat × Ctrl :=
  let i := c.nodes.length
  if i ≠ UNDEF then
    (i, { c with
      nodes := c.nodes ++ [{ x with id := { x.id with index := i } }]
      min := if c.min = UNDEF ∨ i < c.min then i else c.min
      max := if c.max = UNDEF ∨ c.max < i then i else c.max })
  else (UNDEF, c)

/-- `doAppendAvailableNodeInfoBase` (1030-1113): index of the new node, or the undefined index. -/
def Ctrl.append (c : Ctrl) (x : Info) : Res (Nat × Ctrl) :=
  if x.id.valid then
    if c.find x.id.platform x.id.device = UNDEF then .ok (c.push x) else .ok (UNDEF, c)
  else do
    let pd ← c.idsFor x
    if pd.1 ≠ -1 ∧ pd.2 ≠ -1 then
      .ok (c.push { x with id := { x.id with platform := pd.1, device := pd.2 } })
    else .ok (UNDEF, c)

/-- `doSetDefaultNodeIndex` (1124-1157) -/
def Ctrl.setDefault (c : Ctrl) (i : Nat) : Ctrl :=
  if i ≠ UNDEF then
    match c.nodes[i]? with
    | none => c
    | some _ => { c.modify i (fun x => { x with
        isDefault := true
        id := { x.id with index := if x.id.index = UNDEF then i else x.id.index } }) with dflt := .node i }
  else { c with dflt := .null }

/-- What clearing the nodes does to pointers into them. -/
def Ptr.lost : Ptr → Ptr
  | .null => .null
  | _ => .dangling

/-- `doClear` (876-883): `doClearNodeControllerBaseImpl` (1292-1316) and `doClearAvailableNodes`
(1008-1014).  `resize` to the size the string has changes nothing. -/
def Ctrl.clear (c : Ctrl) : Res Ctrl := do
  let h ← c.hasSelected
  .ok { c with
    selected := if h then .null else c.selected.lost
    nodes := []
    dflt := c.dflt.lost
    min := UNDEF
    max := UNDEF }

/-- The loop of `availableNodeIndices` (268-279) with at most `steps` rounds from index `ii` on; `room`:
what is left of the array. -/
def Ctrl.listFrom (c : Ctrl) : Nat → Nat → Nat → List Nat
  | 0, _, _ => []
  | steps + 1, ii, room =>
    if ii ≤ c.max ∧ ii ≠ UNDEF ∧ 0 < room then
      if c.isAvailable ii then ii :: c.listFrom steps (ii + 1) (room - 1)
      else c.listFrom steps (ii + 1) room
    else []

/-- `availableNodeIndices` (239-283) for an array that holds `arr`: the number of indices, and the array
afterwards.  The loop ends after `max`. -/
def Ctrl.indices (c : Ctrl) (arr : List Nat) : Nat × List Nat :=
  if 0 < c.nodes.length ∧ c.nodes.length ≠ UNDEF then
    let l := c.listFrom (c.max + 1) c.min arr.length
    (l.length, l ++ List.replicate (arr.length - l.length) UNDEF)
  else (0, arr)

/-! ## The CUDA controller -/

/-- `doSelectNodeCudaImpl`, cuda/control/controller.cpp:1489-1521; `devOf` gives the device of a node,
`works` whether `cudaSetDevice` succeeds.  The configuration of the remap kernels that follows is not
modelled (it succeeds). -/
def cudaSelect (devOf : Nat → Option Nat) (works : Nat → Bool) : Select := fun c i =>
  if i < c.nodes.length then
    match devOf i with
    | none => .ok (false, c)
    | some d => if works d then { c with device := some d }.doSelect i else .ok (false, c)
  else .ok (false, c)

/-- What `CudaController::doChangeSelectedNode` does after the base class, 1135-1150. -/
def cudaAfter (devOf : Nat → Option Nat) (works : Nat → Bool) (c : Ctrl) (cur d : Nat) :
    Res (Bool × Ctrl) := do
  let st := works d
  let c' := if works d then { c with device := some d } else c
  let h ← c'.hasSelected
  if !c'.unsel && (!st || !h) then cudaSelect devOf works c' cur
  else .ok (st, c')

/-- `CudaController::doChangeSelectedNode`, 1122-1153.  The status of the base class, which is 0 for
success, is taken as a truth value. -/
def cudaChange (devOf : Nat → Option Nat) (works : Nat → Bool) (c : Ctrl) (cur new : Nat) :
    Res (Bool × Ctrl) :=
  match devOf new with
  | none => .ok (false, c)
  | some d =>
    if c.isAvailable new then do
      let r ← c.doChange (cudaSelect devOf works) cur new
      if !r.1 then cudaAfter devOf works r.2 cur d else .ok (false, r.2)
    else .ok (false, c)

/-- `selectNode` of the CUDA controller -/
def cudaSelectNode (devOf : Nat → Option Nat) (works : Nat → Bool) (c : Ctrl) (i : Nat) :
    Res (Bool × Ctrl) :=
  c.selectNodeWith (cudaSelect devOf works) (cudaChange devOf works) i

end SixTrack.NodeController

import Verif.NodeInfo
import Mathlib.Data.List.Sort

/-!
# The available OpenCL nodes

Model of `GetAllowedNodesFromEnvVariable`, `GetAllAvailableNodes` and `GetAvailableNodes`
(`/repo/sixtracklib/opencl/internal/base_context.cpp`, lines 2392-2812) and of the functions that print and count them
(`base_context.h`, lines 150-440).  Line numbers without a file are those of `base_context.cpp`.

* The platforms and devices OpenCL reports are a parameter, and so is the environment; `getenv( "" )` gives nothing.
* Texts contain no NUL.  The regular expression is matched as ECMAScript demands: from the left, `^` only at the begin.
* `malloc` may fail when a description is reserved; vectors get their memory.
* Sorting is the library's; ids that are not ordered are equal, so the result does not depend on the method.
* Assertions are compiled or not (parameter `checks`).
-/

namespace SixTrack.ClNodes

open SixTrack.Node SixTrack.CInfo

/-- How a call ends. -/
inductive Run (α : Type) where
  | ok (a : α)
  /-- an assertion has failed -/
  | aborts
  | ub
  deriving DecidableEq, Repr

/-- A device: its handle, its name and its extensions. -/
structure Device where
  handle : Nat
  name : Str
  extensions : Str
  deriving DecidableEq, Repr

/-- A platform: its name and its devices, `none` if asking for them throws. -/
structure Platform where
  name : Str
  devices : Option (List Device)
  deriving DecidableEq, Repr

abbrev Environment := Str → Option Str

/-! ## The list of allowed nodes -/

/-- `(opencl\:|2\:)?` -/
def dropArch (s : Str) : Str :=
  if s.take 7 = [111, 112, 101, 110, 99, 108, 58] then s.drop 7
  else if s.take 2 = [50, 58] then s.drop 2
  else s

/-- `(\d+\.\d+)`: the text matched and the rest -/
def number (s : Str) : Option (Str × Str) :=
  let a := s.takeWhile isDigit
  let r := s.dropWhile isDigit
  if a ≠ [] ∧ r.head? = some 46 then
    let b := r.tail.takeWhile isDigit
    if b ≠ [] then some (a ++ [46] ++ b, r.tail.dropWhile isDigit) else none
  else none

/-- `\s*\,\s*|\s*\;\s*` and the rest of the expression -/
def afterSeparator (s : Str) : Option (Str × Str) :=
  let s := s.dropWhile isSpace
  if s.head? = some 44 ∨ s.head? = some 59 then number (dropArch (s.tail.dropWhile isSpace)) else none

/-- The whole expression, 2413-2414; `start` tells whether this is the begin of the text. -/
def matchHere (start : Bool) (s : Str) : Option (Str × Str) :=
  match (if start then number (dropArch (s.dropWhile isSpace)) else none) with
  | some x => some x
  | none => afterSeparator s

/-- `std::cregex_iterator`, 2416-2427: the third groups of all matches.  `fuel` is a bound on the length of the text. -/
def allMatches : Nat → Bool → Str → List Str
  | 0, _, _ => []
  | fuel + 1, start, s =>
    match matchHere start s with
    | some (t, r) => t :: allMatches fuel false r
    | none => if s = [] then [] else allMatches fuel false s.tail

/-- The ids of the matches, 2421-2434; a match `from_string` refuses is left out. -/
def idsOf : List Str → Res (List CId)
  | [] => .ok []
  | t :: ts => do
    let r ← CId.parse ⟨-1, -1⟩ 0 t .noArch
    let rest ← idsOf ts
    if r.2.2 then .ok (r.1 :: rest) else .ok rest

/-- `cmp_node_ids`, 2438-2448 -/
def less (a b : CId) : Bool := a.platform < b.platform || (a.platform == b.platform && a.device < b.device)

/-- `std::unique` behind an element -/
def uniqueFrom (a : CId) : List CId → List CId
  | [] => [a]
  | b :: l => if a.compare b = 0 then uniqueFrom a l else a :: uniqueFrom b l

/-- `std::unique`, 2453-2459 -/
def unique : List CId → List CId
  | [] => []
  | a :: l => uniqueFrom a l

/-- `"SIXTRACKLIB_DEVICES"` -/
def DEVICES : Str :=
  [83, 73, 88, 84, 82, 65, 67, 75, 76, 73, 66, 95, 68, 69, 86, 73, 67, 69, 83]

/-- `GetAllowedNodesFromEnvVariable`, 2392-2467; the name is `none` for a null pointer. -/
def allowedNodes (env : Environment) (name : Option Str) : Res (List CId) :=
  match env (name.getD DEVICES) with
  | some text =>
    if text ≠ [] then do
      let ids ← idsOf (allMatches (text.length + 1) true text)
      .ok (unique (ids.insertionSort fun a b => !less b a))
    else .ok []
  | none => .ok []

/-! ## All nodes -/

/-- `"opencl"`, 2503 -/
def OPENCL : Str := [111, 112, 101, 110, 99, 108]

/-- `strncpy` of a text that may be empty, 2590-2600 -/
def copyNonEmpty (m : Mem) (p : Ptr) (s : Str) : Res Mem := if s ≠ [] then strncpy m p s s.length else .ok m

/-- the description of a device, 2560-2605 -/
def describe (av : Nat → Bool) (m : Mem) (platform : Str) (d : Device) (id : CId) : Res (Mem × Info) := do
  let r ← reserve av m Info.preset OPENCL.length platform.length d.name.length d.extensions.length
  if r.2.2 then do
    let m ← strncpy r.1 r.2.1.arch OPENCL OPENCL.length
    let m ← strncpy m r.2.1.name d.name d.name.length
    let m ← copyNonEmpty m r.2.1.platform platform
    let m ← copyNonEmpty m r.2.1.description d.extensions
    .ok (m, { r.2.1 with id := id })
  else .ok (r.1, r.2.1)

/-- What `GetAllAvailableNodes` gives out. -/
structure Nodes where
  devices : List Device
  ids : List CId
  infos : List Info
  deriving DecidableEq, Repr

/-- the loop over the devices of a platform, 2537-2607; `index` is the number of the device -/
def eachDevice (av : Nat → Nat → Nat → Bool) (platform : Str) (p : Nat) :
    Nat → Mem → Nodes → List Device → Res (Mem × Nodes)
  | _, m, ns, [] => .ok (m, ns)
  | index, m, ns, d :: ds => do
    let id : CId := ⟨p, index⟩
    let r ← describe (av p index) m platform d id
    eachDevice av platform p (index + 1) r.1 ⟨ns.devices ++ [d], ns.ids ++ [id], ns.infos ++ [r.2]⟩ ds

/-- the loop over the platforms, 2507-2610; `p` is the number of platforms with devices so far -/
def eachPlatform (av : Nat → Nat → Nat → Bool) : Nat → Mem → Nodes → List Platform → Res (Mem × Nodes)
  | _, m, ns, [] => .ok (m, ns)
  | p, m, ns, x :: xs => do
    let ds := x.devices.getD []
    let r ← eachDevice av x.name p 0 m ns ds
    eachPlatform av (if ds ≠ [] then p + 1 else p) r.1 r.2 xs

/-- `GetAllAvailableNodes`, 2469-2613, with vectors for ids and descriptions -/
def allNodes (av : Nat → Nat → Nat → Bool) (m : Mem) (ps : List Platform) : Res (Mem × Nodes) :=
  eachPlatform av 0 m ⟨[], [], []⟩ ps

/-! ## The nodes given out -/

/-- `ComputeNodeInfo_free` of each, 2801-2807 -/
def freeAll : Mem → List Info → Res Mem
  | m, [] => .ok m
  | m, i :: is => do
    let r ← freeInfo m i
    freeAll r.1 is

/-- `std::binary_search`, 2724-2725, in a sorted list: whether there is an id that is neither before nor behind -/
def inList (ids : List CId) (id : CId) : Bool := ids.any fun a => !less a id && !less id a

/-- the loop over all nodes, 2719-2745: the nodes given out, and the descriptions left behind -/
def select (allowed : List CId) (keepInfos : Bool) : List Device → List CId → List Info → Nodes × List Info
  | d :: ds, id :: ids, i :: is =>
    let r := select allowed keepInfos ds ids is
    if inList allowed id then
      (⟨d :: r.1.devices, id :: r.1.ids, if keepInfos then i :: r.1.infos else []⟩,
        (if keepInfos then Info.preset else i) :: r.2)
    else (r.1, i :: r.2)
  | _, _, is => (⟨[], [], []⟩, is)

/-- `"first"` and `"all"` -/
def FIRST : Str := [102, 105, 114, 115, 116]
def ALL : Str := [97, 108, 108]

/-- the nodes chosen, 2696-2790: those given out, and the descriptions to be freed -/
def choose (allowed : List CId) (list first keepInfos : Bool) (ns : Nodes) : Nodes × List Info :=
  if (if list then allowed.length else ns.devices.length) > 0 then
    if list then select allowed keepInfos ns.devices ns.ids ns.infos
    else if first then
      (⟨ns.devices.take 1, ns.ids.take 1, if keepInfos then ns.infos.take 1 else []⟩,
        (if keepInfos then [Info.preset] else ns.infos.take 1) ++ ns.infos.drop 1)
    else (⟨ns.devices, ns.ids, if keepInfos then ns.infos else []⟩, if keepInfos then [] else ns.infos)
  else (⟨[], [], []⟩, ns.infos)

/-- the text that says which nodes are allowed, 2621-2633 -/
def choice (env : Environment) (name : Option Str) : Option Str :=
  match name with
  | some n => if n ≠ [] then env n else env DEVICES
  | none => env DEVICES

/-- the rest of `GetAvailableNodes`, 2653-2811 -/
def filterNodes (env : Environment) (name : Option Str) (keepInfos : Bool) (m : Mem) (ns : Nodes) :
    Res (Mem × Nodes) :=
  if ns.devices = [] then .ok (m, ⟨[], [], []⟩)
  else do
    let text := (choice env name).getD []
    let first := decide (text = FIRST)
    let list := decide (text ≠ [] ∧ text ≠ FIRST ∧ text ≠ ALL)
    let allowed ← (if list then allowedNodes env name else .ok [])
    let r := choose allowed list first keepInfos ns
    let m ← freeAll m r.2
    .ok (m, r.1)

/-- `GetAvailableNodes`, 2615-2812; `keepInfos` tells whether there is a vector for the descriptions.  The vectors given
are cleared; descriptions in them are not freed.  Of the assertions, that of 2655 is modelled. -/
def available (checks : Bool) (env : Environment) (name : Option Str) (keepInfos : Bool)
    (av : Nat → Nat → Nat → Bool) (m : Mem) (ps : List Platform) : Run (Mem × Nodes) :=
  match allNodes av m ps with
  | .ub => .ub
  | .ok (m, ns) =>
    if checks ∧ ns.devices ≠ [] ∧ ns.devices.length < ps.length then .aborts
    else
      match filterNodes env name keepInfos m ns with
      | .ok r => .ok r
      | .ub => .ub

/-- `GET_AVAILABLE_NODES`, base_context.h:297-349, given the available ids: the ids copied to the array, of which there
are as many as the result says -/
def copyIds (ids : List CId) (maxNum skip : Nat) : List CId :=
  if 0 < maxNum then
    let n := if skip ≤ ids.length then ids.length - skip else 0
    let n := if maxNum < n then maxNum else n
    if 0 < n then (ids.drop skip).take n else []
  else []

/-- the loop of `PRINT_AVAILABLE_NODES_TO_STRING`, base_context.h:403-432: `file` tells whether `tmpfile` has succeeded;
`buf` is the array of 2048 characters. -/
def printLoop (file : Bool) : Bool → Str → Str → Mem → List Info → Res (Bool × Str × Mem)
  | printed, out, _, m, [] => .ok (printed, out, m)
  | printed, out, buf, m, i :: is => do
    let out := if printed then out ++ NEWLINE else out
    let r ← printToStr file m buf (some i) none
    let f ← freeInfo m i
    if r.2 then do
      let t ← arrayText r.1
      if 0 < t.length then printLoop file true (out ++ t) r.1 f.1 is else printLoop file printed out r.1 f.1 is
    else printLoop file printed out r.1 f.1 is

/-- `"No OpenCL Devices found\r\n"` -/
def NO_DEVICES : Str :=
  [78, 111, 32, 79, 112, 101, 110, 67, 76, 32, 68, 101, 118, 105, 99, 101, 115, 32, 102, 111, 117, 110, 100, 13, 10]

/-- `PRINT_AVAILABLE_NODES_TO_STRING`, base_context.h:380-440, given the descriptions -/
def printAll (file : Bool) (m : Mem) (infos : List Info) : Res (Str × Mem) := do
  let r ← printLoop file false [] (List.replicate 2048 0) m infos
  .ok (if r.1 then r.2.1 else r.2.1 ++ NO_DEVICES, r.2.2)

end SixTrack.ClNodes

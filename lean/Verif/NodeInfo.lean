import Verif.NodeId

/-!
# Descriptions of compute nodes

Model of `NS(ComputeNodeInfo)` (`/repo/sixtracklib/common/context/compute_arch.h`
lines 135-143 and 394-476, `compute_arch.c` lines 337-636).

* The heap is the list of the blocks there have been, `none` for a block that has
  been freed; a byte is `none` as long as it has not been written.  A pointer into
  the heap is the number of its block (all pointers point to the begin of a block).
  Freeing or writing a block that is not there, writing behind its end, and reading
  a byte that has not been written or lies behind the end are undefined behaviour.
* Whether a call of `malloc` succeeds is a parameter; the sizes `… + 1` do not wrap.
* The pointer `node_info` is not null; with a null pointer nothing is done.
-/

namespace SixTrack.CInfo

open SixTrack.Node

abbrev Block := List (Option Nat)
abbrev Mem := List (Option Block)
abbrev Ptr := Option Nat

/-- `malloc( n )`. -/
def malloc (av : Bool) (m : Mem) (n : Nat) : Mem × Ptr :=
  if av then (m ++ [some (List.replicate n none)], some m.length) else (m, none)

/-- `free( p )`. -/
def free (m : Mem) : Ptr → Res Mem
  | none => .ok m
  | some q =>
    match m[q]? with
    | some (some _) => .ok (m.set q none)
    | _ => .ub

/-- Writes bytes to the begin of a block. -/
def store (m : Mem) (p : Ptr) (bs : List Nat) : Res Mem :=
  match p with
  | none => .ub
  | some q =>
    match m[q]? with
    | some (some b) =>
      if bs.length ≤ b.length then .ok (m.set q (some (bs.map some ++ b.drop bs.length))) else .ub
    | _ => .ub

/-- `memset( p, '\0', n )`. -/
def memset0 (m : Mem) (p : Ptr) (n : Nat) : Res Mem := store m p (List.replicate n 0)

/-- `strncpy( p, s, n )`; the text `s` contains no NUL. -/
def strncpy (m : Mem) (p : Ptr) (s : Str) (n : Nat) : Res Mem :=
  store m p (s.take n ++ List.replicate (n - s.length) 0)

/-- The C string at the begin of a block. -/
def textOf : Block → Res Str
  | [] => .ub
  | none :: _ => .ub
  | some c :: b => if c = 0 then .ok [] else do
    let s ← textOf b
    .ok (c :: s)

/-- The C string a pointer points to. -/
def readStr (m : Mem) : Ptr → Res Str
  | none => .ub
  | some q =>
    match m[q]? with
    | some (some b) => textOf b
    | _ => .ub

/-- `NS(ComputeNodeInfo)` (compute_arch.h:135-143). -/
structure Info where
  id : CId
  arch : Ptr
  platform : Ptr
  name : Ptr
  description : Ptr
  deriving DecidableEq, Repr

/-- `NS(ComputeNodeInfo_preset)` (compute_arch.h:394-407). -/
def Info.preset : Info := ⟨⟨-1, -1⟩, none, none, none, none⟩

/-- A text that is there and not empty. -/
def hasText (m : Mem) (p : Ptr) : Res Bool :=
  if p = none then .ok false else do
    let s ← readStr m p
    .ok (decide (0 < s.length))

/-- No text, or one that is not empty. -/
def noneOrText (m : Mem) (p : Ptr) : Res Bool :=
  if p = none then .ok true else hasText m p

/-- `NS(ComputeNodeInfo_is_valid)` (compute_arch.h:409-424). -/
def Info.valid (m : Mem) (i : Info) : Res Bool :=
  if i.id.valid then do
    if ← hasText m i.arch then
      if ← hasText m i.name then
        if ← noneOrText m i.platform then noneOrText m i.description
        else .ok false
      else .ok false
    else .ok false
  else .ok false

/-- `NS(ComputeNodeInfo_free)` (compute_arch.c:339-348). -/
def freeInfo (m : Mem) (i : Info) : Res (Mem × Info) := do
  let m ← free m i.arch
  let m ← free m i.platform
  let m ← free m i.name
  let m ← free m i.description
  .ok (m, Info.preset)

/-- A cleared block for a text of the given length, none for the length 0
(compute_arch.c:379-403). -/
def zeroed (av : Bool) (m : Mem) (len : Nat) : Res (Mem × Ptr) :=
  if 0 < len then
    let r := malloc av m (len + 1)
    if r.2 ≠ none then do
      let m ← memset0 r.1 r.2 (len + 1)
      .ok (m, r.2)
    else .ok r
  else .ok (m, none)

/-- `NS(ComputeNodeInfo_reserve)` (compute_arch.c:357-435); `av k` tells whether the
`k`-th call of `malloc` succeeds.  Result: memory, info, and whether the pointer
returned is not null. -/
def reserve (av : Nat → Bool) (m : Mem) (i : Info) (archLen platformLen nameLen descLen : Nat) :
    Res (Mem × Info × Bool) :=
  if 0 < archLen ∧ 0 < nameLen then do
    let a := malloc (av 0) m (archLen + 1)
    let n := malloc (av 1) a.1 (nameLen + 1)
    let p ← zeroed (av 2) n.1 platformLen
    let d ← zeroed (av 3) p.1 descLen
    if a.2 ≠ none ∧ n.2 ≠ none ∧ (platformLen = 0 ∨ p.2 ≠ none) ∧ (descLen = 0 ∨ d.2 ≠ none) then do
      let f ← freeInfo d.1 i
      let m ← memset0 f.1 a.2 (archLen + 1)
      let m ← memset0 m n.2 (nameLen + 1)
      .ok (m, { f.2 with arch := a.2, name := n.2, platform := p.2, description := d.2 }, true)
    else do
      let m ← free d.1 a.2
      let m ← free m n.2
      let m ← free m p.2
      let m ← free m d.2
      .ok (m, i, false)
  else .ok (m, i, false)

/-- `strlen`, 0 for a null pointer (compute_arch.c:447-454). -/
def len (s : Option Str) : Nat := (s.getD []).length

/-- `strncpy` of a text that may be empty (compute_arch.c:479-499). -/
def copyText (m : Mem) (p : Ptr) (s : Option Str) : Res Mem :=
  if 0 < len s then strncpy m p (s.getD []) (len s) else .ok m

/-- `NS(ComputeNodeInfo_make)` (compute_arch.c:437-504).  The lengths of the name and
of the platform are handed to `reserve` in the wrong order. -/
def make (av : Nat → Bool) (m : Mem) (i : Info) (id : CId) (arch platform name description : Option Str) :
    Res (Mem × Info × Bool) :=
  if 0 < len arch ∧ 0 < len name ∧ (0 < len platform ∨ platform = none) ∧
      (0 < len description ∨ description = none) then do
    let r ← reserve av m i (len arch) (len name) (len platform) (len description)
    if r.2.2 then do
      let m ← strncpy r.1 r.2.1.arch (arch.getD []) (len arch)
      let m ← strncpy m r.2.1.name (name.getD []) (len name)
      let m ← copyText m r.2.1.platform platform
      let m ← copyText m r.2.1.description description
      .ok (m, { r.2.1 with id := id }, true)
    else .ok (r.1, r.2.1, false)
  else .ok (m, i, false)

/-- `%-10s`. -/
def pad10 (s : Str) : Str := s ++ List.replicate (10 - s.length) 32

/-- `"Device ID Str  : "`. -/
def LABEL_ID : Str := [68, 101, 118, 105, 99, 101, 32, 73, 68, 32, 83, 116, 114, 32, 32, 58, 32]
/-- `" [DEFAULT]"`. -/
def LABEL_DEFAULT : Str := [32, 91, 68, 69, 70, 65, 85, 76, 84, 93]
/-- `"\r\nArchitecture   : "`. -/
def LABEL_ARCH : Str := [13, 10, 65, 114, 99, 104, 105, 116, 101, 99, 116, 117, 114, 101, 32, 32, 32, 58, 32]
/-- `"\r\nPlatform       : "`. -/
def LABEL_PLATFORM : Str := [13, 10, 80, 108, 97, 116, 102, 111, 114, 109, 32, 32, 32, 32, 32, 32, 32, 58, 32]
/-- `"\r\nName           : "`. -/
def LABEL_NAME : Str := [13, 10, 78, 97, 109, 101, 32, 32, 32, 32, 32, 32, 32, 32, 32, 32, 32, 58, 32]
/-- `"\r\n"`. -/
def NEWLINE : Str := [13, 10]
/-- `"n/a"`. -/
def NOT_AVAILABLE : Str := [110, 47, 97]

/-- A text or `n/a` (compute_arch.c:537-567). -/
def textOrNone (m : Mem) (p : Ptr) : Res Str :=
  if p ≠ none then do
    let s ← readStr m p
    .ok (pad10 s)
  else .ok NOT_AVAILABLE

/-- The printed id (compute_arch.c:517-526): an array of 16 characters, which holds
the NUL; whether printing has succeeded is not looked at. -/
def idText (n : CId) : Str := cstr (n.formatted (List.replicate 16 0) ARCH_NONE .noArch).1

/-- The mark of the default node (compute_arch.c:528-532). -/
def mark (id : CId) : Option CId → Str
  | some k => if id.compare k = 0 then LABEL_DEFAULT else []
  | none => []

/-- `NS(ComputeNodeInfo_print)` (compute_arch.c:508-572) to an open file: the text
printed. -/
def print (m : Mem) (i : Info) (dflt : Option CId) : Res Str := do
  let a ← textOrNone m i.arch
  let p ← textOrNone m i.platform
  let n ← textOrNone m i.name
  .ok (LABEL_ID ++ pad10 (idText i.id) ++ mark i.id dflt ++ LABEL_ARCH ++ a ++ LABEL_PLATFORM ++ p ++ LABEL_NAME ++ n ++
    NEWLINE)

/-- `NS(ComputeNodeInfo_print_to_str)` (compute_arch.c:581-634) to an array of `cap`
characters that is there; `file` tells whether `tmpfile` has succeeded, reading and
writing the file succeeds.  Result: the array (all of its characters) and whether the
status is `SUCCESS`; `buf` is the array before. -/
def printToStr (file : Bool) (m : Mem) (buf : Str) (i : Option Info) (dflt : Option CId) :
    Res (Str × Bool) :=
  if 0 < buf.length then
    let z : Str := List.replicate buf.length 0
    if file then do
      let t ← (match i with
        | some i => print m i dflt
        | none => .ok [])
      if 0 < t.length ∧ t.length ≤ buf.length then .ok (t ++ z.drop t.length, true) else .ok (z, false)
    else .ok (z, false)
  else .ok (buf, false)

/-- An array of characters read as a C string. -/
def arrayText (buf : Str) : Res Str := textOf (buf.map some)

end SixTrack.CInfo

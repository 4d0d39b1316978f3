import Verif.Basic

/-!
# Node ids and their printed form

Model of `/repo/sixtracklib/common/control/node_id.cpp` (lines 46-50, 90-265)
and of the older `/repo/sixtracklib/common/context/compute_arch.{h,c}`
(`NS(ComputeNodeId)`, compute_arch.h:358-420, compute_arch.c:77-283).

* A C string is the list of its character codes without the terminating NUL.
* `printf` and `operator<<` print integers in decimal (classic locale).
* `scanf` conversions `%d`, `%lld`, `%llu` skip white space, take an optional
  sign and as many digits as there are.  A value that does not fit the type of
  the argument is undefined behaviour (C11 7.21.6.2p10).
-/

namespace SixTrack.Node

abbrev Str := List Nat

/-- Decimal digits of a natural number. -/
def digits (n : Nat) : Str :=
  if n < 10 then [48 + n] else digits (n / 10) ++ [48 + n % 10]
termination_by n

/-- Decimal form of an integer (`%d`, `%lld`, `operator<<`). -/
def printInt (z : Int) : Str := if z < 0 then 45 :: digits z.natAbs else digits z.natAbs

def isSpace (c : Nat) : Bool := c == 32 || (9 ≤ c && c ≤ 13)

def isDigit (c : Nat) : Bool := 48 ≤ c && c ≤ 57

/-- Value of a list of digits. -/
def digitsVal (ds : Str) : Nat := ds.foldl (fun a d => 10 * a + (d - 48)) 0

/-- One integer conversion of `scanf` for a type with the range `lo … hi`; gives
the value and the rest of the input, `none` for a matching or input failure.
(For an unsigned type a minus sign negates modulo the width; this is not modelled:
`lo = 0` makes it undefined.) -/
def scanInt (lo hi : Int) (s : Str) : Res (Option (Int × Str)) :=
  let s := s.dropWhile isSpace
  let neg := s.head? = some 45
  let s := if s.head? = some 45 ∨ s.head? = some 43 then s.tail else s
  let ds := s.takeWhile isDigit
  if ds = [] then .ok none
  else
    let v : Int := if neg then -(digitsVal ds : Int) else digitsVal ds
    if lo ≤ v ∧ v ≤ hi then .ok (some (v, s.dropWhile isDigit)) else .ub

/-- `sscanf( s, "%X.%X", &a, &b ) == 2` for integer conversions `%X`. -/
def scanPair (lo hi : Int) (s : Str) : Res (Option (Int × Int)) := do
  match ← scanInt lo hi s with
  | none => .ok none
  | some (a, s) =>
    if s.head? = some 46 then do
      match ← scanInt lo hi s.tail with
      | none => .ok none
      | some (b, _) => .ok (some (a, b))
    else .ok none

def I64MIN : Int := -2 ^ 63
def I64MAX : Int := 2 ^ 63 - 1
def I32MIN : Int := -2 ^ 31
def I32MAX : Int := 2 ^ 31 - 1

/-- `NodeId` (node_id.hpp); the index is not part of the printed form. -/
structure Id where
  platform : Int
  device : Int
  index : Nat
  deriving DecidableEq, Repr

/-- `NodeId::valid` (node_id.cpp:46-50); the illegal ids are -1
(definitions.h:439-443). -/
def Id.valid (n : Id) : Bool := n.platform ≠ -1 && n.device ≠ -1

/-- `operator<<` (node_id.cpp:283-288). -/
def Id.print (n : Id) : Str := printInt n.platform ++ [46] ++ printInt n.device

/-- `NodeId::toString()` (node_id.cpp:90-100). -/
def Id.toString (n : Id) : Str := if n.valid then n.print else []

/-- `NodeId::toString( char*, capacity )` (node_id.cpp:102-129): the contents of
the buffer (all of its `cap` characters) and whether the status is `SUCCESS`.
The buffer pointer is not null. -/
def Id.toChars (n : Id) (cap : Nat) : Str × Bool :=
  let buf := List.replicate cap 0
  if n.valid && n.print.length < cap then (n.print ++ buf.drop n.print.length, true)
  else (buf, false)

/-- Contents of the buffer as a C string. -/
def cstr (buf : Str) : Str := buf.takeWhile (· ≠ 0)

/-- `snprintf( buf, size, … )` of the text `s`: at most `size - 1` characters are
stored, followed by a NUL; the result is the length of `s`. -/
def snprintf (buf : Str) (size : Nat) (s : Str) : Str × Nat :=
  if size = 0 then (buf, s.length)
  else (s.take (size - 1) ++ 0 :: buf.drop ((s.take (size - 1)).length + 1), s.length)

/-- `static_cast< int >` of a 64-bit integer (implementation defined, modulo 2³²
everywhere). -/
def toInt32 (z : Int) : Int := (z + 2 ^ 31) % 2 ^ 32 - 2 ^ 31

/-- `(unsigned)` of a 64-bit integer. -/
def toUInt32 (z : Int) : Nat := (z % 2 ^ 32).toNat

/-- Formats (definitions.h:172-190). -/
inductive Fmt | noArch | archId | archStr | illegal
  deriving DecidableEq, Repr

def ARCH_NONE : Nat := 0
def ARCH_CPU : Nat := 1
def ARCH_OPENCL : Nat := 2
def ARCH_CUDA : Nat := 3
def ARCH_ILLEGAL : Nat := 0x3FF

/-- "cpu", "opencl" and "cuda" (definitions.h:72-90), otherwise empty. -/
def archName (a : Nat) : Str :=
  if a = ARCH_CPU then [99, 112, 117]
  else if a = ARCH_OPENCL then [111, 112, 101, 110, 99, 108]
  else if a = ARCH_CUDA then [99, 117, 100, 97]
  else []

/-- `NodeId::to_string( char*, capacity, arch_id, format )`
(node_id.cpp:131-212).  `static_cast< unsigned >( arch_id )` does not change the
ids in use. -/
def Id.formatted (n : Id) (buf : Str) (arch : Nat) (f : Fmt) : Str × Bool :=
  if 0 < buf.length ∧ f ≠ .illegal ∧ n.valid then
    let nn := buf.length - 1
    let body := printInt (toInt32 n.platform) ++ [46] ++ printInt (toInt32 n.device)
    let r : Str × Nat :=
      match f with
      | .noArch => snprintf buf nn body
      | .archId => if arch ≠ ARCH_ILLEGAL ∧ arch ≠ ARCH_NONE then
          snprintf buf nn (digits arch ++ [58] ++ body) else (buf, 0)
      | .archStr => if arch ≠ ARCH_ILLEGAL ∧ arch ≠ ARCH_NONE ∧ archName arch ≠ [] then
          snprintf buf nn (archName arch ++ [58] ++ body) else (buf, 0)
      | .illegal => (buf, 0)
    (r.1, decide (0 < r.2 ∧ r.2 ≤ nn))
  else (buf, false)

/-- `NodeId::fromString` (node_id.cpp:214-248). -/
def Id.fromString (n : Id) (s : Str) : Res (Id × Bool) :=
  if s = [] then .ok (n, false)
  else do
    match ← scanPair I64MIN I64MAX s with
    | none => .ok (n, false)
    | some (p, d) =>
      if p ≠ -1 ∧ d ≠ -1 then .ok ({ n with platform := p, device := d }, true)
      else .ok (n, false)

/-- `NodeId::operator<` (node_id.cpp:250-256). -/
def Id.less (a b : Id) : Bool :=
  a.platform < b.platform || (a.platform == b.platform && a.device < b.device)

/-- `compareNodeIds` (node_id.cpp:290-294). -/
def Id.compare (a b : Id) : Int := if a.less b then -1 else if b.less a then 1 else 0

/-- `NS(ComputeNodeId)` (compute_arch.h:24-29). -/
structure CId where
  platform : Int
  device : Int
  deriving DecidableEq, Repr

/-- `NS(ComputeNodeId_is_valid)` (compute_arch.h:355-361). -/
def CId.valid (n : CId) : Bool := n.platform ≠ -1 && n.device ≠ -1

/-- `NS(ComputeNodeId_compare)` (compute_arch.h:363-408). -/
def CId.compare (a b : CId) : Int :=
  if a.valid && b.valid then
    if a.platform = b.platform then
      if a.device = b.device then 0 else if a.device > b.device then 1 else -1
    else if a.platform > b.platform then 1 else -1
  else if a.valid then 1 else -1

/-- `NS(ComputeNodeId_to_string_with_format)` (compute_arch.c:189-283); the
buffer is cleared and the whole capacity is given to `snprintf`. -/
def CId.formatted (n : CId) (buf : Str) (arch : Nat) (f : Fmt) : Str × Bool :=
  if n.valid ∧ 0 < buf.length ∧ f ≠ .illegal then
    let z : Str := List.replicate buf.length 0
    let body := digits (toUInt32 n.platform) ++ [46] ++ digits (toUInt32 n.device)
    let archOk := arch ≠ ARCH_ILLEGAL ∧ arch ≠ ARCH_NONE
    match f with
    | .noArch =>
      let r := snprintf z buf.length body
      (r.1, decide (r.2 < buf.length))
    | .archId =>
      if archOk then
        let r := snprintf z buf.length (digits arch ++ [58] ++ body)
        (r.1, decide (r.2 < buf.length))
      else (z, false)
    | .archStr =>
      if archOk then
        let r := snprintf z buf.length (archName arch ++ [58] ++ body)
        (r.1, decide (r.2 < buf.length))
      else (z, false)
    | .illegal => (z, false)
  else (buf, false)

/-- Architecture with the given name, `ILLEGAL` if there is none
(compute_arch.c:131-156). -/
def archOfName (s : Str) : Nat :=
  if s = archName ARCH_CPU then ARCH_CPU
  else if s = archName ARCH_OPENCL then ARCH_OPENCL
  else if s = archName ARCH_CUDA then ARCH_CUDA
  else ARCH_ILLEGAL

/-- `NS(ComputeNodeId_from_string_with_format)` (compute_arch.c:85-177), called
with a place for the architecture.  Result: id, architecture, success. -/
def CId.parse (n : CId) (arch : Nat) (s : Str) (f : Fmt) : Res (CId × Nat × Bool) :=
  if s ≠ [] ∧ f ≠ .illegal then do
    let r ← (match f with
      | .noArch => do
        match ← scanPair I32MIN I32MAX s with
        | none => Res.ok none
        | some (p, d) => Res.ok (some (ARCH_ILLEGAL, p, d))
      | .archId => do
        match ← scanInt 0 (2 ^ 64 - 1) s with
        | none => Res.ok none
        | some (a, s) =>
          if s.head? = some 58 then do
            match ← scanPair I32MIN I32MAX s.tail with
            | none => Res.ok none
            | some (p, d) => Res.ok (some (a.toNat, p, d))
          else Res.ok none
      | .archStr => do
        -- `%31[^:]`
        let name := (s.takeWhile (· ≠ 58)).take 31
        if name = [] then Res.ok none
        else
          let s := s.drop name.length
          if s.head? = some 58 then do
            match ← scanPair I32MIN I32MAX s.tail with
            | none => Res.ok none
            | some (p, d) => Res.ok (some (archOfName name, p, d))
          else Res.ok none
      | .illegal => Res.ok none)
    match r with
    | none => .ok (n, arch, false)
    | some (a, p, d) =>
      if 0 ≤ p ∧ 0 ≤ d then .ok (⟨p, d⟩, a, true) else .ok (n, arch, false)
  else .ok (n, arch, false)

end SixTrack.Node

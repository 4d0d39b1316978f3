import Verif.Basic

/-!
# Track-job buffer stores

Model of `/repo/sixtracklib/common/track/track_job_buffer_store.cpp`.

* Buffers are numbered; `alive` tells which have been created and not deleted.
  A C++ buffer is derived from the C buffer, `getCApiPtr` gives the same object
  (buffer.hpp:146), so that one number stands for both pointers.
* Only pointers are modelled, not the contents of the buffers.
* Allocation does not fail (it throws).
-/

namespace SixTrack.BStore

/-- The members of `TrackJobBufferStore` (track_job_buffer_store.h:139-141). -/
structure Store where
  cxx : Option Nat
  c99 : Option Nat
  own : Option Nat
  deriving DecidableEq, Repr

/-- A store as the constructors leave it before they call `reset`
(track_job_buffer_store.cpp:41-83). -/
def Store.empty : Store := ⟨none, none, none⟩

/-- All stores of a program, and the buffers. -/
structure World where
  next : Nat
  alive : Nat → Bool
  st : Nat → Store

/-- `active()` (track_job_buffer_store.cpp:162-178). -/
def Store.active (s : Store) : Bool := s.c99.isSome

/-- `owns_buffer()` (track_job_buffer_store.cpp:180-184). -/
def Store.ownsBuffer (s : Store) : Bool := s.active && s.own.isSome

/-- `new Buffer`. -/
def World.new (w : World) : World :=
  { w with next := w.next + 1, alive := fun b => if b = w.next then true else w.alive b }

/-- `delete` of what a `unique_ptr` holds; deleting twice is undefined. -/
def World.free (w : World) : Option Nat → Res World
  | none => .ok w
  | some b =>
    if w.alive b then .ok { w with alive := fun c => if c = b then false else w.alive c } else .ub

def World.put (w : World) (i : Nat) (s : Store) : World :=
  { w with st := fun j => if j = i then s else w.st j }

/-- Give store `i` the own buffer `own`, and delete the one it had
(`m_own_buffer.reset`, or assignment of a `unique_ptr`); the raw pointers are set
as given. -/
def World.setOwn (w : World) (i : Nat) (cxx c99 own : Option Nat) : Res World := do
  let w' ← w.free (w.st i).own
  return w'.put i ⟨cxx, c99, own⟩

/-- The operations. -/
inductive Op
  /-- `reset( capacity, flags )` (track_job_buffer_store.cpp:214-230). -/
  | resetNew (i : Nat)
  /-- `reset( cxx_buffer, take_ownership )` (232-251). -/
  | resetCxx (i : Nat) (b : Option Nat) (take : Bool)
  /-- `reset( c99_buffer, take_ownership, delete_ptr_after_move )` (253-283). -/
  | resetC99 (i : Nat) (b : Option Nat) (take del : Bool)
  /-- `reset( std::unique_ptr && )` (285-293). -/
  | resetUnique (i : Nat) (b : Option Nat)
  /-- `reset( buffer_t && )` (295-306). -/
  | resetMove (i b : Nat)
  /-- `clear()` (207-212). -/
  | clear (i : Nat)
  /-- `TrackJobBufferStore( TrackJobBufferStore const& )` (85-105); store `i` is new. -/
  | copyNew (i j : Nat)
  /-- `TrackJobBufferStore( TrackJobBufferStore&& )` (107-127); store `i` is new. -/
  | moveNew (i j : Nat)
  /-- `operator=( TrackJobBufferStore const& )` (129-151). -/
  | copyAssign (i j : Nat)
  /-- `operator=( TrackJobBufferStore&& )` (153-164). -/
  | moveAssign (i j : Nat)
  /-- `~TrackJobBufferStore() = default`. -/
  | destroy (i : Nat)
  deriving DecidableEq, Repr

/-- One operation. -/
def step (w : World) : Op → Res World
  | .resetNew i => w.new.setOwn i (some w.next) (some w.next) (some w.next)
  | .resetCxx i b take =>
    match b with
    | none => .ok w
    | some b =>
      if (w.st i).cxx ≠ some b then
        if take then w.setOwn i (some b) (some b) (some b)
        else w.setOwn i (some b) (some b) none
      else .ok w
  | .resetC99 i b take del =>
    match b with
    | none => .ok w
    | some b =>
      if (w.st i).c99 ≠ some b then
        if take then do
          -- MAKE_FROM_CBUFFER_AND_TAKE_OWNERSHIP (buffer.hpp:372-402): the contents
          -- move to a new buffer, and the C buffer is deleted if asked for
          let w1 := w.new
          let w2 ← (if del then w1.free (some b) else .ok w1)
          w2.setOwn i (some w.next) (some w.next) (some w.next)
        else w.setOwn i none (some b) none
      else .ok w
  | .resetUnique i b => w.setOwn i b b b
  | .resetMove i b =>
    if (w.st i).cxx ≠ some b then w.new.setOwn i (some w.next) (some w.next) (some w.next)
    else .ok w
  | .clear i => w.setOwn i none none none
  | .copyNew i j =>
    if (w.st j).ownsBuffer then .ok (w.new.put i ⟨some w.next, some w.next, some w.next⟩)
    else .ok (w.put i ⟨(w.st j).cxx, (w.st j).c99, none⟩)
  | .moveNew i j =>
    -- the member initialisers take everything; `other` does not own a buffer any more
    let s := w.st j
    .ok ((w.put j { s with own := none }).put i s)
  | .copyAssign i j =>
    if i ≠ j then
      if (w.st j).ownsBuffer then w.new.setOwn i (some w.next) (some w.next) (some w.next)
      else .ok (w.put i ⟨(w.st j).cxx, (w.st j).c99, (w.st i).own⟩)
    else .ok w
  | .moveAssign i j =>
    if i ≠ j then do
      let s := w.st j
      let w1 ← w.setOwn i s.cxx s.c99 s.own
      return w1.put j { s with own := none }
    else .ok w
  | .destroy i => w.setOwn i none none none

/-- A history. -/
def run (w : World) : List Op → Res World
  | [] => .ok w
  | o :: rest => do
    let w' ← step w o
    run w' rest

end SixTrack.BStore

import Verif.Particles

/-!
# Addresses of particle sets

Model of `/repo/sixtracklib/common/particles/particles_addr.h` and `particles_addr.c`: records that
hold the addresses of the arrays of a particle set, and buffers of such records.
-/

namespace SixTrack.ParticlesAddr
open Particles

/-- `struct ParticlesAddr`, particles_addr.h:27-55: number of particles and the address of every
array.  `struct Particles` (particles.h:44-71) holds pointers in their place and is modelled by the same
structure; casting between pointers and `buffer_addr_t` keeps the value. -/
structure Rec where
  num : Int
  addr : Field → Nat

/-- `r->f_addr = a` -/
def Rec.set (r : Rec) (f : Field) (a : Nat) : Rec :=
  { r with addr := fun g => if g = f then a else r.addr g }

/-- The fields in the order of particles_addr.h:390-413 (`clear`), 598-621 (`assign_from_particles`),
666-689 (`assign_to_particles`), 727-747 and 753-793 (`remap_addresses`), 465-574 (`compare_values`). -/
def fields : List Field :=
  [.q0, .mass0, .beta0, .gamma0, .p0c, .s, .x, .y, .px, .py, .zeta, .psigma, .delta, .rpp, .rvv, .chi,
    .chargeRatio, .particleId, .atElementId, .atTurn, .state]

/-- `ParticlesAddr_clear`, particles_addr.h:382-415; the number of particles stays. -/
def clear (r : Rec) : Rec := fields.foldl (fun r f => r.set f 0) r

/-- `ParticlesAddr_preset`, particles_addr.h:369-380 -/
def preset (r : Rec) : Rec := clear { r with num := 0 }

/-- `ParticlesAddr_assign_from_particles`, particles_addr.h:588-625 -/
def assignFrom (r p : Rec) : Rec := fields.foldl (fun r f => r.set f (p.addr f)) { r with num := p.num }

/-- `ParticlesAddr_assign_to_particles`, particles_addr.h:627-691; returns the particles. -/
def assignTo (r p : Rec) : Rec := fields.foldl (fun p f => p.set f (r.addr f)) { p with num := r.num }

/-- `ParticlesAddr_remap_addresses`, particles_addr.h:693-797.  Adding wraps (unsigned); `-addr_offset`
is undefined for the smallest offset. -/
def remap (r : Rec) (off : Int) : Res Rec :=
  if off = 0 ∨ fields.any (fun f => r.addr f == 0) = true then .ok r
  else if off > 0 then
    .ok (fields.foldl (fun q f => q.set f ((q.addr f + off.toNat) % 2 ^ 64)) r)
  else do
    let a ← i64 (-off)
    pure (fields.foldl
      (fun q f => q.set f (if q.addr f ≥ a.toNat then q.addr f - a.toNat else 0)) r)

/-- one step of the comparison: the result so far is kept unless it is 0 -/
def cmpStep (l r : Rec) (c : Int) (f : Field) : Int :=
  if c = 0 ∧ l.addr f ≠ r.addr f then if l.addr f > r.addr f then 1 else -1 else c

/-- `ParticlesAddr_compare_values`, particles_addr.h:452-583; `none` is a null pointer. -/
def compare : Option Rec → Option Rec → Int
  | some l, some r => fields.foldl (cmpStep l r)
      (if l.num = r.num then 0 else if l.num > r.num then 1 else -1)
  | some _, none => 1
  | none, _ => -1

/-! ## Buffers

An object of a particles buffer is `some p` for a set with particles (its pointers as a `Rec`), `none`
otherwise (`BufferIndex_get_const_particles`, particles.h:2652-2669).  An object of an address buffer is
`some r` for a `ParticlesAddr`, `none` otherwise (`BufferIndex_get_const_particles_addr`, 895-912). -/

/-- `ParticlesAddr_new` as an object, particles_addr.h:1238-1256 -/
def newRec (n : Int) : Rec := { preset ⟨0, fun _ => 0⟩ with num := n }

/-- The loop of `ParticlesAddr_prepare_buffer_based_on_particles_buffer`, particles_addr.c:92-116;
`alloc` tells which of the additions find memory, `k` counts them.  Returns the number of sets found and
the objects of the address buffer. -/
def prepareLoop (alloc : Nat → Bool) : List (Option Rec) → Nat → Nat × List (Option Rec)
  | [], _ => (0, [])
  | p :: ps, k =>
    let r := prepareLoop alloc ps (k + 1)
    if alloc k then
      (r.1 + (if p.isSome then 1 else 0), some (newRec (p.elim 0 Rec.num)) :: r.2)
    else r

/-- `ParticlesAddr_prepare_buffer_based_on_particles_buffer`, particles_addr.c:62-126; the
address buffer is emptied first. -/
def prepare (alloc : Nat → Bool) (pb : List (Option Rec)) : Int × List (Option Rec) :=
  let r := prepareLoop alloc pb 0
  (if r.1 = (pb.filter Option.isSome).length ∧ pb.length = r.2.length then SUCCESS else FAILURE, r.2)

/-- `Particles_managed_buffer_store_addresses`, particles_addr.h:954-985; the index is not checked. -/
def store (ab pb : List (Option Rec)) (i : Nat) : Res (Int × List (Option Rec)) :=
  match ab[i]? with
  | none => .ub
  | some none => .ok (FAILURE, ab)
  | some (some r) =>
    match pb[i]? with
    | none => .ub
    | some (some p) => .ok (SUCCESS, ab.set i (some (assignFrom r p)))
    | some none => .ok (SUCCESS, ab.set i (some (preset r)))

/-- The loop of `store_all_addresses`, particles_addr.h:1081-1089: `n` objects remain. -/
def storeLoop (pb : List (Option Rec)) : Nat → Nat → List (Option Rec) → Int →
    Res (Int × List (Option Rec))
  | 0, _, ab, st => .ok (st, ab)
  | n + 1, i, ab, _ => do
    let r ← store ab pb i
    if r.1 = SUCCESS then storeLoop pb n (i + 1) r.2 r.1 else pure r

/-- `Particles_managed_buffer_store_all_addresses`, particles_addr.h:1065-1093 -/
def storeAll (ab pb : List (Option Rec)) : Res (Int × List (Option Rec)) :=
  if pb.length > 0 ∧ pb.length = ab.length then storeLoop pb pb.length 0 ab FAILURE
  else .ok (FAILURE, ab)

/-- `ParticlesAddr_managed_buffer_all_remap_addresses`, particles_addr.h:814-831 -/
def remapAll : List (Option Rec) → Int → Res (List (Option Rec))
  | [], _ => .ok []
  | none :: ab, off => do
    let rest ← remapAll ab off
    pure (none :: rest)
  | some r :: ab, off => do
    let r' ← remap r off
    let rest ← remapAll ab off
    pure (some r' :: rest)

/-- The loop of `ParticlesAddr_managed_buffer_all_compare`, particles_addr.h:869-882. -/
def compareLoop : List (Option Rec) → List (Option Rec) → Int
  | l :: ls, r :: rs => if compare l r ≠ 0 then compare l r else compareLoop ls rs
  | _, _ => 0

/-- `ParticlesAddr_managed_buffer_all_compare`, particles_addr.h:851-890 -/
def compareAll (ls rs : List (Option Rec)) : Int :=
  if ls.length = rs.length then compareLoop ls rs
  else if ls.length > rs.length then 1 else -1

/-- `ParticlesAddr_buffer_clear_all`, particles_addr.h:1185-1217 -/
def clearAll (ab : List (Option Rec)) : Int × List (Option Rec) :=
  (if (ab.filter Option.isSome).length > 0 then SUCCESS else FAILURE, ab.map (Option.map clear))

end SixTrack.ParticlesAddr

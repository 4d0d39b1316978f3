import Verif.Buffer.FileLemmas

/-!
# Objects in buffers

What a client sees: the objects it has added, in terms of the lookup function and of
reads of the memory, and the histories of calls by which a buffer comes about.
-/

namespace SixTrack.Buf

open MemPool (Pool Alloc)

/-! ## What the client sees -/

/-- An object as it is given to `NS(Buffer_add_object)`: type, bytes of the handle,
attributes (position of the pointer in the handle, size and number of elements) and bytes
of the attributes. -/
structure Obj where
  typeId : Nat
  size : Nat
  attrs : List AttrSpec
  handle : Nat → UInt8
  data : AttrSpec → Nat → UInt8

/-- Number of bytes, rounded up to slots. -/
def Obj.total (o : Obj) : Nat :=
  (o.size + 7) / 8 * 8 + (o.attrs.map fun a => (a.count * a.size + 7) / 8 * 8).sum

/-- Byte `j` of the handle does not belong to the pointer to an attribute. -/
def Obj.plain (o : Obj) (j : Nat) : Prop := ∀ a ∈ o.attrs, j < a.off ∨ a.off + 8 ≤ j

/-- What the client guarantees: a handle, pointers inside of it at multiples of 8, all
different; less than 2^62 bytes altogether. -/
structure Obj.Ok (o : Obj) : Prop where
  pos : 0 < o.size
  off : ∀ a ∈ o.attrs, a.off % 8 = 0 ∧ a.off + 8 ≤ o.size
  ne : o.attrs.Pairwise fun a b => a.off ≠ b.off
  typ : o.typeId < W
  lim : o.total + 8 * o.attrs.length < 2 ^ 62

/-- Reading one byte. -/
def Mem.read (m : Mem) (a : Nat) : Res UInt8 := if m.valid a 1 then .ok (m.byte a) else .ub

/-- The client has the object in memory, at `src`, outside of the buffer.  Attributes which
are given by a null pointer are zero. -/
structure Given (s : St) (src : Nat) (o : Obj) : Prop where
  nz : src ≠ 0
  handle : s.mem.ext s.pool.buffer src o.size
  bytes : ∀ j, j < o.size → o.plain j → s.mem.byte (src + j) = o.handle j
  attrs : ∀ a ∈ o.attrs, (s.mem.word (src + a.off) = 0 ∧ ∀ j, j < a.count * a.size → o.data a j = 0) ∨
    (s.mem.word (src + a.off) ≠ 0 ∧ s.mem.ext s.pool.buffer (s.mem.word (src + a.off)) (a.count * a.size) ∧
      ∀ j, j < a.count * a.size → s.mem.byte (s.mem.word (src + a.off) + j) = o.data a j)

/-- Looking up index `i` gives the object: its record has the type and the size, the handle
has the bytes, and the pointers in the handle lead to the attributes. -/
def Stored (s : St) (i : Nat) (o : Obj) : Prop :=
  ∃ r p, bufGetObject s i = .ok r ∧ r ≠ 0 ∧ s.mem.load64 r = .ok p ∧
    s.mem.load64 (r + 8) = .ok o.typeId ∧ s.mem.load64 (r + 16) = .ok o.total ∧
    (∀ j, j < o.size → o.plain j → s.mem.read (p + j) = .ok (o.handle j)) ∧
    ∀ a ∈ o.attrs, ∃ q, s.mem.load64 (p + a.off) = .ok q ∧ q ≠ 0 ∧
      ∀ j, j < a.count * a.size → s.mem.read (q + j) = .ok (o.data a j)

/-- The buffer holds exactly the objects `os`, in this order. -/
structure Holds (s : St) (os : List Obj) : Prop where
  num : numEntities s.mem s.buf.dataAddr 4 s.buf.slot = .ok os.length
  cached : s.buf.numObjects = os.length
  objs : ∀ (i : Nat) (o : Obj), os[i]? = some o → Stored s i o

/-- The bytes of the buffer as they are written to a file, plainly or with another base address; `A` is the
base address in the file. -/
def Written (s : St) (file : List UInt8) (A : Nat) : Prop :=
  (writeToFp s = .ok (some file) ∧ A = s.buf.dataAddr) ∨
  (A ≠ 0 ∧ A + s.buf.capacity ≤ W / 2 ∧ ∃ s', writeNormalized s A = .ok (s', some file, true))

/-- Address `x` holds a byte of the object `o`, which is looked up with index `i`: a byte of its handle, but not of a
pointer to an attribute, or a byte of an attribute. -/
def PayloadOf (s : St) (i : Nat) (o : Obj) (x : Nat) : Prop :=
  ∃ r p, bufGetObject s i = .ok r ∧ s.mem.load64 r = .ok p ∧
    ((∃ j, j < o.size ∧ o.plain j ∧ x = p + j) ∨
      ∃ a ∈ o.attrs, ∃ q, s.mem.load64 (p + a.off) = .ok q ∧ ∃ j, j < a.count * a.size ∧ x = q + j)

/-- Address `x` holds a byte of one of the objects. -/
def Payload (s : St) (os : List Obj) (x : Nat) : Prop := ∃ i o, os[i]? = some o ∧ PayloadOf s i o x

/-- The objects `os'` are the objects `os` with the bytes that memory `m'` has in their places. -/
structure Reread (s : St) (m' : Mem) (os os' : List Obj) : Prop where
  len : os'.length = os.length
  shape : ∀ (i : Nat) (o o' : Obj), os[i]? = some o → os'[i]? = some o' →
    o'.typeId = o.typeId ∧ o'.size = o.size ∧ o'.attrs = o.attrs
  bytes : ∀ (i : Nat) (o o' : Obj), os[i]? = some o → os'[i]? = some o' → ∀ r p, bufGetObject s i = .ok r →
    s.mem.load64 r = .ok p → (∀ j, j < o.size → o.plain j → o'.handle j = m'.byte (p + j)) ∧
      ∀ a ∈ o.attrs, ∀ q, s.mem.load64 (p + a.off) = .ok q → ∀ j, j < a.count * a.size → o'.data a j = m'.byte (q + j)

/-- Histories of calls, with the objects that the buffer should hold.  `malloc` may be any
function at every call, as long as what it returns is null or a fresh block.  Between the
calls the client may do with the rest of the memory what it likes, and it may change the
objects in place, except for their pointers to attributes. -/
inductive Reach : St → List Obj → Prop
  | new {malloc : Nat → Nat} {m m' : Mem} {ds cap : Nat} {b : Buffer} {q : Pool} :
    m.Wf → ds ≠ 0 → cap + 16 < W → MallocOk malloc m →
    newBuffer malloc m ds cap = .ok (m', some (b, q)) → Reach ⟨m', b, q⟩ []
  | detailed {malloc : Nat → Nat} {m m' : Mem} {ds : Nat} {c : Caps} {b : Buffer} {q : Pool} :
    m.Wf → ds ≠ 0 → detailedCapacity c + 16 < W → MallocOk malloc m →
    newDetailed malloc m ds c = .ok (m', some (b, q)) → Reach ⟨m', b, q⟩ []
  | add {malloc : Nat → Nat} {s s' : St} {os : List Obj} {src r : Nat} {o : Obj} :
    Reach s os → MallocOk malloc s.mem → o.Ok → Given s src o →
    addObject malloc s src o.size o.typeId o.attrs = .ok (s', r) → r ≠ 0 → Reach s' (os ++ [o])
  | reserve {malloc : Nat → Nat} {s s' : St} {os : List Obj} {c : Caps} :
    Reach s os → MallocOk malloc s.mem → c.len + 16 < W →
    bufReserve malloc s c = .ok (s', 0) → Reach s' os
  | clear {s s' : St} {os : List Obj} {z : Bool} {rc : Int} :
    Reach s os → bufClear s z = .ok (s', rc) → Reach s' []
  | reset {s s' : St} {os : List Obj} {c : Caps} :
    Reach s os → bufReset s c = .ok (s', 0) → Reach s' []
  | write {s s' : St} {os : List Obj} {N : Nat} {f : Option (List UInt8)} :
    Reach s os → N ≠ 0 → N + s.buf.capacity < W → N ≠ s.buf.dataAddr + W / 2 →
    writeNormalized s N = .ok (s', f, true) → Reach s' os
  | copy {malloc : Nat → Nat} {s : St} {os : List Obj} {ds : Nat} {m' : Mem} {b : Buffer} {q : Pool} :
    Reach s os → MallocOk malloc s.mem → ds ≠ 0 →
    newFromCopy malloc s.mem ds s.buf = .ok (m', some (b, q)) → Reach ⟨m', b, q⟩ os
  | copied {malloc : Nat → Nat} {s : St} {os : List Obj} {ds : Nat} {m' : Mem} {r : Option (Buffer × Pool)} :
    Reach s os → MallocOk malloc s.mem → ds ≠ 0 →
    newFromCopy malloc s.mem ds s.buf = .ok (m', r) → Reach { s with mem := m' } os
  | file {malloc : Nat → Nat} {s : St} {os : List Obj} {A ds : Nat} {file : List UInt8} {m m' : Mem} {b : Buffer}
      {q : Pool} :
    Reach s os → Written s file A → m.Wf → ds ≠ 0 → MallocOk malloc m →
    newFromFile malloc m ds file = .ok (m', some (b, q)) → b.dataAddr ≠ A → Reach ⟨m', b, q⟩ os
  | read {malloc : Nat → Nat} {s t t' : St} {os ot : List Obj} {A : Nat} {file : List UInt8} :
    Reach s os → Written s file A → Reach t ot → MallocOk malloc t.mem →
    readFromFile malloc t file = .ok (t', false) → file.length ≤ t'.buf.capacity → t'.buf.dataAddr ≠ A →
    Reach t' os
  | other {s : St} {os : List Obj} {m' : Mem} :
    Reach s os → m'.Wf → (s.pool.buffer, s.pool.capacity) ∈ m'.blocks →
    (∀ x, s.pool.buffer ≤ x → x < s.pool.buffer + s.pool.capacity → m'.byte x = s.mem.byte x) →
    Reach { s with mem := m' } os
  | modify {s : St} {os os' : List Obj} {m' : Mem} :
    Reach s os → m'.blocks = s.mem.blocks → (∀ x, ¬ Payload s os x → m'.byte x = s.mem.byte x) →
    Reread s m' os os' → Reach { s with mem := m' } os'

/-! ## Contents and objects -/

theorem Obj.Ok.spec {o : Obj} (h : o.Ok) : SpecOk o.size o.attrs := ⟨h.pos, h.off, h.ne⟩

theorem Obj.total_eq (o : Obj) : o.total = roundUp o.size 8 + extSum o.attrs := by
  simp only [Obj.total, extSum, roundUp_8]
  congr 2
  refine List.map_congr_left fun a _ => ?_
  simp only [AttrSpec.ext, AttrSpec.bytes, roundUp_8]

theorem Obj.Ok.slots {o : Obj} (h : o.Ok) : 8 * objSlots o.size o.attrs = o.total := by
  rw [objSlots_eq h.spec, o.total_eq]

/-- Object `o` is in content `k`, with record `r`. -/
structure ObjAt (k : Content) (r : Nat × Nat × Nat) (o : Obj) : Prop where
  typ : r.2.1 = o.typeId
  size : r.2.2 = o.total
  fits : r.1 + o.size ≤ 8 * k.nS
  ok : o.Ok
  bytes : ∀ j, j < o.size → o.plain j → ¬ k.InPtr (r.1 + j) ∧ k.data (r.1 + j) = o.handle j
  attrs : ∀ (i : Nat) (a : AttrSpec), o.attrs[i]? = some a →
    (r.1 + a.off, r.1 + roundUp o.size 8 + extSum (o.attrs.take i)) ∈ k.ptrs ∧
    ∀ j, j < a.bytes → r.1 + roundUp o.size 8 + extSum (o.attrs.take i) + j < 8 * k.nS ∧
      ¬ k.InPtr (r.1 + roundUp o.size 8 + extSum (o.attrs.take i) + j) ∧
      k.data (r.1 + roundUp o.size 8 + extSum (o.attrs.take i) + j) = o.data a j

/-- The last attribute of the last object has no elements. -/
def EndsEmpty (os : List Obj) : Prop :=
  ∃ o a, os.getLast? = some o ∧ o.attrs.getLast? = some a ∧ a.count * a.size = 0

/-- The content represents the objects. -/
structure Represents (k : Content) (os : List Obj) : Prop where
  gs : k.gs = []
  strict : k.Strict ↔ ¬ EndsEmpty os
  len : k.recs.length = os.length
  objs : ∀ (i : Nat) (o : Obj), os[i]? = some o → ∃ r, k.recs[i]? = some r ∧ ObjAt k r o

theorem Represents.empty : Represents Content.empty [] := by
  refine ⟨rfl, ⟨fun _ => ?_, fun _ => Content.empty_strict⟩, rfl, by simp⟩
  rintro ⟨o, a, h, -⟩
  simp at h

theorem AttrSpec.ext_eq_zero {a : AttrSpec} : a.ext = 0 ↔ a.count * a.size = 0 := by
  simp only [AttrSpec.ext, AttrSpec.bytes, roundUp_8]; omega

/-- The last attribute is empty exactly if an attribute starts at the end. -/
theorem ends_iff (as : List AttrSpec) :
    (∃ a, as.getLast? = some a ∧ a.count * a.size = 0) ↔
      ∃ i a, as[i]? = some a ∧ extSum (as.take i) = extSum as := by
  constructor
  · rintro ⟨a, h1, h2⟩
    obtain ⟨bs, rfl⟩ := List.getLast?_eq_some_iff.1 h1
    refine ⟨bs.length, a, by simp, ?_⟩
    have := AttrSpec.ext_eq_zero.2 h2
    simp [extSum, this]
  · rintro ⟨i, a, h1, h2⟩
    have hne : as ≠ [] := by rintro rfl; simp at h1
    obtain ⟨bs, b, rfl⟩ : ∃ bs b, as = bs ++ [b] := ⟨as.dropLast, as.getLast hne, (List.dropLast_concat_getLast hne).symm⟩
    refine ⟨b, by simp, AttrSpec.ext_eq_zero.1 ?_⟩
    obtain ⟨hlt, -⟩ := List.getElem?_eq_some_iff.1 h1
    have hle : i ≤ bs.length := by simp at hlt; omega
    have e1 : extSum (bs ++ [b]) = extSum bs + b.ext := by simp [extSum]
    have e2 : (bs ++ [b]).take i = bs.take i := List.take_append_of_le_length hle
    rw [e2, e1] at h2
    have : extSum (bs.take i) ≤ extSum bs := by
      conv => rhs; rw [← List.take_append_drop i bs]
      simp only [extSum, List.map_append, List.sum_append]; omega
    omega

/-- The new pointers lie behind everything that is there. -/
theorem InPtr_add_old {k : Content} {typeId size : Nat} {as : List AttrSpec} {data : Nat → UInt8} {x : Nat}
    (hx : x < 8 * k.nS) : (k.add typeId size as data).InPtr x ↔ k.InPtr x := by
  unfold Content.InPtr
  simp only [Content.add, List.mem_append]
  constructor
  · rintro ⟨p, hp | hp, h1, h2⟩
    · exact ⟨p, hp, h1, h2⟩
    · obtain ⟨i, a, -, rfl⟩ := newPtrs_mem hp
      dsimp only at h1; omega
  · rintro ⟨p, hp, h1, h2⟩
    exact ⟨p, Or.inl hp, h1, h2⟩

theorem InPtr_add_new {k : Content} (hk : k.Ok) {typeId size : Nat} {as : List AttrSpec} {data : Nat → UInt8} {x : Nat}
    (h : (k.add typeId size as data).InPtr (8 * k.nS + x)) : ∃ a ∈ as, a.off ≤ x ∧ x < a.off + 8 := by
  obtain ⟨p, hp, h1, h2⟩ := h
  simp only [Content.add, List.mem_append] at hp
  rcases hp with hp | hp
  · have := hk.ptr_ok p hp; omega
  · obtain ⟨i, a, ha, rfl⟩ := newPtrs_mem hp
    dsimp only at h1 h2
    exact ⟨a, List.mem_of_getElem? ha, by omega, by omega⟩

theorem ObjAt.add {k : Content} {r : Nat × Nat × Nat} {o : Obj} (h : ObjAt k r o) {typeId size : Nat}
    {as : List AttrSpec} {data : Nat → UInt8} : ObjAt (k.add typeId size as data) r o := by
  have hf := h.fits
  refine ⟨h.typ, h.size, by simp only [Content.add]; omega, h.ok, fun j hj hp => ?_, fun i a ha => ?_⟩
  · rw [InPtr_add_old (by omega)]
    refine ⟨(h.bytes j hj hp).1, ?_⟩
    simp only [Content.add]
    rw [if_pos (by omega), (h.bytes j hj hp).2]
  · obtain ⟨ht, hd⟩ := h.attrs i a ha
    refine ⟨by simp only [Content.add, List.mem_append]; exact Or.inl ht, fun j hj => ?_⟩
    obtain ⟨d1, d2, d3⟩ := hd j hj
    rw [InPtr_add_old d1]
    refine ⟨by simp only [Content.add]; omega, d2, ?_⟩
    simp only [Content.add]
    rw [if_pos d1, d3]

theorem Represents.add {k : Content} {os : List Obj} (h : Represents k os) (hk : k.Ok) {o : Obj} (ho : o.Ok)
    {data : Nat → UInt8}
    (d1 : ∀ j, j < o.size → o.plain j → data (8 * k.nS + j) = o.handle j)
    (d2 : ∀ (i : Nat) (a : AttrSpec), o.attrs[i]? = some a → ∀ j, j < a.bytes →
      data (8 * k.nS + roundUp o.size 8 + extSum (o.attrs.take i) + j) = o.data a j) :
    Represents (k.add o.typeId o.size o.attrs data) (os ++ [o]) := by
  have hsl := ho.slots
  have hte := o.total_eq
  have hge := roundUp_ge o.size
  refine ⟨h.gs, ?_, by simp [Content.add, h.len], fun i o' hi => ?_⟩
  · have hpos := ho.pos
    have e : EndsEmpty (os ++ [o]) ↔ ∃ a, o.attrs.getLast? = some a ∧ a.count * a.size = 0 := by
      simp [EndsEmpty]
    rw [e, ends_iff]
    constructor
    · rintro hst ⟨i, a, hi, he⟩
      have := hst.ptr (8 * k.nS + a.off, 8 * k.nS + roundUp o.size 8 + extSum (o.attrs.take i)) (by
        simp only [Content.add, List.mem_append]
        refine Or.inr (List.mem_of_getElem? (i := i) ?_)
        rw [newPtrs_getElem?, hi]
        rfl)
      simp only [Content.add] at this
      omega
    · intro hno
      refine Content.strict_of h.gs fun p hp => ?_
      simp only [Content.add, List.mem_append] at hp ⊢
      rcases hp with hp | hp
      · have := hk.ptr_ok p hp; omega
      · obtain ⟨i, a, hi, rfl⟩ := newPtrs_mem hp
        have h1 := extSum_take_le o.attrs hi
        have h2 : extSum (o.attrs.take i) ≠ extSum o.attrs := fun he => hno ⟨i, a, hi, he⟩
        dsimp only; omega
  rcases Nat.lt_or_ge i os.length with hlt | hge'
  · rw [List.getElem?_append_left hlt] at hi
    obtain ⟨r, hr, ha⟩ := h.objs i o' hi
    refine ⟨r, ?_, ha.add⟩
    simp only [Content.add]
    rw [List.getElem?_append_left (by rw [h.len]; exact hlt), hr]
  · rw [List.getElem?_append_right hge', List.getElem?_singleton] at hi
    have hi0 : i = os.length := by
      by_contra hne
      rw [if_neg (by omega)] at hi
      exact absurd hi (by simp)
    subst hi0
    simp only [Nat.sub_self, if_true, Option.some.injEq] at hi
    subst hi
    refine ⟨(8 * k.nS, o.typeId, 8 * objSlots o.size o.attrs), ?_, rfl, hsl, ?_, ho, fun j hj hp => ⟨?_, ?_⟩,
      fun i a hi => ?_⟩
    · simp only [Content.add]
      rw [← h.len]
      simp
    · simp only [Content.add]; omega
    · intro hin
      obtain ⟨a, ha, h1, h2⟩ := InPtr_add_new hk hin
      have := hp a ha; omega
    · simp only [Content.add]
      rw [if_neg (by omega), d1 j hj hp]
    · refine ⟨?_, fun j hj => ⟨?_, ?_, ?_⟩⟩
      · simp only [Content.add, List.mem_append]
        refine Or.inr (List.mem_of_getElem? (i := i) ?_)
        rw [newPtrs_getElem?, hi]
        rfl
      · have := extSum_take_le o.attrs hi
        have := a.ext_ge
        simp only [Content.add]; omega
      · intro hin
        rw [Nat.add_assoc, Nat.add_assoc] at hin
        obtain ⟨b, hb, h1, h2⟩ := InPtr_add_new hk hin
        have := ho.off b hb; omega
      · simp only [Content.add]
        rw [if_neg (by omega), d2 i a hi j hj]

/-- What it takes for a buffer to hold the objects. -/
theorem holds_of {s : St} {c : Caps} {k : Content} {os : List Obj} (hslot : s.buf.slot = 8)
    (hobj : s.buf.objectAddr = s.buf.dataAddr + (off c 4 + 16)) (hn : s.buf.numObjects = k.recs.length)
    (al : s.buf.dataAddr % 8 = 0) (hv : s.mem.valid s.buf.dataAddr c.len)
    (hnum : numEntities s.mem s.buf.dataAddr 4 8 = .ok k.recs.length) (leS : k.nS ≤ c.slots)
    (leO : k.recs.length ≤ c.objs) (ok : k.Ok)
    (recs : Recs s.mem s.buf.dataAddr s.buf.dataAddr c k.recs)
    (ptrs : Ptrs s.mem s.buf.dataAddr s.buf.dataAddr c k.ptrs) (data : Data s.mem s.buf.dataAddr k)
    (hr : Represents k os) :
    Holds s os ∧ ∀ (i : Nat) (o : Obj), os[i]? = some o → ∃ r, k.recs[i]? = some r ∧
      s.mem.load64 (s.buf.objectAddr + 24 * i) = .ok (s.buf.dataAddr + 80 + r.1) ∧
      r.1 + o.total ≤ 8 * k.nS ∧
      ∀ (n : Nat) (a : AttrSpec), o.attrs[n]? = some a → s.mem.load64 (s.buf.dataAddr + 80 + r.1 + a.off) =
        .ok (s.buf.dataAddr + 80 + r.1 + (roundUp o.size 8 + extSum (o.attrs.take n))) := by
  have hL : c.len = 128 + 8 * c.slots + 24 * c.objs + 8 * c.dataptrs + 16 * c.garbage := rfl
  have val : ∀ x n, x + n ≤ c.len → s.mem.valid (s.buf.dataAddr + x) n := fun x n hx =>
    Mem.valid_sub hv (by omega) (by omega)
  have hoff4 : off c 4 = 80 + 8 * c.slots := by simp only [off]
  have hil : ∀ (i : Nat) (r : Nat × Nat × Nat), k.recs[i]? = some r → i < k.recs.length := fun i r hri => by
    obtain ⟨hlt, -⟩ := List.getElem?_eq_some_iff.1 hri
    exact hlt
  have hload : ∀ (i : Nat) (r : Nat × Nat × Nat), k.recs[i]? = some r →
      s.mem.load64 (s.buf.objectAddr + 24 * i) = .ok (s.buf.dataAddr + 80 + r.1) := fun i r hri => by
    have := hil i r hri
    rw [hobj, show s.buf.dataAddr + (off c 4 + 16) + 24 * i = s.buf.dataAddr + (off c 4 + 16 + 24 * i) by omega,
      Mem.load64_ok (by omega) (val _ _ (by omega)), (recs i r hri).1]
  have hptr : ∀ (i : Nat) (o : Obj) (r : Nat × Nat × Nat), k.recs[i]? = some r → ObjAt k r o →
      ∀ (n : Nat) (a : AttrSpec), o.attrs[n]? = some a → s.mem.load64 (s.buf.dataAddr + 80 + r.1 + a.off) =
        .ok (s.buf.dataAddr + 80 + r.1 + (roundUp o.size 8 + extSum (o.attrs.take n))) := by
    intro i o r hri ho n a ha
    obtain ⟨ht, -⟩ := ho.attrs n a ha
    obtain ⟨e, he⟩ := List.mem_iff_getElem?.1 ht
    have hp := (ptrs e _ he).2
    have hpo := ok.ptr_ok _ ht
    dsimp only at hp hpo
    rw [show s.buf.dataAddr + 80 + r.1 + a.off = s.buf.dataAddr + (80 + (r.1 + a.off)) by omega,
      Mem.load64_ok (by omega) (val _ _ (by omega)), hp]
    congr 1; omega
  refine ⟨⟨by rw [hslot, hnum, hr.len], by rw [hn, hr.len], fun i o hi => ?_⟩, fun i o hi => ?_⟩
  · obtain ⟨r, hri, ho⟩ := hr.objs i o hi
    have hlt := hil i r hri
    obtain ⟨w1, w2, w3⟩ := recs i r hri
    have hrec := ok.rec_ok r (List.mem_of_getElem? hri)
    have hfit := ho.fits
    refine ⟨s.buf.objectAddr + 24 * i, s.buf.dataAddr + 80 + r.1, ?_, ?_, hload i r hri, ?_, ?_, ?_, ?_⟩
    · unfold bufGetObject
      rw [hslot, hnum, Res.ok_bind, Res.pure_eq, if_pos ⟨by rw [hobj]; omega, by omega⟩]
    · rw [hobj]; omega
    · rw [hobj, show s.buf.dataAddr + (off c 4 + 16) + 24 * i + 8 = s.buf.dataAddr + (off c 4 + 16 + 24 * i + 8) by omega,
        Mem.load64_ok (by omega) (val _ _ (by omega)), w2, ho.typ]
    · rw [hobj, show s.buf.dataAddr + (off c 4 + 16) + 24 * i + 16 = s.buf.dataAddr + (off c 4 + 16 + 24 * i + 16) by omega,
        Mem.load64_ok (by omega) (val _ _ (by omega)), w3, ho.size]
    · intro j hj hp
      obtain ⟨b1, b2⟩ := ho.bytes j hj hp
      rw [show s.buf.dataAddr + 80 + r.1 + j = s.buf.dataAddr + (80 + (r.1 + j)) by omega]
      unfold Mem.read
      rw [if_pos (val _ _ (by omega)), data _ (by omega) b1, b2]
    · intro a ha
      obtain ⟨n, hn⟩ := List.mem_iff_getElem?.1 ha
      refine ⟨_, hptr i o r hri ho n a hn, by omega, fun j hj => ?_⟩
      obtain ⟨d1, d2, d3⟩ := (ho.attrs n a hn).2 j hj
      rw [show s.buf.dataAddr + 80 + r.1 + (roundUp o.size 8 + extSum (o.attrs.take n)) + j =
        s.buf.dataAddr + (80 + (r.1 + roundUp o.size 8 + extSum (o.attrs.take n) + j)) by omega]
      unfold Mem.read
      rw [if_pos (val _ _ (by omega)), data _ d1 d2, d3]
  · obtain ⟨r, hri, ho⟩ := hr.objs i o hi
    have hrec := ok.rec_ok r (List.mem_of_getElem? hri)
    rw [ho.size] at hrec
    exact ⟨r, hri, hload i r hri, by have := roundUp_ge o.total; omega, hptr i o r hri ho⟩

/-- A buffer with the right content and the right address of the index holds the objects. -/
theorem Layout.holds {s : St} {cap : Nat} {c : Caps} {k : Content} {os : List Obj}
    (h : Layout s.mem s.buf.dataAddr s.buf.dataAddr cap c k) (hslot : s.buf.slot = 8)
    (hobj : s.buf.objectAddr = s.buf.dataAddr + (off c 4 + 16)) (hn : s.buf.numObjects = k.recs.length)
    (hr : Represents k os) : Holds s os := by
  have hh := h.head
  have fit := hh.fit
  refine (holds_of hslot hobj hn hh.alB (Mem.valid_sub hh.val (Nat.le_refl _) (by omega))
    (hh.numEntities (id := 4) (by omega) (by omega)) hh.le.slots hh.le.objs h.ok h.recs h.ptrs h.data hr).1

theorem Good.holds {s : St} {c : Caps} {k : Content} {os : List Obj} (h : Good s c k) (hr : Represents k os) :
    Holds s os := h.lay.holds h.slot h.objs h.num hr

/-- Where the objects are. -/
theorem Good.places {s : St} {c : Caps} {k : Content} {os : List Obj} (h : Good s c k) (hr : Represents k os) {i : Nat}
    {o : Obj} (hi : os[i]? = some o) : ∃ r, k.recs[i]? = some r ∧ ObjAt k r o ∧
      bufGetObject s i = .ok (s.buf.objectAddr + 24 * i) ∧
      s.mem.load64 (s.buf.objectAddr + 24 * i) = .ok (s.buf.dataAddr + 80 + r.1) ∧
      ∀ (n : Nat) (a : AttrSpec), o.attrs[n]? = some a → s.mem.load64 (s.buf.dataAddr + 80 + r.1 + a.off) =
        .ok (s.buf.dataAddr + 80 + r.1 + (roundUp o.size 8 + extSum (o.attrs.take n))) := by
  have hh := h.lay.head
  have fit := hh.fit
  have hnum := hh.numEntities (id := 4) (by omega) (by omega)
  obtain ⟨r, h1, h2, -, h4⟩ := (holds_of h.slot h.objs h.num hh.alB (Mem.valid_sub hh.val (Nat.le_refl _) (by omega))
    hnum hh.le.slots hh.le.objs h.lay.ok h.lay.recs h.lay.ptrs h.lay.data hr).2 i o hi
  obtain ⟨r', h1', ho⟩ := hr.objs i o hi
  rw [h1] at h1'
  obtain rfl := Option.some.inj h1'
  refine ⟨r, h1, ho, ?_, h2, h4⟩
  have hlt : i < os.length := (List.getElem?_eq_some_iff.1 hi).1
  have hlen := hr.len
  have hnz := hh.nzB
  unfold bufGetObject
  rw [h.slot, hnum, Res.ok_bind, Res.pure_eq]
  simp only [cnt, Content.counts]
  rw [if_pos (show s.buf.objectAddr ≠ 0 ∧ i ≤ k.recs.length from ⟨by rw [h.objs]; omega, by omega⟩)]

/-- The bytes of the objects are in the slots, and not in pointers. -/
theorem Good.payload {s : St} {c : Caps} {k : Content} {os : List Obj} (h : Good s c k) (hr : Represents k os) {x : Nat}
    (hx : Payload s os x) : ∃ y, y < 8 * k.nS ∧ ¬ k.InPtr y ∧ x = s.buf.dataAddr + (80 + y) := by
  obtain ⟨i, o, hi, r, p, e1, e2, hp⟩ := hx
  obtain ⟨r', -, ho, e1', e2', e3⟩ := h.places hr hi
  rw [e1'] at e1
  obtain rfl := Res.ok.inj e1
  rw [e2'] at e2
  obtain rfl := Res.ok.inj e2
  have hf := ho.fits
  rcases hp with ⟨j, hj, hpl, rfl⟩ | ⟨a, ha, q, hq, j, hj, rfl⟩
  · exact ⟨r'.1 + j, by omega, (ho.bytes j hj hpl).1, by omega⟩
  · obtain ⟨n, hn⟩ := List.mem_iff_getElem?.1 ha
    rw [e3 n a hn] at hq
    obtain rfl := Res.ok.inj hq
    obtain ⟨d1, d2, -⟩ := (ho.attrs n a hn).2 j hj
    exact ⟨_, d1, d2, by omega⟩

/-- Changing objects in place. -/
theorem Good.modify {s : St} {c : Caps} {k : Content} {os os' : List Obj} {m' : Mem} (h : Good s c k)
    (hr : Represents k os) (hb : m'.blocks = s.mem.blocks) (hf : ∀ x, ¬ Payload s os x → m'.byte x = s.mem.byte x)
    (hre : Reread s m' os os') :
    Good { s with mem := m' } c { k with data := fun x => m'.byte (s.buf.dataAddr + (80 + x)) } ∧
      Represents { k with data := fun x => m'.byte (s.buf.dataAddr + (80 + x)) } os' := by
  have hh := h.lay.head
  have leS : k.nS ≤ c.slots := hh.le.slots
  have hout : ∀ y, ¬ (80 ≤ y ∧ y < 80 + 8 * k.nS) → m'.byte (s.buf.dataAddr + y) = s.mem.byte (s.buf.dataAddr + y) :=
    fun y hy => hf _ fun hp => by
      obtain ⟨z, h1, -, h2⟩ := h.payload hr hp
      omega
  have hin : ∀ y, k.InPtr y → m'.byte (s.buf.dataAddr + (80 + y)) = s.mem.byte (s.buf.dataAddr + (80 + y)) :=
    fun y hy => hf _ fun hp => by
      obtain ⟨z, -, h1, h2⟩ := h.payload hr hp
      obtain rfl : z = y := by omega
      exact h1 hy
  have lay : Layout m' s.buf.dataAddr s.buf.dataAddr s.buf.capacity c
      { k with data := fun x => m'.byte (s.buf.dataAddr + (80 + x)) } := by
    refine ⟨?_, ⟨h.lay.ok.rec_ok, h.lay.ok.rec_mono, h.lay.ok.ptr_ok, h.lay.ok.ptr_ne, h.lay.ok.gar_ok⟩, ?_, ?_, ?_,
      fun x _ _ => rfl⟩
    · refine hh.frame ((Mem.valid_of_blocks hb).2 hh.val) (fun x hx => hout _ (by omega)) ?_
      exact forall_id (fun x hx => hout _ (by simp only [off]; omega)) (fun x hx => hout _ (by simp only [off]; omega))
        (fun x hx => hout _ (by simp only [off]; omega)) (fun x hx => hout _ (by simp only [off]; omega))
    · exact h.lay.recs.frame fun x hx => hout _ (by simp only [off]; omega)
    · refine h.lay.ptrs.frame (fun x hx => hout _ (by simp only [off]; omega)) fun p hp x hx => ?_
      rw [Nat.add_assoc 80]
      exact hin _ ⟨p, hp, by omega, by omega⟩
    · exact h.lay.gars.frame fun x hx => hout _ (by simp only [off]; omega)
  refine ⟨⟨⟨h.slot, h.flags, h.ds, lay, h.size, h.num, h.pbuf, h.pbeg, h.psize, h.pchunk, h.pcap, h.pmod, h.cmod,
    h.lim, by rw [hb]; exact h.blk, fun b h1 d h2 => h.wf b (by rw [← hb]; exact h1) d (by rw [← hb]; exact h2)⟩,
    h.objs⟩, hr.gs, ?_, by rw [hre.len]; exact hr.len, fun i o' hi' => ?_⟩
  · have hst : (Content.mk k.nS k.recs k.ptrs k.gs fun x => m'.byte (s.buf.dataAddr + (80 + x))).Strict ↔ k.Strict :=
      ⟨fun h => ⟨h.ptr, h.gar⟩, fun h => ⟨h.ptr, h.gar⟩⟩
    have he : EndsEmpty os' ↔ EndsEmpty os := by
      unfold EndsEmpty
      simp only [List.getLast?_eq_getElem?, hre.len]
      constructor
      · rintro ⟨o', a, h1, h2⟩
        have hlt := (List.getElem?_eq_some_iff.1 h1).1
        rw [hre.len] at hlt
        obtain ⟨-, -, e⟩ := hre.shape _ _ _ (List.getElem?_eq_getElem hlt) h1
        exact ⟨_, a, List.getElem?_eq_getElem hlt, by rw [← e]; exact h2⟩
      · rintro ⟨o, a, h1, h2⟩
        have hlt := (List.getElem?_eq_some_iff.1 h1).1
        have hlt : os.length - 1 < os'.length := by rw [hre.len]; exact hlt
        obtain ⟨-, -, e⟩ := hre.shape _ _ _ h1 (List.getElem?_eq_getElem hlt)
        exact ⟨_, a, List.getElem?_eq_getElem hlt, by rw [e]; exact h2⟩
    rw [he]
    exact hst.trans hr.strict
  · have hlt : i < os.length := by rw [← hre.len]; exact (List.getElem?_eq_some_iff.1 hi').1
    have hi : os[i]? = some os[i] := List.getElem?_eq_getElem hlt
    generalize os[i] = o at hi
    obtain ⟨r, h1, ho, e1, e2, e3⟩ := h.places hr hi
    obtain ⟨s1, s2, s3⟩ := hre.shape i o o' hi hi'
    obtain ⟨b1, b2⟩ := hre.bytes i o o' hi hi' _ _ e1 e2
    have ht : o'.total = o.total := by simp only [Obj.total, s2, s3]
    have hp : ∀ j, o'.plain j ↔ o.plain j := fun j => by simp only [Obj.plain, s3]
    refine ⟨r, h1, by rw [s1]; exact ho.typ, by rw [ht]; exact ho.size, by rw [s2]; exact ho.fits, ?_, ?_, ?_⟩
    · have := ho.ok
      exact ⟨by rw [s2]; exact this.pos, by rw [s2, s3]; exact this.off, by rw [s3]; exact this.ne,
        by rw [s1]; exact this.typ, by rw [ht, s3]; exact this.lim⟩
    · intro j hj hpl
      rw [s2] at hj
      rw [hp] at hpl
      refine ⟨(ho.bytes j hj hpl).1, ?_⟩
      rw [b1 j hj hpl]
      dsimp only
      rw [show s.buf.dataAddr + (80 + (r.1 + j)) = s.buf.dataAddr + 80 + r.1 + j by omega]
    · intro n a ha
      rw [s3] at ha
      obtain ⟨t1, t2⟩ := ho.attrs n a ha
      rw [s2, s3]
      refine ⟨t1, fun j hj => ⟨(t2 j hj).1, (t2 j hj).2.1, ?_⟩⟩
      rw [b2 a (List.mem_of_getElem? ha) _ (e3 n a ha) j hj]
      dsimp only
      congr 1
      omega

/-! ## Reachable buffers -/

theorem Given.source {s : St} {c : Caps} {k : Content} (h : Core s c k) {src : Nat} {o : Obj} (g : Given s src o) :
    Source s.mem s.buf.dataAddr src o.size o.attrs o.data := by
  have e := h.pbuf
  refine ⟨g.nz, by rw [← e]; exact g.handle, fun a ha => ?_⟩
  have := g.attrs a ha
  rw [e] at this
  exact this

/-- The length after adding is far from overflowing. -/
theorem Core.need_lim {s : St} {c : Caps} {k : Content} (h : Core s c k) {o : Obj} (ho : o.Ok) :
    (k.need c o.size o.attrs).len + 16 < W := by
  have e : (k.need c o.size o.attrs).len = 128 + 8 * (k.nS + objSlots o.size o.attrs) + 24 * (k.recs.length + 1) +
    8 * (k.ptrs.length + o.attrs.length) + 16 * c.garbage := rfl
  have hL : c.len = 128 + 8 * c.slots + 24 * c.objs + 8 * c.dataptrs + 16 * c.garbage := rfl
  have hh := h.lay.head
  have fit := hh.fit
  have leS : k.nS ≤ c.slots := hh.le.slots
  have leO : k.recs.length ≤ c.objs := hh.le.objs
  have leD : k.ptrs.length ≤ c.dataptrs := hh.le.dataptrs
  have hp := h.pcap
  have hl := h.lim
  have hs := ho.slots
  have := ho.lim
  have hW : W = 2 ^ 64 := rfl
  have hW2 : W / 2 = 2 ^ 63 := by decide
  omega

/-- All outcomes of writing. -/
theorem writeNormalized_true {s s' : St} {c : Caps} {k : Content} {N : Nat} {f : Option (List UInt8)} (h : Good s c k)
    (hg : k.gs = []) (nz : N ≠ 0) (limN : N + s.buf.capacity < W) (hN : N ≠ s.buf.dataAddr + W / 2)
    (hw : writeNormalized s N = .ok (s', f, true)) : Good s' c k ∧ (k.Strict ∨ N = s.buf.dataAddr) := by
  by_cases hs : k.Strict
  · obtain ⟨s1, f1, r, g, -⟩ := writeNormalized_ok h hg hs nz limN hN
    rw [r] at hw
    injection hw with hw
    rw [Prod.mk.injEq] at hw
    rw [← hw.1]; exact ⟨g, Or.inl hs⟩
  have hw0 : W / 2 < W := by decide
  have hh := h.lay.head
  have fit := hh.fit
  have hl2 : 128 ≤ c.len := by simp only [Caps.len]; omega
  have hnz := hh.nzB
  have hvlen : ∀ m1 : Mem, m1.blocks = s.mem.blocks → m1.valid s.buf.dataAddr c.len := fun m1 e =>
    (Mem.valid_of_blocks e).2 (Mem.valid_sub hh.val (Nat.le_refl _) (by omega))
  have hp := h.pcap
  have lim := h.lim
  unfold writeNormalized at hw
  dsimp only at hw
  rw [if_pos ⟨hnz, by rw [h.size]; omega⟩] at hw
  by_cases e : s.buf.dataAddr = N
  · have es : shiftTo s.mem s.buf.dataAddr N s.buf.slot = .ok (s.mem, true) := if_neg (by simpa using e)
    rw [es] at hw
    simp only [Res.ok_bind, if_true, h.size] at hw
    rw [if_pos (hvlen s.mem rfl)] at hw
    have hr : bufNeedsRemapping s = .ok false := by
      unfold bufNeedsRemapping
      rw [if_pos h.remappable, h.slot, hh.needsRemapping]
      simp
    change (bufNeedsRemapping s >>= _) = _ at hw
    rw [hr] at hw
    simp [Res.ok_bind, Res.pure_eq] at hw
    rw [← hw.1]; exact ⟨h, Or.inr e.symm⟩
  · have sh := shifts_of (A := s.buf.dataAddr) (B := N) hh.limB limN
    have hd : (N + (W - s.buf.dataAddr % W)) % W ≠ 0 := by
      rw [ne_eq, diff_eq_zero (by omega) (by omega)]; exact e
    obtain ⟨m1, r1, b1, l1, f1⟩ := applyAddrOffset_ok h.lay hg nz limN sh hd
    have hbad : ∃ p ∈ k.ptrs, 8 * k.nS ≤ p.2 := by
      by_contra hcon
      exact hs (Content.strict_of hg fun p hp => Nat.lt_of_not_le fun hle => hcon ⟨p, hp, hle⟩)
    obtain ⟨m2, r2, b2, f2⟩ := remap_fail l1 hg hbad hN (Ne.symm e)
    have es : shiftTo s.mem s.buf.dataAddr N s.buf.slot = .ok (m1, true) := by
      unfold shiftTo
      rw [if_pos e, addrDiff_ok (by omega), Res.ok_bind, h.slot, r1]
    rw [es] at hw
    simp only [Res.ok_bind, if_true, h.size] at hw
    rw [if_pos (hvlen m1 b1)] at hw
    have hr : bufNeedsRemapping { s with mem := m1 } = .ok true := by
      unfold bufNeedsRemapping
      dsimp only
      rw [if_pos h.remappable, h.slot, l1.head.needsRemapping]
      simp [Ne.symm e]
    have hrm : bufRemap { s with mem := m1 } = .ok ({ s with mem := m2 }, -1) := by
      have ha := h.remappable
      simp only [Bool.and_eq_true] at ha
      unfold bufRemap
      dsimp only
      rw [if_pos ha.2, l1.head.load0, Res.ok_bind, if_neg (by omega), h.slot,
        if_pos ⟨nz, by omega, hnz⟩, r2]
      simp [Res.ok_bind, Res.pure_eq]
    rw [hr] at hw
    simp only [Res.ok_bind, if_true] at hw
    rw [hrm] at hw
    simp [Res.ok_bind, Res.pure_eq] at hw

/-- What has been written. -/
theorem writeNormalized_written {s s' : St} {c : Caps} {k : Content} {N : Nat} {file : List UInt8} (h : Good s c k)
    (hg : k.gs = []) (nz : N ≠ 0) (limN : N + s.buf.capacity ≤ W / 2)
    (hw : writeNormalized s N = .ok (s', some file, true)) : Image file N c k := by
  have hw0 : W / 2 < W := by decide
  by_cases hs : k.Strict
  · obtain ⟨s1, f1, e, hi⟩ := writeNormalized_image h hg hs nz limN
    rw [e] at hw
    simp only [Res.ok.injEq, Prod.mk.injEq, Option.some.injEq, and_true] at hw
    rw [← hw.2]; exact hi
  · have fit := h.lay.head.fit
    have hL : c.len = 128 + 8 * c.slots + 24 * c.objs + 8 * c.dataptrs + 16 * c.garbage := rfl
    rcases (writeNormalized_true h hg nz (by omega) (by omega) hw).2 with x | rfl
    · exact absurd x hs
    · obtain ⟨f1, e1, hi⟩ := writeToFp_ok h
      have hh := h.lay.head
      have hv : s.mem.valid s.buf.dataAddr s.buf.dataSize := by
        rw [h.size]; exact Mem.valid_sub hh.val (Nat.le_refl _) (by omega)
      unfold writeToFp at e1
      rw [if_pos ⟨hh.nzB, by rw [h.size]; omega⟩, if_pos hv] at e1
      simp only [Res.ok.injEq, Option.some.injEq] at e1
      subst e1
      have es : shiftTo s.mem s.buf.dataAddr s.buf.dataAddr s.buf.slot = .ok (s.mem, true) := if_neg (by simp)
      have hr : bufNeedsRemapping s = .ok false := by
        unfold bufNeedsRemapping
        rw [if_pos h.remappable, h.slot, hh.needsRemapping]
        simp
      unfold writeNormalized at hw
      dsimp only at hw
      rw [if_pos ⟨hh.nzB, by rw [h.size]; omega⟩, es] at hw
      simp only [Res.ok_bind, if_true] at hw
      rw [if_pos hv] at hw
      change (bufNeedsRemapping s >>= _) = _ at hw
      rw [hr] at hw
      simp [Res.ok_bind, Res.pure_eq] at hw
      rw [← hw.2]; exact hi

theorem Written.image {s : St} {c : Caps} {k : Content} {A : Nat} {file : List UInt8} (h : Good s c k)
    (hg : k.gs = []) (hw : Written s file A) : Image file A c k := by
  rcases hw with ⟨hf, rfl⟩ | ⟨nz, lim, s', e⟩
  · obtain ⟨f1, e1, hi⟩ := writeToFp_ok h
    rw [e1] at hf
    simp only [Res.ok.injEq, Option.some.injEq] at hf
    subst hf
    exact hi
  · exact writeNormalized_written h hg nz lim e

/-- A file that has been read to another address. -/
theorem newFromFile_good {malloc : Nat → Nat} {m m' : Mem} {ds : Nat} {file : List UInt8} {A : Nat} {c : Caps}
    {k : Content} {b : Buffer} {q : Pool} (hw : m.Wf) (hds : ds ≠ 0) (hm : MallocOk malloc m) (hi : Image file A c k)
    (hg : k.gs = []) (hr : newFromFile malloc m ds file = .ok (m', some (b, q))) (hne : b.dataAddr ≠ A) :
    Good ⟨m', b, q⟩ c k := by
  rcases newFromFile_spec hw hds hm hi hg with ⟨-, e⟩ | ⟨-, -, -, m1, b1, q1, e, g, -⟩ | ⟨-, -, -, m1, e⟩ |
    ⟨-, m1, b1, q1, e, -, h1, -⟩ <;> rw [e] at hr <;>
    simp only [Res.ok.injEq, Prod.mk.injEq, Option.some.injEq, reduceCtorEq, and_false] at hr
  · obtain ⟨rfl, rfl, rfl⟩ := hr
    exact g
  · obtain ⟨rfl, rfl, rfl⟩ := hr
    exact absurd h1 hne

theorem readFromFile_good {malloc : Nat → Nat} {t t' : St} {file : List UInt8} {A : Nat} {c c0 : Caps}
    {k k0 : Content} (h : Good t c0 k0) (hg0 : k0.gs = []) (hm : MallocOk malloc t.mem) (hi : Image file A c k)
    (hg : k.gs = []) (hr : readFromFile malloc t file = .ok (t', false)) (hl : file.length ≤ t'.buf.capacity)
    (hne : t'.buf.dataAddr ≠ A) : Good t' c k := by
  have low := hi.low
  have hlen := hi.len
  have hL : c.len = 128 + 8 * c.slots + 24 * c.objs + 8 * c.dataptrs + 16 * c.garbage := rfl
  have hw0 : W / 2 + 1000 < W := by decide
  have hfail : ∀ t1, roomFor malloc t file.length = .ok (t1, t.buf.capacity) → t.buf.capacity < file.length →
      readFromFile malloc t file = .ok (t1, false) := by
    intro t1 e h2
    unfold readFromFile
    rw [if_pos h.toCore.readable, if_pos (by omega : 0 < file.length), e, Res.ok_bind]
    dsimp only
    rw [if_neg (by omega)]
    rfl
  rcases roomFor_spec (len := file.length) h.toCore hg0 (by omega) hm with ⟨t1, e, h1, h2, -, -⟩ | ⟨-, -, e, h1⟩ |
    ⟨-, -, t1, e, hb, h1⟩
  · rcases readFromFile_run h.toCore hi hg h1 e h2 with ⟨-, -, t2, e2, g2, -⟩ | ⟨-, -, m', e2⟩ | ⟨h3, m', e2, -⟩
    · rw [e2] at hr
      simp only [Res.ok.injEq, Prod.mk.injEq, and_true] at hr
      subst hr
      exact g2
    · rw [e2] at hr
      simp at hr
    · rw [e2] at hr
      simp only [Res.ok.injEq, Prod.mk.injEq, and_true] at hr
      subst hr
      exact absurd h3 hne
  · rw [hfail _ e h1] at hr
    simp only [Res.ok.injEq, Prod.mk.injEq, and_true] at hr
    subst hr
    omega
  · rw [hfail _ e h1] at hr
    simp only [Res.ok.injEq, Prod.mk.injEq, and_true] at hr
    subst hr
    rw [hb] at hl
    omega

/-- Every reachable buffer is good. -/
theorem Reach.good {s : St} {os : List Obj} (h : Reach s os) : ∃ c k, Good s c k ∧ Represents k os := by
  induction h with
  | @new malloc m m' ds cap b q hw hds lim hm hr =>
    rcases newBuffer_spec hw hds lim hm with ⟨-, r⟩ | ⟨-, m1, b1, q1, r, g, -⟩
    · rw [r] at hr; simp at hr
    · rw [r] at hr
      simp only [Res.ok.injEq, Prod.mk.injEq, Option.some.injEq] at hr
      obtain ⟨rfl, rfl, rfl⟩ := hr
      exact ⟨_, _, g, Represents.empty⟩
  | @add malloc s s' os src r o hs hm ho hg hr hr0 ih =>
    obtain ⟨c, k, g, rep⟩ := ih
    rcases addObject_spec g rep.gs ho.spec (hg.source g.toCore) ho.typ (g.need_lim ho) hm with
      ⟨s1, c1, data, e, g1, -, d1, d2, -⟩ | ⟨s1, e, -⟩
    · rw [e] at hr
      simp only [Res.ok.injEq, Prod.mk.injEq] at hr
      obtain ⟨rfl, -⟩ := hr
      refine ⟨_, _, g1, rep.add g.lay.ok ho (fun j hj hp => ?_) d2⟩
      rw [d1 j hj hp, hg.bytes j hj hp]
    · rw [e] at hr
      simp only [Res.ok.injEq, Prod.mk.injEq] at hr
      exact absurd hr.2.symm hr0
  | @reserve malloc s s' os c hs hm lim hr ih =>
    obtain ⟨c0, k, g, rep⟩ := ih
    rcases bufReserve_spec g rep.gs lim hm with ⟨s1, e, g1, -⟩ | ⟨s1, e⟩
    · rw [e] at hr
      simp only [Res.ok.injEq, Prod.mk.injEq, and_true] at hr
      subst hr
      exact ⟨_, _, g1, rep⟩
    · rw [e] at hr
      simp at hr
  | @clear s s' os z rc hs hr ih =>
    obtain ⟨c, k, g, rep⟩ := ih
    obtain ⟨m', e, g1, -⟩ := bufClear_ok g z
    rw [e] at hr
    simp only [Res.ok.injEq, Prod.mk.injEq] at hr
    rw [← hr.1]
    exact ⟨_, _, g1, Represents.empty⟩
  | @reset s s' os c hs hr ih =>
    obtain ⟨c0, k, g, rep⟩ := ih
    by_cases hc : c.len ≤ s.buf.capacity
    · obtain ⟨s1, e, g1, -⟩ := bufReset_ok g.toCore hc
      rw [e] at hr
      simp only [Res.ok.injEq, Prod.mk.injEq, and_true] at hr
      subst hr
      exact ⟨_, _, g1, Represents.empty⟩
    · exact absurd hr (bufReset_big g.toCore (by omega))
  | @write s s' os N f hs nz limN hN hr ih =>
    obtain ⟨c, k, g, rep⟩ := ih
    exact ⟨c, k, (writeNormalized_true g rep.gs nz limN hN hr).1, rep⟩
  | @detailed malloc m m' ds c b q hw hds lim hm hr =>
    rcases newDetailed_spec hw hds lim hm with ⟨-, e⟩ | ⟨-, -, m1, b1, q1, e, g, -⟩ | ⟨-, -, e⟩
    · rw [e] at hr
      simp at hr
    · rw [e] at hr
      simp only [Res.ok.injEq, Prod.mk.injEq, Option.some.injEq] at hr
      obtain ⟨rfl, rfl, rfl⟩ := hr
      exact ⟨_, _, g, Represents.empty⟩
    · exact absurd (e _ _ hr) (by simp)
  | @file malloc s os A ds file m m' b q hs hf hw hds hm hr hne ih =>
    obtain ⟨c, k, g, rep⟩ := ih
    exact ⟨c, k, newFromFile_good hw hds hm (hf.image g rep.gs) rep.gs hr hne, rep⟩
  | @read malloc s t t' os ot A file hs hf ht hm hr hl hne ih iht =>
    obtain ⟨c, k, g, rep⟩ := ih
    obtain ⟨c0, k0, g0, rep0⟩ := iht
    exact ⟨c, k, readFromFile_good g0 rep0.gs hm (hf.image g rep.gs) rep.gs hr hl hne, rep⟩
  | @copy malloc s os ds m' b q hs hm hds hr ih =>
    obtain ⟨c, k, g, rep⟩ := ih
    rcases newFromCopy_spec g rep.gs hds hm with ⟨-, e⟩ | ⟨-, -, m1, b1, q1, e, g1, -⟩ | ⟨-, -, m1, e, -⟩
    · rw [e] at hr; simp at hr
    · rw [e] at hr
      simp only [Res.ok.injEq, Prod.mk.injEq, Option.some.injEq] at hr
      obtain ⟨rfl, rfl, rfl⟩ := hr
      exact ⟨_, _, g1, rep⟩
    · rw [e] at hr; simp at hr
  | @copied malloc s os ds m' r hs hm hds hr ih =>
    obtain ⟨c, k, g, rep⟩ := ih
    rcases newFromCopy_spec g rep.gs hds hm with ⟨-, e⟩ | ⟨-, -, m1, b1, q1, e, -, g2, -⟩ | ⟨-, -, m1, e, g2⟩
    · rw [e] at hr
      simp only [Res.ok.injEq, Prod.mk.injEq] at hr
      rw [← hr.1]
      exact ⟨_, _, g, rep⟩
    · rw [e] at hr
      simp only [Res.ok.injEq, Prod.mk.injEq] at hr
      rw [← hr.1]
      exact ⟨_, _, g2, rep⟩
    · rw [e] at hr
      simp only [Res.ok.injEq, Prod.mk.injEq] at hr
      rw [← hr.1]
      exact ⟨_, _, g2, rep⟩
  | @other s os m' hs hw hb hf ih =>
    obtain ⟨c, k, g, rep⟩ := ih
    rw [g.pbuf] at hb hf
    exact ⟨_, _, g.outside hw hb hf, rep⟩
  | @modify s os os' m' hs hb hf hre ih =>
    obtain ⟨c, k, g, rep⟩ := ih
    exact ⟨_, _, g.modify rep hb hf hre⟩

end SixTrack.Buf

import Verif.ArgumentLemmas

/-!
# Property C81: an argument brings data to the device and back
-/

namespace SixTrack
open Arg

/-- The images of buffers in a format: remapping an image to another valid address gives an image for
that address, whatever follows it in memory, and remapping that one to the first address gives the first
image again. -/
structure Images (f : Fmt) (valid : Nat → Prop) (img : Nat → Bytes → Prop) : Prop where
  base : ∀ a x z, img a x → f.base (x ++ z) = a
  len : ∀ a x z, img a x → f.len (x ++ z) = x.length
  rebase : ∀ a b x, img a x → valid b → ∃ y, img b y ∧ y.length = x.length ∧
    (∀ z, f.rebase b (x ++ z) = some (y ++ z)) ∧ (∀ z, f.rebase a (y ++ z) = some (x ++ z))
  same : ∀ a x y, img a x → (∀ z, f.rebase a (x ++ z) = some (y ++ z)) → y = x

/-- A format with one byte for the address and one for the length; an image has an address other
than zero. -/
def toyFmt : Fmt where
  base x := (x.headD 0).toNat
  len x := (x.getD 1 0).toNat
  rebase b x :=
    match x with
    | a :: n :: rest => if a = 0 then none else some (UInt8.ofNat b :: n :: rest)
    | _ => none

/-- The images of that format. -/
def ToyImg (a : Nat) (x : Bytes) : Prop :=
  (0 < a ∧ a < 256) ∧ ∃ (n : UInt8) (rest : Bytes), x = UInt8.ofNat a :: n :: rest ∧
    n.toNat = rest.length + 2

private theorem toy_ne {a : Nat} (h : 0 < a ∧ a < 256) : (UInt8.ofNat a).toNat = a ∧ UInt8.ofNat a ≠ 0 := by
  have e : (UInt8.ofNat a).toNat = a := by
    rw [UInt8.toNat_ofNat']
    omega
  refine ⟨e, ?_⟩
  intro h0
  rw [h0] at e
  simp at e
  omega

/-- The format above has images in this sense, and remapping keeps the number of bytes. -/
theorem toy_images : Images toyFmt (fun a => 0 < a ∧ a < 256) ToyImg ∧ toyFmt.Keeps := by
  refine ⟨⟨?_, ?_, ?_, ?_⟩, ?_⟩
  · rintro a x z ⟨ha, n, rest, rfl, _⟩
    exact (toy_ne ha).1
  · rintro a x z ⟨ha, n, rest, rfl, hn⟩
    simpa [toyFmt] using hn
  · rintro a b x ⟨ha, n, rest, rfl, hn⟩ hb
    refine ⟨UInt8.ofNat b :: n :: rest, ⟨hb, n, rest, rfl, hn⟩, rfl, ?_, ?_⟩
    · intro z
      simp [toyFmt, (toy_ne ha).2]
    · intro z
      simp [toyFmt, (toy_ne hb).2]
  · rintro a x y ⟨ha, n, rest, rfl, hn⟩ h
    have := h []
    simpa [toyFmt, (toy_ne ha).2, eq_comm] using this
  · intro a x y h
    unfold toyFmt at h
    simp only at h
    split at h
    · split at h
      · exact absurd h (by simp)
      · cases h
        rfl
    · exact absurd h (by simp)

/-- Host with 8 bytes in two buffers of size 3 that hold images for addresses 100 and 101, and with raw
memories of 2, 4, 4, … bytes. -/
def toyHost : Host where
  mem
    | .buf i => [UInt8.ofNat (100 + i), 3, UInt8.ofNat (50 + i), 0, 0, 0, 0, 0]
    | .raw 0 => [0, 1]
    | .raw p => [0, 2, 3, UInt8.ofNat p]
  addr
    | .buf i => 100 + i
    | .raw p => 200 + p
  size _ := 3

/-- A controller that is ready for everything. -/
def toyCtl : Ctl := ⟨true, true, true, false, true, fun _ => true, fun _ => 7, 9⟩

/-- Run a send that must succeed, then go on with the argument. -/
def thenArg {α : Type} (r : Res (Bool × Arg)) (k : Arg → Res α) (bad : Res α) : Res α :=
  match r with
  | .ok (true, a) => k a
  | .ok (false, _) => bad
  | .ub => .ub

/-- What a receive leaves at a place, and its status. -/
def argSeen (r : Res (Bool × Host)) (l : Loc) : Res (Bool × List Nat) :=
  match r with
  | .ok (b, h) => .ok (b, (h.mem l).map UInt8.toNat)
  | .ub => .ub

/-! ## the invariant -/

/-- At any time the size of an argument is at most its capacity, the memory of the device has as many
bytes as the capacity says, and an argument that refers to a C++ buffer refers to it as a C buffer as
well: no transfer leaves the memory of the device. -/
theorem C81_invariant (f : Fmt) (hf : f.Keeps) (a : Arg) (ha : a.Ok) (h : Host) (i p n : Nat)
    (remap : Bool) (r : Bool × Arg)
    (hr : sendCxx f a h i remap = .ok r ∨ sendC f a h i remap = .ok r ∨ sendRaw a h p n = .ok r ∨
      send f a h remap = .ok r) :
    r.2.Ok := by
  rcases hr with hr | hr | hr | hr
  · exact sendCxx_ok hf ha hr
  · exact sendC_ok hf ha hr
  · exact sendRaw_ok ha hr
  · exact send_ok hf ha hr

theorem C81_invariant_start (c : Ctl) (n : Nat) :
    (Arg.new (some c)).Ok ∧ (Arg.newCap c n).Ok :=
  ⟨new_ok _, reserve_ok (new_ok _) c n⟩

example : (Arg.newCap toyCtl 8).cap = 8 ∧ (Arg.newCap toyCtl 8).has = true := by decide

/-! ## a send succeeds when it can -/

private theorem ensure_true {a : Arg} {c : Ctl} {n : Nat} (h : a.cap < n → c.alloc n = true) :
    (a.ensure c n).1 = true := by
  unfold Arg.ensure
  split
  · rename_i hc
    unfold Arg.reserve
    simp [hc, h hc]
  · rfl

private theorem dev_some {a : Arg} (ha : a.Ok) {n : Nat} (hn : 0 < n) (hc : n ≤ a.cap) :
    ∃ d, a.dev = some d ∧ a.has = true ∧ n ≤ d.length := by
  cases hd : a.dev with
  | none =>
    have := ha.none hd
    omega
  | some d =>
    obtain ⟨h1, h2⟩ := ha.dev d hd
    exact ⟨d, rfl, h2, by omega⟩

private theorem doSend_true {c : Ctl} {a : Arg} {src d : Bytes} {n : Nat} (hc : c.copies = true)
    (hd : a.dev = some d) (hh : a.has = true) (h1 : n ≤ src.length) (h2 : n ≤ d.length) :
    doSend c a src n = .ok (true, { a with dev := some (src.take n ++ d.drop n) }) := by
  have hl : (src.take n).length = n := by
    rw [List.length_take]
    omega
  unfold doSend
  rw [hh, hd]
  simp only [hc, if_true]
  unfold readFirst
  rw [if_pos h1, Res.ok_bind]
  unfold overwrite
  rw [if_pos (by omega), Res.ok_bind, hl]
  rfl

/-- Raw memory with at least as many bytes as are sent reaches the device if the controller is ready,
copies work and there is memory. -/
theorem C81_raw_succeeds (a : Arg) (ha : a.Ok) (c : Ctl) (h : Host) (p n : Nat)
    (hk : a.ctl = some c) (h1 : c.readySend = true) (h2 : c.readyRemap = true) (h3 : c.copies = true)
    (hn : 0 < n) (hl : n ≤ (h.mem (.raw p)).length) (hm : a.cap < n → c.alloc n = true) :
    ∃ a', sendRaw a h p n = .ok (true, a') := by
  have hcap := (dropBuffers_refs ha).2.2.1
  have he : (a.dropBuffers.ensure c n).1 = true := ensure_true (by rw [hcap]; exact hm)
  obtain ⟨t1, t2⟩ := rawTarget_ok (ensure_ok ha.dropBuffers c n) p
  have hc := ensure_cap he
  rw [← t2] at hc
  obtain ⟨d, d1, d2, d3⟩ := dev_some t1 hn hc
  have hraw : (rawTarget (a.dropBuffers.ensure c n) p).raw.isSome := by
    unfold rawTarget
    split
    · rfl
    · rename_i hx
      cases hw : (a.dropBuffers.ensure c n).2.1.raw with
      | none => exact absurd (Or.inr hw) hx
      | some q => rfl
  unfold sendRaw
  rw [hk]
  simp only [hn, he, if_true]
  unfold ctlSendRaw
  rw [if_pos ⟨h1, h2, hraw, by omega, hn, hc⟩, doSend_true h3 d1 d2 hl d3, Res.ok_bind]
  exact ⟨_, rfl⟩

/-- So does a buffer with data; if it is to be remapped, bytes that do not let themselves be remapped
make this fail in debug mode. -/
theorem C81_buffer_succeeds (f : Fmt) (a : Arg) (ha : a.Ok) (c : Ctl) (h : Host) (i : Nat) (remap : Bool)
    (hk : a.ctl = some c) (h1 : c.readySend = true) (h2 : c.readyRemap = true) (h3 : c.copies = true)
    (hn : 0 < h.size i) (hl : h.size i ≤ (h.mem (.buf i)).length)
    (hm : a.cap < h.size i → c.alloc (h.size i) = true)
    (hf : remap = true → c.debug = true →
      ∀ z, f.rebase c.devAddr ((h.mem (.buf i)).take (h.size i) ++ z) ≠ none) :
    (∃ a', sendCxx f a h i remap = .ok (true, a')) ∧ (∃ a', sendC f a h i remap = .ok (true, a')) := by
  have he : (Arg.ensure { a with raw := none } c (h.size i)).1 = true := ensure_true hm
  have hok := ensure_ok (ha.setRaw none) c (h.size i)
  have hcap := ensure_cap he
  have main : ∀ b : Arg, b.Ok → b.cap = (Arg.ensure { a with raw := none } c (h.size i)).2.1.cap →
      b.c99.isSome → ∃ a', ctlSendBuf f c b h i remap = .ok (true, a') := by
    intro b hb hbc hbs
    obtain ⟨d, d1, d2, d3⟩ := dev_some hb hn (by omega)
    unfold ctlSendBuf
    rw [if_pos ⟨h1, h2, hbs, by omega, by intro h0; rw [h0] at hl; simp at hl; omega, hn, by omega⟩,
      doSend_true h3 d1 d2 hl d3, Res.ok_bind]
    cases remap with
    | false => exact ⟨_, rfl⟩
    | true =>
      simp only [and_self, if_true, Res.pure_eq]
      unfold doRemap
      obtain ⟨j, hj⟩ := Option.isSome_iff_exists.1 hbs
      have hpos : 0 < b.cap := by omega
      simp only [hj, d2, hpos, if_true]
      cases hr : f.rebase c.devAddr ((h.mem (.buf i)).take (h.size i) ++ d.drop (h.size i)) with
      | some e => exact ⟨_, rfl⟩
      | none =>
        cases hdbg : c.debug with
        | false => exact ⟨_, rfl⟩
        | true => exact absurd hr (hf rfl hdbg _)
  constructor
  · obtain ⟨t1, t2⟩ := cxxTarget_ok hok i
    obtain ⟨a', e⟩ := main _ t1 t2 (by
      unfold cxxTarget
      split
      · rfl
      · rename_i hx
        rw [not_or, not_or] at hx
        exact Option.isSome_iff_ne_none.2 hx.2.2)
    rw [sendCxx_some hk, if_pos he, e]
    exact ⟨_, rfl⟩
  · obtain ⟨t1, t2⟩ := cTarget_ok hok i
    obtain ⟨a', e⟩ := main _ t1 t2 (by
      unfold cTarget
      split
      · rfl
      · rename_i hx
        rw [not_or] at hx
        exact Option.isSome_iff_ne_none.2 hx.2)
    rw [sendC_some hk, if_pos he, e]
    exact ⟨_, rfl⟩

/-- Raw memory cannot be sent by a controller without a kernel for remapping buffers, although nothing
is to be remapped; making an argument of raw memory does not need one. -/
theorem C81_raw_needs_remap_kernel :
    (∀ (a : Arg) (c : Ctl) (h : Host) (p n : Nat), a.ctl = some c → c.readyRemap = false →
      ∀ a', sendRaw a h p n ≠ .ok (true, a')) ∧
    ∃ a', Arg.newRaw { toyCtl with readyRemap := false } toyHost 0 2 = .ok (true, a') := by
  refine ⟨?_, _, rfl⟩
  intro a c h p n hk hr a' e
  unfold sendRaw at e
  rw [hk] at e
  simp only at e
  split at e
  · split at e
    · unfold ctlSendRaw at e
      simp [hr, Arg.sent] at e
    · simp at e
  · simp at e

/-! ## what the device has, and what the argument refers to -/

/-- A successful send of raw memory leaves its first bytes on the device and makes the argument as
long as was asked for. -/
theorem C81_raw_sent (a a' : Arg) (ha : a.Ok) (h : Host) (p n : Nat)
    (hr : sendRaw a h p n = .ok (true, a')) :
    a'.size = n ∧ ∃ d, a'.dev = some d ∧ d.take n = (h.mem (.raw p)).take n ∧ n ≤ (h.mem (.raw p)).length := by
  obtain ⟨h1, _, _, h2, d, h3, h4⟩ := sendRaw_size ha hr
  refine ⟨h1, d, h3, ?_, ?_⟩
  · rw [← h2, h1] at h4
    exact h4
  · rw [h1, List.length_take] at h2
    omega

/-- A successful send of a buffer leaves its bytes on the device, remapped to the address there if that
was asked for and possible. -/
theorem C81_buffer_sent (f : Fmt) (a a' : Arg) (c : Ctl) (hk : a.ctl = some c) (h : Host) (i : Nat)
    (remap : Bool)
    (hr : sendCxx f a h i remap = .ok (true, a') ∨ sendC f a h i remap = .ok (true, a')) :
    a'.size = h.size i ∧
    (remap = false → ∃ d, a'.dev = some d ∧ d.take (h.size i) = (h.mem (.buf i)).take (h.size i)) ∧
    (remap = true → ∀ y, y.length = h.size i →
      (∀ z, f.rebase c.devAddr ((h.mem (.buf i)).take (h.size i) ++ z) = some (y ++ z)) →
      ∃ d, a'.dev = some d ∧ d.take (h.size i) = y) := by
  have key : ∃ (c' : Ctl) (b : Arg) (d e : Bytes), a.ctl = some c' ∧
      a' = { b with dev := some e, size := h.size i } ∧ h.size i ≤ (h.mem (.buf i)).length ∧
      (let x := (h.mem (.buf i)).take (h.size i) ++ d.drop (h.size i)
       if remap then (f.rebase c'.devAddr x = some e ∨
         f.rebase c'.devAddr x = none ∧ e = x ∧ c'.debug = false)
       else e = x) := by
    rcases hr with hr | hr
    · obtain ⟨c', d, e, hc', _, ee, h1, _, _, h3⟩ := sendCxx_true hr
      exact ⟨c', _, d, e, hc', ee, h1, h3⟩
    · obtain ⟨c', d, e, hc', _, ee, h1, _, _, h3⟩ := sendC_true hr
      exact ⟨c', _, d, e, hc', ee, h1, h3⟩
  obtain ⟨c', b, d, e, hc', ee, h1, h3⟩ := key
  rw [hk] at hc'
  cases hc'
  obtain ⟨g1, g2⟩ := sendBuf_holds b ee h1 h3
  have hsz : a'.size = h.size i := by rw [ee]
  refine ⟨hsz, ?_, ?_⟩
  · intro hm
    obtain ⟨k1, d, k2, k3⟩ := g1 hm
    rw [← k1, hsz] at k3
    exact ⟨d, k2, k3⟩
  · intro hm y hy hz
    obtain ⟨k1, d, k2, k3⟩ := g2 hm y hy hz
    rw [hy] at k3
    exact ⟨d, k2, k3⟩

/-- After a successful send the argument refers to what has been sent – this is where `send` and
`receive` without a place go – exactly in these cases.  It does not if it refers to something else
already and needs no new memory. -/
theorem C81_place_partial (f : Fmt) (a a' : Arg) (ha : a.Ok) (h : Host) (i p n : Nat) (remap : Bool) :
    (sendRaw a h p n = .ok (true, a') → (a'.place = some (.raw p) ↔
      (a.cxx = none ∨ (a.cap < n ∧ a.dev ≠ none)) ∧ (a.raw = none ∨ a.raw = some p ∨ a.cap < n))) ∧
    (sendC f a h i remap = .ok (true, a') → (a'.place = some (.buf i) ↔
      a.c99 = none ∨ a.c99 = some i ∨ a.cap < h.size i)) ∧
    (sendCxx f a h i remap = .ok (true, a') → (a'.place = some (.buf i) ↔
      a.cxx = none ∨ a.cxx = some i ∨ a.cap < h.size i)) :=
  ⟨sendRaw_place ha, sendC_place ha, sendCxx_place ha⟩

/-- An argument that is made with data and succeeds refers to them and has their size; it keeps the
invariant as well. -/
theorem C81_made (f : Fmt) (hf : f.Keeps) (c : Ctl) (h : Host) (i p n : Nat) (cxx : Bool) (a : Arg) :
    (Arg.newBuf f c h i cxx = .ok (true, a) → a.Ok ∧ a.place = some (.buf i) ∧ a.size = h.size i) ∧
    (Arg.newRaw c h p n = .ok (true, a) → a.Ok ∧ a.place = some (.raw p) ∧ a.size = n ∧
      ∃ d, a.dev = some d ∧ d.take n = (h.mem (.raw p)).take n) := by
  have fields : ∀ m, (Arg.newCap c m).cxx = none ∧ (Arg.newCap c m).c99 = none ∧
      (Arg.newCap c m).raw = none := by
    intro m
    unfold Arg.newCap Arg.reserve Arg.reset Arg.new
    split
    · split <;> exact ⟨rfl, rfl, rfl⟩
    · exact ⟨rfl, rfl, rfl⟩
  constructor
  · intro e
    have hok := (C81_invariant_start c (h.size i)).2
    unfold Arg.newBuf at e
    simp only at e
    split at e
    · rename_i d hd
      split at e
      · rename_i hc
        obtain ⟨x, hx, e⟩ := Res.bind_eq_ok.1 e
        obtain ⟨y, hy, e⟩ := Res.bind_eq_ok.1 e
        obtain ⟨x1, x2, x3⟩ := readFirst_eq hx
        obtain ⟨y1, y2⟩ := overwrite_eq hy
        have yl : y.length = d.length := by
          rw [y2, List.length_append, List.length_drop]
          omega
        have good : ∀ z : Bytes, z.length = d.length →
            Arg.Ok ((Arg.newCap c (h.size i)).refer h i cxx z) ∧
            Arg.place ((Arg.newCap c (h.size i)).refer h i cxx z) = some (.buf i) ∧
            ((Arg.newCap c (h.size i)).refer h i cxx z).size = h.size i := by
          intro z hz
          refine ⟨⟨hc.2.1, ?_, by simp [Arg.refer], ?_⟩, ?_, rfl⟩
          · intro z' hz'
            simp only [Arg.refer, Option.some.injEq] at hz'
            rw [← hz']
            exact ⟨hz.trans (hok.dev d hd).1, (hok.dev d hd).2⟩
          · intro j hj
            simp only [Arg.refer] at hj ⊢
            split at hj
            · exact hj
            · exact absurd hj (by simp)
          · cases cxx <;> rfl
        split at e
        · rename_i z hz
          cases e
          exact good z ((hf _ _ _ hz).trans yl)
        · have e := (Res.ok_inj _ _).1 e
          have hdbg : c.debug = false := by simpa using congrArg Prod.fst e
          have e2 := congrArg Prod.snd e
          simp only [hdbg, Bool.false_eq_true, if_false] at e2
          rw [← e2]
          exact good y yl
      · exact absurd e (by simp)
    · exact absurd e (by simp)
  · intro e
    have hok := (C81_invariant_start c n).2
    unfold Arg.newRaw at e
    simp only at e
    split at e
    · rename_i d hd
      split at e
      · rename_i hc
        obtain ⟨x, hx, e⟩ := Res.bind_eq_ok.1 e
        obtain ⟨y, hy, e⟩ := Res.bind_eq_ok.1 e
        obtain ⟨x1, x2, x3⟩ := readFirst_eq hx
        obtain ⟨y1, y2⟩ := overwrite_eq hy
        have yl : y.length = d.length := by
          rw [y2, List.length_append, List.length_drop]
          omega
        cases e
        obtain ⟨f1, f2, f3⟩ := fields n
        refine ⟨⟨?_, ?_, by simp, ?_⟩, ?_, rfl, y, rfl, ?_⟩
        · show n ≤ _
          have := (hok.dev d hd).1
          simp only
          omega
        · intro z hz
          simp only [Option.some.injEq] at hz
          rw [← hz]
          exact ⟨yl.trans (hok.dev d hd).1, (hok.dev d hd).2⟩
        · intro j hj
          simp only [f1] at hj
          exact absurd hj (by simp)
        · simp [Arg.place, f1, f2]
        · rw [y2, ← x2, List.take_left']
          exact x3
      · exact absurd e (by simp)
    · exact absurd e (by simp)

example : ∃ a, Arg.newBuf toyFmt toyCtl toyHost 1 true = .ok (true, a) ∧ a.size = 3 := ⟨_, rfl, rfl⟩

/-! ## there and back -/

/-- Raw memory: after a send to which the argument refers, and a kernel that has left the bytes `d` on
the device, receiving puts the first of them where the data came from and changes nothing else. -/
theorem C81_raw_back_partial (f : Fmt) (hf : f.Keeps) (a a' : Arg) (ha : a.Ok) (c : Ctl) (h h' : Host)
    (p n : Nat) (remap : Bool) (d : Bytes)
    (hk : a.ctl = some c) (hc : c.copies = true) (hy : c.readyReceive = true)
    (hr : sendRaw a h p n = .ok (true, a'))
    (hp : (a.cxx = none ∨ (a.cap < n ∧ a.dev ≠ none)) ∧ (a.raw = none ∨ a.raw = some p ∨ a.cap < n))
    (hd : d.length = a'.cap) (hl : n ≤ (h'.mem (.raw p)).length) :
    receive f { a' with dev := some d } h' remap =
      .ok (true, h'.put (.raw p) (d.take n ++ (h'.mem (.raw p)).drop n)) := by
  have hplace := (sendRaw_place ha hr).2 hp
  obtain ⟨h1, hn, h2, _, d0, h3, _⟩ := sendRaw_size ha hr
  have hok' : Arg.Ok a' := C81_invariant f hf a ha h 0 p n remap _ (Or.inr (Or.inr (Or.inl hr)))
  have hok : Arg.Ok { a' with dev := some d } := hok'.setDev h3 (by rw [hd, (hok'.dev d0 h3).1])
  obtain ⟨e, hc99⟩ := receive_raw (f := f) (a := { a' with dev := some d }) (h := h') (remap := remap)
    (show Arg.place { a' with dev := some d } = some (.raw p) from hplace)
  rw [e, receiveRaw_eq hok (h2.trans hk) rfl hc hy hc99 (by show 0 < a'.size; omega) (Nat.le_refl _)
    (by show a'.size ≤ _; omega)]
  show Res.ok (true, h'.put (.raw p) (d.take a'.size ++ (h'.mem (.raw p)).drop a'.size)) = _
  rw [h1]

example : argSeen (thenArg (sendRaw (Arg.newCap toyCtl 8) toyHost 1 4)
    (fun a => receive toyFmt { a with dev := some [9, 8, 7, 6, 5, 4, 3, 2] } toyHost true) .ub) (.raw 1) =
    .ok (true, [9, 8, 7, 6]) := by decide

/-- A buffer that holds an image for its own address: sending it – remapped or not – and receiving it
again, with remapping if it was remapped, restores the memory of the host. -/
theorem C81_buffer_back_partial (f : Fmt) (hf : f.Keeps) (img : Nat → Bytes → Prop) (valid : Nat → Prop)
    (hi : Images f valid img)
    (a a' : Arg) (ha : a.Ok) (c : Ctl) (h : Host) (i : Nat) (r1 r2 : Bool)
    (hk : a.ctl = some c) (hv : valid c.devAddr) (hc : c.copies = true) (hy : c.readyReceive = true)
    (himg : img (h.addr (.buf i)) ((h.mem (.buf i)).take (h.size i)))
    (hr : (sendC f a h i r1 = .ok (true, a') ∧ (a.c99 = none ∨ a.c99 = some i ∨ a.cap < h.size i)) ∨
      (sendCxx f a h i r1 = .ok (true, a') ∧ (a.cxx = none ∨ a.cxx = some i ∨ a.cap < h.size i)))
    (h12 : r1 = true → r2 = true) :
    receive f a' h r2 = .ok (true, h) := by
  have hsplit := List.take_append_drop (h.size i) (h.mem (.buf i))
  have hok : a'.Ok := by
    rcases hr with hr | hr
    · exact sendC_ok hf ha hr.1
    · exact sendCxx_ok hf ha hr.1
  have hplace : a'.place = some (.buf i) := by
    rcases hr with hr | hr
    · exact (sendC_place ha hr.1).2 hr.2
    · exact (sendCxx_place ha hr.1).2 hr.2
  have hs := C81_buffer_sent f a a' c hk h i r1 (by
    rcases hr with hr | hr
    · exact Or.inr hr.1
    · exact Or.inl hr.1)
  have hctl : a'.ctl = some c ∧ 0 < h.size i ∧ h.size i ≤ (h.mem (.buf i)).length := by
    rcases hr with hr | hr
    · obtain ⟨c', d, e, hc', _, ee, h1, _, h2, _⟩ := sendC_true hr.1
      refine ⟨?_, h2, h1⟩
      rw [ee]
      exact (cTarget_ctl _ _).trans ((ensure_ctl _ _ _).trans hk)
    · obtain ⟨c', d, e, hc', _, ee, h1, _, h2, _⟩ := sendCxx_true hr.1
      refine ⟨?_, h2, h1⟩
      rw [ee]
      exact (cxxTarget_ctl _ _).trans ((ensure_ctl _ _ _).trans hk)
  obtain ⟨hctl, hpos, hlen⟩ := hctl
  obtain ⟨s1, s2, s3⟩ := hs
  have hxl : ((h.mem (.buf i)).take (h.size i)).length = h.size i := by
    rw [List.length_take]
    omega
  obtain ⟨y, y1, y2, y3, y4⟩ := hi.rebase _ c.devAddr _ himg hv
  obtain ⟨e, hc99⟩ := receive_buf (f := f) hok (h := h) (remap := r2) hplace
  generalize hx : (h.mem (.buf i)).take (h.size i) = x at *
  generalize hz : (h.mem (.buf i)).drop (h.size i) = z at *
  have hdev : ∃ d, a'.dev = some d ∧ (d.take (h.size i) = x ∨ (r1 = true ∧ d.take (h.size i) = y)) := by
    cases r1 with
    | false =>
      obtain ⟨d, d1, d2⟩ := s2 rfl
      exact ⟨d, d1, Or.inl d2⟩
    | true =>
      obtain ⟨d, d1, d2⟩ := s3 rfl y (y2.trans hxl) y3
      exact ⟨d, d1, Or.inr ⟨rfl, d2⟩⟩
  obtain ⟨d, d1, d2⟩ := hdev
  have hsame : h.put (.buf i) (x ++ z) = h := by
    rw [hsplit]
    exact put_same h _
  rw [e, receiveBuf_eq hok hctl d1 hc hy (by rw [hc99]; rfl) (by omega) (by omega), s1, hz]
  rcases d2 with d2 | ⟨hr1, d2⟩
  · rw [d2, hsame]
    cases r2 with
    | false => rfl
    | true =>
      simp only [if_true]
      unfold hostRemap
      simp only
      rw [if_pos (by rw [← hsplit]; exact hi.base _ _ _ himg)]
  · rw [d2, h12 hr1]
    simp only [if_true]
    unfold hostRemap
    simp only [put_mem]
    rw [hi.base _ _ _ y1]
    by_cases ha : c.devAddr = h.addr (.buf i)
    · have hyx : y = x := hi.same _ _ _ himg (ha ▸ y3)
      rw [hyx, hsame, if_pos ha]
    · have ha' : ¬ c.devAddr = (h.put (.buf i) (y ++ z)).addr (.buf i) := ha
      rw [if_neg ha']
      have : f.rebase ((h.put (.buf i) (y ++ z)).addr (.buf i)) (y ++ z) = some (x ++ z) := y4 z
      rw [this]
      simp only [put_put, hsame, hi.len _ _ _ himg, hxl, setSize_same]

example : argSeen (thenArg (sendCxx toyFmt (Arg.new (some toyCtl)) toyHost 0 true)
    (fun a => receive toyFmt a toyHost true) .ub) (.buf 0) = .ok (true, [100, 3, 50, 0, 0, 0, 0, 0]) ∧
    ToyImg 100 ((toyHost.mem (.buf 0)).take 3) :=
  ⟨by decide, ⟨by decide, by decide⟩, 3, [50], by decide, by decide⟩

/-! ## what goes wrong -/

/-- Sending other raw memory keeps the reference to the first one: what is received then goes to the
first memory, and leaves it if the data are longer. -/
theorem C81_stale_raw_violated :
    argSeen (thenArg (sendRaw (Arg.newCap toyCtl 8) toyHost 1 4) (fun a =>
      thenArg (sendRaw a toyHost 2 4) (fun a => receive toyFmt a toyHost true) .ub) .ub) (.raw 1) =
        .ok (true, [0, 2, 3, 2]) ∧
    thenArg (sendRaw (Arg.newCap toyCtl 8) toyHost 0 2) (fun a =>
      thenArg (sendRaw a toyHost 1 4) (fun a => argSeen (receive toyFmt a toyHost true) (.raw 0))
        (.ok (false, []))) (.ok (false, [])) = .ub := by
  decide

/-- Sending another buffer keeps the reference to the first one, which gets the data of the second
one, and is what is sent the next time. -/
theorem C81_stale_buffer_violated :
    argSeen (thenArg (sendC toyFmt (Arg.new (some toyCtl)) toyHost 0 true) (fun a =>
      thenArg (sendC toyFmt a toyHost 1 true) (fun a => receive toyFmt a toyHost true) .ub) .ub) (.buf 0) =
        .ok (true, [100, 3, 51, 0, 0, 0, 0, 0]) ∧
    argSeen (thenArg (sendCxx toyFmt (Arg.new (some toyCtl)) toyHost 0 true) (fun a =>
      thenArg (sendCxx toyFmt a toyHost 1 true) (fun a => receive toyFmt a toyHost true) .ub) .ub) (.buf 0) =
        .ok (true, [100, 3, 51, 0, 0, 0, 0, 0]) ∧
    argSeen (thenArg (sendC toyFmt (Arg.new (some toyCtl)) toyHost 0 true) (fun a =>
      thenArg (sendC toyFmt a toyHost 1 true) (fun a => thenArg (send toyFmt a toyHost true) (fun a =>
        receiveBuf toyFmt a toyHost 1 true) .ub) .ub) .ub) (.buf 1) =
        .ok (true, [101, 3, 50, 0, 0, 0, 0, 0]) := by
  decide

/-- Raw memory that is sent after a C++ buffer: the argument still refers to the buffer.  What is
received goes to the buffer, whose image is destroyed, and receiving into the raw memory brings the data
but reports a failure, because they cannot be remapped. -/
theorem C81_raw_after_buffer_violated :
    argSeen (thenArg (sendCxx toyFmt (Arg.newCap toyCtl 8) toyHost 0 true) (fun a =>
      thenArg (sendRaw a toyHost 1 4) (fun a => receive toyFmt a toyHost true) .ub) .ub) (.buf 0) =
        .ok (false, [0, 2, 3, 1, 0, 0, 0, 0]) ∧
    argSeen (thenArg (sendCxx toyFmt (Arg.newCap toyCtl 8) toyHost 0 true) (fun a =>
      thenArg (sendRaw a toyHost 1 4) (fun a => receiveRaw toyFmt a toyHost 2 4) .ub) .ub) (.raw 2) =
        .ok (false, [0, 2, 3, 1]) := by
  decide

/-- Bytes that are no image: the send succeeds although they could not be remapped, unless the
controller is in debug mode. -/
theorem C81_silent_remap_violated :
    let h : Host := { toyHost with mem := fun _ => [0, 0, 0, 0] }
    toyFmt.rebase toyCtl.devAddr ((h.mem (.buf 0)).take (h.size 0)) = none ∧
    (∃ a', sendC toyFmt (Arg.new (some toyCtl)) h 0 true = .ok (true, a')) ∧
    (∃ a', sendC toyFmt (Arg.new (some { toyCtl with debug := true })) h 0 true = .ok (false, a')) := by
  refine ⟨by decide, ⟨_, rfl⟩, ⟨_, rfl⟩⟩

/-- A send that fails for want of memory leaves the data on the device as they are, … -/
theorem C81_no_memory (f : Fmt) (a : Arg) (ha : a.Ok) (c : Ctl) (hk : a.ctl = some c) (h : Host)
    (i p n : Nat) (remap : Bool) (hm : ∀ n, c.alloc n = false) :
    (a.cap < n → ∃ a', sendRaw a h p n = .ok (false, a') ∧ a'.dev = a.dev ∧ a'.size = a.size ∧
      a'.cap = a.cap) ∧
    (a.cap < h.size i → ∃ a', sendC f a h i remap = .ok (false, a') ∧
      sendCxx f a h i remap = .ok (false, a') ∧ a' = { a with raw := none }) := by
  have hfail : ∀ (b : Arg) (m : Nat), b.cap < m → (b.ensure c m).1 = false := by
    intro b m hb
    simp [Arg.ensure, Arg.reserve, hb, hm]
  constructor
  · intro hn
    obtain ⟨_, _, r3, r4, _, _, r7, _, _⟩ := dropBuffers_refs ha
    have he := hfail a.dropBuffers n (by omega)
    refine ⟨a.dropBuffers, ?_, r4, r7, r3⟩
    unfold sendRaw
    rw [hk]
    have hpos : 0 < n := by omega
    simp [hpos, he, (ensure_fail he).1]
  · intro hn
    have he := hfail { a with raw := none } (h.size i) hn
    refine ⟨{ a with raw := none }, ?_, ?_, rfl⟩
    · rw [sendC_some hk]
      simp [he, (ensure_fail he).1]
    · rw [sendCxx_some hk]
      simp [he, (ensure_fail he).1]

/-- … but the argument has forgotten where they came from: they cannot be received any more. -/
theorem C81_forgets_violated :
    let c : Ctl := { toyCtl with alloc := fun n => decide (n ≤ 2) }
    argSeen (thenArg (sendRaw (Arg.new (some c)) toyHost 0 2) (fun a => receive toyFmt a toyHost true) .ub)
      (.raw 0) = .ok (true, [0, 1]) ∧
    (match sendRaw (Arg.new (some c)) toyHost 0 2 with
      | .ok (true, a) =>
        match sendC toyFmt a toyHost 0 true with
        | .ok (false, a) => argSeen (receive toyFmt a toyHost true) (.raw 0)
        | _ => .ub
      | _ => .ub) = .ok (false, [0, 1]) := by
  decide

/-! ## updating regions -/

/-- Regions inside the argument, without wrap-around: exactly they change, in the memory of the host.
The update stops at the first region that is not inside the argument or has no new value. -/
theorem C81_update_partial (a : Arg) (l : Loc) (hp : a.place = some l) (rs : List Region) (hne : rs ≠ [])
    (h : Host) (hs : a.size ≤ (h.mem l).length)
    (hr : ∀ r ∈ rs, r.off + r.len < 2^64 ∧ ∀ v, r.val = some v → r.len ≤ v.length) :
    ∃ b h', updateRegions a h rs = .ok (b, h') ∧
      (∀ k, k ≠ l → h'.mem k = h.mem k) ∧
      (∀ (k : Nat), (∀ r ∈ rs, k < r.off ∨ r.off + r.len ≤ k) → (h'.mem l)[k]? = (h.mem l)[k]?) ∧
      (b = true ↔ ∀ r ∈ rs, r.val ≠ none ∧ r.len ≠ 0 ∧ r.off + r.len ≤ a.size) ∧
      (b = true → ∀ pre r post v, rs = pre ++ r :: post → r.val = some v → ∀ (k : Nat), k < r.len →
        (∀ r' ∈ post, r.off + k < r'.off ∨ r'.off + r'.len ≤ r.off + k) →
        (h'.mem l)[r.off + k]? = v[k]?) := by
  obtain ⟨b, h', e, q1, _, _, _, q5, q6, q7⟩ := updateLoop_spec a l hp rs h hs hr
  refine ⟨b, h', ?_, q1, q5, q6, q7⟩
  unfold updateRegions
  rw [if_neg hne]
  exact e

example :
    let a : Arg := { Arg.newCap toyCtl 8 with size := 4, raw := some 1 }
    argSeen (updateRegions a toyHost [⟨1, 2, some [8, 9]⟩, ⟨2, 1, some [5]⟩]) (.raw 1) =
      .ok (true, [0, 8, 5, 1]) := by decide

/-- An offset near the end of the range of the numbers passes the test and is written to outside the
memory; and a list of regions with a bad one among them is carried out up to that one. -/
theorem C81_update_violated :
    let a : Arg := { Arg.newCap toyCtl 8 with size := 4, raw := some 1 }
    argSeen (updateRegions a toyHost [⟨2^64 - 1, 2, some [8, 9]⟩]) (.raw 1) = .ub ∧
    argSeen (updateRegions a toyHost [⟨0, 1, some [8]⟩, ⟨3, 2, some [8, 9]⟩]) (.raw 1) =
      .ok (false, [8, 2, 3, 1]) := by
  decide

/-! ## sending again, and what fails -/

/-- Sending what an argument refers to without saying what it is: raw memory is sent with the size the
argument has, so that it is on the device afterwards; if the argument refers to nothing, nothing is sent or
received. -/
theorem C81_again (f : Fmt) (a : Arg) (ha : a.Ok) (c : Ctl) (h : Host) (remap : Bool) (hk : a.ctl = some c) :
    (∀ p, a.place = some (.raw p) → c.readySend = true → c.readyRemap = true → c.copies = true →
      0 < a.size → a.size ≤ (h.mem (.raw p)).length →
      ∃ a' d, send f a h remap = .ok (true, a') ∧ a'.size = a.size ∧ a'.dev = some d ∧
        d.take a.size = (h.mem (.raw p)).take a.size) ∧
    (a.place = none → send f a h remap = .ok (false, a) ∧ receive f a h remap = .ok (false, h)) := by
  constructor
  · intro p hp h1 h2 h3 hn hl
    have hs := ha.size
    have e : send f a h remap = sendRaw a h p a.size := by
      unfold Arg.place at hp
      unfold send
      split at hp
      · cases hp
      · cases hp
      · cases hp; rfl
      · cases hp
    obtain ⟨a', ha'⟩ := C81_raw_succeeds a ha c h p a.size hk h1 h2 h3 hn hl (fun h => by omega)
    obtain ⟨e1, d, e2, e3, _⟩ := C81_raw_sent a a' ha h p a.size ha'
    exact ⟨a', d, by rw [e, ha'], e1, e2, e3⟩
  · intro hp
    unfold Arg.place at hp
    split at hp
    · cases hp
    · cases hp
    · cases hp
    · next q1 q2 q3 => unfold send receive; rw [q1, q2, q3]; exact ⟨rfl, rfl⟩

example :
    ∃ a, sendRaw (Arg.newCap toyCtl 8) toyHost 1 4 = .ok (true, a) ∧ a.place = some (.raw 1) ∧
      0 < a.size ∧ a.size ≤ (toyHost.mem (.raw 1)).length :=
  ⟨_, rfl, by decide, by decide, by decide⟩

private theorem put_same (h : Host) (l : Loc) : h.put l (h.mem l) = h := by
  unfold Host.put
  congr 1
  funext k
  split
  · next e => rw [e]
  · rfl

/-- If the device cannot copy, receiving fails and changes nothing. -/
theorem C81_receive_fails (f : Fmt) (a : Arg) (c : Ctl) (hk : a.ctl = some c) (hc : c.copies = false)
    (h : Host) (i p n : Nat) (remap : Bool) :
    receiveBuf f a h i remap = .ok (false, h) ∧ receiveRaw f a h p n = .ok (false, h) ∧
    receive f a h remap = .ok (false, h) := by
  have e : ∀ x, doReceive c a x = .ok (false, x) := by
    intro x
    unfold doReceive
    split
    · rw [hc]; rfl
    · rfl
  have h1 : ∀ i, receiveBuf f a h i remap = .ok (false, h) := by
    intro i
    unfold receiveBuf
    rw [hk]
    simp only
    split
    · rw [e, Res.ok_bind]
      simp [put_same, Res.pure_eq]
    · rfl
  have h2 : ∀ p n, receiveRaw f a h p n = .ok (false, h) := by
    intro p n
    unfold receiveRaw
    rw [hk]
    simp only
    split
    · rw [e, Res.ok_bind]
      simp [put_same, Res.pure_eq]
    · rfl
  refine ⟨h1 i, h2 p n, ?_⟩
  unfold receive
  split
  · exact h1 _
  · exact h1 _
  · exact h2 _ _
  · rfl

example : ({ toyCtl with copies := false } : Ctl).copies = false := rfl

/-- Receiving into a buffer and remapping it: the size of the buffer is the one in the image that was
received, whatever it was before; no other size changes. -/
theorem C81_receive_size (f : Fmt) (a : Arg) (h h' : Host) (i : Nat)
    (hr : receiveBuf f a h i true = .ok (true, h')) (hb : ∀ x, f.base x ≠ h.addr (.buf i)) :
    h'.size i = f.len (h'.mem (.buf i)) ∧ ∀ j, j ≠ i → h'.size j = h.size j := by
  unfold receiveBuf at hr
  split at hr
  · cases hr
  split at hr
  · obtain ⟨⟨b, x⟩, _, hr⟩ := Res.bind_eq_ok.1 hr
    cases b with
    | false => simp [Res.pure_eq] at hr
    | true =>
      simp only [and_self, if_true, Res.pure_eq, Res.ok_inj] at hr
      unfold hostRemap at hr
      simp only at hr
      rw [if_neg (by exact hb _)] at hr
      split at hr
      · cases hr
        exact ⟨by simp [Host.setSize, Host.put], fun j hj => by simp [Host.setSize, Host.put, hj]⟩
      · cases hr
  · cases hr

example : ∃ h', receiveBuf { toyFmt with base := fun _ => 0 }
    { Arg.newCap toyCtl 8 with size := 3, c99 := some 0, dev := some [7, 3, 50, 0, 0, 0, 0, 0] }
    { toyHost with size := fun _ => 8 } 0 true = .ok (true, h') ∧ h'.size 0 = 3 := ⟨_, rfl, by decide⟩

/-- An argument that could not be made with the data of a buffer refers to nothing and has no size. -/
theorem C81_made_fails (f : Fmt) (c : Ctl) (h : Host) (i : Nat) (cxx : Bool) (a : Arg)
    (hr : Arg.newBuf f c h i cxx = .ok (false, a)) : a.place = none ∧ a.size = 0 := by
  have fields : ∀ m, (Arg.newCap c m).cxx = none ∧ (Arg.newCap c m).c99 = none ∧
      (Arg.newCap c m).raw = none ∧ (Arg.newCap c m).size = 0 := by
    intro m
    unfold Arg.newCap Arg.reserve Arg.reset Arg.new
    split
    · split <;> exact ⟨rfl, rfl, rfl, rfl⟩
    · exact ⟨rfl, rfl, rfl, rfl⟩
  obtain ⟨e1, e2, e3, e4⟩ := fields (h.size i)
  have key : ∀ d, Arg.place { Arg.newCap c (h.size i) with dev := d } = none ∧
      (Arg.newCap c (h.size i)).size = 0 := by
    intro d
    unfold Arg.place
    simp only [e1, e2, e3]
    exact ⟨trivial, e4⟩
  unfold Arg.newBuf at hr
  simp only at hr
  split at hr
  · split at hr
    · obtain ⟨x, _, hr⟩ := Res.bind_eq_ok.1 hr
      obtain ⟨y, _, hr⟩ := Res.bind_eq_ok.1 hr
      split at hr
      · cases hr
      · cases hd : c.debug with
        | false => rw [hd] at hr; cases hr
        | true =>
          rw [hd] at hr
          cases hr
          exact key _
    · cases hr; exact key _
  · cases hr; exact key _

example : ∃ a, Arg.newBuf toyFmt { toyCtl with debug := true }
    { toyHost with mem := fun _ => [0, 0, 0, 0] } 0 true = .ok (false, a) := ⟨_, rfl⟩

/-- Without regions nothing is updated, and this counts as a failure. -/
theorem C81_update_nothing (a : Arg) (h : Host) : updateRegions a h [] = .ok (false, h) := rfl

end SixTrack

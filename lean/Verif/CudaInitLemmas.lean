import Verif.CudaInit
import Verif.Props.Argument

/-!
# Lemmas on setting up the CUDA track job (C103)
-/

namespace SixTrack.CudaInit
open SixTrack.Arg SixTrack.ParticleSets SixTrack.Particles

/-- The argument refers to the buffer and the device has its bytes, remapped for the address on the device if they let
themselves be remapped. -/
structure OnDevice (f : Fmt) (c : Ctl) (h : Host) (i : Nat) (a : Arg) : Prop where
  place : a.place = some (.buf i)
  size : a.size = h.size i
  bytes : ∀ y, y.length = h.size i →
    (∀ z, f.rebase c.devAddr ((h.mem (.buf i)).take (h.size i) ++ z) = some (y ++ z)) →
    ∃ d, a.dev = some d ∧ d.take (h.size i) = y

/-- The controller can bring that buffer to the device. -/
structure CanSend (f : Fmt) (c : Ctl) (h : Host) (i : Nat) : Prop where
  ready : c.readySend = true ∧ c.readyRemap = true ∧ c.copies = true
  some : 0 < h.size i
  room : h.size i ≤ (h.mem (.buf i)).length
  alloc : c.alloc (h.size i) = true
  remap : c.debug = true → ∀ z, f.rebase c.devAddr ((h.mem (.buf i)).take (h.size i) ++ z) ≠ none

theorem newCap_fields (c : Ctl) (n : Nat) : (Arg.newCap c n).cxx = none ∧ (Arg.newCap c n).c99 = none ∧
    (Arg.newCap c n).raw = none ∧ (Arg.newCap c n).ctl = some c := by
  unfold Arg.newCap Arg.reserve Arg.reset Arg.new
  split
  · split <;> exact ⟨rfl, rfl, rfl, rfl⟩
  · exact ⟨rfl, rfl, rfl, rfl⟩

theorem newBuf_cases {f : Fmt} {c : Ctl} {h : Host} {i : Nat} {cxx : Bool} {r : Bool × Arg}
    (hr : Arg.newBuf f c h i cxx = .ok r) :
    r.2.ctl = some c ∧
    ((r.2.c99 = none ∧ r.2.cxx = none) ∨
     (OnDevice f c h i r.2 ∧ r.2.c99 = some i ∧ r.2.cxx = if cxx then some i else none)) := by
  obtain ⟨e1, e2, e3, e4⟩ := newCap_fields c (h.size i)
  unfold Arg.newBuf at hr
  simp only at hr
  split at hr
  · rename_i d hd
    split at hr
    · rename_i hc
      obtain ⟨x, hx, hr⟩ := Res.bind_eq_ok.1 hr
      obtain ⟨y, hy, hr⟩ := Res.bind_eq_ok.1 hr
      obtain ⟨_, x2, x3⟩ := readFirst_eq hx
      obtain ⟨_, y2⟩ := overwrite_eq hy
      have place : ∀ z, Arg.place ((Arg.newCap c (h.size i)).refer h i cxx z) = some (.buf i) := by
        intro z
        cases cxx <;> rfl
      split at hr
      · rename_i e he
        cases hr
        refine ⟨e4, .inr ⟨⟨place _, rfl, ?_⟩, rfl, rfl⟩⟩
        intro q hq hz
        rw [y2, x2, hz] at he
        cases he
        exact ⟨_, rfl, by rw [List.take_append_of_le_length (by omega), List.take_of_length_le (by omega)]⟩
      · rename_i he
        cases hdbg : c.debug with
        | true =>
          rw [hdbg] at hr
          cases hr
          exact ⟨e4, .inl ⟨e2, e1⟩⟩
        | false =>
          rw [hdbg] at hr
          cases hr
          refine ⟨e4, .inr ⟨⟨place _, rfl, ?_⟩, rfl, rfl⟩⟩
          intro q hq hz
          rw [y2, x2, hz] at he
          cases he
    · cases hr; exact ⟨e4, .inl ⟨e2, e1⟩⟩
  · cases hr; exact ⟨e4, .inl ⟨e2, e1⟩⟩

theorem newBuf_can {f : Fmt} {c : Ctl} {h : Host} {i : Nat} (hs : CanSend f c h i) (cxx : Bool) :
    ∃ a, Arg.newBuf f c h i cxx = .ok (true, a) ∧ OnDevice f c h i a ∧ a.c99 = some i ∧
      a.cxx = if cxx then some i else none := by
  have hp := hs.some
  have hl := hs.room
  have hcap : (Arg.newCap c (h.size i)).dev = some ((List.range (h.size i)).map c.junk) ∧
      (Arg.newCap c (h.size i)).cap = h.size i := by
    unfold Arg.newCap Arg.reserve Arg.reset Arg.new
    rw [if_pos hp, if_pos hs.alloc]
    exact ⟨rfl, by simp⟩
  have hne : h.mem (.buf i) ≠ [] := by
    intro h0
    rw [h0] at hl
    simp at hl
    omega
  have ht : ((h.mem (.buf i)).take (h.size i)).length = h.size i := by
    rw [List.length_take]
    omega
  obtain ⟨a, ha⟩ : ∃ a, Arg.newBuf f c h i cxx = .ok (true, a) ∧ a.c99 = some i := by
    unfold Arg.newBuf
    simp only [hcap.1]
    rw [if_pos ⟨hp, Nat.le_of_eq hcap.2.symm, hs.ready.1, hs.ready.2.1, hne, hs.ready.2.2⟩]
    unfold readFirst
    rw [if_pos hl, Res.ok_bind]
    unfold overwrite
    rw [if_pos (by rw [ht, List.length_map, List.length_range]; exact Nat.le_refl _), Res.ok_bind]
    split
    · exact ⟨_, rfl, rfl⟩
    · rename_i he
      cases hd : c.debug with
      | true => exact absurd he (hs.remap hd _)
      | false => exact ⟨_, rfl, rfl⟩
  rcases (newBuf_cases ha.1).2 with h1 | h1
  · exact absurd (ha.2.symm.trans h1.1) (by simp)
  · exact ⟨a, ha.1, h1⟩

/-- Sending the C++ buffer an argument refers to again. -/
theorem resend_can {f : Fmt} (hf : f.Keeps) {c : Ctl} {h : Host} {i : Nat} (hs : CanSend f c h i) {a : Arg}
    (ha : Arg.newBuf f c h i true = .ok (true, a)) :
    ∃ a', sendCxx f a h i true = .ok (true, a') ∧ a'.cxx = some i := by
  obtain ⟨hctl, hc⟩ := newBuf_cases ha
  obtain ⟨b, hb, _, _, hb2⟩ := newBuf_can hs true
  rw [ha] at hb
  cases hb
  have hok := ((C81_made f hf c h i 0 0 true a).1 ha).1
  obtain ⟨a', h'⟩ := (C81_buffer_succeeds f a hok c h i true hctl hs.ready.1 hs.ready.2.1 hs.ready.2.2 hs.some hs.room
    (fun _ => hs.alloc) (fun _ hd => hs.remap hd)).1
  refine ⟨a', h', ?_⟩
  obtain ⟨c', d, e, _, he, e2, _⟩ := sendCxx_true h'
  rw [e2]
  show (cxxTarget (Arg.ensure { a with raw := none } c' (h.size i)) i).cxx = some i
  unfold cxxTarget
  split
  · rfl
  · rename_i hn
    rw [not_or] at hn
    unfold Arg.ensure at he hn ⊢
    split at he
    · rename_i hlt
      rw [if_pos hlt] at hn
      exact absurd he hn.1
    · rename_i hlt
      rw [if_neg hlt]
      exact hb2

theorem andThen_true {r : Bool × Job} {step : Job → Res (Bool × Job)} {j' : Job} (h : andThen r step = .ok (true, j')) :
    r.1 = true ∧ step r.2 = .ok (true, j') := by
  unfold andThen at h
  split at h
  · exact ⟨‹_›, h⟩
  · rename_i hn
    cases h
    exact absurd rfl hn

/-! ## what the steps do when they succeed -/

theorem baseParticles_true {w : World} {p : Option Nat} {j j' : Job} (h : Job.baseParticles w p j = .ok (true, j')) :
    ∃ i r, p = some i ∧ findRanges w.objs j.sets = .ok (0, r) ∧ w.addrOk = true ∧ j' = { j with ranges := some r } := by
  unfold Job.baseParticles at h
  split at h
  · obtain ⟨r, hr, h⟩ := Res.bind_eq_ok.1 h
    split at h
    · rename_i hc
      cases h
      exact ⟨_, r.2, rfl, by rw [hr, ← hc.1], hc.2, rfl⟩
    · cases h
  · cases h

theorem particles_true {w : World} {p : Option Nat} {j j' : Job} (h : Job.particles w p j = .ok (true, j')) :
    ∃ c i a q, j.ctl = some c ∧ p = some i ∧ OnDevice w.f c w.h j.addrBuf a ∧
      Arg.newBuf w.f c w.h i false = .ok q ∧
      j' = if q.2.c99 = some i then (j.put .addr a).put .particles q.2 else j.put .addr a := by
  unfold Job.particles at h
  split at h
  · rename_i c i hc
    obtain ⟨a, ha, h⟩ := Res.bind_eq_ok.1 h
    obtain ⟨q, hq, h⟩ := Res.bind_eq_ok.1 h
    split at h
    · rename_i hx
      rcases (newBuf_cases ha).2 with h1 | h1
      · exact absurd (hx.symm.trans h1.2) (by simp)
      · cases h
        exact ⟨c, i, a.2, q, hc, rfl, h1.1, hq, rfl⟩
    · cases h
  · cases h

theorem elements_true {w : World} {e : Option Nat} {j j' : Job} (h : Job.elements w e j = .ok (true, j')) :
    ∃ c i a, j.ctl = some c ∧ e = some i ∧ OnDevice w.f c w.h i a ∧ j' = j.put .elements a := by
  unfold Job.elements at h
  split at h
  · rename_i c i hc
    obtain ⟨a, ha, h⟩ := Res.bind_eq_ok.1 h
    split at h
    · rename_i hx
      rcases (newBuf_cases ha).2 with h1 | h1
      · exact absurd (hx.symm.trans h1.1) (by simp)
      · cases h
        exact ⟨c, i, a.2, hc, rfl, h1.1, rfl⟩
    · cases h
  · cases h

/-- With a configuration there is an argument for it on the device. -/
def ConfigSent (w : World) (c : Ctl) (j j' : Job) : Prop :=
  (j.config = none ∧ j' = j) ∨ ∃ k a, j.config = some k ∧ OnDevice w.f c w.h k a ∧ j' = j.put .config a

theorem configArg_true {w : World} {c : Ctl} {j j' : Job} (h : j.configArg w c = .ok (true, j')) : ConfigSent w c j j' := by
  unfold Job.configArg at h
  split at h
  · rename_i hn
    cases h
    exact .inl ⟨hn, rfl⟩
  · rename_i k hk
    obtain ⟨a, ha, h⟩ := Res.bind_eq_ok.1 h
    obtain ⟨s, hs, h⟩ := Res.bind_eq_ok.1 h
    have h1 := congrArg Prod.fst (Res.ok.inj h)
    have h2 := congrArg Prod.snd (Res.ok.inj h)
    simp only at h1 h2
    obtain ⟨b1, b2⟩ := of_decide_eq_true h1
    have hs' : sendCxx w.f a.2 w.h k true = .ok (true, s.2) := by rw [hs, ← b1]
    obtain ⟨c1, _, c3⟩ := C81_buffer_sent w.f a.2 s.2 c (newBuf_cases ha).1 w.h k true (.inl hs')
    refine .inr ⟨k, s.2, hk, ⟨?_, c1, c3 rfl⟩, h2.symm⟩
    unfold Arg.place
    rw [b2]

theorem outputArg_true {w : World} {c : Ctl} {o : Nat} {j j' : Job} (h : Job.outputArg w c o j = .ok (true, j')) :
    ∃ a, OnDevice w.f c w.h o a ∧ j' = j.put .output a := by
  unfold Job.outputArg at h
  obtain ⟨a, ha, h⟩ := Res.bind_eq_ok.1 h
  have h1 := congrArg Prod.fst (Res.ok.inj h)
  have h2 := congrArg Prod.snd (Res.ok.inj h)
  simp only at h1 h2
  have hx := of_decide_eq_true h1
  rcases (newBuf_cases ha).2 with h3 | h3
  · exact absurd (hx.symm.trans h3.1) (by simp)
  · exact ⟨a.2, h3.1, h2.symm⟩

theorem output_true {w : World} {p : Option Nat} {j j' : Job} (h : Job.output w p j = .ok (true, j')) :
    ∃ c o j1 a, j.ctl = some c ∧ j.out = some o ∧ ConfigSent w c j j1 ∧ OnDevice w.f c w.h o a ∧
      j' = j1.put .output a := by
  unfold Job.output at h
  split at h
  · rename_i c o i hc ho
    obtain ⟨r, hr, h⟩ := Res.bind_eq_ok.1 h
    obtain ⟨h1, h2⟩ := andThen_true h
    obtain ⟨a, ha, e⟩ := outputArg_true h2
    have hr' : j.configArg w c = .ok (true, r.2) := by rw [hr, ← h1]
    exact ⟨c, o, r.2, a, hc, ho, configArg_true hr', ha, e⟩
  · cases h

/-- What has to be assigned has been. -/
def Assigned (w : World) : Prop :=
  (w.needsConfig = true → w.configBase = true ∧ w.configCuda = true) ∧
  (w.needsMonitors = true → w.monitorsBase = true ∧ w.monitorsCuda = true)

theorem assign_true {w : World} {r : Bool × Job} {j' : Job} (h : assign w r = .ok (true, j')) :
    r = (true, j') ∧ (w.required = true → j'.out.isSome = true → Assigned w) := by
  unfold assign at h
  obtain ⟨b, j⟩ := r
  split at h
  · rename_i hc
    simp only at hc
    obtain ⟨hb, ho, hr⟩ := hc
    subst hb
    obtain ⟨q, hq, h⟩ := Res.bind_eq_ok.1 h
    have hq' : q.2 = j ∧ (q.1 = true → w.needsConfig = true → w.configBase = true ∧ w.configCuda = true) := by
      unfold assignConfig at hq
      split at hq
      · cases hq
        exact ⟨rfl, fun h _ => by simpa using h⟩
      · rename_i hn
        cases hq
        exact ⟨rfl, fun _ h => absurd h hn⟩
    unfold assignMonitors at h
    split at h
    · rename_i hm
      obtain ⟨h1, h2⟩ := andThen_true h
      have h3 := Res.ok.inj h2
      refine ⟨by rw [← hq'.1, show q.2 = j' from congrArg Prod.snd h3], fun _ _ => ⟨hq'.2 h1, fun _ => ?_⟩⟩
      simpa using congrArg Prod.fst h3
    · rename_i hm
      cases h
      exact ⟨by rw [← hq'.1], fun _ _ => ⟨hq'.2 rfl, fun h => absurd h hm⟩⟩
  · rename_i hc
    cases h
    exact ⟨rfl, fun hr ho => absurd ⟨rfl, ho, hr⟩ hc⟩

end SixTrack.CudaInit

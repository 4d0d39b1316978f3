import Verif.ClNodesLemmas
import Verif.Props.ClNodesList

/-! # Property C93: which OpenCL nodes are given out, with which ids and descriptions -/

namespace SixTrack

open SixTrack.Node SixTrack.CInfo SixTrack.ClNodes

/-- A device with the name of its platform and the id it is to have. -/
structure DeviceAt where
  platform : Str
  device : Device
  p : Nat
  k : Nat

def DeviceAt.id (x : DeviceAt) : CId := ⟨x.p, x.k⟩

/-- The devices of a platform in their order. -/
def devicesAt (x : Platform) (p : Nat) : List DeviceAt := (x.devices.getD []).mapIdx fun k d => ⟨x.name, d, p, k⟩

/-- The devices of all platforms; only platforms that have devices are numbered. -/
def allDevices (ps : List Platform) : List DeviceAt :=
  ((ps.filter fun x => decide (x.devices.getD [] ≠ [])).mapIdx fun p x => devicesAt x p).flatten

/-- Each device has its description; there is an empty one if the device has no name or memory is exhausted. -/
def Right (av : Nat → Nat → Nat → Bool) (m : Mem) (x : DeviceAt) (i : Info) : Prop :=
  (Room (av x.p x.k) x.platform x.device ∧ Described m i x.platform x.device x.id) ∨
    (¬ Room (av x.p x.k) x.platform x.device ∧ i = Info.preset)

def allPtrs (is : List Info) : List Nat := is.flatMap Info.ptrs

theorem allPtrs_append (a b : List Info) : allPtrs (a ++ b) = allPtrs a ++ allPtrs b := by simp [allPtrs]

theorem Right.mono {av : Nat → Nat → Nat → Bool} {m m' : Mem} {own : List Nat} (h : Replaced m m' [] own)
    {x : DeviceAt} {i : Info} (hr : Right av m x i) : Right av m' x i := hr.imp (fun e => ⟨e.1, e.2.mono h⟩) fun e => e

theorem nodup_step {m m1 m2 : Mem} {a b : List Nat} (h1 : Replaced m m1 [] a) (h2 : Replaced m1 m2 [] b)
    (ha : a.Nodup) (hb : b.Nodup) : (a ++ b).Nodup := by
  refine List.nodup_append.mpr ⟨ha, hb, fun q hq r hr => ?_⟩
  have := ((h1.live q).mpr (.inr hq)).lt
  have := h2.fresh r hr
  omega

/-- What a loop has added. -/
structure Added (av : Nat → Nat → Nat → Bool) (m m' : Mem) (xs : List DeviceAt) (is : List Info) : Prop where
  mem : Replaced m m' [] (allPtrs is)
  nodup : (allPtrs is).Nodup
  right : List.Forall₂ (Right av m') xs is

theorem Added.trans {av : Nat → Nat → Nat → Bool} {m m1 m2 : Mem} {xs ys : List DeviceAt} {is js : List Info}
    (h1 : Added av m m1 xs is) (h2 : Added av m1 m2 ys js) : Added av m m2 (xs ++ ys) (is ++ js) := by
  refine ⟨?_, ?_, ?_⟩
  · rw [allPtrs_append]
    exact h1.mem.trans h2.mem
  · rw [allPtrs_append]
    exact nodup_step h1.mem h2.mem h1.nodup h2.nodup
  · exact List.rel_append (h1.right.imp fun x i h => h.mono h2.mem) h2.right

theorem one_added (av : Nat → Nat → Nat → Bool) (m : Mem) (x : DeviceAt) (hc : Clean x.platform x.device) :
    ∃ m' i, describe (av x.p x.k) m x.platform x.device x.id = .ok (m', i) ∧ Added av m m' [x] [i] := by
  by_cases h : Room (av x.p x.k) x.platform x.device
  · obtain ⟨m', i, e, ho, hr, hd⟩ := describe_ok (m := m) x.id h hc
    exact ⟨m', i, e, by simpa [allPtrs] using hr, by simpa [allPtrs] using ho.1, .cons (.inl ⟨h, hd⟩) .nil⟩
  · obtain ⟨m', e, hr⟩ := describe_fail (m := m) x.id h
    exact ⟨m', _, e, by simpa [allPtrs, Info.ptrs, Info.preset] using hr, by simp [allPtrs, Info.ptrs, Info.preset], .cons (.inr ⟨h, rfl⟩) .nil⟩

theorem eachDevice_added (av : Nat → Nat → Nat → Bool) (name : Str) (p : Nat) (ds : List Device)
    (hc : ∀ d ∈ ds, Clean name d) :
    ∀ (index : Nat) (m : Mem) (ns : Nodes), ∃ m' is, eachDevice av name p index m ns ds =
      .ok (m', ⟨ns.devices ++ ds, ns.ids ++ (ds.mapIdx fun k _ => (⟨p, (index + k : Nat)⟩ : CId)), ns.infos ++ is⟩) ∧
      Added av m m' (ds.mapIdx fun k d => ⟨name, d, p, index + k⟩) is := by
  induction ds with
  | nil =>
    intro index m ns
    exact ⟨m, [], by simp [eachDevice], Replaced.refl m, List.nodup_nil, .nil⟩
  | cons d ds ih =>
    intro index m ns
    obtain ⟨m1, i, e, h1⟩ := one_added av m ⟨name, d, p, index⟩ (hc d (by simp))
    obtain ⟨m2, is, e2, h2⟩ := ih (fun d hd => hc d (by simp [hd])) (index + 1) m1
      ⟨ns.devices ++ [d], ns.ids ++ [⟨p, index⟩], ns.infos ++ [i]⟩
    refine ⟨m2, i :: is, ?_, ?_⟩
    · unfold eachDevice
      simp only [DeviceAt.id] at e
      simp only [e, Res.ok_bind, e2]
      simp [List.mapIdx_cons, Nat.add_assoc, Nat.add_comm 1]
    · have := h1.trans h2
      simpa [List.mapIdx_cons, Nat.add_assoc, Nat.add_comm 1] using this

theorem devicesAt_devices (x : Platform) (p : Nat) : (devicesAt x p).map DeviceAt.device = x.devices.getD [] := by
  refine List.ext_getElem? fun k => ?_
  simp only [devicesAt, List.getElem?_map, List.getElem?_mapIdx]
  cases (x.devices.getD [])[k]? <;> rfl

theorem devicesAt_ids (x : Platform) (p : Nat) :
    (devicesAt x p).map DeviceAt.id = (x.devices.getD []).mapIdx fun k _ => (⟨p, (k : Nat)⟩ : CId) := by
  refine List.ext_getElem? fun k => ?_
  simp only [devicesAt, List.getElem?_map, List.getElem?_mapIdx]
  cases (x.devices.getD [])[k]? <;> rfl

/-- The devices of platforms, numbered from `p`. -/
def devicesFrom : Nat → List Platform → List DeviceAt
  | _, [] => []
  | p, x :: xs => devicesAt x p ++ devicesFrom (if x.devices.getD [] ≠ [] then p + 1 else p) xs

theorem devicesFrom_eq (ps : List Platform) : ∀ p, devicesFrom p ps =
    ((ps.filter fun x => decide (x.devices.getD [] ≠ [])).mapIdx fun k x => devicesAt x (p + k)).flatten := by
  induction ps with
  | nil => intro p; simp [devicesFrom]
  | cons x xs ih =>
    intro p
    unfold devicesFrom
    by_cases hx : x.devices.getD [] = []
    · rw [if_neg (by simpa using hx), ih, List.filter_cons_of_neg (by simpa using hx)]
      simp [devicesAt, hx]
    · rw [if_pos hx, ih, List.filter_cons_of_pos (by simpa using hx)]
      simp [List.mapIdx_cons, Nat.add_assoc, Nat.add_comm 1]

theorem allDevices_eq (ps : List Platform) : allDevices ps = devicesFrom 0 ps := by
  rw [devicesFrom_eq]
  simp [allDevices]

/-- The texts of the platforms and devices contain no NUL. -/
def CleanAll (ps : List Platform) : Prop := ∀ x ∈ ps, ∀ d ∈ x.devices.getD [], Clean x.name d

theorem eachPlatform_added (av : Nat → Nat → Nat → Bool) (ps : List Platform) (hc : CleanAll ps) :
    ∀ (p : Nat) (m : Mem) (ns : Nodes), ∃ m' is, eachPlatform av p m ns ps =
      .ok (m', ⟨ns.devices ++ (devicesFrom p ps).map DeviceAt.device, ns.ids ++ (devicesFrom p ps).map DeviceAt.id,
        ns.infos ++ is⟩) ∧ Added av m m' (devicesFrom p ps) is := by
  induction ps with
  | nil =>
    intro p m ns
    exact ⟨m, [], by simp [eachPlatform, devicesFrom], Replaced.refl m, List.nodup_nil, .nil⟩
  | cons x xs ih =>
    intro p m ns
    obtain ⟨m1, is, e, h1⟩ := eachDevice_added av x.name p (x.devices.getD []) (hc x (by simp)) 0 m ns
    obtain ⟨m2, js, e2, h2⟩ := ih (fun y hy => hc y (by simp [hy])) (if x.devices.getD [] ≠ [] then p + 1 else p) m1
      ⟨ns.devices ++ x.devices.getD [], ns.ids ++ ((x.devices.getD []).mapIdx fun k _ => (⟨p, (0 + k : Nat)⟩ : CId)),
        ns.infos ++ is⟩
    refine ⟨m2, is ++ js, ?_, ?_⟩
    · unfold eachPlatform
      simp only [e, Res.ok_bind]
      rw [e2]
      simp only [devicesFrom, List.map_append, List.append_assoc, devicesAt_devices, devicesAt_ids, Nat.zero_add]
    · simp only [devicesFrom, devicesAt]
      simp only [Nat.zero_add] at h1
      exact h1.trans h2

/-- All nodes are found: the devices of all platforms in their order, each with the number of its platform - those
without devices are not counted - and its number there, and with a description of its own. -/
theorem C93_all (av : Nat → Nat → Nat → Bool) (m : Mem) (ps : List Platform) (hc : CleanAll ps) :
    ∃ m' is, allNodes av m ps =
        .ok (m', ⟨(allDevices ps).map DeviceAt.device, (allDevices ps).map DeviceAt.id, is⟩) ∧
      List.Forall₂ (Right av m') (allDevices ps) is ∧ Replaced m m' [] (allPtrs is) ∧ (allPtrs is).Nodup := by
  obtain ⟨m', is, e, h⟩ := eachPlatform_added av ps hc 0 m ⟨[], [], []⟩
  refine ⟨m', is, ?_, ?_, h.mem, h.nodup⟩
  · rw [allDevices_eq]
    simpa [allNodes] using e
  · rw [allDevices_eq]
    exact h.right

/-! ## Choosing -/

/-- Infos whose texts have blocks of their own. -/
def OwnedAll (m : Mem) (is : List Info) : Prop := (allPtrs is).Nodup ∧ ∀ q ∈ allPtrs is, Live m q

theorem freeAll_ok (is : List Info) : ∀ m, OwnedAll m is → freeAll m is = .ok (kill m (allPtrs is)) := by
  induction is with
  | nil => intro m _; rfl
  | cons i is ih =>
    intro m ⟨hn, hl⟩
    have hn' : (i.ptrs ++ allPtrs is).Nodup := by simpa [allPtrs] using hn
    obtain ⟨h1, h2, h3⟩ := List.nodup_append.mp hn'
    have hi : Owned m i := ⟨h1, fun q hq => hl q (by simp only [allPtrs, List.flatMap_cons, List.mem_append]; exact .inl hq)⟩
    have e := free_info hi []
    simp only [List.append_nil] at e
    unfold freeAll
    rw [e, Res.ok_bind, ih]
    · rw [← kill_append]
      simp [allPtrs]
    · refine ⟨h2, fun q hq => Live.kill (hl q ?_) fun hq' => h3 q hq' q hq rfl⟩
      simp only [allPtrs, List.flatMap_cons, List.mem_append]
      exact .inr hq

/-- The descriptions chosen and those left are all descriptions. -/
structure Split (keep : Bool) (xs : List DeviceAt) (is : List Info) (chosen : List DeviceAt) (r : Nodes × List Info) :
    Prop where
  devices : r.1.devices = chosen.map DeviceAt.device
  ids : r.1.ids = chosen.map DeviceAt.id
  infos : if keep then ∃ sub : List (DeviceAt × Info), sub.Sublist (xs.zip is) ∧ sub.map Prod.fst = chosen ∧
    sub.map Prod.snd = r.1.infos else r.1.infos = []
  perm : (allPtrs r.1.infos ++ allPtrs r.2).Perm (allPtrs is)

theorem inList_iff (ids : List CId) (id : CId) : inList ids id = true ↔ id ∈ ids := by
  unfold inList
  rw [List.any_eq_true]
  constructor
  · rintro ⟨a, ha, h⟩
    rw [Bool.and_eq_true] at h
    have h1 := not_less h.1
    have h2 : ¬ Before id a := by
      rw [← less_iff]
      simpa using h.2
    have h3 : ¬ Before a id := by
      rw [← less_iff]
      simpa using h.1
    rcases h1 with h1 | h1
    · exact absurd h1 h2
    · exact h1 ▸ ha
  · intro h
    refine ⟨id, h, ?_⟩
    have : less id id = false := by simp [less]
    simp [this]

theorem select_split (allowed : List CId) (keep : Bool) (xs : List DeviceAt) : ∀ (is : List Info),
    is.length = xs.length →
    Split keep xs is (xs.filter fun x => decide (x.id ∈ allowed))
      (select allowed keep (xs.map DeviceAt.device) (xs.map DeviceAt.id) is) := by
  induction xs with
  | nil =>
    intro is hl
    have : is = [] := by simpa using hl
    subst this
    refine ⟨by simp [select], by simp [select], ?_, by simp [select, allPtrs]⟩
    split_ifs
    · exact ⟨[], by simp, by simp, by simp [select]⟩
    · simp [select]
  | cons x xs ih =>
    intro is hl
    cases is with
    | nil => simp at hl
    | cons i is =>
      have h := ih is (by simpa using hl)
      simp only [List.map_cons, select]
      by_cases hx : x.id ∈ allowed
      · rw [if_pos ((inList_iff _ _).mpr hx), List.filter_cons_of_pos (by simpa using hx)]
        refine ⟨by simp [h.devices], by simp [h.ids], ?_, ?_⟩
        · have hi := h.infos
          cases keep with
          | true =>
            simp only [if_true] at hi ⊢
            obtain ⟨sub, h1, h2, h3⟩ := hi
            exact ⟨(x, i) :: sub, by simpa using h1, by simp [h2], by simp [h3]⟩
          | false => simp
        · have hp := h.perm
          have hi := h.infos
          cases keep with
          | true =>
            simp only [if_true]
            have : allPtrs (Info.preset :: (select allowed true (xs.map DeviceAt.device) (xs.map DeviceAt.id) is).2) =
              allPtrs (select allowed true (xs.map DeviceAt.device) (xs.map DeviceAt.id) is).2 := by
              simp [allPtrs, Info.ptrs, Info.preset]
            rw [this]
            simp only [allPtrs, List.flatMap_cons, List.append_assoc] at hp ⊢
            exact hp.append_left _
          | false =>
            simp only [Bool.false_eq_true, if_false] at hi ⊢
            rw [hi] at hp
            simp only [allPtrs, List.flatMap_cons, List.flatMap_nil, List.nil_append] at hp ⊢
            exact hp.append_left _
      · rw [if_neg (fun e => hx ((inList_iff _ _).mp e)), List.filter_cons_of_neg (by simpa using hx)]
        refine ⟨h.devices, h.ids, ?_, ?_⟩
        · have hi := h.infos
          cases keep with
          | true =>
            simp only [if_true] at hi ⊢
            obtain ⟨sub, h1, h2, h3⟩ := hi
            exact ⟨sub, by simpa using h1.cons _, h2, h3⟩
          | false => simpa using hi
        · have hp := h.perm
          simp only [allPtrs, List.flatMap_cons] at hp ⊢
          rw [← List.append_assoc]
          refine (List.Perm.append_right _ List.perm_append_comm).trans ?_
          rw [List.append_assoc]
          exact hp.append_left _

/-- The devices a text chooses: `first` the first, `all` or nothing all of them, and otherwise those in the list. -/
def chosenDevices (text : Str) (allowed : List CId) (xs : List DeviceAt) : List DeviceAt :=
  if text = FIRST then xs.take 1
  else if text = [] ∨ text = ALL then xs
  else xs.filter fun x => decide (x.id ∈ allowed)

theorem choose_split (text : Str) (allowed : List CId) (keep : Bool) (xs : List DeviceAt) (is : List Info)
    (hl : is.length = xs.length) (hx : xs ≠ []) :
    Split keep xs is (chosenDevices text allowed xs)
      (choose allowed (decide (text ≠ [] ∧ text ≠ FIRST ∧ text ≠ ALL)) (decide (text = FIRST)) keep
        ⟨xs.map DeviceAt.device, xs.map DeviceAt.id, is⟩) := by
  have hpos : 0 < xs.length := List.length_pos_of_ne_nil hx
  unfold choose chosenDevices
  by_cases h1 : text = FIRST
  · have hd : decide (text ≠ [] ∧ text ≠ FIRST ∧ text ≠ ALL) = false := by simp [h1]
    rw [hd, if_pos h1]
    simp only [Bool.false_eq_true, if_false, List.length_map, gt_iff_lt, hpos, if_true, h1, decide_true]
    match xs, is, hl, hx with
    | x :: xs, i :: is, hl, _ =>
      refine ⟨by simp, by simp, ?_, ?_⟩
      · cases keep with
        | true => exact ⟨[(x, i)], by simp, by simp, by simp⟩
        | false => simp
      · cases keep <;> simp [allPtrs, Info.ptrs, Info.preset]
  · rw [if_neg h1]
    by_cases h2 : text = [] ∨ text = ALL
    · have hd : decide (text ≠ [] ∧ text ≠ FIRST ∧ text ≠ ALL) = false := by
        rw [decide_eq_false_iff_not]
        rintro ⟨g1, -, g3⟩
        exact h2.elim g1 g3
      rw [hd, if_pos h2]
      simp only [Bool.false_eq_true, if_false, List.length_map, gt_iff_lt, hpos, if_true, h1, decide_false]
      refine ⟨rfl, rfl, ?_, ?_⟩
      · cases keep with
        | true =>
          exact ⟨xs.zip is, List.Sublist.refl _, by simp [List.map_fst_zip, hl], by simp [List.map_snd_zip, hl]⟩
        | false => simp
      · cases keep <;> simp [allPtrs]
    · have hd : decide (text ≠ [] ∧ text ≠ FIRST ∧ text ≠ ALL) = true := by
        rw [decide_eq_true_iff]
        exact ⟨fun e => h2 (.inl e), h1, fun e => h2 (.inr e)⟩
      rw [hd, if_neg h2]
      simp only [if_true, gt_iff_lt]
      by_cases ha : 0 < allowed.length
      · rw [if_pos ha]
        exact select_split allowed keep xs is hl
      · have : allowed = [] := by
          cases allowed with
          | nil => rfl
          | cons a l => simp at ha
        rw [if_neg ha]
        subst this
        refine ⟨by simp, by simp, ?_, by simp [allPtrs]⟩
        cases keep with
        | true => exact ⟨[], by simp, by simp, by simp⟩
        | false => simp

/-- Freeing what is left: only the descriptions given out remain. -/
theorem kill_left {m m1 : Mem} {all own left : List Nat} (h : Replaced m m1 [] all) (hn : all.Nodup)
    (hp : (own ++ left).Perm all) : Replaced m (kill m1 left) [] own := by
  have hd := (List.nodup_append.mp (hp.nodup_iff.mpr hn)).2.2
  have hfresh : ∀ q ∈ left, m.length ≤ q := fun q hq => h.fresh q (hp.subset (by simp [hq]))
  refine ⟨fun q => ?_, fun q hq _ => ?_, fun q hq => h.fresh q (hp.subset (by simp [hq]))⟩
  · have hl : Live (kill m1 left) q ↔ Live m1 q ∧ q ∉ left := by
      constructor
      · intro hL
        have hlt := hL.lt
        rw [kill_length] at hlt
        obtain ⟨b, hb⟩ := hL
        rw [kill_get] at hb
        by_cases hq : q ∈ left
        · rw [if_pos ⟨hq, hlt⟩] at hb
          simp at hb
        · rw [if_neg (fun e => hq e.1)] at hb
          exact ⟨⟨b, hb⟩, hq⟩
      · exact fun e => e.1.kill e.2
    rw [hl, h.live]
    constructor
    · rintro ⟨h1 | h1, h2⟩
      · exact .inl h1
      · rcases List.mem_append.mp (hp.symm.subset h1) with h3 | h3
        · exact .inr h3
        · exact absurd h3 h2
    · rintro (h1 | h1)
      · refine ⟨.inl h1, fun hq => ?_⟩
        have := hfresh q hq
        have := h1.1.lt
        omega
      · exact ⟨.inr (hp.subset (by simp [h1])), fun hq => hd q h1 q hq rfl⟩
  · rw [kill_get, if_neg, h.kept q hq (by simp)]
    rintro ⟨h1, -⟩
    have := hfresh q h1
    omega

theorem Described.ptrs_kept {m m' : Mem} {i : Info} {p : Str} {d : Device} {id : CId} (hd : Described m i p d id)
    (hk : ∀ q ∈ i.ptrs, m'[q]? = m[q]?) : Described m' i p d id := by
  have key : ∀ (x : Ptr) (s : Str), (∀ q ∈ x.toList, q ∈ i.ptrs) → readStr m x = .ok s → readStr m' x = .ok s := by
    intro x s hx h
    obtain ⟨q, rfl, -⟩ := readStr_lt h
    rw [readStr_congr (hk q (hx q (by simp))), h]
  refine ⟨hd.id, key _ _ (fun q hq => by simp [Info.ptrs]; simp at hq; simp [hq]) hd.arch,
    key _ _ (fun q hq => by simp [Info.ptrs]; simp at hq; simp [hq]) hd.name, ?_, ?_⟩
  · have := hd.platform
    unfold OptText at this ⊢
    split_ifs at this ⊢
    · exact this
    · exact key _ _ (fun q hq => by simp [Info.ptrs]; simp at hq; simp [hq]) this
  · have := hd.extensions
    unfold OptText at this ⊢
    split_ifs at this ⊢
    · exact this
    · exact key _ _ (fun q hq => by simp [Info.ptrs]; simp at hq; simp [hq]) this

theorem forall₂_sub {R : DeviceAt → Info → Prop} : ∀ {xs : List DeviceAt} {is : List Info}, List.Forall₂ R xs is →
    ∀ p ∈ xs.zip is, R p.1 p.2
  | _, _, .nil => by simp
  | _, _, .cons h t => by
    intro p hp
    rcases List.mem_cons.mp (by simpa using hp : p ∈ (_, _) :: List.zip _ _) with rfl | hp
    · exact h
    · exact forall₂_sub t p hp

theorem forall₂_of_sub {R : DeviceAt → Info → Prop} (sub : List (DeviceAt × Info)) (h : ∀ p ∈ sub, R p.1 p.2) :
    List.Forall₂ R (sub.map Prod.fst) (sub.map Prod.snd) := by
  induction sub with
  | nil => exact .nil
  | cons p sub ih => exact .cons (h p (by simp)) (ih fun p hp => h p (by simp [hp]))

/-- The nodes given out are those the environment chooses, in the order of the platforms; each has its id and - if asked
for - its description.  The descriptions that are not given out have been freed, each once, and nothing else has been
touched. -/
theorem C93_available (checks : Bool) (env : Environment) (name : Option Str) (keep : Bool)
    (av : Nat → Nat → Nat → Bool) (m : Mem) (ps : List Platform) (hc : CleanAll ps) (allowed : List CId)
    (ha : allowedNodes env name = .ok allowed)
    (hd : checks = true → allDevices ps = [] ∨ ps.length ≤ (allDevices ps).length) :
    ∃ m' is, available checks env name keep av m ps =
        .ok (m', ⟨(chosenDevices ((choice env name).getD []) allowed (allDevices ps)).map DeviceAt.device,
          (chosenDevices ((choice env name).getD []) allowed (allDevices ps)).map DeviceAt.id, is⟩) ∧
      (keep = true → List.Forall₂ (Right av m') (chosenDevices ((choice env name).getD []) allowed (allDevices ps)) is) ∧
      (keep = false → is = []) ∧ Replaced m m' [] (allPtrs is) ∧ (allPtrs is).Nodup := by
  obtain ⟨m1, all, e, hr, hm, hn⟩ := C93_all av m ps hc
  unfold available
  rw [e]
  simp only
  rw [if_neg (by
    rintro ⟨h1, h2, h3⟩
    rcases hd h1 with h | h
    · simp [h] at h2
    · simp at h3
      omega)]
  by_cases hx : allDevices ps = []
  · have hall : all = [] := by
      rw [hx] at hr
      cases hr
      rfl
    have hch : chosenDevices ((choice env name).getD []) allowed [] = [] := by
      unfold chosenDevices
      split_ifs <;> simp
    rw [hx, hch]
    subst hall
    refine ⟨m1, [], by simp [filterNodes], fun _ => .nil, fun _ => rfl, hm, hn⟩
  · have hs := choose_split ((choice env name).getD []) allowed keep (allDevices ps) all hr.length_eq.symm hx
    generalize hT : (choice env name).getD [] = text at hs ⊢
    -- without a list the allowed ids play no part
    have hch : ∃ al, (if decide (text ≠ [] ∧ text ≠ FIRST ∧ text ≠ ALL) = true then allowedNodes env name else .ok []) =
        .ok al ∧ choose al (decide (text ≠ [] ∧ text ≠ FIRST ∧ text ≠ ALL)) (decide (text = FIRST)) keep
          ⟨(allDevices ps).map DeviceAt.device, (allDevices ps).map DeviceAt.id, all⟩ =
        choose allowed (decide (text ≠ [] ∧ text ≠ FIRST ∧ text ≠ ALL)) (decide (text = FIRST)) keep
          ⟨(allDevices ps).map DeviceAt.device, (allDevices ps).map DeviceAt.id, all⟩ := by
      cases decide (text ≠ [] ∧ text ≠ FIRST ∧ text ≠ ALL) with
      | true => exact ⟨allowed, by simp [ha], rfl⟩
      | false => exact ⟨[], by simp, by simp [choose]⟩
    obtain ⟨al, e1, e2⟩ := hch
    unfold filterNodes
    rw [if_neg (by simpa using hx)]
    simp only [hT]
    rw [e1, Res.ok_bind, e2]
    generalize choose allowed (decide (text ≠ [] ∧ text ≠ FIRST ∧ text ≠ ALL)) (decide (text = FIRST)) keep
          ⟨(allDevices ps).map DeviceAt.device, (allDevices ps).map DeviceAt.id, all⟩ = r at hs ⊢
    have hnn := List.nodup_append.mp (hs.perm.nodup_iff.mpr hn)
    rw [freeAll_ok r.2 m1 ⟨hnn.2.1, fun q hq => (hm.live q).mpr (.inr (hs.perm.subset (by simp [hq])))⟩, Res.ok_bind]
    obtain ⟨⟨rd, ri, rn⟩, left⟩ := r
    obtain ⟨g1, g2, g3, g4⟩ := hs
    simp only at g1 g2 g3 g4 hnn ⊢
    subst g1
    subst g2
    refine ⟨_, rn, rfl, ?_, ?_, kill_left hm hn g4, hnn.1⟩
    · intro hk
      rw [hk, if_pos rfl] at g3
      obtain ⟨sub, s1, s2, s3⟩ := g3
      rw [← s2, ← s3]
      refine forall₂_of_sub sub fun p hp => ?_
      refine (forall₂_sub hr p (s1.subset hp)).imp (fun h => ⟨h.1, Described.ptrs_kept h.2 fun q hq => ?_⟩) fun h => h
      rw [kill_get, if_neg]
      rintro ⟨h1, -⟩
      refine hnn.2.2 q ?_ q h1 rfl
      rw [← s3]
      exact List.mem_flatMap.mpr ⟨p.2, List.mem_map.mpr ⟨p, hp, rfl⟩, hq⟩
    · intro hk
      rw [hk, if_neg (by simp)] at g3
      exact g3

end SixTrack

import Verif.Structure.Create

/-!
# Descriptions: looking up after a change, and consistency
-/
namespace Lue.Structure

/-! ## Looking up after a change -/

theorem upd_self {α : Type} (c : Name → Option α) (n : Name) (a : α) : upd c n a n = some a := by simp [upd]

theorem upd_ne {α : Type} (c : Name → Option α) {n m : Name} (a : α) (h : m ≠ n) : upd c n a m = c m := by simp [upd, h]

theorem world_setWorld (D : DatasetD) (w w' : Option Name) (W : WorldD) :
    (D.setWorld w W).world? w' = if w' = w then some W else D.world? w' := by
  cases w with
  | none => cases w' <;> simp [DatasetD.setWorld, DatasetD.world?]
  | some u =>
    cases w' with
    | none => simp [DatasetD.setWorld, DatasetD.world?]
    | some u' => simp [DatasetD.setWorld, DatasetD.world?, upd]

theorem phenomenon_setPhenomenon (D : DatasetD) (a a' : PhenomenonAddr) (P : PhenomenonD) (h : (D.world? a.world).isSome) :
    (D.setPhenomenon a P).phenomenon? a' = if a' = a then some P else D.phenomenon? a' := by
  obtain ⟨W, hW⟩ := Option.isSome_iff_exists.mp h
  unfold DatasetD.setPhenomenon DatasetD.phenomenon?
  simp only [hW, world_setWorld]
  by_cases hw : a'.world = a.world
  · rw [if_pos hw]
    show upd W a.name P a'.name = _
    by_cases hn : a'.name = a.name
    · rw [hn, upd_self, if_pos]
      cases a; cases a'; simp_all
    · rw [upd_ne _ _ hn, if_neg (by rintro rfl; exact hn rfl), hw, hW]
      rfl
  · rw [if_neg hw, if_neg (by rintro rfl; exact hw rfl)]

theorem set_setPhenomenon (D : DatasetD) (a : PhenomenonAddr) (s : SetAddr) (P : PhenomenonD) (h : (D.world? a.world).isSome) :
    (D.setPhenomenon a P).set? s = if s.phenomenon = a then P.sets s.coll s.name else D.set? s := by
  unfold DatasetD.set?
  rw [phenomenon_setPhenomenon D a _ P h]
  split <;> rfl

theorem set_setSet (D : DatasetD) (s s' : SetAddr) (S : SetD) (h : (D.phenomenon? s.phenomenon).isSome) :
    (D.setSet s S).set? s' = if s' = s then some S else D.set? s' := by
  obtain ⟨P, hP⟩ := Option.isSome_iff_exists.mp h
  unfold DatasetD.setSet
  simp only [hP]
  rw [set_setPhenomenon _ _ _ _ (world_isSome h)]
  by_cases hp : s'.phenomenon = s.phenomenon
  · rw [if_pos hp]
    have hs' : D.set? s' = P.sets s'.coll s'.name := by
      unfold DatasetD.set?; rw [hp, hP]; rfl
    simp only
    by_cases hc : s'.coll = s.coll
    · rw [if_pos hc]
      by_cases hn : s'.name = s.name
      · rw [hn, upd_self, if_pos]
        cases s; cases s'; simp_all
      · rw [upd_ne _ _ hn, if_neg (by rintro rfl; exact hn rfl), hs']
    · rw [if_neg hc, if_neg (by rintro rfl; exact hc rfl), hs']
  · rw [if_neg hp, if_neg (by rintro rfl; exact hp rfl)]

theorem property_setSet (D : DatasetD) (s : SetAddr) (p : PropertyAddr) (S : SetD) (h : (D.phenomenon? s.phenomenon).isSome) :
    (D.setSet s S).property? p = if p.set = s then S.properties p.kind p.name else D.property? p := by
  unfold DatasetD.property?
  rw [set_setSet D s _ S h]
  split <;> rfl

theorem set_setProperty (D : DatasetD) (p : PropertyAddr) (s : SetAddr) (x : PropertyD) {S : SetD} (h : D.set? p.set = some S) :
    (D.setProperty p x).set? s = if s = p.set then
      some { S with properties := fun k => if k = p.kind then upd (S.properties k) p.name x else S.properties k }
      else D.set? s := by
  unfold DatasetD.setProperty
  simp only [h]
  exact set_setSet D p.set s _ (phenomenon_isSome (h ▸ rfl))

theorem property_setProperty (D : DatasetD) (p q : PropertyAddr) (x : PropertyD) (h : (D.set? p.set).isSome) :
    (D.setProperty p x).property? q = if q = p then some x else D.property? q := by
  obtain ⟨S, hS⟩ := Option.isSome_iff_exists.mp h
  unfold DatasetD.property?
  rw [set_setProperty D p _ x hS]
  by_cases hs : q.set = p.set
  · rw [if_pos hs, hs, hS]
    show (if q.kind = p.kind then upd (S.properties q.kind) p.name x else S.properties q.kind) q.name = _
    by_cases hk : q.kind = p.kind
    · rw [if_pos hk]
      by_cases hn : q.name = p.name
      · rw [hn, upd_self, if_pos]
        cases p; cases q; simp_all
      · rw [upd_ne _ _ hn, if_neg (by rintro rfl; exact hn rfl)]; rfl
    · rw [if_neg hk, if_neg (by rintro rfl; exact hk rfl)]; rfl
  · rw [if_neg hs, if_neg (by rintro rfl; exact hs rfl)]

theorem set_addUniverse (D : DatasetD) (u : Name) (hu : D.universes u = none) (s : SetAddr) :
    DatasetD.set? { D with universes := upd D.universes u fun _ => none } s = D.set? s := by
  unfold DatasetD.set? DatasetD.phenomenon? DatasetD.world?
  cases hw : s.phenomenon.world with
  | none => rfl
  | some x =>
    simp only
    by_cases hx : x = u
    · subst hx; rw [upd_self, hu]; rfl
    · rw [upd_ne _ _ hx]

theorem set_addPhenomenon (D : DatasetD) (a : PhenomenonAddr) (d : String) (hw : (D.world? a.world).isSome)
    (ha : D.phenomenon? a = none) (s : SetAddr) : (D.setPhenomenon a ⟨d, fun _ _ => none⟩).set? s = D.set? s := by
  rw [set_setPhenomenon D a s _ hw]
  split
  · rename_i h
    unfold DatasetD.set?
    rw [h, ha]; rfl
  · rfl

/-! ## Owners -/

/-- More property-sets, same answers -/
theorem owner_mono {f g : SetAddr → Option (Option SetAddr)} (h : ∀ s x, f s = some x → g s = some x) :
    ∀ (n : Nat) (s o : SetAddr), owner f n s = some o → owner g n s = some o := by
  intro n
  induction n with
  | zero =>
    intro s o hs
    unfold owner at hs ⊢
    cases hf : f s with
    | none => rw [hf] at hs; cases hs
    | some x => rw [hf] at hs; rw [h s x hf]; exact hs
  | succ n ih =>
    intro s o hs
    unfold owner at hs ⊢
    cases hf : f s with
    | none => rw [hf] at hs; cases hs
    | some x =>
      rw [hf] at hs; rw [h s x hf]
      cases x with
      | none => exact hs
      | some t => exact ih t o hs

theorem owner_succ {f : SetAddr → Option (Option SetAddr)} :
    ∀ (n : Nat) (s o : SetAddr), owner f n s = some o → owner f (n + 1) s = some o := by
  intro n
  induction n with
  | zero =>
    intro s o hs
    unfold owner at hs ⊢
    cases hf : f s with
    | none => rw [hf] at hs; cases hs
    | some x =>
      rw [hf] at hs
      cases x with
      | none => exact hs
      | some t => cases hs
  | succ n ih =>
    intro s o hs
    unfold owner at hs ⊢
    cases hf : f s with
    | none => rw [hf] at hs; cases hs
    | some x =>
      rw [hf] at hs
      cases x with
      | none => exact hs
      | some t => exact ih t o hs

/-- The owner has its own. -/
theorem owner_owns {f : SetAddr → Option (Option SetAddr)} :
    ∀ (n : Nat) (s o : SetAddr), owner f n s = some o → f o = some none := by
  intro n
  induction n with
  | zero =>
    intro s o hs
    unfold owner at hs
    cases hf : f s with
    | none => rw [hf] at hs; cases hs
    | some x =>
      rw [hf] at hs
      cases x with
      | none => cases hs; exact hf
      | some t => cases hs
  | succ n ih =>
    intro s o hs
    unfold owner at hs
    cases hf : f s with
    | none => rw [hf] at hs; cases hs
    | some x =>
      rw [hf] at hs
      cases x with
      | none => cases hs; exact hf
      | some t => exact ih t o hs

theorem owner_own {f : SetAddr → Option (Option SetAddr)} {s : SetAddr} (h : f s = some none) (n : Nat) : owner f n s = some s := by
  cases n <;> (unfold owner; rw [h]; rfl)

theorem owner_shared {f : SetAddr → Option (Option SetAddr)} {s t : SetAddr} (h : f s = some (some t)) (n : Nat) :
    owner f (n + 1) s = owner f n t := by
  conv => lhs; unfold owner
  rw [h]; rfl

/-! ## Consistency -/

def TrackerD.source : TrackerD → Option SetAddr
  | .own => none
  | .shared t => some t

/-- `none`: no time domain -/
def TimeD.source : TimeD → Option (Option SetAddr)
  | .absent => none
  | .own _ _ => some none
  | .shared t => some (some t)

theorem trackerFrom_eq (D : DatasetD) (s : SetAddr) : D.trackerFrom s = (D.set? s).map fun S => S.tracker.source := by
  unfold DatasetD.trackerFrom
  cases D.set? s with
  | none => rfl
  | some S => cases h : S.tracker <;> simp [h, TrackerD.source]

theorem timeFrom_eq (D : DatasetD) (s : SetAddr) : D.timeFrom s = (D.set? s).bind fun S => S.time.source := by
  unfold DatasetD.timeFrom
  cases D.set? s with
  | none => rfl
  | some S => cases h : S.time <;> simp [h, TimeD.source]

/-- Everything that is referred to exists. -/
structure Wf (D : DatasetD) : Prop where
  trackers : ∀ s S, D.set? s = some S → (owner D.trackerFrom maxLinks s).isSome
  times : ∀ s S, D.set? s = some S → S.time ≠ .absent → (owner D.timeFrom maxLinks s).isSome
  timeDiscs : ∀ p x t q, D.property? p = some x → x.timeDisc = some (t, q) → (D.property? q).isSome
  spaceDiscs : ∀ p x t q, D.property? p = some x → x.spaceDisc = some (t, q) → (D.property? q).isSome
  presences : ∀ s S x q, D.set? s = some S → S.space = some x → x.presence = some q → (D.property? q).isSome
  names : ∀ s S k k' n, D.set? s = some S → (S.properties k n).isSome → (S.properties k' n).isSome → k = k'

theorem wf_new (v d : String) : Wf (DatasetD.new v d) := by
  have h : ∀ s, (DatasetD.new v d).set? s = none := by
    intro s
    unfold DatasetD.set? DatasetD.phenomenon?
    cases hw : s.phenomenon.world <;> rfl
  have hp : ∀ p, (DatasetD.new v d).property? p = none := by
    intro p; unfold DatasetD.property?; rw [h]; rfl
  constructor <;> intro s <;> intros <;> simp_all

/-- The property-sets and their properties are the same. -/
theorem wf_of_same {D D' : DatasetD} (h : Wf D) (hs : ∀ s, D'.set? s = D.set? s) : Wf D' := by
  have hp : ∀ p, D'.property? p = D.property? p := by
    intro p; unfold DatasetD.property?; rw [hs]
  have ht : D'.trackerFrom = D.trackerFrom := by
    funext s; rw [trackerFrom_eq, trackerFrom_eq, hs]
  have hm : D'.timeFrom = D.timeFrom := by
    funext s; rw [timeFrom_eq, timeFrom_eq, hs]
  constructor
  · intro s S h1; rw [ht]; exact h.trackers s S (hs s ▸ h1)
  · intro s S h1; rw [hm]; exact h.times s S (hs s ▸ h1)
  · intro p x t q h1 h2; rw [hp]; exact h.timeDiscs p x t q (hp p ▸ h1) h2
  · intro p x t q h1 h2; rw [hp]; exact h.spaceDiscs p x t q (hp p ▸ h1) h2
  · intro s S x q h1 h2 h3; rw [hp]; exact h.presences s S x q (hs s ▸ h1) h2 h3
  · intro s S k k' n h1; exact h.names s S k k' n (hs s ▸ h1)

theorem not_absent_iff (t : TimeD) : t ≠ .absent ↔ (t.source).isSome := by
  cases t <;> simp [TimeD.source]

/-- Adding a property-set -/
theorem wf_addSet {D : DatasetD} (h : Wf D) (s : SetAddr) (a : SetArgs) (hp : (D.phenomenon? s.phenomenon).isSome)
    (hs : D.set? s = none) (ha : a.Sources D (maxLinks - 1)) : Wf (D.setSet s a.describe) := by
  have hset := fun s' => set_setSet D s s' a.describe hp
  have hprop := fun p => property_setSet D s p a.describe hp
  have hold : ∀ s' S, D.set? s' = some S → s' ≠ s := by
    rintro s' S h1 rfl; rw [hs] at h1; cases h1
  have ht : ∀ s' x, D.trackerFrom s' = some x → (D.setSet s a.describe).trackerFrom s' = some x := by
    intro s' x h1
    rw [trackerFrom_eq] at h1 ⊢
    rw [hset, if_neg]
    · exact h1
    · rintro rfl; rw [hs] at h1; cases h1
  have hm : ∀ s' x, D.timeFrom s' = some x → (D.setSet s a.describe).timeFrom s' = some x := by
    intro s' x h1
    rw [timeFrom_eq] at h1 ⊢
    rw [hset, if_neg]
    · exact h1
    · rintro rfl; rw [hs] at h1; cases h1
  have hpold : ∀ q, (D.property? q).isSome → ((D.setSet s a.describe).property? q).isSome := by
    intro q hq
    rw [hprop, if_neg]
    · exact hq
    · intro he
      have := set_isSome hq
      rw [he, hs] at this; cases this
  have hpnew : ∀ p x, (D.setSet s a.describe).property? p = some x → D.property? p = some x := by
    intro p x h1
    rw [hprop] at h1
    split at h1
    · cases h1
    · exact h1
  constructor
  · intro s' S h1
    rw [hset] at h1
    split at h1
    · rename_i he
      cases h1
      rw [he]
      have hfrom : (D.setSet s a.describe).trackerFrom s = some a.tracker.source := by
        rw [trackerFrom_eq, hset, if_pos rfl]; rfl
      cases htr : a.tracker with
      | own => rw [owner_own (by rw [hfrom, htr]; rfl)]; rfl
      | shared t =>
        obtain ⟨o, ho⟩ := Option.isSome_iff_exists.mp (ha.2 t htr)
        show (owner _ ((maxLinks - 1) + 1) s).isSome
        rw [owner_shared (by rw [hfrom, htr]; rfl), owner_mono ht _ _ _ ho]; rfl
    · obtain ⟨o, ho⟩ := Option.isSome_iff_exists.mp (h.trackers s' S h1)
      rw [owner_mono ht _ _ _ ho]; rfl
  · intro s' S h1 h2
    rw [hset] at h1
    split at h1
    · rename_i he
      cases h1
      rw [he]
      have hfrom : (D.setSet s a.describe).timeFrom s = a.timeD.source := by
        rw [timeFrom_eq, hset, if_pos rfl]; rfl
      cases htr : a.timeD with
      | absent => exact absurd htr h2
      | own i c => rw [owner_own (by rw [hfrom, htr]; rfl)]; rfl
      | shared t =>
        obtain ⟨o, ho⟩ := Option.isSome_iff_exists.mp (ha.1 t htr)
        show (owner _ ((maxLinks - 1) + 1) s).isSome
        rw [owner_shared (by rw [hfrom, htr]; rfl), owner_mono hm _ _ _ ho]; rfl
    · obtain ⟨o, ho⟩ := Option.isSome_iff_exists.mp (h.times s' S h1 h2)
      rw [owner_mono hm _ _ _ ho]; rfl
  · intro p x t q h1 h2; exact hpold _ (h.timeDiscs p x t q (hpnew _ _ h1) h2)
  · intro p x t q h1 h2; exact hpold _ (h.spaceDiscs p x t q (hpnew _ _ h1) h2)
  · intro s' S x q h1 h2 h3
    rw [hset] at h1
    split at h1
    · cases h1
      exfalso
      have : a.spaceD = some x := h2
      cases a <;> simp [SetArgs.spaceD] at this <;> (subst this; cases h3)
    · exact hpold _ (h.presences s' S x q h1 h2 h3)
  · intro s' S k k' n h1 h2 h3
    rw [hset] at h1
    split at h1
    · cases h1; cases h2
    · exact h.names s' S k k' n h1 h2 h3

/-- Changing the properties, or the discretization of the presence, of a property-set -/
theorem wf_change {D : DatasetD} (h : Wf D) (s : SetAddr) (S S' : SetD) (hs : D.set? s = some S)
    (ht : S'.tracker = S.tracker) (hm : S'.time = S.time)
    (hkeep : ∀ k n, (S.properties k n).isSome → (S'.properties k n).isSome)
    (htd : ∀ k n x t q, S'.properties k n = some x → x.timeDisc = some (t, q) →
      (∃ y, S.properties k n = some y ∧ y.timeDisc = some (t, q)) ∨ (D.property? q).isSome)
    (hsd : ∀ k n x t q, S'.properties k n = some x → x.spaceDisc = some (t, q) →
      (∃ y, S.properties k n = some y ∧ y.spaceDisc = some (t, q)) ∨ (D.property? q).isSome)
    (hpr : ∀ x q, S'.space = some x → x.presence = some q →
      (∃ y, S.space = some y ∧ y.presence = some q) ∨ (D.property? q).isSome)
    (hn : ∀ k k' n, (S'.properties k n).isSome → (S'.properties k' n).isSome → k = k') : Wf (D.setSet s S') := by
  have hp := phenomenon_isSome (s := s) (D := D) (by rw [hs]; rfl)
  have hset := fun s' => set_setSet D s s' S' hp
  have hprop := fun p => property_setSet D s p S' hp
  have htr : (D.setSet s S').trackerFrom = D.trackerFrom := by
    funext s'
    rw [trackerFrom_eq, trackerFrom_eq, hset]
    split
    · rename_i he; rw [he, hs]; simp [ht]
    · rfl
  have htm : (D.setSet s S').timeFrom = D.timeFrom := by
    funext s'
    rw [timeFrom_eq, timeFrom_eq, hset]
    split
    · rename_i he; rw [he, hs]; simp [hm]
    · rfl
  have hpold : ∀ q, (D.property? q).isSome → ((D.setSet s S').property? q).isSome := by
    intro q hq
    rw [hprop]
    split
    · rename_i he
      apply hkeep
      unfold DatasetD.property? at hq
      rw [he, hs] at hq
      exact hq
    · exact hq
  have hold : ∀ p, p.set = s → D.property? p = S.properties p.kind p.name := by
    intro p he; unfold DatasetD.property?; rw [he, hs]; rfl
  constructor
  · intro s' X h1
    rw [htr]
    rw [hset] at h1
    split at h1
    · rename_i he; rw [he]; exact h.trackers s S hs
    · exact h.trackers s' X h1
  · intro s' X h1 h2
    rw [htm]
    rw [hset] at h1
    split at h1
    · rename_i he; rw [he]; cases h1; exact h.times s S hs (hm ▸ h2)
    · exact h.times s' X h1 h2
  · intro p x t q h1 h2
    rw [hprop] at h1
    split at h1
    · rename_i he
      rcases htd _ _ _ _ _ h1 h2 with ⟨y, hy, hy'⟩ | hq
      · exact hpold _ (h.timeDiscs p y t q (by rw [hold p he, hy]) hy')
      · exact hpold _ hq
    · exact hpold _ (h.timeDiscs p x t q h1 h2)
  · intro p x t q h1 h2
    rw [hprop] at h1
    split at h1
    · rename_i he
      rcases hsd _ _ _ _ _ h1 h2 with ⟨y, hy, hy'⟩ | hq
      · exact hpold _ (h.spaceDiscs p y t q (by rw [hold p he, hy]) hy')
      · exact hpold _ hq
    · exact hpold _ (h.spaceDiscs p x t q h1 h2)
  · intro s' X x q h1 h2 h3
    rw [hset] at h1
    split at h1
    · cases h1
      rcases hpr _ _ h2 h3 with ⟨y, hy, hy'⟩ | hq
      · exact hpold _ (h.presences s S y q hs hy hy')
      · exact hpold _ hq
    · exact hpold _ (h.presences s' X x q h1 h2 h3)
  · intro s' X k k' n h1 h2 h3
    rw [hset] at h1
    split at h1
    · cases h1; exact hn k k' n h2 h3
    · exact h.names s' X k k' n h1 h2 h3

/-- Changing or adding a property -/
theorem wf_setProperty {D : DatasetD} (h : Wf D) (p : PropertyAddr) (x : PropertyD) (hs : (D.set? p.set).isSome)
    (hn : ∀ k, k ≠ p.kind → D.property? ⟨p.set, k, p.name⟩ = none)
    (htd : ∀ t q, x.timeDisc = some (t, q) → (∃ y, D.property? p = some y ∧ y.timeDisc = some (t, q)) ∨ (D.property? q).isSome)
    (hsd : ∀ t q, x.spaceDisc = some (t, q) → (∃ y, D.property? p = some y ∧ y.spaceDisc = some (t, q)) ∨ (D.property? q).isSome) :
    Wf (D.setProperty p x) := by
  obtain ⟨S, hS⟩ := Option.isSome_iff_exists.mp hs
  have hprop : ∀ k n, D.property? ⟨p.set, k, n⟩ = S.properties k n := by
    intro k n; unfold DatasetD.property?; rw [hS]; rfl
  have hpp : D.property? p = S.properties p.kind p.name := hprop p.kind p.name
  have key : ∀ k n, (if k = p.kind then upd (S.properties k) p.name x else S.properties k) n =
      if k = p.kind ∧ n = p.name then some x else S.properties k n := by
    intro k n
    by_cases hk : k = p.kind
    · simp only [hk, if_true, true_and, upd]
    · simp [hk]
  unfold DatasetD.setProperty
  simp only [hS]
  refine wf_change h p.set S _ hS rfl rfl ?_ ?_ ?_ ?_ ?_
  · intro k n h1
    show ((if k = p.kind then upd (S.properties k) p.name x else S.properties k) n).isSome
    rw [key]
    split
    · rfl
    · exact h1
  · intro k n y t q h1 h2
    replace h1 := (key k n).symm.trans h1
    split at h1
    · rename_i he
      cases h1
      rw [he.1, he.2, ← hpp]
      exact htd t q h2
    · exact .inl ⟨y, h1, h2⟩
  · intro k n y t q h1 h2
    replace h1 := (key k n).symm.trans h1
    split at h1
    · rename_i he
      cases h1
      rw [he.1, he.2, ← hpp]
      exact hsd t q h2
    · exact .inl ⟨y, h1, h2⟩
  · intro y q h1 h2; exact .inl ⟨y, h1, h2⟩
  · intro k k' n h1 h2
    simp only [key] at h1 h2
    by_cases hname : n = p.name
    · have hk : ∀ j, (if j = p.kind ∧ n = p.name then some x else S.properties j n).isSome → j = p.kind := by
        intro j hj
        by_contra hne
        rw [if_neg (by rintro ⟨h1, _⟩; exact hne h1), hname, ← hprop, hn j hne] at hj
        cases hj
      rw [hk k h1, hk k' h2]
    · rw [if_neg (by rintro ⟨_, h⟩; exact hname h)] at h1 h2
      exact h.names p.set S k k' n hS h1 h2

theorem wf_apply {D : DatasetD} (h : Wf D) (op : Op) (ha : Allowed D op) (hst : Storable D op) : Wf (apply D op) := by
  cases op with
  | addUniverse u => exact wf_of_same h (set_addUniverse D u ha)
  | addPhenomenon a d => exact wf_of_same h (set_addPhenomenon D a d ha.1 ha.2)
  | addSet s a => exact wf_addSet h s a ha.1 ha.2.1 hst.1
  | addProperty p d =>
    refine wf_setProperty h p _ ha.1 (fun k _ => ha.2 k) ?_ ?_
    · intro t q h1; cases h1
    · intro t q h1; cases h1
  | discretizeTime p t q =>
    obtain ⟨⟨x, hx, _⟩, hq⟩ := ha
    have hs : (D.set? p.set).isSome := set_isSome (by rw [hx]; rfl)
    unfold apply
    simp only [hx]
    refine wf_setProperty h p _ hs ?_ ?_ ?_
    · intro k hk
      obtain ⟨S, hS⟩ := Option.isSome_iff_exists.mp hs
      cases hc : D.property? ⟨p.set, k, p.name⟩ with
      | none => rfl
      | some y =>
        exfalso
        unfold DatasetD.property? at hc hx
        rw [hS] at hc hx
        exact hk (h.names p.set S k p.kind p.name hS (by rw [show S.properties k p.name = some y from hc]; rfl)
          (by rw [show S.properties p.kind p.name = some x from hx]; rfl))
    · intro t' q' h1; cases h1; exact .inr hq
    · intro t' q' h1; exact .inl ⟨x, hx, h1⟩
  | discretizeSpace p t q =>
    obtain ⟨⟨x, hx, _⟩, hq⟩ := ha
    have hs : (D.set? p.set).isSome := set_isSome (by rw [hx]; rfl)
    unfold apply
    simp only [hx]
    refine wf_setProperty h p _ hs ?_ ?_ ?_
    · intro k hk
      obtain ⟨S, hS⟩ := Option.isSome_iff_exists.mp hs
      cases hc : D.property? ⟨p.set, k, p.name⟩ with
      | none => rfl
      | some y =>
        exfalso
        unfold DatasetD.property? at hc hx
        rw [hS] at hc hx
        exact hk (h.names p.set S k p.kind p.name hS (by rw [show S.properties k p.name = some y from hc]; rfl)
          (by rw [show S.properties p.kind p.name = some x from hx]; rfl))
    · intro t' q' h1; exact .inl ⟨x, hx, h1⟩
    · intro t' q' h1; cases h1; exact .inr hq
  | discretizePresence s q =>
    obtain ⟨⟨S, x, hS, hx, _⟩, hq⟩ := ha
    unfold apply
    simp only [hS]
    refine wf_change h s S _ hS rfl rfl (fun _ _ h => h) ?_ ?_ ?_ (fun k k' n => h.names s S k k' n hS)
    · intro k n y t q' h1 h2; exact .inl ⟨y, h1, h2⟩
    · intro k n y t q' h1 h2; exact .inl ⟨y, h1, h2⟩
    · intro y q' h1 h2
      simp only [hx, Option.map_some, Option.some.injEq] at h1
      subst h1
      cases h2
      exact .inr hq

end Lue.Structure

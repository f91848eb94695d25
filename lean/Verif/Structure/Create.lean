import Verif.Structure.Render

/-!
# What the creating functions write
-/
namespace Lue.Structure

/-- Replace a part. -/
def graft (P : Path) (u t : Tree) : Tree := fun p => if P <+: p then u (p.drop P.length) else t p

theorem grafted_graft (P : Path) (u t : Tree) : Grafted P u t (graft P u t) where
  inside q := by
    unfold graft
    rw [if_pos (List.prefix_append P q), List.drop_left]
  outside p hp := by
    unfold graft
    rw [if_neg]
    rintro ⟨q, hq⟩
    exact hp q hq.symm

theorem graft_cons (c d : Comp) (u t : Tree) (q : Path) : graft [c] u t (d :: q) = if c = d then u q else t (d :: q) := by
  unfold graft
  simp only [List.cons_prefix_cons, List.nil_prefix, and_true, List.length_cons, List.length_nil, List.drop_succ_cons, List.drop_zero]

theorem graft_nil (c : Comp) (u t : Tree) : graft [c] u t [] = t [] := by
  unfold graft
  rw [if_neg]
  intro h
  simp at h

/-- A new group -/
def fresh : Tree
  | [] => some (.group Attrs.empty)
  | _ => none

/-- A node with nothing below it -/
def leaf (n : Node) : Tree
  | [] => some n
  | _ => none

theorem set_leaf {t : Tree} {c : Comp} (n : Node) (ht : ∀ q, t (c :: q) = none) : t.set [c] n = graft [c] (leaf n) t := by
  funext p
  match p with
  | [] => rw [graft_nil]; simp [Tree.set]
  | d :: q =>
    rw [graft_cons]
    unfold Tree.set
    by_cases hd : c = d
    · subst hd
      simp only [List.cons.injEq, true_and, if_true]
      cases q with
      | nil => rfl
      | cons e q => simp [leaf, ht]
    · rw [if_neg (by intro h; exact hd (List.cons.inj h).1), if_neg hd]

theorem does_node0 {P : Path} {c : Comp} {t : Tree} {a : Attrs} (n : Node) (hg : t [] = some (.group a)) (ht : ∀ q, t (c :: q) = none)
    {s : Step} (hs : ∀ f, s.run f = addNode f P c n) : Does [s] P t (graft [c] (leaf n) t) := by
  have := does_node (P := P) (q := []) (c := c) (t := t) n hg (ht []) (s := s) (by intro f; rw [List.append_nil]; exact hs f)
  exact this.congr (set_leaf n ht)

theorem does_array0 {P : Path} {c : Comp} {t : Tree} {a : Attrs} (hg : t [] = some (.group a)) (ht : ∀ q, t (c :: q) = none) :
    Does [.array P c] P t (graft [c] (leaf .array) t) := does_node0 _ hg ht fun _ => rfl

theorem does_link0 {P target : Path} {c : Comp} {t : Tree} {a : Attrs} (hg : t [] = some (.group a)) (ht : ∀ q, t (c :: q) = none) :
    Does [.link P c target] P t (graft [c] (leaf (.soft target)) t) := does_node0 _ hg ht fun _ => rfl

theorem does_refuse0 {P : Path} {c : Comp} {t : Tree} (hn : t [c] = none) : Does [refuseGroup P c] P t t := by
  have := does_refuse (P := P) (q := []) (c := c) (t := t) hn
  rw [List.append_nil] at this
  exact this

/-- A new group and what is put in it -/
theorem does_part {P : Path} {c : Comp} {t u : Tree} {a : Attrs} {ss : List Step} (hg : t [] = some (.group a))
    (ht : ∀ q, t (c :: q) = none) (h : Does ss (P ++ [c]) fresh u) : Does (.group P c :: ss) P t (graft [c] u t) := by
  refine Does.cons (does_node0 (.group Attrs.empty) hg ht fun _ => rfl) ?_
  refine h.sub (t := graft [c] (leaf (.group Attrs.empty)) t) (u := fresh) ?_ ?_
  · intro q
    show graft [c] _ t (c :: q) = _
    rw [graft_cons, if_pos rfl]
    cases q <;> rfl
  · refine ⟨fun q => ?_, fun p hp => ?_⟩
    · show graft [c] _ t (c :: q) = _
      rw [graft_cons, if_pos rfl]
    · rw [(grafted_graft _ _ _).outside p hp, (grafted_graft _ _ _).outside p hp]

theorem does_group0 {P : Path} {c : Comp} {t : Tree} {a : Attrs} (hg : t [] = some (.group a))
    (ht : ∀ q, t (c :: q) = none) : Does [.group P c] P t (graft [c] fresh t) := does_part hg ht (Does.nil _ _)

/-- Writing new attributes -/
theorem does_attrs {P : Path} (l : List (AttrName × Attr)) : ∀ {t : Tree} {a : Attrs}, t [] = some (.group a) → (l.map Prod.fst).Nodup →
    (∀ e ∈ l, a e.1 = none) → (∀ e ∈ l, e.2 ≠ .str "") →
    Does (l.map fun e => .attr P e.1 e.2) P t (t.set [] (.group (l.foldl (fun a e => a.set e.1 e.2) a))) := by
  induction l with
  | nil =>
    intro t a hg _ _ _
    refine (Does.nil P t).congr ?_
    funext q
    unfold Tree.set
    split
    · rename_i h; rw [← h, hg]; rfl
    · rfl
  | cons e l ih =>
    intro t a hg hd ha hw
    obtain ⟨h1, h2⟩ := List.nodup_cons.mp hd
    have hwr : writable (a e.1) e.2 = true := by
      rw [ha e (List.mem_cons_self ..)]
      have := hw e (List.mem_cons_self ..)
      cases he : e.2 with
      | num k => rfl
      | str s =>
        rw [he] at this
        simpa [writable] using this
    have hone := does_attr (P := P) (q := []) (t := t) (a := a) (n := e.1) (v := e.2) hg hwr
    rw [List.append_nil] at hone
    have hrest := ih (t := t.set [] (.group (a.set e.1 e.2))) (a := a.set e.1 e.2) (by simp [Tree.set]) h2
      (by
        intro e' he'
        unfold Attrs.set
        rw [if_neg]
        · exact ha e' (List.mem_cons_of_mem _ he')
        · intro h
          exact h1 (h ▸ List.mem_map_of_mem (f := Prod.fst) he'))
      (fun e' he' => hw e' (List.mem_cons_of_mem _ he'))
    refine (Does.cons hone hrest).congr ?_
    funext q
    unfold Tree.set
    split
    · rfl
    · rename_i h; simp only [List.foldl_cons]

/-! ## The parts -/

theorem does_createTracker {P : Path} {t : Tree} {a : Attrs} (hg : t [] = some (.group a)) (ht : ∀ q, t (.tag .tracker :: q) = none) :
    Does (createTracker P) P t (graft [.tag .tracker] (renderTracker .own) t) := by
  refine does_part hg ht ?_
  refine (Does.cons (does_array0 rfl fun q => rfl) (Does.cons (does_array0 rfl fun q => rfl)
    (does_array0 rfl fun q => rfl))).congr ?_
  funext q
  match q with
  | [] => rfl
  | [.tag x] => cases x <;> rfl
  | [.user n] => rfl
  | .tag x :: d :: q => cases x <;> rfl
  | .user n :: d :: q => rfl

theorem does_linkTracker {P : Path} {t : Tree} {a : Attrs} (o : SetAddr) (hg : t [] = some (.group a))
    (ht : ∀ q, t (.tag .tracker :: q) = none) :
    Does (linkTracker P (trackerPath o)) P t (graft [.tag .tracker] (renderTracker (.shared o)) t) := by
  refine (does_link0 hg ht).congr ?_
  congr 1
  funext q
  cases q <;> rfl

theorem does_linkTimeDomain {P : Path} {t : Tree} {a : Attrs} (o : SetAddr) (hg : t [] = some (.group a))
    (ht : ∀ q, t (.tag .timeDomain :: q) = none) :
    Does (linkTimeDomain P (timePath o)) P t (graft [.tag .timeDomain] (renderTime (.shared o)) t) := by
  refine (does_link0 hg ht).congr ?_
  congr 1
  funext q
  cases q <;> rfl

theorem epochKind_ne (k : EpochKind) : epochKinds.asString k ≠ "" := by cases k <;> decide
theorem calendar_ne (k : Calendar) : calendars.asString k ≠ "" := by cases k; decide
theorem unit_ne (k : Unit') : units.asString k ≠ "" := by cases k <;> decide
theorem timeItem_ne (k : TimeItem) : timeItems.asString k ≠ "" := by cases k <;> decide
theorem mobility_ne (k : Mobility) : mobilities.asString k ≠ "" := by cases k <;> decide
theorem spaceItem_ne (k : SpaceItem) : spaceItems.asString k ≠ "" := by cases k <;> decide
theorem discretization_ne (k : Discretization) : discretizations.asString k ≠ "" := by cases k; decide

/-- The attributes of an epoch, in the order in which they are written -/
def epochList : Epoch → List (AttrName × Attr)
  | .kind k => [(.epochKind, .str (epochKinds.asString k))]
  | .origin k o => [(.epochKind, .str (epochKinds.asString k)), (.epochOrigin, .str o)]
  | .calendar k o c =>
    [(.epochKind, .str (epochKinds.asString k)), (.epochOrigin, .str o), (.epochCalendar, .str (calendars.asString c))]

def timeList (i : TimeItem) (c : Clock) : List (AttrName × Attr) :=
  epochList c.epoch ++ [(.timeUnit, .str (units.asString c.unit)), (.nrUnits, .num c.nrUnits), (.timeItem, .str (timeItems.asString i))]

theorem does_createTimeDomain {P : Path} {t : Tree} {a : Attrs} (i : TimeItem) (c : Clock) (hc : c.epoch.Nonempty)
    (hg : t [] = some (.group a)) (ht : ∀ q, t (.tag .timeDomain :: q) = none) :
    Does (createTimeDomain P i c) P t (graft [.tag .timeDomain] (renderTime (.own i c)) t) := by
  refine does_part hg ht ?_
  have hlist : (writeClock (P ++ [.tag .timeDomain]) c ++ [.attr (P ++ [.tag .timeDomain]) .timeItem (.str (timeItems.asString i))])
      = (timeList i c).map fun e => Step.attr (P ++ [.tag .timeDomain]) e.1 e.2 := by
    obtain ⟨e, u, n⟩ := c
    cases e <;> rfl
  show Does (_ :: (writeClock (P ++ [.tag .timeDomain]) c ++ _)) _ _ _
  rw [hlist]
  refine (Does.cons (does_array0 rfl fun q => rfl) (does_attrs (timeList i c) (a := Attrs.empty) rfl ?_ ?_ ?_)).congr ?_
  · obtain ⟨e, u, n⟩ := c
    cases e <;> simp [timeList, epochList]
  · intro e _; rfl
  · have h1 := epochKind_ne
    have h2 := calendar_ne
    have h3 := unit_ne
    have h4 := timeItem_ne
    obtain ⟨e, u, n⟩ := c
    cases e <;> simp only [Epoch.Nonempty] at hc <;> simp [timeList, epochList, h1, h2, h3, h4, hc]
  · funext q
    match q with
    | [] =>
      unfold Tree.set
      rw [if_pos rfl]
      show _ = some (Node.group (timeAttrs i c))
      congr 2
      funext m
      obtain ⟨e, u, n⟩ := c
      cases e <;> cases m <;> rfl
    | [.tag x] => cases x <;> rfl
    | [.user n] => rfl
    | .tag x :: d :: q => cases x <;> rfl
    | .user n :: d :: q => rfl

theorem does_createSpaceDomain {P : Path} {t : Tree} {a : Attrs} (m : Mobility) (i : SpaceItem)
    (hg : t [] = some (.group a)) (ht : ∀ q, t (.tag .spaceDomain :: q) = none) :
    Does (createSpaceDomain P m i) P t (graft [.tag .spaceDomain] (renderSpace (some ⟨m, i, none⟩)) t) := by
  refine does_part hg ht ?_
  refine (Does.cons (does_array0 rfl fun q => rfl)
    (does_attrs [(.mobility, .str (mobilities.asString m)), (.spaceItem, .str (spaceItems.asString i))]
      (a := Attrs.empty) rfl ?_ ?_ ?_)).congr ?_
  · simp
  · intro e _; rfl
  · simp [mobility_ne, spaceItem_ne]
  · funext q
    match q with
    | [] =>
      unfold Tree.set
      rw [if_pos rfl]
      show _ = some (Node.group (spaceAttrs m i))
      congr 2
      funext n
      cases n <;> rfl
    | [.tag x] => cases x <;> rfl
    | [.user n] => rfl
    | .tag x :: d :: q => cases x <;> rfl
    | .user n :: d :: q => rfl

theorem does_createProperties {P : Path} {t : Tree} {a : Attrs} (hg : t [] = some (.group a))
    (ht : ∀ q, t (.tag .properties :: q) = none) :
    Does (createProperties P) P t (graft [.tag .properties] (renderProperties fun _ _ => none) t) := by
  refine Does.cons (does_refuse0 (ht [])) (does_part hg ht ?_)
  refine (Does.cons (does_group0 rfl fun q => rfl) (Does.cons (does_group0 rfl fun q => rfl)
    (Does.cons (does_group0 rfl fun q => rfl) (Does.cons (does_group0 rfl fun q => rfl)
      (Does.cons (does_group0 rfl fun q => rfl) (does_group0 rfl fun q => rfl)))))).congr ?_
  funext q
  match q with
  | [] => rfl
  | [.tag x] =>
    cases x with
    | kind k => cases k <;> rfl
    | _ => rfl
  | [.user n] => rfl
  | .tag x :: d :: q =>
    cases x with
    | kind k => cases k <;> cases d <;> rfl
    | _ => rfl
  | .user n :: d :: q => rfl

/-- `create_property_set`, after the group has been created -/
theorem does_createSet (P : Path) (a : SetArgs) (ha : a.Storable) :
    Does (createDomains P a ++ createProperties P) P fresh (renderSet a.describe) := by
  have hend : ∀ (t : Tree) , (∃ a, t [] = some (.group a)) → (∀ q, t (.tag .properties :: q) = none) →
      graft [.tag .properties] (renderProperties fun _ _ => none) t = renderSet a.describe →
      Does (createDomains P a) P fresh t → Does (createDomains P a ++ createProperties P) P fresh (renderSet a.describe) := by
    rintro t ⟨b, hb⟩ h1 h2 h3
    exact (h3.append (does_createProperties hb h1)).congr h2
  have fin : ∀ S : SetD, S.properties = (fun _ _ => none) → ∀ t : Tree, t [] = some (.group Attrs.empty) →
      (∀ q, t (.tag .tracker :: q) = renderTracker S.tracker q) → (∀ q, t (.tag .timeDomain :: q) = renderTime S.time q) →
      (∀ q, t (.tag .spaceDomain :: q) = renderSpace S.space q) →
      (∀ c q, c ≠ .tag .tracker → c ≠ .tag .timeDomain → c ≠ .tag .spaceDomain → t (c :: q) = none) →
      graft [.tag .properties] (renderProperties fun _ _ => none) t = renderSet S := by
    intro S hS t h0 h1 h2 h3 h4
    funext q
    match q with
    | [] => rw [graft_nil]; exact h0
    | .user n :: q =>
      rw [graft_cons, if_neg (by simp), h4 _ _ (by simp) (by simp) (by simp)]
      rfl
    | .tag x :: q =>
      rw [graft_cons]
      cases x with
      | tracker => rw [if_neg (by simp)]; exact h1 q
      | timeDomain => rw [if_neg (by simp)]; exact h2 q
      | spaceDomain => rw [if_neg (by simp)]; exact h3 q
      | properties =>
        rw [if_pos rfl]
        show _ = renderProperties S.properties q
        rw [hS]
      | _ =>
        rw [if_neg (by simp), h4 _ _ (by simp) (by simp) (by simp)]
        rfl
  have absentTime : ∀ q, renderTime .absent q = none := by
    intro q; unfold renderTime; split <;> simp_all
  have absentSpace : ∀ q, renderSpace none q = none := by
    intro q; unfold renderSpace; split <;> simp_all
  have tr := fun (P : Path) => does_createTracker (P := P) (t := fresh) rfl fun q => rfl
  have ltr := fun (P : Path) o => does_linkTracker (P := P) (t := fresh) o rfl fun q => rfl
  cases a with
  | plain =>
    refine hend _ ⟨_, rfl⟩ (fun q => rfl) ?_ (tr P)
    refine fin _ rfl _ rfl (fun q => by rw [graft_cons, if_pos rfl]; rfl) ?_ ?_ ?_
    · intro q; rw [graft_cons, if_neg (by simp)]; exact (absentTime q).symm
    · intro q; rw [graft_cons, if_neg (by simp)]; exact (absentSpace q).symm
    · intro c q h1 h2 h3; rw [graft_cons, if_neg (fun h => h1 h.symm)]; rfl
  | space m i =>
    refine hend _ ⟨_, rfl⟩ (fun q => rfl) ?_ ((tr P).append (does_createSpaceDomain m i rfl fun q => rfl))
    refine fin _ rfl _ rfl ?_ ?_ ?_ ?_
    · intro q; rw [graft_cons, if_neg (by simp), graft_cons, if_pos rfl]; rfl
    · intro q; rw [graft_cons, if_neg (by simp), graft_cons, if_neg (by simp)]; exact (absentTime q).symm
    · intro q; rw [graft_cons, if_pos rfl]; rfl
    · intro c q h1 h2 h3; rw [graft_cons, if_neg (fun h => h3 h.symm), graft_cons, if_neg (fun h => h1 h.symm)]; rfl
  | time t c =>
    refine hend _ ⟨_, rfl⟩ (fun q => rfl) ?_ ((tr P).append (does_createTimeDomain t c (ha t c rfl) rfl fun q => rfl))
    refine fin _ rfl _ rfl ?_ ?_ ?_ ?_
    · intro q; rw [graft_cons, if_neg (by simp), graft_cons, if_pos rfl]; rfl
    · intro q; rw [graft_cons, if_pos rfl]; rfl
    · intro q; rw [graft_cons, if_neg (by simp), graft_cons, if_neg (by simp)]; exact (absentSpace q).symm
    · intro c q h1 h2 h3; rw [graft_cons, if_neg (fun h => h2 h.symm), graft_cons, if_neg (fun h => h1 h.symm)]; rfl
  | sharedTime o =>
    refine hend _ ⟨_, rfl⟩ (fun q => rfl) ?_ ((tr P).append (does_linkTimeDomain o rfl fun q => rfl))
    refine fin _ rfl _ rfl ?_ ?_ ?_ ?_
    · intro q; rw [graft_cons, if_neg (by simp), graft_cons, if_pos rfl]; rfl
    · intro q; rw [graft_cons, if_pos rfl]; rfl
    · intro q; rw [graft_cons, if_neg (by simp), graft_cons, if_neg (by simp)]; exact (absentSpace q).symm
    · intro c q h1 h2 h3; rw [graft_cons, if_neg (fun h => h2 h.symm), graft_cons, if_neg (fun h => h1 h.symm)]; rfl
  | timeTracker t c o =>
    refine hend _ ⟨_, rfl⟩ (fun q => rfl) ?_ ((ltr P o).append (does_createTimeDomain t c (ha t c rfl) rfl fun q => rfl))
    refine fin _ rfl _ rfl ?_ ?_ ?_ ?_
    · intro q; rw [graft_cons, if_neg (by simp), graft_cons, if_pos rfl]; rfl
    · intro q; rw [graft_cons, if_pos rfl]; rfl
    · intro q; rw [graft_cons, if_neg (by simp), graft_cons, if_neg (by simp)]; exact (absentSpace q).symm
    · intro c q h1 h2 h3; rw [graft_cons, if_neg (fun h => h2 h.symm), graft_cons, if_neg (fun h => h1 h.symm)]; rfl
  | sharedTimeTracker t o =>
    refine hend _ ⟨_, rfl⟩ (fun q => rfl) ?_ ((ltr P o).append (does_linkTimeDomain t rfl fun q => rfl))
    refine fin _ rfl _ rfl ?_ ?_ ?_ ?_
    · intro q; rw [graft_cons, if_neg (by simp), graft_cons, if_pos rfl]; rfl
    · intro q; rw [graft_cons, if_pos rfl]; rfl
    · intro q; rw [graft_cons, if_neg (by simp), graft_cons, if_neg (by simp)]; exact (absentSpace q).symm
    · intro c q h1 h2 h3; rw [graft_cons, if_neg (fun h => h2 h.symm), graft_cons, if_neg (fun h => h1 h.symm)]; rfl
  | timeSpace t c m i =>
    refine hend _ ⟨_, rfl⟩ (fun q => rfl) ?_ (((tr P).append (does_createTimeDomain t c (ha t c rfl) rfl fun q => rfl)).append
      (does_createSpaceDomain m i rfl fun q => rfl))
    refine fin _ rfl _ rfl ?_ ?_ ?_ ?_
    · intro q; rw [graft_cons, if_neg (by simp), graft_cons, if_neg (by simp), graft_cons, if_pos rfl]; rfl
    · intro q; rw [graft_cons, if_neg (by simp), graft_cons, if_pos rfl]; rfl
    · intro q; rw [graft_cons, if_pos rfl]; rfl
    · intro c q h1 h2 h3
      rw [graft_cons, if_neg (fun h => h3 h.symm), graft_cons, if_neg (fun h => h2 h.symm), graft_cons, if_neg (fun h => h1 h.symm)]; rfl
  | sharedTimeSpace o m i =>
    refine hend _ ⟨_, rfl⟩ (fun q => rfl) ?_ (((tr P).append (does_linkTimeDomain o rfl fun q => rfl)).append
      (does_createSpaceDomain m i rfl fun q => rfl))
    refine fin _ rfl _ rfl ?_ ?_ ?_ ?_
    · intro q; rw [graft_cons, if_neg (by simp), graft_cons, if_neg (by simp), graft_cons, if_pos rfl]; rfl
    · intro q; rw [graft_cons, if_neg (by simp), graft_cons, if_pos rfl]; rfl
    · intro q; rw [graft_cons, if_pos rfl]; rfl
    · intro c q h1 h2 h3
      rw [graft_cons, if_neg (fun h => h3 h.symm), graft_cons, if_neg (fun h => h2 h.symm), graft_cons, if_neg (fun h => h1 h.symm)]; rfl
  | sharedTimeTrackerSpace t o m i =>
    refine hend _ ⟨_, rfl⟩ (fun q => rfl) ?_ (((ltr P o).append (does_linkTimeDomain t rfl fun q => rfl)).append
      (does_createSpaceDomain m i rfl fun q => rfl))
    refine fin _ rfl _ rfl ?_ ?_ ?_ ?_
    · intro q; rw [graft_cons, if_neg (by simp), graft_cons, if_neg (by simp), graft_cons, if_pos rfl]; rfl
    · intro q; rw [graft_cons, if_neg (by simp), graft_cons, if_pos rfl]; rfl
    · intro q; rw [graft_cons, if_pos rfl]; rfl
    · intro c q h1 h2 h3
      rw [graft_cons, if_neg (fun h => h3 h.symm), graft_cons, if_neg (fun h => h2 h.symm), graft_cons, if_neg (fun h => h1 h.symm)]; rfl

theorem does_writeDescription {P : Path} {t : Tree} (d : String) (hg : t [] = some (.group Attrs.empty)) :
    Does (writeDescription P d) P t (t.set [] (.group (descriptionAttrs d))) := by
  unfold writeDescription descriptionAttrs
  split
  · rename_i h
    exact does_attrs [(.description, .str d)] (a := Attrs.empty) hg (by simp) (by intro e _; rfl) (by simpa using h)
  · refine (Does.nil P t).congr ?_
    funext q
    unfold Tree.set
    split
    · rename_i hq; rw [← hq, hg]
    · rfl

/-- `create_property`, after the group has been created -/
theorem does_createProperty (P : Path) (d : String) :
    Does (writeDescription P d ++ [.array P (.tag .value)]) P fresh (renderProperty ⟨d, none, none⟩) := by
  refine ((does_writeDescription d rfl).append (does_array0 (a := descriptionAttrs d) rfl fun q => rfl)).congr ?_
  funext q
  match q with
  | [] =>
    rw [graft_nil]
    show some (Node.group (descriptionAttrs d)) = some (Node.group (propertyAttrs ⟨d, none, none⟩))
    congr 2
    funext m
    unfold descriptionAttrs propertyAttrs
    cases m <;> simp [descriptionAttrs, Attrs.set, Attrs.empty] <;> split <;> rfl
  | [.tag x] => cases x <;> rfl
  | [.user n] => rfl
  | .tag x :: d :: q => cases x <;> rfl
  | .user n :: d :: q => rfl

/-- `create_phenomenon`, after the group has been created -/
theorem does_createPhenomenon (P : Path) (d : String) :
    Does (writeDescription P d ++ [.array P (.tag .objectId)] ++ createPropertySets P .collection ++ createPropertySets P .objects)
      P fresh (renderPhenomenon ⟨d, fun _ _ => none⟩) := by
  refine ((((does_writeDescription d rfl).append (does_array0 (a := descriptionAttrs d) rfl fun q => rfl)).append
    (Does.cons (does_refuse0 rfl) (does_group0 (a := descriptionAttrs d) rfl fun q => rfl))).append
    (Does.cons (does_refuse0 rfl) (does_group0 (a := descriptionAttrs d) rfl fun q => rfl))).congr ?_
  funext q
  match q with
  | [] => rfl
  | [.tag x] =>
    cases x with
    | sets c => cases c <;> rfl
    | _ => rfl
  | [.user n] => rfl
  | .tag x :: d :: q =>
    cases x with
    | sets c => cases c <;> cases d <;> rfl
    | _ => rfl
  | .user n :: d :: q => rfl

/-- `create_universe`, after the group has been created -/
theorem does_createUniverse (P : Path) : Does (createPhenomena P) P fresh (renderUniverse fun _ => none) := by
  refine (Does.cons (does_refuse0 rfl) (does_group0 rfl fun q => rfl)).congr ?_
  funext q
  match q with
  | [] => rfl
  | [.tag x] => cases x <;> rfl
  | [.user n] => rfl
  | .tag x :: d :: q =>
    cases x with
    | phenomena => cases d <;> rfl
    | _ => rfl
  | .user n :: d :: q => rfl

end Lue.Structure

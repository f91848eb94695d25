import Verif.Structure.Spec

/-!
# Trees of nodes: replacing a part of a file
-/
namespace Lue.Structure

/-- The nodes of a file, by path -/
abbrev Tree := Path → Option Node

/-- `g` is `f`, with everything at and below `P` replaced by `t`. -/
structure Grafted (P : Path) (t f g : Tree) : Prop where
  inside : ∀ q, g (P ++ q) = t q
  outside : ∀ p, (∀ q, p ≠ P ++ q) → g p = f p

theorem Grafted.unique {P : Path} {t f g g' : Tree} (h : Grafted P t f g) (h' : Grafted P t f g') : g = g' := by
  funext p
  by_cases hp : ∃ q, p = P ++ q
  · obtain ⟨q, rfl⟩ := hp
    rw [h.inside, h'.inside]
  · push Not at hp
    rw [h.outside p hp, h'.outside p hp]

/-- Changing a part of a part -/
theorem Grafted.lift {P Q : Path} {u f g : Tree} (h : Grafted Q u (fun q => f (P ++ q)) (fun q => g (P ++ q)))
    (hout : ∀ p, (∀ q, p ≠ P ++ q) → g p = f p) : Grafted (P ++ Q) u f g where
  inside q := by rw [List.append_assoc]; exact h.inside q
  outside p hp := by
    by_cases hq : ∃ q, p = P ++ q
    · obtain ⟨q, rfl⟩ := hq
      refine h.outside q fun r hr => hp r ?_
      rw [hr, List.append_assoc]
    · push Not at hq
      exact hout p hq

theorem Grafted.trans {P : Path} {t u f g h : Tree} (h1 : Grafted P t f g) (h2 : Grafted P u g h) : Grafted P u f h where
  inside := h2.inside
  outside p hp := by rw [h2.outside p hp, h1.outside p hp]

/-- A part of a part is replaced: the part is replaced. -/
theorem Grafted.sub {P Q : Path} {t t' u f g : Tree} (h : Grafted (P ++ Q) u f g) (hf : ∀ q, f (P ++ q) = t q)
    (ht : Grafted Q u t t') : Grafted P t' f g where
  inside q := by
    by_cases hq : ∃ r, q = Q ++ r
    · obtain ⟨r, rfl⟩ := hq
      rw [ht.inside, ← List.append_assoc, h.inside]
    · push Not at hq
      rw [ht.outside q hq, ← hf]
      refine h.outside _ fun r hr => hq r ?_
      rw [List.append_assoc] at hr
      exact List.append_cancel_left hr
  outside p hp := h.outside p fun q hq => hp (Q ++ q) (by rw [hq, List.append_assoc])

/-- Set a node. -/
def Tree.set (t : Tree) (p : Path) (n : Node) : Tree := fun q => if p = q then some n else t q

theorem get_put' (f : File) (p : Path) (n : Node) : AMap.get (f.put p n) = Tree.set (AMap.get f) p n := by
  funext q
  rw [AMap.get_put]; rfl

/-- Setting a node within a part -/
theorem Grafted.set {P q0 : Path} {t f : Tree} (n : Node) (hf : ∀ q, f (P ++ q) = t q) :
    Grafted P (t.set q0 n) f (f.set (P ++ q0) n) where
  inside q := by
    unfold Tree.set
    simp only [List.append_cancel_left_eq]
    split
    · rfl
    · exact hf q
  outside p hp := by
    unfold Tree.set
    rw [if_neg]
    intro h
    exact hp q0 h.symm

/-! ## Files -/

/-- Each node is in a group, and there is a root group. -/
structure Closed (f : File) : Prop where
  keys : AMap.Ok f
  root : ∃ a, f.get [] = some (.group a)
  parent : ∀ p c n, f.get (p ++ [c]) = some n → ∃ a, f.get p = some (.group a)

theorem isGroup_iff {f : File} {p : Path} : isGroup f p = true ↔ ∃ a, f.get p = some (.group a) := by
  unfold isGroup
  constructor
  · intro h
    split at h
    · exact ⟨_, by assumption⟩
    · cases h
  · rintro ⟨a, h⟩
    rw [h]

theorem Closed.addNode {f : File} (h : Closed f) (p : Path) (c : Comp) (n : Node) : Closed (Structure.addNode f p c n).2 := by
  unfold Structure.addNode
  split
  · rename_i hc
    simp only [Bool.and_eq_true, Bool.not_eq_true', linkExists, Option.isSome_eq_false_iff, Option.isNone_iff_eq_none] at hc
    obtain ⟨hg, hn⟩ := hc
    obtain ⟨a, ha⟩ := isGroup_iff.mp hg
    refine ⟨h.keys.put _ _, ?_, ?_⟩
    · obtain ⟨b, hb⟩ := h.root
      exact ⟨b, by rw [AMap.get_put, if_neg (by simp)]; exact hb⟩
    · intro q d m hm
      have key : ∀ r b, f.get r = some (.group b) → (f.put (p ++ [c]) n).get r = some (.group b) := by
        intro r b hr
        rw [AMap.get_put, if_neg]
        · exact hr
        · intro he
          rw [he, hr] at hn
          cases hn
      rw [AMap.get_put] at hm
      split at hm
      · rename_i he
        have := (List.append_inj' he rfl).1
        rw [← this]
        exact ⟨a, key _ _ ha⟩
      · obtain ⟨b, hb⟩ := h.parent q d m hm
        exact ⟨b, key _ _ hb⟩
  · exact h

theorem Closed.step {f : File} (h : Closed f) (s : Step) : Closed (s.run f).2 := by
  cases s with
  | group p c => exact h.addNode p c _
  | array p c => exact h.addNode p c _
  | link p c t => exact h.addNode p c _
  | check g => exact h
  | attr p n v =>
    show Closed (match f.get p with
      | some (.group a) => if writable (a n) v then (true, f.put p (.group (a.set n v))) else (false, f)
      | _ => (false, f)).2
    split
    · rename_i a ha
      split
      · have key : ∀ r b, f.get r = some (.group b) → ∃ b', (f.put p (.group (a.set n v))).get r = some (.group b') := by
          intro r b hr
          rw [AMap.get_put]
          split
          · exact ⟨_, rfl⟩
          · exact ⟨_, hr⟩
        refine ⟨h.keys.put _ _, ?_, ?_⟩
        · obtain ⟨b, hb⟩ := h.root
          exact key _ _ hb
        · intro q d m hm
          rw [AMap.get_put] at hm
          split at hm
          · rename_i he
            rw [he] at ha
            obtain ⟨b, hb⟩ := h.parent q d _ ha
            exact key _ _ hb
          · obtain ⟨b, hb⟩ := h.parent q d m hm
            exact key _ _ hb
      · exact h
    · exact h

theorem Closed.run {f : File} (h : Closed f) (ss : List Step) : Closed (run f ss).2 := by
  induction ss generalizing f with
  | nil => exact h
  | cons s ss ih =>
    unfold Structure.run
    split
    · exact ih (h.step s)
    · exact h.step s

theorem run_append (f : File) (a b : List Step) :
    run f (a ++ b) = if (run f a).1 then run (run f a).2 b else run f a := by
  induction a generalizing f with
  | nil => rfl
  | cons s a ih =>
    simp only [List.cons_append, run]
    split
    · exact ih _
    · simp

theorem run_append_ok {f f' : File} {a : List Step} (h : run f a = (true, f')) (b : List Step) : run f (a ++ b) = run f' b := by
  rw [run_append, h]; rfl

theorem run_append_fail {f f' : File} {a : List Step} (h : run f a = (false, f')) (b : List Step) : run f (a ++ b) = (false, f') := by
  rw [run_append, h]; rfl

/-! ## Following links -/

/-- All nodes on the way to a node are groups. -/
theorem Closed.above {f : File} (h : Closed f) (u : Path) : ∀ (p : Path) (m : Node), f.get (p ++ u) = some m → u ≠ [] →
    ∃ a, f.get p = some (.group a) := by
  induction u with
  | nil => intro p m _ hu; exact absurd rfl hu
  | cons c u ih =>
    intro p m hm _
    by_cases hu : u = []
    · subst hu; exact h.parent p c m hm
    · obtain ⟨a, ha⟩ := ih (p ++ [c]) m (by rw [← hm]; simp) hu
      exact h.parent p c _ ha

/-- What the last component of a path leads to -/
def landing (again : Path → Option Path) (p : Path) : Node → Option Path
  | .soft t => again t
  | _ => some p

/-- Only the node at the end of the path can be a link. -/
theorem walk_eq {f : File} (h : Closed f) (again : Path → Option Path) (rest : Path) (hr : rest ≠ []) (pre : Path) {m : Node}
    (hm : f.get (pre ++ rest) = some m) : walk f again pre rest = landing again (pre ++ rest) m := by
  induction rest generalizing pre with
  | nil => exact absurd rfl hr
  | cons c rest ih =>
    by_cases hc : rest = []
    · subst hc
      simp only [walk, hm]
      cases m <;> simp [landing]
    · have hm' : f.get ((pre ++ [c]) ++ rest) = some m := by rw [← hm]; simp
      obtain ⟨a, ha⟩ := h.above rest (pre ++ [c]) m hm' hc
      simp only [walk, ha]
      rw [ih hc (pre ++ [c]) hm', List.append_assoc]
      rfl

/-- Where one ends up when a node has been found at a path -/
def landsAt (f : File) (p : Path) : Node → Nat → Option Path
  | .soft t, n + 1 => resolve f n [] t
  | .soft _, 0 => none
  | _, _ => some p

/-- What following links comes to, if there is something at the path -/
theorem resolve_eq {f : File} (h : Closed f) (n : Nat) (pre rest : Path) (hr : rest ≠ []) {m : Node}
    (hm : f.get (pre ++ rest) = some m) :
    resolve f n pre rest = landsAt f (pre ++ rest) m n := by
  cases n with
  | zero =>
    unfold resolve
    rw [walk_eq h _ _ hr _ hm]
    cases m <;> rfl
  | succ n =>
    rw [resolve, walk_eq h _ _ hr _ hm]
    cases m <;> rfl

theorem resolve_node {f : File} (h : Closed f) (n : Nat) (pre : Path) (c : Comp) {m : Node} (hm : f.get (pre ++ [c]) = some m)
    (hs : ∀ t, m ≠ .soft t) : resolve f n pre [c] = some (pre ++ [c]) := by
  rw [resolve_eq h n pre [c] (by simp) hm]
  cases m with
  | soft t => exact absurd rfl (hs t)
  | group a => cases n <;> rfl
  | array => cases n <;> rfl

theorem openGroup_node {f : File} (h : Closed f) {p : Path} {c : Comp} {a : Attrs} (hm : f.get (p ++ [c]) = some (.group a)) :
    openGroup f p c = some (p ++ [c]) := by
  unfold openGroup openGroupAt
  rw [resolve_node h _ _ _ hm (by intro t ht; cases ht)]
  show (if isGroup f (p ++ [c]) then _ else _) = _
  rw [if_pos (isGroup_iff.mpr ⟨a, hm⟩)]

theorem openArray_node {f : File} (h : Closed f) {p : Path} {c : Comp} (hm : f.get (p ++ [c]) = some .array) :
    openArray f p c = some () := by
  unfold openArray nodeOf
  rw [resolve_node h _ _ _ hm (by intro t ht; cases ht)]
  show (f.get (p ++ [c])).bind _ = _
  rw [hm]; rfl

theorem groupExists_group {f : File} (h : Closed f) {p : Path} {c : Comp} {a : Attrs} (hm : f.get (p ++ [c]) = some (.group a)) :
    groupExists f p c = some true := by
  unfold groupExists linkExists
  rw [hm, Option.isSome_some, if_pos rfl, nodeOf, resolve_node h _ _ _ hm (by intro t ht; cases ht)]
  show (f.get (p ++ [c])).map _ = _
  rw [hm]; rfl

theorem groupExists_none {f : File} {p : Path} {c : Comp} (hm : f.get (p ++ [c]) = none) : groupExists f p c = some false := by
  unfold groupExists linkExists
  rw [hm]; rfl

/-! ## Running steps within a part of a file -/

/-- The steps turn the part `t` at `P` into `t'`, and don't change anything else. -/
def Does (ss : List Step) (P : Path) (t t' : Tree) : Prop :=
  ∀ f : File, Closed f → (∀ q, f.get (P ++ q) = t q) → ∃ f', run f ss = (true, f') ∧ Grafted P t' f.get f'.get

theorem Does.nil (P : Path) (t : Tree) : Does [] P t t := fun f _ hf => ⟨f, rfl, hf, fun _ _ => rfl⟩

theorem Does.append {ss ss' : List Step} {P : Path} {t t' t'' : Tree} (h : Does ss P t t') (h' : Does ss' P t' t'') :
    Does (ss ++ ss') P t t'' := by
  intro f hc hf
  obtain ⟨f1, h1, g1⟩ := h f hc hf
  have hc1 : Closed f1 := by have := hc.run ss; rw [h1] at this; exact this
  obtain ⟨f2, h2, g2⟩ := h' f1 hc1 g1.inside
  exact ⟨f2, by rw [run_append_ok h1, h2], g1.trans g2⟩

theorem Does.cons {s : Step} {ss : List Step} {P : Path} {t t' t'' : Tree} (h : Does [s] P t t') (h' : Does ss P t' t'') :
    Does (s :: ss) P t t'' := h.append h'

/-- Steps within a part of the part -/
theorem Does.sub {ss : List Step} {P Q : Path} {u u' t t' : Tree} (h : Does ss (P ++ Q) u u') (hu : ∀ q, t (Q ++ q) = u q)
    (ht : Grafted Q u' t t') : Does ss P t t' := by
  intro f hc hf
  obtain ⟨f1, h1, g1⟩ := h f hc (fun q => by rw [List.append_assoc, hf, hu])
  exact ⟨f1, h1, g1.sub hf ht⟩

theorem Does.congr {ss : List Step} {P : Path} {t t' u' : Tree} (h : Does ss P t t') (he : t' = u') : Does ss P t u' := he ▸ h

theorem addNode_ok {f : File} {p : Path} {c : Comp} {a : Attrs} (n : Node) (hg : f.get p = some (.group a))
    (hn : f.get (p ++ [c]) = none) : addNode f p c n = (true, f.put (p ++ [c]) n) := by
  unfold addNode linkExists
  rw [isGroup_iff.mpr ⟨a, hg⟩, hn]
  rfl

theorem does_node {P q : Path} {c : Comp} {t : Tree} {a : Attrs} (n : Node) (hg : t q = some (.group a)) (hn : t (q ++ [c]) = none)
    {s : Step} (hs : ∀ f, s.run f = addNode f (P ++ q) c n) : Does [s] P t (t.set (q ++ [c]) n) := by
  intro f _ hf
  refine ⟨f.put (P ++ (q ++ [c])) n, ?_, ?_⟩
  · simp only [run, hs]
    rw [addNode_ok n (by rw [hf, hg]) (by rw [List.append_assoc, hf, hn]), List.append_assoc]
    rfl
  · rw [get_put']
    exact Grafted.set n hf

theorem does_group {P q : Path} {c : Comp} {t : Tree} {a : Attrs} (hg : t q = some (.group a)) (hn : t (q ++ [c]) = none) :
    Does [.group (P ++ q) c] P t (t.set (q ++ [c]) (.group Attrs.empty)) := does_node _ hg hn fun _ => rfl

theorem does_array {P q : Path} {c : Comp} {t : Tree} {a : Attrs} (hg : t q = some (.group a)) (hn : t (q ++ [c]) = none) :
    Does [.array (P ++ q) c] P t (t.set (q ++ [c]) .array) := does_node _ hg hn fun _ => rfl

theorem does_link {P q target : Path} {c : Comp} {t : Tree} {a : Attrs} (hg : t q = some (.group a)) (hn : t (q ++ [c]) = none) :
    Does [.link (P ++ q) c target] P t (t.set (q ++ [c]) (.soft target)) := does_node _ hg hn fun _ => rfl

theorem does_attr {P q : Path} {t : Tree} {a : Attrs} {n : AttrName} {v : Attr} (hg : t q = some (.group a))
    (hw : writable (a n) v = true) : Does [.attr (P ++ q) n v] P t (t.set q (.group (a.set n v))) := by
  intro f _ hf
  refine ⟨f.put (P ++ q) (.group (a.set n v)), ?_, ?_⟩
  · simp only [run, Step.run, hf, hg, hw, if_true]
  · rw [get_put']
    exact Grafted.set _ hf

theorem does_check {P : Path} {t : Tree} {g : File → Bool} (h : ∀ f : File, Closed f → (∀ q, f.get (P ++ q) = t q) → g f = true) :
    Does [.check g] P t t := by
  intro f hc hf
  refine ⟨f, ?_, hf, fun _ _ => rfl⟩
  simp only [run, Step.run, h f hc hf, if_true]

theorem does_refuse {P q : Path} {c : Comp} {t : Tree} (hn : t (q ++ [c]) = none) : Does [refuseGroup (P ++ q) c] P t t :=
  does_check fun f _ hf => by
    rw [groupExists_none (by rw [List.append_assoc, hf, hn])]
    simp

end Lue.Structure

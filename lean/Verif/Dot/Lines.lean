import Verif.Dot.Scan

/-!
# The statements and the graph of what is written
-/
namespace Lue.Dot
open Lue.Structure

/-! ## Statements -/

def nodeAttrs (label shape fill : Val) : Attributes := [("label".toList, label), ("shape".toList, shape), ("fillcolor".toList, fill)]

def edgeAttrs (weight : Nat) (style label : Text) : Attributes :=
  [("weight".toList, .text (number weight)), ("style".toList, .text style), ("label".toList, .html label)]

def Stmt.lines : Stmt → List Line
  | .node name label shape fill => [.node name (nodeAttrs (.html label) (.text shape) (.text fill))]
  | .edge tail head weight style label => [.edge tail head (edgeAttrs weight style label)]
  | .enter name label => [.enter ("cluster_".toList ++ name), .setting "label".toList (.html label)]
  | .leave => [.leave]
  | .empty name => [.node name (nodeAttrs (.text "<empty>".toList) (.text "plaintext".toList) (.text "red".toList))]

theorem isKeyword_nodeName (n : Nat) : isKeyword ("node_".toList ++ number n) = false := by
  have h : ∀ t : Text, t.length ≤ 5 → t ≠ "node_".toList → t.take 5 ≠ "node_".toList := by
    intro t ht hne
    rw [List.take_of_length_le ht]; exact hne
  have hk : ("node_".toList ++ number n).take 5 = "node_".toList := by
    rw [List.take_append_of_le_length (by decide)]; rfl
  unfold isKeyword
  rw [Bool.or_eq_false_iff, Bool.or_eq_false_iff]
  refine ⟨⟨decide_eq_false fun e => ?_, decide_eq_false fun e => ?_⟩, decide_eq_false fun e => ?_⟩
  · exact h "graph".toList (by decide) (by decide) (by rw [← e]; exact hk)
  · exact h "node".toList (by decide) (by decide) (by rw [← e]; exact hk)
  · exact h "edge".toList (by decide) (by decide) (by rw [← e]; exact hk)

/-- Reading the tokens results in the lines. -/
def Parses (ts : List Tok) (ls : List Line) : Prop := ls.length ≤ ts.length ∧ ∀ n, ls.length ≤ n → linesOf n ts = some ls

theorem parses_nil : Parses [] [] := ⟨Nat.le_refl _, fun n _ => by cases n <;> rfl⟩

theorem Parses.cons {ts rest : List Tok} {l : Line} {ls : List Line} (h : line ts = some (l, rest)) (hl : rest.length < ts.length)
    (hr : Parses rest ls) : Parses ts (l :: ls) := by
  refine ⟨by have := hr.1; simp only [List.length_cons]; omega, fun n hn => ?_⟩
  cases n with
  | zero => simp at hn
  | succ n =>
    cases ts with
    | nil => simp at hl
    | cons t ts =>
      show (line (t :: ts)).bind _ = _
      rw [h]
      show (linesOf n rest).map _ = _
      rw [hr.2 n (by simpa using hn)]; rfl

/-- The next statement doesn't start with a semicolon. -/
theorem skip_eq (ss : List Stmt) : skip (ss.flatMap Stmt.toks ++ [.sym '}']) = ss.flatMap Stmt.toks ++ [.sym '}'] := by
  cases ss with
  | nil => rfl
  | cons s ss => cases s <;> rfl

theorem parses_stmts {ss : List Stmt} (h : ∀ s ∈ ss, s.Ok) :
    Parses (ss.flatMap Stmt.toks ++ [.sym '}']) (ss.flatMap Stmt.lines ++ [.leave]) := by
  induction ss with
  | nil => exact Parses.cons (l := .leave) (rest := []) rfl (by simp) parses_nil
  | cons s ss ih =>
    have hr := ih fun x hx => h x (by simp [hx])
    have hs := h s (by simp)
    have hsk := skip_eq ss
    rw [List.flatMap_cons, List.flatMap_cons, List.append_assoc, List.append_assoc]
    generalize hrest : ss.flatMap Stmt.toks ++ [Tok.sym '}'] = rest at hr hsk ⊢
    generalize hls : ss.flatMap Stmt.lines ++ [Line.leave] = ls at hr ⊢
    cases s with
    | node name label shape fill =>
      obtain ⟨⟨n, rfl⟩, _⟩ := hs
      refine Parses.cons (rest := rest) ?_ (by simp [Stmt.toks, attrToks] <;> omega) hr
      show some ((if isKeyword ("node_".toList ++ number n) then _ else _), _) = _
      rw [isKeyword_nodeName]; rfl
    | edge tail head weight style label => exact Parses.cons (rest := rest) rfl (by simp [Stmt.toks, attrToks] <;> omega) hr
    | enter name label =>
      refine Parses.cons (rest := attrToks "label".toList (.val (.html label)) ++ rest) rfl (by simp [Stmt.toks, attrToks] <;> omega) ?_
      refine Parses.cons (rest := rest) ?_ (by simp [attrToks] <;> omega) hr
      show some (_, skip rest) = _
      rw [hsk]
    | leave => exact Parses.cons (rest := rest) rfl (by simp [Stmt.toks]) hr
    | empty name =>
      obtain ⟨n, rfl⟩ := hs
      refine Parses.cons (rest := rest) ?_ (by simp [Stmt.toks, attrToks] <;> omega) hr
      show some ((if isKeyword ("node_".toList ++ number n) then _ else _), _) = _
      rw [isKeyword_nodeName]; rfl

def headerLines (fontcolor : Text) : List Line :=
  [.setting "fontname".toList (.text "Courier".toList), .setting "fontsize".toList (.text "10".toList),
   .default "graph".toList [("bgcolor".toList, .text "transparent".toList)],
   .default "node".toList [("fontname".toList, .text "Courier".toList), ("fontsize".toList, .text "10".toList),
     ("fontcolor".toList, .text fontcolor), ("style".toList, .text "filled".toList)],
   .default "edge".toList [("fontname".toList, .text "Courier".toList), ("fontsize".toList, .text "10".toList),
     ("arrowhead".toList, .text "open".toList), ("arrowtail".toList, .text "open".toList)]]

theorem headerToks_drop {fontcolor : Text} {rest : List Tok} {ls : List Line} (hr : Parses rest ls) :
    Parses ((headerToks fontcolor).drop 2 ++ rest) (headerLines fontcolor ++ ls) := by
  refine Parses.cons (rest := (headerToks fontcolor).drop 5 ++ rest) rfl (by simp [headerToks, attrToks] <;> omega) ?_
  refine Parses.cons (rest := (headerToks fontcolor).drop 8 ++ rest) rfl (by simp [headerToks, attrToks] <;> omega) ?_
  refine Parses.cons (rest := (headerToks fontcolor).drop 15 ++ rest) rfl (by simp [headerToks, attrToks] <;> omega) ?_
  refine Parses.cons (rest := (headerToks fontcolor).drop 31 ++ rest) rfl (by simp [headerToks, attrToks] <;> omega) ?_
  exact Parses.cons (rest := rest) rfl (by simp [headerToks, attrToks] <;> omega) hr

/-! ## Graphs -/

def Graph.add (g h : Graph) : Graph := ⟨g.nodes ++ h.nodes, g.edges ++ h.edges, g.clusters ++ h.clusters, g.settings ++ h.settings⟩

theorem Graph.add_assoc (a b c : Graph) : (a.add b).add c = a.add (b.add c) := by
  unfold Graph.add; simp [List.append_assoc]

/-- The lines add the graph to what is there already, within the current clusters. -/
def Adds (st : List (Option Text)) (ls : List Line) (g : Graph) : Prop :=
  ∀ rest, graphOf st (ls ++ rest) = (graphOf st rest).map (g.add ·)

theorem Adds.nil (st : List (Option Text)) : Adds st [] {} := by
  intro rest
  cases h : graphOf st rest with
  | none => simp [h]
  | some g => simp [h, Graph.add]

theorem Adds.append {st : List (Option Text)} {a b : List Line} {g h : Graph} (ha : Adds st a g) (hb : Adds st b h) :
    Adds st (a ++ b) (g.add h) := by
  intro rest
  rw [List.append_assoc, ha, hb, Option.map_map]
  congr 1
  funext x
  exact (Graph.add_assoc g h x).symm

theorem Adds.flatMap {α : Type} {st : List (Option Text)} {l : List α} {f : α → List Line} {g : α → Graph}
    (h : ∀ a ∈ l, Adds st (f a) (g a)) :
    Adds st (l.flatMap f) ⟨l.flatMap fun a => (g a).nodes, l.flatMap fun a => (g a).edges, l.flatMap fun a => (g a).clusters,
      l.flatMap fun a => (g a).settings⟩ := by
  induction l with
  | nil => exact Adds.nil st
  | cons a l ih => exact (h a (by simp)).append (ih fun x hx => h x (by simp [hx]))

theorem Adds.cluster {o : Option Text} {st : List (Option Text)} {ls : List Line} {g : Graph} {n : Text}
    (h : Adds (some n :: o :: st) ls g) :
    Adds (o :: st) (.enter n :: ls ++ [.leave]) { g with clusters := ⟨n, (o :: st).filterMap id⟩ :: g.clusters } := by
  intro rest
  have : Line.enter n :: ls ++ [.leave] ++ rest = Line.enter n :: (ls ++ (.leave :: rest)) := by simp
  rw [this]
  show (graphOf (some n :: o :: st) (ls ++ (.leave :: rest))).map _ = _
  rw [h]
  show ((graphOf (o :: st) rest).map _).map _ = _
  rw [Option.map_map]
  rfl

theorem Adds.setting (o : Option Text) (st : List (Option Text)) (n : Text) (v : Val) :
    Adds (o :: st) [.setting n v] { settings := [⟨(o :: st).filterMap id, n, v⟩] } := by
  intro rest; rfl

/-- The nodes a statement results in -/
def Stmt.nodes (cl : List Text) : Stmt → List Node
  | .node name label shape fill => [⟨name, nodeAttrs (.html label) (.text shape) (.text fill), cl⟩]
  | .empty name => [⟨name, nodeAttrs (.text "<empty>".toList) (.text "plaintext".toList) (.text "red".toList), cl⟩]
  | _ => []

def Stmt.edges : Stmt → List Edge
  | .edge tail head weight style label => [⟨tail, head, edgeAttrs weight style label⟩]
  | _ => []

def Stmt.Flat : Stmt → Prop
  | .enter _ _ => False
  | .leave => False
  | _ => True

theorem Adds.flat {o : Option Text} {st : List (Option Text)} {ss : List Stmt} (h : ∀ s ∈ ss, s.Flat) :
    Adds (o :: st) (ss.flatMap Stmt.lines)
      { nodes := ss.flatMap (Stmt.nodes ((o :: st).filterMap id)), edges := ss.flatMap Stmt.edges } := by
  have h1 : ∀ s ∈ ss, Adds (o :: st) s.lines { nodes := s.nodes ((o :: st).filterMap id), edges := s.edges } := by
    intro s hs rest
    have := h s hs
    cases s with
    | node => rfl
    | edge => rfl
    | enter => exact this.elim
    | leave => exact this.elim
    | empty => rfl
  have := Adds.flatMap h1
  have e : ∀ {α β : Type} (l : List α), (l.flatMap fun _ => ([] : List β)) = [] := fun l => by simp
  rw [e, e] at this
  exact this

/-- The graph of a dataset: statements per universe, and statements of the dataset itself -/
def graphOfStmts (dataset pathname : Text) (us : List (Text × Text × List Stmt)) (ss : List Stmt) : Graph where
  nodes := us.flatMap (fun u => u.2.2.flatMap (Stmt.nodes ["cluster_".toList ++ u.1, "cluster_".toList ++ dataset]))
    ++ ss.flatMap (Stmt.nodes ["cluster_".toList ++ dataset])
  edges := us.flatMap (fun u => u.2.2.flatMap Stmt.edges) ++ ss.flatMap Stmt.edges
  clusters := ⟨"cluster_".toList ++ dataset, []⟩
    :: us.map fun u => ⟨"cluster_".toList ++ u.1, ["cluster_".toList ++ dataset]⟩
  settings := [⟨[], "fontname".toList, .text "Courier".toList⟩, ⟨[], "fontsize".toList, .text "10".toList⟩,
      ⟨["cluster_".toList ++ dataset], "label".toList, .html pathname⟩]
    ++ us.map fun u => ⟨["cluster_".toList ++ u.1, "cluster_".toList ++ dataset], "label".toList, .html u.2.1⟩

/-- All statements -/
def allStmts (dataset pathname : Text) (us : List (Text × Text × List Stmt)) (ss : List Stmt) : List Stmt :=
  .enter dataset pathname :: us.flatMap (fun u => .enter u.1 u.2.1 :: u.2.2 ++ [Stmt.leave]) ++ ss ++ [.leave]

theorem graphOf_all {fontcolor dataset pathname : Text} {us : List (Text × Text × List Stmt)} {ss : List Stmt}
    (hu : ∀ u ∈ us, ∀ s ∈ u.2.2, s.Flat) (hs : ∀ s ∈ ss, s.Flat) :
    graphOf [none] (headerLines fontcolor ++ ((allStmts dataset pathname us ss).flatMap Stmt.lines ++ [.leave]))
      = some (graphOfStmts dataset pathname us ss) := by
  have h1 : ∀ u ∈ us, Adds [some ("cluster_".toList ++ dataset), none] ((Stmt.enter u.1 u.2.1 :: u.2.2 ++ [Stmt.leave]).flatMap Stmt.lines)
      ⟨u.2.2.flatMap (Stmt.nodes ["cluster_".toList ++ u.1, "cluster_".toList ++ dataset]), u.2.2.flatMap Stmt.edges,
        [⟨"cluster_".toList ++ u.1, ["cluster_".toList ++ dataset]⟩],
        [⟨["cluster_".toList ++ u.1, "cluster_".toList ++ dataset], "label".toList, .html u.2.1⟩]⟩ := by
    intro u hmem
    have a := (Adds.setting (some ("cluster_".toList ++ u.1)) [some ("cluster_".toList ++ dataset), none] "label".toList
      (.html u.2.1)).append (Adds.flat (hu u hmem))
    have b := a.cluster
    have e : (Stmt.enter u.1 u.2.1 :: u.2.2 ++ [Stmt.leave]).flatMap Stmt.lines
        = .enter ("cluster_".toList ++ u.1) :: ([.setting "label".toList (.html u.2.1)] ++ u.2.2.flatMap Stmt.lines) ++ [Line.leave] := by
      simp [List.flatMap_append, Stmt.lines]
    rw [e]
    exact b
  have h2 := (Adds.flatMap h1).append (Adds.flat (o := some ("cluster_".toList ++ dataset)) (st := [none]) hs)
  have h3 := ((Adds.setting (some ("cluster_".toList ++ dataset)) [none] "label".toList (.html pathname)).append h2).cluster
  have e : (allStmts dataset pathname us ss).flatMap Stmt.lines
      = .enter ("cluster_".toList ++ dataset) :: ([.setting "label".toList (.html pathname)]
        ++ (us.flatMap (fun u => (Stmt.enter u.1 u.2.1 :: u.2.2 ++ [Stmt.leave]).flatMap Stmt.lines) ++ ss.flatMap Stmt.lines)) ++ [.leave] := by
    unfold allStmts
    simp [List.flatMap_append, Stmt.lines, List.flatMap_assoc]
  have h0 : Adds [none] (headerLines fontcolor)
      { settings := [⟨[], "fontname".toList, .text "Courier".toList⟩, ⟨[], "fontsize".toList, .text "10".toList⟩] } := by
    intro rest
    show ((graphOf [none] rest).map _).map _ = _
    rw [Option.map_map]; rfl
  rw [e, h0, h3]
  show some _ = some _
  congr 1
  unfold graphOfStmts Graph.add
  simp only [List.append_nil, List.nil_append, List.filterMap_cons, List.filterMap_nil, id, List.flatMap_append, List.map_eq_flatMap]
  simp

theorem readDot_all {fontcolor dataset pathname : Text} (hf : Quotable fontcolor) {us : List (Text × Text × List Stmt)} {ss : List Stmt}
    (hok : ∀ s ∈ allStmts dataset pathname us ss, s.Ok) (hu : ∀ u ∈ us, ∀ s ∈ u.2.2, s.Flat) (hs : ∀ s ∈ ss, s.Flat) :
    readDot (header fontcolor ++ (allStmts dataset pathname us ss).flatMap Stmt.text ++ "}\n".toList)
      = some (graphOfStmts dataset pathname us ss) := by
  unfold readDot
  rw [tokens_export hf hok, List.append_assoc]
  have h1 := headerToks_drop (fontcolor := fontcolor) (parses_stmts hok)
  generalize (allStmts dataset pathname us ss).flatMap Stmt.toks ++ [Tok.sym '}'] = rest at h1 ⊢
  rw [Option.bind_some, show headerToks fontcolor ++ rest
    = .word "digraph".toList :: .sym '{' :: ((headerToks fontcolor).drop 2 ++ rest) from rfl]
  generalize (headerToks fontcolor).drop 2 ++ rest = ts at h1 ⊢
  show (if "digraph".toList = "digraph".toList then (linesOf ts.length ts).bind (graphOf [none]) else none) = _
  rw [if_pos rfl, h1.2 _ h1.1]
  exact graphOf_all hu hs

end Lue.Dot

import Verif.Dot.Spec
import Verif.Calculate.Paths

/-!
# The tokens of what is written
-/
namespace Lue.Dot
open Lue.Structure

def Scans (s : Scan) (t : Text) (s' : Scan) (ts : List Tok) : Prop := scanAll s t = some (s', ts)

theorem Scans.append {s s1 s2 : Scan} {a b : Text} {x y : List Tok} (h1 : Scans s a s1 x) (h2 : Scans s1 b s2 y) :
    Scans s (a ++ b) s2 (x ++ y) := by
  unfold Scans at *
  induction a generalizing s x with
  | nil => cases h1; exact h2
  | cons c a ih =>
    rw [List.cons_append]
    unfold scanAll at h1 ⊢
    cases hc : scan s c with
    | none => rw [hc] at h1; cases h1
    | some r =>
      rw [hc] at h1
      simp only [Option.bind_some] at h1 ⊢
      cases ha : scanAll r.1 a with
      | none => rw [ha] at h1; cases h1
      | some q =>
        rw [ha] at h1
        cases h1
        rw [ih ha]
        simp only [Option.map_some, List.append_assoc]

theorem scans_step {s s1 s2 : Scan} {c : Char} {cs : Text} {x y : List Tok} (h : scan s c = some (s1, x)) (h1 : Scans s1 cs s2 y) :
    Scans s (c :: cs) s2 (x ++ y) := by
  unfold Scans at *
  show (scan s c).bind _ = _
  rw [h]
  show (scanAll s1 cs).map _ = _
  rw [h1]; rfl

theorem scan_word {t : Text} {c : Char} (h : isWord c = true) : scan (.word t) c = some (.word (t ++ [c]), []) := if_pos h

theorem scan_word_end {t : Text} {c : Char} (h : isWord c = false) :
    scan (.word t) c = (scanIdle c).map fun r => (r.1, .word t :: r.2) := if_neg (by rw [h]; decide)

theorem scan_quoted {t : Text} {c : Char} (h1 : (c == '"') = false) (h2 : (c == '\\') = false) :
    scan (.quoted t) c = some (.quoted (t ++ [c]), []) := by
  show (if (c == '"') = true then _ else if (c == '\\') = true then _ else _) = _
  rw [h1, h2]; rfl

theorem scans_word {w : Text} (h : ∀ c ∈ w, isWord c = true) (acc : Text) : Scans (.word acc) w (.word (acc ++ w)) [] := by
  induction w generalizing acc with
  | nil => simp [Scans, scanAll]
  | cons c w ih =>
    have := scans_step (scan_word (t := acc) (h c (by simp))) (ih (fun d hd => h d (by simp [hd])) (acc ++ [c]))
    simpa using this

theorem scans_word_start {w : Text} (hne : w ≠ []) (h : ∀ c ∈ w, isWord c = true) : Scans .idle w (.word w) [] := by
  cases w with
  | nil => exact absurd rfl hne
  | cons c w =>
    have h1 := scans_word (w := w) (fun d hd => h d (by simp [hd])) [c]
    have h2 : scan .idle c = some (.word [c], []) := if_pos (h c (by simp))
    exact scans_step h2 h1

theorem scans_quoted {t : Text} (h : Quotable t) (acc : Text) : Scans (.quoted acc) t (.quoted (acc ++ t)) [] := by
  induction t generalizing acc with
  | nil => simp [Scans, scanAll]
  | cons c t ih =>
    have h1 : (c == '"') = false := by
      rw [beq_eq_false_iff_ne]; rintro rfl; exact h.1 (by simp)
    have h2 : (c == '\\') = false := by
      rw [beq_eq_false_iff_ne]; rintro rfl; exact h.2 (by simp)
    have := scans_step (scan_quoted (t := acc) h1 h2)
      (ih ⟨fun hm => h.1 (by simp [hm]), fun hm => h.2 (by simp [hm])⟩ (acc ++ [c]))
    simpa using this

/-- The number of brackets that are open after the text -/
def depth : Nat → Text → Option Nat
  | d, [] => some d
  | d, c :: cs =>
    if c == '&' then none
    else if c == '<' then depth (d + 1) cs
    else if c == '>' then (match d with | 0 => none | d + 1 => depth d cs)
    else depth d cs

theorem depth_append {d d1 : Nat} {a b : Text} (h : depth d a = some d1) : depth d (a ++ b) = depth d1 b := by
  induction a generalizing d with
  | nil => cases h; rfl
  | cons c a ih =>
    rw [List.cons_append]
    unfold depth at h
    conv_lhs => unfold depth
    split at h
    · cases h
    · rename_i h1
      rw [if_neg h1]
      split at h
      · rename_i h2
        rw [if_pos h2]
        exact ih h
      · rename_i h2
        rw [if_neg h2]
        split at h
        · rename_i h3
          rw [if_pos h3]
          cases d with
          | zero => cases h
          | succ d => exact ih h
        · rename_i h3
          rw [if_neg h3]
          exact ih h

theorem depth_plain {t : Text} (h : Plain t) (d : Nat) : depth d t = some d := by
  induction t with
  | nil => rfl
  | cons c t ih =>
    have h1 : ¬ (c == '<') = true := by rw [beq_iff_eq]; rintro rfl; exact h.1 (by simp)
    have h2 : ¬ (c == '>') = true := by rw [beq_iff_eq]; rintro rfl; exact h.2.1 (by simp)
    have h3 : ¬ (c == '&') = true := by rw [beq_iff_eq]; rintro rfl; exact h.2.2 (by simp)
    unfold depth
    rw [if_neg h3, if_neg h1, if_neg h2]
    exact ih ⟨fun hm => h.1 (by simp [hm]), fun hm => h.2.1 (by simp [hm]), fun hm => h.2.2 (by simp [hm])⟩

theorem scan_html {d : Nat} {t : Text} {c : Char} (h1 : ¬ (c == '&') = true) (h2 : ¬ (c == '<') = true)
    (h3 : ¬ (c == '>') = true) : scan (.html d t) c = some (.html d (t ++ [c]), []) := by
  show (if (c == '&') = true then _ else if (c == '<') = true then _ else if (c == '>') = true then _ else _) = _
  rw [if_neg h1, if_neg h2, if_neg h3]

theorem scans_html {t : Text} {d d1 : Nat} (h : depth d t = some d1) (acc : Text) :
    Scans (.html d acc) t (.html d1 (acc ++ t)) [] := by
  induction t generalizing d acc with
  | nil => cases h; simp [Scans, scanAll]
  | cons c t ih =>
    unfold depth at h
    split at h
    · cases h
    · rename_i h1
      split at h
      · rename_i h2
        have hc : c = '<' := by simpa using h2
        subst hc
        have := scans_step (s := .html d acc) (c := '<') (s1 := .html (d + 1) (acc ++ ['<'])) (x := []) rfl (ih h (acc ++ ['<']))
        simpa using this
      · rename_i h2
        split at h
        · rename_i h3
          have hc : c = '>' := by simpa using h3
          subst hc
          cases d with
          | zero => cases h
          | succ d =>
            have := scans_step (s := .html (d + 1) acc) (c := '>') (s1 := .html d (acc ++ ['>'])) (x := []) rfl
              (ih h (acc ++ ['>']))
            simpa using this
        · rename_i h3
          have := scans_step (scan_html (d := d) (t := acc) h1 h2 h3) (ih h (acc ++ [c]))
          simpa using this

/-- A word ends at a character that can't be in a word. -/
theorem Scans.after_word {l : Text} {s : Scan} {ts : List Tok} (h : Scans .idle l s ts) (hl : (l.head?.map isWord) = some false)
    (w : Text) : Scans (.word w) l s (.word w :: ts) := by
  cases l with
  | nil => cases hl
  | cons c l =>
    have hc : isWord c = false := by
      simp only [List.head?_cons, Option.map_some, Option.some.injEq] at hl
      exact hl
    unfold Scans at h ⊢
    change (scanIdle c).bind _ = _ at h
    show (scan (.word w) c).bind _ = _
    rw [scan_word_end hc]
    cases hi : scanIdle c with
    | none => rw [hi] at h; cases h
    | some r =>
      rw [hi] at h
      simp only [Option.bind_some, Option.map_some] at h ⊢
      cases hq : scanAll r.1 l with
      | none => rw [hq] at h; cases h
      | some q => rw [hq] at h; cases h; rfl

theorem Scans.after_quoted {l : Text} {s : Scan} {ts : List Tok} (h : Scans .idle l s ts) (t : Text) :
    Scans (.quoted t) ('"' :: l) s (.val (.text t) :: ts) :=
  scans_step (s := .quoted t) (c := '"') (s1 := .idle) (x := [.val (.text t)]) rfl h

theorem Scans.after_html {l : Text} {s : Scan} {ts : List Tok} (h : Scans .idle l s ts) (t : Text) :
    Scans (.html 0 t) ('>' :: l) s (.val (.html t) :: ts) :=
  scans_step (s := .html 0 t) (c := '>') (s1 := .idle) (x := [.val (.html t)]) rfl h

theorem number_word (n : Nat) : number n ≠ [] ∧ ∀ c ∈ number n, isWord c = true := by
  refine ⟨(Calculate.name_digits n).1, fun c hc => ?_⟩
  unfold isWord Char.isAlphanum
  rw [(Calculate.name_digits n).2 c hc]
  simp

theorem number_plain (n : Nat) : Plain (number n) :=
  ⟨fun h => absurd ((Calculate.name_digits n).2 _ h) (by decide), fun h => absurd ((Calculate.name_digits n).2 _ h) (by decide),
    fun h => absurd ((Calculate.name_digits n).2 _ h) (by decide)⟩

/-! ## Statements -/

/-- What is written can be read. -/
def Stmt.Ok : Stmt → Prop
  | .node name label shape fill => (∃ n, name = "node_".toList ++ number n) ∧ depth 0 label = some 0 ∧ Quotable shape ∧ Quotable fill
  | .edge tail head _ style label =>
    (∃ n, tail = "node_".toList ++ number n) ∧ (∃ n, head = "node_".toList ++ number n) ∧ Quotable style ∧ depth 0 label = some 0
  | .enter name label => (∃ n, name = "node_".toList ++ number n) ∧ depth 0 label = some 0
  | .leave => True
  | .empty name => ∃ n, name = "node_".toList ++ number n

/-- An attribute, in tokens -/
def attrToks (k : Text) (v : Tok) : List Tok := [.word k, .sym '=', v]

def Stmt.toks : Stmt → List Tok
  | .node name label shape fill =>
    [.word name, .sym '['] ++ attrToks "label".toList (.val (.html label)) ++ attrToks "shape".toList (.val (.text shape))
      ++ attrToks "fillcolor".toList (.val (.text fill)) ++ [.sym ']', .sym ';']
  | .edge tail head weight style label =>
    [.word tail, .arrow, .word head, .sym '['] ++ attrToks "weight".toList (.word (number weight))
      ++ attrToks "style".toList (.val (.text style)) ++ attrToks "label".toList (.val (.html label)) ++ [.sym ']', .sym ';']
  | .enter name label =>
    [.word "subgraph".toList, .word ("cluster_".toList ++ name), .sym '{'] ++ attrToks "label".toList (.val (.html label))
  | .leave => [.sym '}']
  | .empty name =>
    [.word name, .sym '['] ++ attrToks "label".toList (.val (.text "<empty>".toList))
      ++ attrToks "shape".toList (.val (.text "plaintext".toList))
      ++ attrToks "fillcolor".toList (.val (.text "red".toList)) ++ [.sym ']', .sym ';']

theorem nodeName_word (n : Nat) : "node_".toList ++ number n ≠ [] ∧ ∀ c ∈ "node_".toList ++ number n, isWord c = true := by
  refine ⟨by simp [(number_word n).1], fun c hc => ?_⟩
  rcases List.mem_append.mp hc with h | h
  · have : ∀ c ∈ "node_".toList, isWord c = true := by decide
    exact this c h
  · exact (number_word n).2 c h

theorem scans_stmt {s : Stmt} (h : s.Ok) : Scans .idle s.text .idle s.toks := by
  cases s with
  | node name label shape fill =>
    obtain ⟨⟨n, rfl⟩, hl, hs, hf⟩ := h
    have a1 : Scans .idle "\n    ".toList .idle [] := by unfold Scans; decide
    have a2 := scans_word_start (nodeName_word n).1 (nodeName_word n).2
    have a3 : Scans (.word ("node_".toList ++ number n)) " [\n        label=<".toList (.html 0 [])
        (.word ("node_".toList ++ number n) :: [.sym '[', .word "label".toList, .sym '=']) :=
      Scans.after_word (by unfold Scans; decide) (by decide) _
    have a4 := scans_html hl []
    have a5 : Scans (.html 0 ([] ++ label)) ">\n        shape=\"".toList (.quoted [])
        (.val (.html ([] ++ label)) :: [.word "shape".toList, .sym '=']) :=
      Scans.after_html (l := "\n        shape=\"".toList) (by unfold Scans; decide) _
    have a6 := scans_quoted hs []
    have a7 : Scans (.quoted ([] ++ shape)) "\"\n        fillcolor=\"".toList (.quoted [])
        (.val (.text ([] ++ shape)) :: [.word "fillcolor".toList, .sym '=']) :=
      Scans.after_quoted (l := "\n        fillcolor=\"".toList) (by unfold Scans; decide) _
    have a8 := scans_quoted hf []
    have a9 : Scans (.quoted ([] ++ fill)) "\"\n    ];\n".toList .idle (.val (.text ([] ++ fill)) :: [.sym ']', .sym ';']) :=
      Scans.after_quoted (l := "\n    ];\n".toList) (by unfold Scans; decide) _
    exact (((((((a1.append a2).append a3).append a4).append a5).append a6).append a7).append a8).append a9
  | edge tail head weight style label =>
    obtain ⟨⟨n, rfl⟩, ⟨m, rfl⟩, hs, hl⟩ := h
    have a1 : Scans .idle "\n    ".toList .idle [] := by unfold Scans; decide
    have a2 := scans_word_start (nodeName_word n).1 (nodeName_word n).2
    have a3 : Scans (.word ("node_".toList ++ number n)) " -> ".toList .idle (.word ("node_".toList ++ number n) :: [.arrow]) :=
      Scans.after_word (by unfold Scans; decide) (by decide) _
    have a4 := scans_word_start (nodeName_word m).1 (nodeName_word m).2
    have a5 : Scans (.word ("node_".toList ++ number m)) " [\n        weight=".toList .idle
        (.word ("node_".toList ++ number m) :: [.sym '[', .word "weight".toList, .sym '=']) :=
      Scans.after_word (by unfold Scans; decide) (by decide) _
    have a6 := scans_word_start (number_word weight).1 (number_word weight).2
    have a7 : Scans (.word (number weight)) "\n        style=\"".toList (.quoted [])
        (.word (number weight) :: [.word "style".toList, .sym '=']) :=
      Scans.after_word (by unfold Scans; decide) (by decide) _
    have a8 := scans_quoted hs []
    have a9 : Scans (.quoted ([] ++ style)) "\"\n        label=<".toList (.html 0 [])
        (.val (.text ([] ++ style)) :: [.word "label".toList, .sym '=']) :=
      Scans.after_quoted (l := "\n        label=<".toList) (by unfold Scans; decide) _
    have a10 := scans_html hl []
    have a11 : Scans (.html 0 ([] ++ label)) ">\n    ];\n".toList .idle (.val (.html ([] ++ label)) :: [.sym ']', .sym ';']) :=
      Scans.after_html (l := "\n    ];\n".toList) (by unfold Scans; decide) _
    exact (((((((((a1.append a2).append a3).append a4).append a5).append a6).append a7).append a8).append a9).append a10).append a11
  | enter name label =>
    obtain ⟨⟨n, rfl⟩, hl⟩ := h
    have a1 : Scans .idle "\nsubgraph cluster_".toList (.word "cluster_".toList) [.word "subgraph".toList] := by unfold Scans; decide
    have a2 := scans_word (nodeName_word n).2 "cluster_".toList
    have a3 : Scans (.word ("cluster_".toList ++ ("node_".toList ++ number n))) " {\n    label=<".toList (.html 0 [])
        (.word ("cluster_".toList ++ ("node_".toList ++ number n)) :: [.sym '{', .word "label".toList, .sym '=']) :=
      Scans.after_word (by unfold Scans; decide) (by decide) _
    have a4 := scans_html hl []
    have a5 : Scans (.html 0 ([] ++ label)) ">\n".toList .idle (.val (.html ([] ++ label)) :: []) :=
      Scans.after_html (l := "\n".toList) (by unfold Scans; decide) _
    exact (((a1.append a2).append a3).append a4).append a5
  | leave => unfold Scans Stmt.text Stmt.toks; decide
  | empty name =>
    obtain ⟨n, rfl⟩ := h
    have a1 : Scans .idle "\n    ".toList .idle [] := by unfold Scans; decide
    have a2 := scans_word_start (nodeName_word n).1 (nodeName_word n).2
    have a3 : Scans (.word ("node_".toList ++ number n))
        " [\n        label=\"<empty>\"\n        shape=\"plaintext\"\n        fillcolor=\"red\"\n    ];\n".toList .idle
        (.word ("node_".toList ++ number n) :: (.sym '[' :: (attrToks "label".toList (.val (.text "<empty>".toList))
      ++ attrToks "shape".toList (.val (.text "plaintext".toList))
      ++ attrToks "fillcolor".toList (.val (.text "red".toList)) ++ [.sym ']', .sym ';']))) :=
      Scans.after_word (by unfold Scans; decide) (by decide) _
    exact (a1.append a2).append a3

theorem scans_stmts {ss : List Stmt} (h : ∀ s ∈ ss, s.Ok) : Scans .idle (ss.flatMap Stmt.text) .idle (ss.flatMap Stmt.toks) := by
  induction ss with
  | nil => unfold Scans; rfl
  | cons s ss ih =>
    rw [List.flatMap_cons, List.flatMap_cons]
    exact (scans_stmt (h s (by simp))).append (ih fun x hx => h x (by simp [hx]))

/-! ## The header -/

def headerToks (fontcolor : Text) : List Tok :=
  [.word "digraph".toList, .sym '{'] ++ attrToks "fontname".toList (.val (.text "Courier".toList))
    ++ attrToks "fontsize".toList (.word "10".toList)
    ++ [.word "graph".toList, .sym '['] ++ attrToks "bgcolor".toList (.val (.text "transparent".toList)) ++ [.sym ']', .sym ';']
    ++ [.word "node".toList, .sym '['] ++ attrToks "fontname".toList (.val (.text "Courier".toList))
    ++ attrToks "fontsize".toList (.word "10".toList) ++ attrToks "fontcolor".toList (.val (.text fontcolor))
    ++ attrToks "style".toList (.val (.text "filled".toList)) ++ [.sym ']', .sym ';']
    ++ [.word "edge".toList, .sym '['] ++ attrToks "fontname".toList (.val (.text "Courier".toList))
    ++ attrToks "fontsize".toList (.word "10".toList) ++ attrToks "arrowhead".toList (.val (.text "open".toList))
    ++ attrToks "arrowtail".toList (.val (.text "open".toList)) ++ [.sym ']', .sym ';']

theorem scans_header {fontcolor : Text} (h : Quotable fontcolor) : Scans .idle (header fontcolor) .idle (headerToks fontcolor) := by
  have a1 : Scans .idle "digraph {\n    fontname=\"Courier\"\n    fontsize=10\n\n    graph [\n        bgcolor=\"transparent\"\n    ];\n\n    node [\n        fontname=\"Courier\"\n        fontsize=10\n        fontcolor=\"".toList
      (.quoted []) ([.word "digraph".toList, .sym '{'] ++ attrToks "fontname".toList (.val (.text "Courier".toList))
    ++ attrToks "fontsize".toList (.word "10".toList)
    ++ [.word "graph".toList, .sym '['] ++ attrToks "bgcolor".toList (.val (.text "transparent".toList)) ++ [.sym ']', .sym ';']
    ++ [.word "node".toList, .sym '['] ++ attrToks "fontname".toList (.val (.text "Courier".toList))
    ++ attrToks "fontsize".toList (.word "10".toList) ++ [.word "fontcolor".toList, .sym '=']) := by
    unfold Scans; decide +kernel
  have a2 := scans_quoted h []
  have a3 : Scans (.quoted ([] ++ fontcolor)) "\"\n        style=\"filled\"\n    ];\n\n    edge [\n        fontname=\"Courier\"\n        fontsize=10\n        arrowhead=\"open\"\n        arrowtail=\"open\"\n    ];\n\n".toList
      .idle (.val (.text ([] ++ fontcolor)) :: (attrToks "style".toList (.val (.text "filled".toList)) ++ [.sym ']', .sym ';']
    ++ [.word "edge".toList, .sym '['] ++ attrToks "fontname".toList (.val (.text "Courier".toList))
    ++ attrToks "fontsize".toList (.word "10".toList) ++ attrToks "arrowhead".toList (.val (.text "open".toList))
    ++ attrToks "arrowtail".toList (.val (.text "open".toList)) ++ [.sym ']', .sym ';'])) :=
    by
    have h0 : Scans .idle "\n        style=\"filled\"\n    ];\n\n    edge [\n        fontname=\"Courier\"\n        fontsize=10\n        arrowhead=\"open\"\n        arrowtail=\"open\"\n    ];\n\n".toList
        .idle (attrToks "style".toList (.val (.text "filled".toList)) ++ [.sym ']', .sym ';']
    ++ [.word "edge".toList, .sym '['] ++ attrToks "fontname".toList (.val (.text "Courier".toList))
    ++ attrToks "fontsize".toList (.word "10".toList) ++ attrToks "arrowhead".toList (.val (.text "open".toList))
    ++ attrToks "arrowtail".toList (.val (.text "open".toList)) ++ [.sym ']', .sym ';']) := by unfold Scans; decide +kernel
    have h1 : "\"\n        style=\"filled\"\n    ];\n\n    edge [\n        fontname=\"Courier\"\n        fontsize=10\n        arrowhead=\"open\"\n        arrowtail=\"open\"\n    ];\n\n".toList
        = '"' :: "\n        style=\"filled\"\n    ];\n\n    edge [\n        fontname=\"Courier\"\n        fontsize=10\n        arrowhead=\"open\"\n        arrowtail=\"open\"\n    ];\n\n".toList := by
      decide +kernel
    rw [h1]
    exact h0.after_quoted _
  exact (a1.append a2).append a3

/-- The tokens of the text that is written -/
theorem tokens_export {fontcolor : Text} (h : Quotable fontcolor) {ss : List Stmt} (hs : ∀ s ∈ ss, s.Ok) :
    tokens (header fontcolor ++ ss.flatMap Stmt.text ++ "}\n".toList)
      = some (headerToks fontcolor ++ ss.flatMap Stmt.toks ++ [.sym '}']) := by
  have a3 : Scans .idle "}\n".toList .idle [.sym '}'] := by unfold Scans; decide
  have := ((scans_header h).append (scans_stmts hs)).append a3
  unfold Scans at this
  unfold tokens
  rw [this]; rfl

end Lue.Dot

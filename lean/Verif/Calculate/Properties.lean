import Verif.Calculate.Proofs

/-!
# C54: `lue_calculate` writes the values of the expression to the outputs named
-/
namespace Lue.Calculate

variable {κ γ V : Type}

/-! ### The text of a statement -/

theorem splitFirst_eq {c : Char} {a b : Str} (h : c ∉ a) : splitFirst c (a ++ c :: b) = some (a, b) := by
  induction a with
  | nil => simp [splitFirst]
  | cons x xs ih =>
    simp only [List.mem_cons, not_or] at h
    rw [List.cons_append]
    unfold splitFirst
    rw [if_neg (Ne.symm h.1), ih h.2]; rfl

theorem dropWhile_blank {a t : Str} (ha : Blank a) :
    (a ++ t).dropWhile Char.isWhitespace = t.dropWhile Char.isWhitespace := by
  induction a with
  | nil => rfl
  | cons x xs ih =>
    rw [List.cons_append, List.dropWhile_cons, if_pos (ha x (by simp))]
    exact ih (fun c hc => ha c (by simp [hc]))

theorem dropWhile_head {t : Str} (ht : ∀ c, t.head? = some c → c.isWhitespace = false) :
    t.dropWhile Char.isWhitespace = t := by
  cases t with
  | nil => rfl
  | cons x xs =>
    have hx := ht x rfl
    rw [List.dropWhile_cons, if_neg (by rw [hx]; simp)]

/-- Removing whitespace at the end -/
def rstrip (t : Str) : Str := (t.reverse.dropWhile Char.isWhitespace).reverse

theorem strip_eq (t : Str) : strip t = rstrip (t.dropWhile Char.isWhitespace) := rfl

theorem rstrip_blank {t b : Str} (hb : Blank b) : rstrip (t ++ b) = rstrip t := by
  unfold rstrip
  rw [List.reverse_append, dropWhile_blank (by intro c hc; exact hb c (by simpa using hc))]

theorem rstrip_last {t : Str} (ht : ∀ c, t.getLast? = some c → c.isWhitespace = false) : rstrip t = t := by
  unfold rstrip
  rw [dropWhile_head (by intro c hc; exact ht c (by simpa using hc))]
  simp

theorem rstrip_append {x t : Str} {c : Char} (hc : c.isWhitespace = false) :
    rstrip (x ++ c :: t) = x ++ c :: rstrip t := by
  have key : ∀ u : Str, (u ++ c :: x.reverse).dropWhile Char.isWhitespace
      = u.dropWhile Char.isWhitespace ++ c :: x.reverse := by
    intro u
    induction u with
    | nil => simp [List.dropWhile_cons, hc]
    | cons y ys ih =>
      rw [List.cons_append, List.dropWhile_cons, List.dropWhile_cons]
      split
      · exact ih
      · rfl
  unfold rstrip
  rw [List.reverse_append, List.reverse_cons, List.append_assoc, List.singleton_append, key]
  simp

theorem strip_around {a n b : Str} (ha : Blank a) (hb : Blank b) (hn : Trimmed n) : strip (a ++ n ++ b) = n := by
  rw [strip_eq, List.append_assoc, dropWhile_blank ha]
  cases n with
  | nil =>
    rw [List.nil_append]
    have : b.dropWhile Char.isWhitespace = [] := by
      have := dropWhile_blank (a := b) (t := []) hb
      simpa using this
    rw [this]; rfl
  | cons x xs =>
    rw [dropWhile_head (by intro c hc; exact hn.1 c (by simpa using hc)), rstrip_blank hb, rstrip_last hn.2]

theorem separated_lstrip {ns : List Str} {t : Str} (h : Separated ns t) (hn : ∀ n ∈ ns, Trimmed n ∧ n ≠ []) :
    Separated ns (t.dropWhile Char.isWhitespace) := by
  cases h with
  | one ha hb =>
    rename_i a n b
    obtain ⟨h1, h2⟩ := hn n (by simp)
    rw [List.append_assoc, dropWhile_blank ha, dropWhile_head (by
      intro c hc; exact h1.1 c (by cases n with
        | nil => exact absurd rfl h2
        | cons y ys => simpa using hc))]
    exact Separated.one (a := []) (by intro c hc; cases hc) hb
  | more ha hb hs =>
    rename_i a n b ns t
    obtain ⟨h1, h2⟩ := hn n (by simp)
    rw [List.append_assoc, List.append_assoc, dropWhile_blank ha, dropWhile_head (by
      intro c hc; exact h1.1 c (by cases n with
        | nil => exact absurd rfl h2
        | cons y ys => simpa using hc)), ← List.append_assoc]
    exact Separated.more (a := []) (by intro c hc; cases hc) hb hs

theorem separated_rstrip {ns : List Str} {t : Str} (h : Separated ns t) (hn : ∀ n ∈ ns, Trimmed n ∧ n ≠ []) :
    Separated ns (rstrip t) := by
  induction h with
  | one ha hb =>
    rename_i a n b
    obtain ⟨h1, h2⟩ := hn n (by simp)
    rw [rstrip_blank hb, rstrip_last (by
      intro c hc
      apply h1.2 c
      rw [List.getLast?_append] at hc
      cases hl : n.getLast? with
      | none => exact absurd (List.getLast?_eq_none_iff.mp hl) h2
      | some y => rw [hl] at hc; exact hc)]
    have := Separated.one (n := n) (b := []) ha (by intro c hc; cases hc)
    simpa using this
  | more ha hb hs ih =>
    rename_i a n b ns t
    rw [rstrip_append (by decide)]
    exact Separated.more ha hb (ih (fun n hm => hn n (by simp [hm])))

theorem blank_not_mem {t : Str} (h : Blank t) {c : Char} (hc : c.isWhitespace = false) : c ∉ t := by
  intro hm; rw [h c hm] at hc; cases hc

theorem separated_split {ns : List Str} {t : Str} (h : Separated ns t) (hn : ∀ n ∈ ns, Trimmed n ∧ ',' ∉ n) :
    (splitOn ',' t).map strip = ns := by
  induction h with
  | one ha hb =>
    rename_i a n b
    obtain ⟨h1, h2⟩ := hn n (by simp)
    rw [splitOn_nil_of_not_mem (by simp [h2, blank_not_mem ha (show (',' : Char).isWhitespace = false by decide),
      blank_not_mem hb (show (',' : Char).isWhitespace = false by decide)])]
    rw [List.map_singleton, strip_around ha hb h1]
  | more ha hb hs ih =>
    rename_i a n b ns t
    obtain ⟨h1, h2⟩ := hn n (by simp)
    rw [splitOn_append (by simp [h2, blank_not_mem ha (show (',' : Char).isWhitespace = false by decide),
      blank_not_mem hb (show (',' : Char).isWhitespace = false by decide)])]
    rw [List.map_cons, strip_around ha hb h1, ih (fun n hm => hn n (by simp [hm]))]

theorem separated_no_equals {ns : List Str} {t : Str} (h : Separated ns t) (hn : ∀ n ∈ ns, '=' ∉ n) : '=' ∉ t := by
  induction h with
  | one ha hb =>
    rename_i a n b
    simp [hn n (by simp), blank_not_mem ha (show ('=' : Char).isWhitespace = false by decide),
      blank_not_mem hb (show ('=' : Char).isWhitespace = false by decide)]
  | more ha hb hs ih =>
    rename_i a n b ns t
    simp [hn n (by simp), blank_not_mem ha (show ('=' : Char).isWhitespace = false by decide),
      blank_not_mem hb (show ('=' : Char).isWhitespace = false by decide), ih (fun n hm => hn n (by simp [hm]))]

theorem plain_all {p : Str} (h : Plain p) : p.all PlainChar = true := by
  rw [List.all_eq_true]
  intro c hc
  obtain ⟨h1, h2, h3, h4, h5⟩ := h c hc
  simp [PlainChar, h1, h2, h3, h4, h5]

theorem mapM_unquote (w : World κ γ V) {ns : List Str} (h : ∀ n ∈ ns, Plain n) : ns.mapM w.unquote = some ns := by
  induction ns with
  | nil => rfl
  | cons n ns ih =>
    rw [List.mapM_cons, w.unquote_plain n (plain_all (h n (by simp))), ih (fun n hm => h n (by simp [hm]))]
    rfl

/-- C54: the text of a statement is split into the names of the outputs and the expression -/
theorem statement_parsed (w : World κ γ V) (cfg : Config) {statement : Str} {outs : List Str} {e : Expr κ γ}
    (h : IsStatement w statement outs e) : statementToBlock w cfg statement = block w cfg outs e := by
  obtain ⟨lhs, a, r, b, rfl, hs, ho, ha, hb, hr, hp⟩ := h
  unfold statementToBlock
  rw [splitFirst_eq (separated_no_equals hs (fun n hm => (ho n hm).2.2.1)), Option.bind_some]
  have hout : outputNames w lhs = some outs := by
    unfold outputNames
    rw [strip_eq, separated_split (separated_rstrip (separated_lstrip hs
        (fun n hm => ⟨(ho n hm).1, (ho n hm).2.2.2.2⟩)) (fun n hm => ⟨(ho n hm).1, (ho n hm).2.2.2.2⟩))
      (fun n hm => ⟨(ho n hm).1, (ho n hm).2.1⟩)]
    exact mapM_unquote w (fun n hm => (ho n hm).2.2.2.1)
  simp only [hout, Option.bind_some, strip_around ha hb hr, hp]

/-! ### Running the block -/

theorem run_reads (w : World κ γ V) (shape : Option (List Nat)) (rest : List (Stmt κ γ)) (log : List (Write V))
    {d : Dict} (hv : (d.map (·.2)).Nodup) (hp : ∀ pv ∈ d, Plain pv.1) (hr : ∀ pv ∈ d, ∃ a, w.fromGdal pv.1 shape = some a)
    (env : Str → Option V) (sources : List Str) :
    ∃ env' sources', run w (d.map (fun pv => Stmt.read pv.2 pv.1 shape) ++ rest) env sources log
        = run w rest env' sources' log ∧
      (∀ pv ∈ d, env' pv.2 = w.fromGdal pv.1 shape) ∧ (∀ x, x ∉ d.map (·.2) → env' x = env x) ∧
      (∀ p, p ∈ sources' ↔ p ∈ d.map (·.1) ∨ p ∈ sources) := by
  induction d generalizing env sources with
  | nil => exact ⟨env, sources, rfl, by simp, by simp, by simp⟩
  | cons pv d ih =>
    obtain ⟨p, v⟩ := pv
    simp only [List.map_cons, List.nodup_cons] at hv
    obtain ⟨a, ha⟩ := hr (p, v) (by simp)
    obtain ⟨env', sources', e1, e2, e3, e4⟩ := ih hv.2 (fun q hq => hp q (by simp [hq])) (fun q hq => hr q (by simp [hq]))
      (fun y => if y = v then some a else env y) (p :: sources)
    refine ⟨env', sources', ?_, ?_, ?_, ?_⟩
    · rw [List.map_cons, List.cons_append, ← e1]
      conv_lhs => unfold run
      simp only [w.unquote_plain p (plain_all (hp (p, v) (by simp))), Option.bind_some]
      dsimp only at ha
      rw [ha]; rfl
    · intro q hq
      rcases List.mem_cons.mp hq with rfl | hq
      · rw [e3 v hv.1, if_pos rfl]; exact ha.symm
      · exact e2 q hq
    · intro x hx
      simp only [List.map_cons, List.mem_cons, not_or] at hx
      rw [e3 x hx.2, if_neg hx.1]
    · intro q
      rw [e4]; simp only [List.map_cons, List.mem_cons]; tauto

theorem run_reads_fail (w : World κ γ V) (shape : Option (List Nat)) (rest : List (Stmt κ γ)) (log : List (Write V))
    {d : Dict} (hp : ∀ pv ∈ d, Plain pv.1) (hr : ∃ pv ∈ d, w.fromGdal pv.1 shape = none)
    (env : Str → Option V) (sources : List Str) :
    run w (d.map (fun pv => Stmt.read pv.2 pv.1 shape) ++ rest) env sources log = (.failed, log) := by
  induction d generalizing env sources with
  | nil => simp at hr
  | cons pv d ih =>
    obtain ⟨p, v⟩ := pv
    rw [List.map_cons, List.cons_append]
    unfold run
    simp only [w.unquote_plain p (plain_all (hp (p, v) (by simp))), Option.bind_some]
    cases ha : w.fromGdal p shape with
    | none => rfl
    | some a =>
      refine ih (fun q hq => hp q (by simp [hq])) ?_ _ _
      obtain ⟨q, hq, hn⟩ := hr
      rcases List.mem_cons.mp hq with rfl | hq
      · dsimp only at hn; rw [hn] at ha; cases ha
      · exact ⟨q, hq, hn⟩

theorem assignAll_other {env : Str → Option V} {l : List (Str × V)} {x : Str} (h : x ∉ l.map (·.1)) :
    assignAll env l x = env x := by
  induction l generalizing env with
  | nil => rfl
  | cons yv l ih =>
    obtain ⟨y, v⟩ := yv
    simp only [List.map_cons, List.mem_cons, not_or] at h
    unfold assignAll
    rw [ih h.2, if_neg h.1]

theorem assignAll_last {env : Str → Option V} {l : List (Str × V)} {x : Str} {v : V} {i : Nat}
    (hi : l[i]? = some (x, v)) (hlast : ∀ j : Nat, i < j → ∀ u, l[j]? ≠ some (x, u)) : assignAll env l x = some v := by
  induction l generalizing env i with
  | nil => simp at hi
  | cons yv l ih =>
    obtain ⟨y, u⟩ := yv
    unfold assignAll
    cases i with
    | zero =>
      simp only [List.getElem?_cons_zero, Option.some.injEq, Prod.mk.injEq] at hi
      rw [assignAll_other, hi.1, hi.2, if_pos rfl]
      intro hm
      obtain ⟨⟨z, u'⟩, hz, hzx⟩ := List.mem_map.mp hm
      obtain ⟨j, hj⟩ := List.getElem?_of_mem hz
      dsimp only at hzx
      exact hlast (j + 1) (by omega) u' (by rw [List.getElem?_cons_succ, hj, hzx])
    | succ i =>
      exact ih (by simpa using hi) (fun j hj u => by
        have := hlast (j + 1) (by omega) u
        simpa using this)

/-- Writing the outputs, until one of them is refused -/
theorem run_writes (w : World κ γ V) (good : Str → V → Prop) {c : Str} (hc : Plain c) {env : Str → Option V}
    {sources : List Str} {d : Dict} (hp : ∀ pv ∈ d, Plain pv.1 ∧ pv.1 ∉ sources)
    (hg : ∀ pv ∈ d, ∃ a, env pv.2 = some a ∧ good pv.1 a) (log : List (Write V)) :
    ∃ o done rest out, d = done ++ rest ∧
      run w (d.map (fun pv => Stmt.write (κ := κ) (γ := γ) pv.2 pv.1 c)) env sources log = (o, log ++ out) ∧
      out.map (·.path) = done.map (·.1) ∧
      (∀ x ∈ out, good x.path x.value ∧ x.clone = c ∧ w.toGdal x.value x.path c = true) ∧
      ((o = .done ∧ rest = []) ∨
        (o = .failed ∧ ∃ pv ∈ rest, ∃ a, good pv.1 a ∧ w.toGdal a pv.1 c = false)) := by
  induction d generalizing log with
  | nil => exact ⟨.done, [], [], [], rfl, by simp [run], rfl, by simp, Or.inl ⟨rfl, rfl⟩⟩
  | cons pv d ih =>
    obtain ⟨p, v⟩ := pv
    obtain ⟨a, ha, hga⟩ := hg (p, v) (by simp)
    obtain ⟨hpp, hps⟩ := hp (p, v) (by simp)
    dsimp only at ha hga hpp hps
    rw [List.map_cons]
    have hstep : (w.unquote p).bind (fun p => (w.unquote c).bind (fun c => (env v).map (fun a => (p, c, a))))
        = some (p, c, a) := by
      simp only [w.unquote_plain p (plain_all hpp), w.unquote_plain c (plain_all hc), ha, Option.bind_some,
        Option.map_some]
    have hrun : run w (Stmt.write v p c :: d.map (fun pv => Stmt.write (κ := κ) (γ := γ) pv.2 pv.1 c)) env sources log
        = if p ∈ sources then (.unspecified, log)
          else if w.toGdal a p c then
            run w (d.map (fun pv => Stmt.write (κ := κ) (γ := γ) pv.2 pv.1 c)) env sources (log ++ [⟨p, a, c⟩])
          else (.failed, log) := by
      conv_lhs => unfold run
      rw [hstep]
    rw [hrun, if_neg hps]
    cases ht : w.toGdal a p c with
    | false =>
      refine ⟨.failed, [], (p, v) :: d, [], rfl, by simp, rfl, by simp, Or.inr ⟨rfl, (p, v), by simp, a, hga, ht⟩⟩
    | true =>
      rw [if_pos rfl]
      obtain ⟨o, done, rest, out, e1, e2, e3, e4, e5⟩ := ih (fun q hq => hp q (by simp [hq]))
        (fun q hq => hg q (by simp [hq])) (log ++ [⟨p, a, c⟩])
      refine ⟨o, (p, v) :: done, rest, ⟨p, a, c⟩ :: out, by rw [e1]; rfl, by rw [e2]; simp, by simp [e3], ?_, e5⟩
      intro x hx
      rcases List.mem_cons.mp hx with rfl | hx
      · exact ⟨hga, rfl, ht⟩
      · exact e4 x hx

theorem exists_last {α : Type} {l : List α} {a : α} (h : a ∈ l) :
    ∃ i : Nat, l[i]? = some a ∧ ∀ j, i < j → l[j]? ≠ some a := by
  classical
  induction l with
  | nil => cases h
  | cons x xs ih =>
    by_cases hx : a ∈ xs
    · obtain ⟨i, h1, h2⟩ := ih hx
      refine ⟨i + 1, by simpa using h1, ?_⟩
      intro j hj
      cases j with
      | zero => omega
      | succ j => simpa using h2 j (by omega)
    · rcases List.mem_cons.mp h with rfl | h
      · refine ⟨0, rfl, ?_⟩
        intro j hj
        cases j with
        | zero => omega
        | succ j =>
          rw [List.getElem?_cons_succ]
          intro hc; exact hx (List.mem_of_getElem? hc)
      · exact absurd h hx

/-- Each output has a value -/
theorem lastValue_exists {paths : List Str} {vs : List V} (hl : vs.length = paths.length) {p : Str} (hp : p ∈ paths) :
    ∃ v, LastValue paths vs p v := by
  obtain ⟨i, h1, h2⟩ := exists_last hp
  have hi : i < vs.length := by
    rw [hl]
    by_contra hc
    rw [List.getElem?_eq_none (by omega)] at h1; cases h1
  exact ⟨vs[i], i, h1, List.getElem?_eq_getElem hi, h2⟩

/-- … and it is unique -/
theorem lastValue_unique {paths : List Str} {vs : List V} {p : Str} {v u : V} (h1 : LastValue paths vs p v)
    (h2 : LastValue paths vs p u) : v = u := by
  obtain ⟨i, a1, a2, a3⟩ := h1
  obtain ⟨j, b1, b2, b3⟩ := h2
  have : i = j := by
    rcases Nat.lt_trichotomy i j with h | h | h
    · exact absurd b1 (a3 j h)
    · exact h
    · exact absurd a1 (b3 i h)
  subst this
  rw [a2] at b2; exact Option.some.inj b2

/-! ### The command -/

/-- A statement, with the rasters meant by its strings (`inputs`) and by the names on its left-hand side (`paths`) -/
structure Setup (w : World κ γ V) (statement : Str) (outs : List Str) (e : Expr κ γ) (inputs paths : List Str) :
    Prop where
  isStatement : IsStatement w statement outs e
  inputsMeant : List.Forall₂ (InputPath w) (strings e) inputs
  pathsMeant : List.Forall₂ (OutputPath w) outs paths
  named : ∀ p, p ∈ inputs ∨ p ∈ paths → Plain p ∧ Nameable p
  /-- The expression doesn't contain names like those generated -/
  noClash : ∀ x ∈ names e, ¬NumberSuffix x
  /-- No raster is overwritten while it is being read -/
  disjoint : ∀ p ∈ inputs, p ∉ paths

theorem Setup.inputs_eq {w : World κ γ V} {statement : Str} {outs inputs paths : List Str} {e : Expr κ γ}
    (h : Setup w statement outs e inputs paths) : inputs = (strings e).map (normalizeInput w) := by
  have := h.inputsMeant
  clear h
  generalize strings e = ss at this
  induction this with
  | nil => rfl
  | cons h1 _ ih => rw [List.map_cons, ← ih, (inputPath_iff w _ _).mp h1]

theorem Setup.paths_eq {w : World κ γ V} {statement : Str} {outs inputs paths : List Str} {e : Expr κ γ}
    (h : Setup w statement outs e inputs paths) : paths = outs.map (normalizeOutput w) := by
  have := h.pathsMeant
  clear h
  induction this with
  | nil => rfl
  | cons h1 _ ih => rw [List.map_cons, ← ih, (outputPath_iff w _ _).mp h1]

theorem separated_ne_nil {ns : List Str} {t : Str} (h : Separated ns t) : ns ≠ [] := by
  cases h <;> simp

theorem mapM_lookup {d : Dict} {ps : List Str} (h : ∀ p ∈ ps, ∃ v, d.lookup p = some v) :
    ∃ ts, ps.mapM (fun p => d.lookup p) = some ts ∧ ts.length = ps.length ∧
      ∀ i : Nat, ∀ p, ps[i]? = some p → ts[i]? = d.lookup p := by
  induction ps with
  | nil => exact ⟨[], rfl, rfl, by simp⟩
  | cons p ps ih =>
    obtain ⟨v, hv⟩ := h p (by simp)
    obtain ⟨ts, e1, e2, e3⟩ := ih (fun q hq => h q (by simp [hq]))
    refine ⟨v :: ts, ?_, by simp [e2], ?_⟩
    · rw [List.mapM_cons, hv, e1]; rfl
    · intro i q hq
      cases i with
      | zero =>
        simp only [List.getElem?_cons_zero, Option.some.injEq] at hq
        rw [← hq, hv]; rfl
      | succ i => simpa using e3 i q (by simpa using hq)

/-- The parts of the block -/
structure Parts (w : World κ γ V) (cfg : Config) (statement : Str) (e : Expr κ γ) (inputs paths : List Str)
    (dIn dOut : Dict) (targets : List Str) : Prop where
  goodIn : GoodDict (cfg.orderIn inputs) dIn
  goodOut : GoodDict (cfg.orderOut paths) dOut
  targets_length : targets.length = paths.length
  targets_get : ∀ i : Nat, ∀ p, paths[i]? = some p → targets[i]? = dOut.lookup p
  execute_ok : ∀ e', qualify (replace dIn (mapStrings (normalizeInput w) e)) = some e' →
    execute w cfg statement = run w (dIn.map (fun pv => Stmt.read pv.2 pv.1 cfg.partitionShape)
      ++ ([Stmt.assign targets e'] ++ dOut.map (fun pv => Stmt.write pv.2 pv.1 (cloneName cfg dIn))))
      (fun _ => none) [] []
  execute_none : qualify (replace dIn (mapStrings (normalizeInput w) e)) = none →
    execute w cfg statement = (.failed, [])

theorem Setup.parts {w : World κ γ V} (cfg : Config) {statement : Str} {outs inputs paths : List Str} {e : Expr κ γ}
    (h : Setup w statement outs e inputs paths) :
    ∃ dIn dOut targets, Parts w cfg statement e inputs paths dIn dOut targets := by
  have hin : strings (mapStrings (normalizeInput w) e) = inputs := by rw [strings_map, ← h.inputs_eq]
  have hout : outs.map (normalizeOutput w) = paths := h.paths_eq.symm
  obtain ⟨dIn, a1, a2⟩ := variableNames_ok (cfg.orderIn inputs)
  obtain ⟨dOut, b1, b2⟩ := variableNames_ok (cfg.orderOut paths)
  obtain ⟨targets, c1, c2, c3⟩ := mapM_lookup (d := dOut) (ps := paths) (fun p hp => b2.lookup (by
    rw [(cfg.orderOut_perm paths).mem_iff]; simpa using hp))
  have hb := statement_parsed w cfg h.isStatement
  refine ⟨dIn, dOut, targets, a2, b2, c2, c3, ?_, ?_⟩
  · intro e' he'
    have hblock : statementToBlock w cfg statement = some (dIn.map (fun pv => Stmt.read pv.2 pv.1 cfg.partitionShape)
      ++ [Stmt.assign targets e'] ++ dOut.map (fun pv => Stmt.write pv.2 pv.1 (cloneName cfg dIn))) := by
      rw [hb]
      unfold block
      simp only [hin, hout, a1, Option.bind_some, he', b1, c1, Option.map_some]
    unfold execute
    rw [hblock]
    show executeBlock w _ = _
    unfold executeBlock
    rw [if_pos, List.append_assoc]
    rw [List.all_eq_true]
    intro x hx
    have hnamed : ∀ {ps : List Str} {d : Dict}, GoodDict ps d → (∀ p ∈ ps, Nameable p) →
        ∀ pv ∈ d, isIdentifier pv.2 = true := by
      intro ps d hd hps pv hpv
      obtain ⟨i, hi⟩ := hd.named pv hpv
      rw [hi]
      exact suffixed_identifier (hps pv.1 (by rw [← hd.keys]; exact List.mem_map.mpr ⟨pv, hpv, rfl⟩)) i
    simp only [List.mem_flatMap, List.mem_append, List.mem_map, List.mem_singleton] at hx
    obtain ⟨st, (⟨pv, hpv, rfl⟩ | rfl) | ⟨pv, hpv, rfl⟩, hm⟩ := hx
    · simp only [assigned, List.mem_singleton] at hm
      rw [hm]
      exact hnamed a2 (fun p hp => (h.named p (Or.inl (by
        rw [(cfg.orderIn_perm inputs).mem_iff] at hp; simpa using hp))).2) pv hpv
    · simp only [assigned] at hm
      obtain ⟨i, hi⟩ := List.getElem?_of_mem hm
      have hil : i < paths.length := by
        rw [← c2]
        by_contra hc
        rw [List.getElem?_eq_none (by omega)] at hi; cases hi
      have := c3 i paths[i] (List.getElem?_eq_getElem hil)
      rw [hi] at this
      have hmem := mem_of_lookup this.symm
      exact hnamed b2 (fun p hp => (h.named p (Or.inr (by
        rw [(cfg.orderOut_perm paths).mem_iff] at hp; simpa using hp))).2) _ hmem
    · simp [assigned] at hm
  · intro he'
    have hblock : statementToBlock w cfg statement = none := by
      rw [hb]
      unfold block
      simp only [hin, hout, a1, Option.bind_some, he', Option.bind_none]
    unfold execute
    rw [hblock]

theorem clone_ok (cfg : Config) {inputs : List Str} {dIn : Dict} (h : GoodDict (cfg.orderIn inputs) dIn) :
    CloneOk cfg inputs (cloneName cfg dIn) := by
  have hmem : ∀ p, p ∈ dIn.map (·.1) ↔ p ∈ inputs := by
    intro p; rw [h.keys, (cfg.orderIn_perm inputs).mem_iff]; simp
  unfold CloneOk cloneName
  cases dIn with
  | nil =>
    have : inputs = [] := by
      rw [List.eq_nil_iff_forall_not_mem]; intro p hp; exact absurd ((hmem p).mpr hp) (by simp)
    simp [this]
  | cons pv d =>
    obtain ⟨p, v⟩ := pv
    have hp : p ∈ inputs := (hmem p).mp (by simp)
    have hne : inputs ≠ [] := List.ne_nil_of_mem hp
    dsimp only
    by_cases hs : cfg.skipClone = true
    · simp [hs]
    · have hor : ¬(cfg.skipClone = true ∨ inputs = []) := by simp [hs, hne]
      rw [if_neg hor]
      by_cases hpe : p = []
      · rw [if_pos hpe, ← hpe]; exact hp
      · rw [if_neg hpe, if_neg hs]; exact hp

theorem Setup.plain_clone {w : World κ γ V} {cfg : Config} {statement : Str} {outs inputs paths : List Str}
    {e : Expr κ γ} (h : Setup w statement outs e inputs paths) {c : Str} (hc : CloneOk cfg inputs c) : Plain c := by
  unfold CloneOk at hc
  split at hc
  · rw [hc]; intro x hx; cases hx
  · exact (h.named c (Or.inl hc)).1

/-- All rasters named in the expression can be read -/
def Readable (w : World κ γ V) (cfg : Config) (inputs : List Str) : Prop :=
  ∀ p ∈ inputs, ∃ a, w.fromGdal p cfg.partitionShape = some a

/-- The value of each string: the raster read -/
def Rasters (w : World κ γ V) (cfg : Config) (e : Expr κ γ) (raster : Str → V) : Prop :=
  ∀ s ∈ strings e, ∀ p, InputPath w s p → w.fromGdal p cfg.partitionShape = some (raster s)

theorem unpackTo_iff (w : World κ γ V) (n : Nat) (v : V) (vs : List V) :
    unpackTo w n v = some vs ↔ Values w n v vs := by
  unfold unpackTo Values
  by_cases hn : n = 1
  · simp [hn, eq_comm]
  · rw [if_neg hn]
    simp only [hn, false_and, ne_eq, not_false_eq_true, true_and, false_or]
    cases w.unpack v with
    | none => simp
    | some us =>
      simp only [Option.bind_some, Option.some.injEq]
      constructor
      · intro h
        split at h
        · rename_i hl
          have := Option.some.inj h
          rw [← this]; exact ⟨rfl, hl⟩
        · cases h
      · rintro ⟨rfl, hl⟩
        rw [if_pos hl]

theorem values_length {w : World κ γ V} {n : Nat} {v : V} {vs : List V} (h : Values w n v vs) : vs.length = n := by
  rcases h with ⟨rfl, rfl⟩ | ⟨_, _, h⟩
  · rfl
  · exact h

/-- After reading, the translated expression has the value of the expression -/
theorem after_reads {w : World κ γ V} {cfg : Config} {statement : Str} {outs inputs paths : List Str} {e : Expr κ γ}
    (h : Setup w statement outs e inputs paths) {dIn dOut : Dict} {targets : List Str}
    (hp : Parts w cfg statement e inputs paths dIn dOut targets) (hs : Supported e) {raster : Str → V}
    (hr : Rasters w cfg e raster) :
    ∃ e' env sources, eval w env e' = denote w raster e ∧ (∀ p, p ∈ sources ↔ p ∈ inputs) ∧
      execute w cfg statement = run w ([Stmt.assign targets e']
        ++ dOut.map (fun pv => Stmt.write pv.2 pv.1 (cloneName cfg dIn))) env sources [] := by
  have hmem : ∀ p, p ∈ dIn.map (·.1) ↔ p ∈ inputs := by
    intro p; rw [hp.goodIn.keys, (cfg.orderIn_perm inputs).mem_iff]; simp
  have hread : ∀ p ∈ inputs, ∃ s ∈ strings e, p = normalizeInput w s := by
    intro p hpi
    rw [h.inputs_eq] at hpi
    obtain ⟨s, hs1, hs2⟩ := List.mem_map.mp hpi
    exact ⟨s, hs1, hs2.symm⟩
  obtain ⟨e', he'⟩ := qualify_some dIn (normalizeInput w) e hs
  obtain ⟨env, sources, r1, r2, r3, r4⟩ := run_reads w cfg.partitionShape
    ([Stmt.assign targets e'] ++ dOut.map (fun pv => Stmt.write pv.2 pv.1 (cloneName cfg dIn))) []
    hp.goodIn.values (fun pv hpv => (h.named pv.1 (Or.inl ((hmem _).mp (List.mem_map.mpr ⟨pv, hpv, rfl⟩)))).1)
    (fun pv hpv => by
      obtain ⟨s, hs1, hs2⟩ := hread pv.1 ((hmem _).mp (List.mem_map.mpr ⟨pv, hpv, rfl⟩))
      exact ⟨raster s, hr s hs1 _ ((inputPath_iff w s _).mpr hs2)⟩) (fun _ => none) []
  have hdotfree : ∀ x : Str, isIdentifier x = true → '.' ∉ x := by
    intro x hx hm
    cases x with
    | nil => cases hm
    | cons c cs =>
      simp only [isIdentifier, Bool.and_eq_true, List.all_eq_true] at hx
      rcases List.mem_cons.mp hm with rfl | hm
      · exact absurd hx.1 (by decide)
      · exact absurd (hx.2 _ hm) (by decide)
  obtain ⟨e'', q1, q2⟩ := expr_correct w env dIn (normalizeInput w) raster e hs (by
    obtain ⟨lhs, a, r, b, -, -, -, -, -, -, hparse⟩ := h.isStatement
    have hpn := w.parse_names r e hparse
    refine ⟨?_, ?_, ?_, ?_⟩
    · intro x v hx
      by_cases hxm : x ∈ dIn.map (·.2)
      · obtain ⟨pv, hpv, rfl⟩ := List.mem_map.mp hxm
        obtain ⟨i, hi⟩ := hp.goodIn.named pv hpv
        rw [hi]; exact suffixed_numberSuffix _ _
      · rw [r3 x hxm] at hx; cases hx
    · intro s hs'
      have hni : normalizeInput w s ∈ inputs := by rw [h.inputs_eq]; exact List.mem_map.mpr ⟨s, hs', rfl⟩
      obtain ⟨v, hv⟩ := hp.goodIn.lookup (p := normalizeInput w s) (by rw [← hp.goodIn.keys]; exact (hmem _).mpr hni)
      have hvm := mem_of_lookup hv
      obtain ⟨i, hi⟩ := hp.goodIn.named _ hvm
      refine ⟨v, hv, ?_, ?_, ?_⟩
      · dsimp only at hi
        rw [hi]; exact hdotfree _ (suffixed_identifier (h.named _ (Or.inl hni)).2 i)
      · dsimp only at hi
        rw [hi]; exact suffixed_numberSuffix _ _
      · rw [r2 _ hvm]
        exact hr s hs' _ ((inputPath_iff w s _).mpr rfl)
    · intro x hx
      exact ⟨hpn x (by simp [hx]), h.noClash x hx⟩
    · intro x hx
      exact hpn x (by simp [hx]))
  rw [he'] at q1
  have : e' = e'' := Option.some.inj q1
  subst this
  refine ⟨e', env, sources, q2, ?_, ?_⟩
  · intro p; rw [r4, hmem]; simp
  · rw [hp.execute_ok e' he', r1]

theorem run_assign_ok (w : World κ γ V) {targets : List Str} {e : Expr κ γ} {rest : List (Stmt κ γ)}
    {env : Str → Option V} {sources : List Str} {log : List (Write V)} {v : V} {vs : List V} (h1 : eval w env e = some v)
    (h2 : unpackTo w targets.length v = some vs) :
    run w ([Stmt.assign targets e] ++ rest) env sources log = run w rest (assignAll env (targets.zip vs)) sources log := by
  rw [List.singleton_append]
  conv_lhs => unfold run
  rw [h1, Option.bind_some, h2]

theorem run_assign_fail (w : World κ γ V) {targets : List Str} {e : Expr κ γ} {rest : List (Stmt κ γ)}
    {env : Str → Option V} {sources : List Str} {log : List (Write V)}
    (h : (eval w env e).bind (fun v => unpackTo w targets.length v) = none) :
    run w ([Stmt.assign targets e] ++ rest) env sources log = (.failed, log) := by
  rw [List.singleton_append]
  conv_lhs => unfold run
  rw [h]

/-- Given the values of the outputs, they are written one by one, each of them once -/
theorem execute_writes {w : World κ γ V} {cfg : Config} {statement : Str} {outs inputs paths : List Str} {e : Expr κ γ}
    (h : Setup w statement outs e inputs paths) (hs : Supported e) {raster : Str → V} (hr : Rasters w cfg e raster)
    {v : V} {vs : List V} (hv : denote w raster e = some v) (hvs : Values w outs.length v vs) :
    ∃ o log c, execute w cfg statement = (o, log) ∧ CloneOk cfg inputs c ∧ (log.map (·.path)).Nodup ∧
      (∀ x ∈ log, x.path ∈ paths ∧ LastValue paths vs x.path x.value ∧ x.clone = c ∧
        w.toGdal x.value x.path c = true) ∧
      ((o = .done ∧ ∀ p ∈ paths, p ∈ log.map (·.path)) ∨
        (o = .failed ∧ ∃ p ∈ paths, ∃ a, LastValue paths vs p a ∧ w.toGdal a p c = false)) := by
  obtain ⟨dIn, dOut, targets, hp⟩ := h.parts cfg
  obtain ⟨e', env, sources, q1, q2, q3⟩ := after_reads h hp hs hr
  have hlen : paths.length = outs.length := h.pathsMeant.length_eq.symm
  have hvl := values_length hvs
  have hmem : ∀ p, p ∈ dOut.map (·.1) ↔ p ∈ paths := by
    intro p; rw [hp.goodOut.keys, (cfg.orderOut_perm paths).mem_iff]; simp
  have hnd : (dOut.map (·.1)).Nodup := by
    rw [hp.goodOut.keys, (cfg.orderOut_perm paths).nodup_iff]; exact List.nodup_dedup _
  have hc := clone_ok cfg hp.goodIn
  obtain ⟨o, done, rest, out, w1, w2, w3, w4, w5⟩ := run_writes (κ := κ) (γ := γ) w (fun p a => LastValue paths vs p a)
    (h.plain_clone hc)
    (env := assignAll env (targets.zip vs)) (sources := sources) (d := dOut)
    (fun pv hpv => by
      have hpp := (hmem pv.1).mp (List.mem_map.mpr ⟨pv, hpv, rfl⟩)
      exact ⟨(h.named _ (Or.inr hpp)).1, fun hm => h.disjoint _ ((q2 _).mp hm) hpp⟩)
    (fun pv hpv => by
      have hpp := (hmem pv.1).mp (List.mem_map.mpr ⟨pv, hpv, rfl⟩)
      obtain ⟨a, ha⟩ := lastValue_exists (vs := vs) (by rw [hvl, hlen]) hpp
      refine ⟨a, ?_, ha⟩
      obtain ⟨i, l1, l2, l3⟩ := ha
      refine assignAll_last (i := i) ?_ ?_
      · rw [List.getElem?_zip_eq_some]
        refine ⟨?_, l2⟩
        rw [hp.targets_get i _ l1]
        exact lookup_mem hnd hpv
      · intro j hj u hju
        rw [List.getElem?_zip_eq_some] at hju
        obtain ⟨hj1, hj2⟩ := hju
        have hjl : j < paths.length := by
          rw [← hp.targets_length]
          by_contra hcc
          rw [List.getElem?_eq_none (by omega)] at hj1; cases hj1
        have ht := hp.targets_get j paths[j] (List.getElem?_eq_getElem hjl)
        rw [hj1] at ht
        have hmm := mem_of_lookup ht.symm
        have hpq := hp.goodOut.inj hmm (show (pv.1, pv.2) ∈ dOut from hpv)
        exact l3 j hj (by rw [List.getElem?_eq_getElem hjl, hpq])) []
  rw [run_assign_ok w (by rw [q1]; exact hv) (by rw [hp.targets_length, hlen]; exact (unpackTo_iff w _ _ _).mpr hvs), w2]
    at q3
  have hsub : ∀ pv ∈ done ++ rest, pv.1 ∈ paths := by
    intro pv hpv; rw [← w1] at hpv; exact (hmem _).mp (List.mem_map.mpr ⟨pv, hpv, rfl⟩)
  refine ⟨o, out, cloneName cfg dIn, by simpa using q3, hc, ?_, ?_, ?_⟩
  · rw [w3]
    rw [w1, List.map_append] at hnd
    exact hnd.of_append_left
  · intro x hx
    obtain ⟨g1, g2, g3⟩ := w4 x hx
    refine ⟨?_, g1, g2, g3⟩
    have : x.path ∈ done.map (·.1) := by rw [← w3]; exact List.mem_map.mpr ⟨x, hx, rfl⟩
    obtain ⟨pv, hpv, hpe⟩ := List.mem_map.mp this
    rw [← hpe]; exact hsub pv (by simp [hpv])
  · rcases w5 with ⟨ho, hre⟩ | ⟨ho, pv, hpv, a, ha, hta⟩
    · left
      refine ⟨ho, fun p hpp => ?_⟩
      rw [w3]
      have := (hmem p).mpr hpp
      rw [w1, hre, List.append_nil] at this
      exact this
    · right
      exact ⟨ho, pv.1, hsub pv (by simp [hpv]), a, ha, hta⟩

/-- C54: if the rasters can be read, the expression can be evaluated, the number of values is the number of outputs, and
the outputs can be written, then each output is written once, and contains the (last) value assigned to it. This does
not depend on the order in which the names are visited, except for which input is used as clone. -/
theorem calculate_correct {w : World κ γ V} {cfg : Config} {statement : Str} {outs inputs paths : List Str}
    {e : Expr κ γ} (h : Setup w statement outs e inputs paths) (hs : Supported e) {raster : Str → V}
    (hr : Rasters w cfg e raster) {v : V} {vs : List V} (hv : denote w raster e = some v)
    (hvs : Values w outs.length v vs)
    (hw : ∀ p a c, LastValue paths vs p a → CloneOk cfg inputs c → w.toGdal a p c = true) :
    ∃ log c, execute w cfg statement = (.done, log) ∧ CloneOk cfg inputs c ∧ (log.map (·.path)).Nodup ∧
      (∀ p, p ∈ log.map (·.path) ↔ p ∈ paths) ∧
      ∀ x ∈ log, LastValue paths vs x.path x.value ∧ x.clone = c := by
  obtain ⟨o, log, c, h1, h2, h3, h4, h5⟩ := execute_writes h hs hr hv hvs
  rcases h5 with ⟨rfl, h5⟩ | ⟨rfl, p, hp, a, ha, hta⟩
  · refine ⟨log, c, h1, h2, h3, ?_, fun x hx => ⟨(h4 x hx).2.1, (h4 x hx).2.2.1⟩⟩
    intro p
    refine ⟨?_, h5 p⟩
    intro hp
    obtain ⟨x, hx, rfl⟩ := List.mem_map.mp hp
    exact (h4 x hx).1
  · rw [hw p a c ha h2] at hta; cases hta

/-- C54: otherwise the command fails. Nothing is written if some raster can't be read, or the expression can't be
evaluated, or the number of values is not the number of outputs. -/
theorem calculate_fails {w : World κ γ V} {cfg : Config} {statement : Str} {outs inputs paths : List Str}
    {e : Expr κ γ} (h : Setup w statement outs e inputs paths)
    (hbad : ¬(Supported e ∧ Readable w cfg inputs ∧
      ∀ raster, Rasters w cfg e raster → ∃ v vs, denote w raster e = some v ∧ Values w outs.length v vs)) :
    execute w cfg statement = (.failed, []) := by
  obtain ⟨dIn, dOut, targets, hp⟩ := h.parts cfg
  by_cases hs : Supported e
  · obtain ⟨e', he'⟩ := qualify_some dIn (normalizeInput w) e hs
    have hmem : ∀ p, p ∈ dIn.map (·.1) ↔ p ∈ inputs := by
      intro p; rw [hp.goodIn.keys, (cfg.orderIn_perm inputs).mem_iff]; simp
    by_cases hread : Readable w cfg inputs
    · have hlen : paths.length = outs.length := h.pathsMeant.length_eq.symm
      simp only [hs, hread, true_and, not_forall] at hbad
      obtain ⟨raster, hr, hno⟩ := hbad
      obtain ⟨e1, env, sources, q1, q2, q3⟩ := after_reads h hp hs hr
      rw [q3]
      apply run_assign_fail
      rw [q1]
      cases hv : denote w raster e with
      | none => rfl
      | some v =>
        rw [Option.bind_some, hp.targets_length, hlen]
        cases hu : unpackTo w outs.length v with
        | none => rfl
        | some vs => exact absurd ⟨v, vs, hv, (unpackTo_iff w _ _ _).mp hu⟩ hno
    · rw [hp.execute_ok e' he']
      apply run_reads_fail
      · intro pv hpv
        exact (h.named pv.1 (Or.inl ((hmem _).mp (List.mem_map.mpr ⟨pv, hpv, rfl⟩)))).1
      · unfold Readable at hread
        push Not at hread
        obtain ⟨p, hpi, hpn⟩ := hread
        obtain ⟨pv, hpv, rfl⟩ := List.mem_map.mp ((hmem p).mpr hpi)
        refine ⟨pv, hpv, ?_⟩
        cases hg : w.fromGdal pv.1 cfg.partitionShape with
        | none => rfl
        | some a => exact absurd hg (hpn a)
  · exact hp.execute_none (qualify_none _ _ e hs)

/-- C54: if some output can't be written, the command fails, and the outputs which have been written contain the value
assigned to them -/
theorem calculate_refused {w : World κ γ V} {cfg : Config} {statement : Str} {outs inputs paths : List Str}
    {e : Expr κ γ} (h : Setup w statement outs e inputs paths) (hs : Supported e) {raster : Str → V}
    (hr : Rasters w cfg e raster) {v : V} {vs : List V} (hv : denote w raster e = some v)
    (hvs : Values w outs.length v vs)
    (hw : ∃ p a, LastValue paths vs p a ∧ ∀ c, CloneOk cfg inputs c → w.toGdal a p c = false) :
    ∃ log, execute w cfg statement = (.failed, log) ∧ (log.map (·.path)).Nodup ∧
      ∀ x ∈ log, x.path ∈ paths ∧ LastValue paths vs x.path x.value := by
  obtain ⟨o, log, c, h1, h2, h3, h4, h5⟩ := execute_writes h hs hr hv hvs
  rcases h5 with ⟨rfl, h5⟩ | ⟨rfl, -⟩
  · exfalso
    obtain ⟨p, a, hpa, hta⟩ := hw
    have hpp : p ∈ paths := by
      obtain ⟨i, hi, -, -⟩ := hpa
      exact List.mem_of_getElem? hi
    obtain ⟨x, hx, rfl⟩ := List.mem_map.mp (h5 p hpp)
    obtain ⟨-, g1, -, g2⟩ := h4 x hx
    rw [lastValue_unique g1 hpa, hta c h2] at g2
    cases g2
  · exact ⟨log, h1, h3, fun x hx => ⟨(h4 x hx).1, (h4 x hx).2.1⟩⟩

end Lue.Calculate

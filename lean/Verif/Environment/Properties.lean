import Verif.Environment.Spec

/-
C61: references to environment variables are replaced by the values of these variables.
-/

namespace Lue.Environment

theorem takeWhile_name {name rest : Text} (h : '}' ∉ name) :
    (name ++ '}' :: rest).takeWhile (· ≠ '}') = name ∧
    (name ++ '}' :: rest).dropWhile (· ≠ '}') = '}' :: rest := by
  induction name with
  | nil => simp
  | cons c name ih =>
    simp only [List.mem_cons, not_or] at h
    have hc : decide (c ≠ '}') = true := by simpa using Ne.symm h.1
    obtain ⟨h1, h2⟩ := ih h.2
    simp only [List.cons_append, List.takeWhile_cons, List.dropWhile_cons, hc, if_true, h1, h2, and_self]

theorem matchAt_reference {name rest : Text} (h : name ≠ []) (hn : '}' ∉ name) :
    matchAt ('$' :: '{' :: (name ++ '}' :: rest)) = some (name, rest) := by
  obtain ⟨h1, h2⟩ := takeWhile_name (rest := rest) hn
  cases name with
  | nil => exact absurd rfl h
  | cons c name =>
    unfold matchAt
    simp only [h1, h2]

theorem matchAt_other {c : Char} {s : Text} (h : c ≠ '$') : matchAt (c :: s) = none := by
  unfold matchAt
  split
  · rename_i r heq
    simp only [List.cons.injEq] at heq
    exact absurd heq.1 h
  · rfl

/-- Characters other than `$` are skipped. -/
theorem search_append {p s : Text} (h : '$' ∉ p) :
    search (p ++ s) = (search s).map fun m => (p ++ m.1, m.2.1, m.2.2) := by
  induction p with
  | nil => cases h : search s <;> simp [h]
  | cons c p ih =>
    simp only [List.mem_cons, not_or] at h
    rw [List.cons_append, search, matchAt_other (Ne.symm h.1)]
    simp only [ih h.2, Option.map_map]
    rfl

theorem search_reference {name rest : Text} (h : name ≠ []) (hn : '}' ∉ name) :
    search ('$' :: '{' :: (name ++ '}' :: rest)) = some ([], name, rest) := by
  rw [search, matchAt_reference h hn]

/-- Characters which have been searched already stay what they are. -/
theorem loop_eq (env : Env) (s : Text) (idx : Nat) :
    loop env s idx = match search (s.drop idx) with
      | none => s
      | some (pre, name, rest) =>
        loop env (s.take idx ++ (pre ++ (value env name ++ rest))) (idx + (value env name).length) := by
  rw [loop]
  split <;> rename_i h <;> simp [h]

/-- From any position in front of which everything has been replaced. -/
theorem loop_pieces {env : Env} (he : env.Plain) (ps : List Piece) (hp : ∀ p ∈ ps, p.Plain) (d t : Text)
    (ht : '$' ∉ t) : loop env (d ++ (t ++ write ps)) d.length = d ++ (t ++ meaning env ps) := by
  induction ps generalizing t d with
  | nil =>
    rw [loop_eq]
    simp only [List.drop_left, write, List.append_nil, meaning]
    have : search t = none := by
      have := search_append (s := []) ht
      simpa [search] using this
    simp [this]
  | cons p ps ih =>
    have hps : ∀ q ∈ ps, q.Plain := fun q hq => hp q (by simp [hq])
    have hpp := hp p (by simp)
    cases p with
    | char c =>
      have hc : '$' ∉ t ++ [c] := by
        simp only [List.mem_append, List.mem_singleton, not_or]
        exact ⟨ht, fun e => hpp e.symm⟩
      have := ih hps d (t ++ [c]) hc
      simpa [write, meaning] using this
    | reference name =>
      obtain ⟨hn, hb⟩ := hpp
      have hv : '$' ∉ value env name := by
        unfold value
        cases hx : env name with
        | none => simp
        | some v => simpa using he _ _ hx
      rw [loop_eq]
      simp only [List.drop_left, write, meaning]
      rw [search_append ht, search_reference hn hb]
      simp only [Option.map_some, List.append_nil, List.take_left]
      -- The first part of what has been replaced is not searched again
      have hlen : (value env name).length ≤ (t ++ value env name).length := by simp
      have hd : d ++ (t ++ (value env name ++ write ps)) =
          (d ++ (t ++ value env name).take (value env name).length) ++
            ((t ++ value env name).drop (value env name).length ++ write ps) := by
        simp only [List.append_assoc]
        rw [← List.append_assoc (List.take _ _), List.take_append_drop]
        simp
      have hl : d.length + (value env name).length =
          (d ++ (t ++ value env name).take (value env name).length).length := by
        simp only [List.length_append, List.length_take]
        omega
      have hnd : '$' ∉ (t ++ value env name).drop (value env name).length := by
        intro h
        have := List.mem_of_mem_drop h
        simp only [List.mem_append] at this
        rcases this with h | h
        · exact ht h
        · exact hv h
      rw [hd, hl, ih hps _ _ hnd]
      simp only [List.append_assoc]
      rw [← List.append_assoc (List.take _ _), List.take_append_drop]
      simp [value]

/-- Each reference is replaced by the value of the variable, or by nothing if the variable is not set.
    Everything else stays what it is. -/
theorem expand_pieces {env : Env} (he : env.Plain) (ps : List Piece) (hp : ∀ p ∈ ps, p.Plain) :
    expand env (write ps) = meaning env ps :=
  loop_pieces he ps hp [] [] (by simp)

/-- A text without references stays what it is, whatever the environment. -/
theorem expand_plain (env : Env) (s : Text) (h : '$' ∉ s) : expand env s = s := by
  have : search s = none := by
    have := search_append (s := []) h
    simpa [search] using this
  rw [expand, loop_eq, List.drop_zero, this]

def exampleEnv (vars : List (String × String)) : Env := fun name =>
  (vars.find? fun v => v.1.toList == name).map fun v => v.2.toList

/-- The hypotheses are met: two references, one of them to a variable which is not set. -/
example : expand (exampleEnv [("HOME", "/home/me")]) "${HOME}/data/${NONE}x.lue".toList =
    "/home/me/data/x.lue".toList := by
  simp only [expand]
  have := expand_pieces (env := exampleEnv [("HOME", "/home/me")])
    (by
      intro name v h
      simp only [exampleEnv, Option.map_eq_some_iff] at h
      obtain ⟨⟨a, b⟩, hf, rfl⟩ := h
      have := List.mem_of_find?_eq_some hf
      simp only [List.mem_singleton, Prod.mk.injEq] at this
      obtain ⟨rfl, rfl⟩ := this
      decide)
    ([.reference "HOME".toList] ++ "/data/".toList.map .char ++ [.reference "NONE".toList] ++
      "x.lue".toList.map .char)
    (by decide +kernel)
  exact this

theorem loop_some {env : Env} {s pre name rest : Text} {idx : Nat}
    (h : search (s.drop idx) = some (pre, name, rest)) : loop env s idx =
      loop env (s.take idx ++ (pre ++ (value env name ++ rest))) (idx + (value env name).length) := by
  rw [loop_eq, h]

theorem loop_none {env : Env} {s : Text} {idx : Nat} (h : search (s.drop idx) = none) :
    loop env s idx = s := by
  rw [loop_eq, h]

/-- Finding: values are searched for references or not, depending on the position in the text (the index
    is advanced by the size of the value, and not to the end of it). -/
theorem value_searched :
    expand (exampleEnv [("A", "${B}"), ("B", "x")]) "${A}".toList = "${B}".toList ∧
    expand (exampleEnv [("A", "${B}"), ("B", "x")]) "12345${A}".toList = "12345x".toList := by
  constructor
  · rw [expand, loop_some (pre := []) (name := ['A']) (rest := []) (by decide +kernel), loop_none] <;>
      decide +kernel
  · rw [expand, loop_some (pre := ['1', '2', '3', '4', '5']) (name := ['A']) (rest := []) (by decide +kernel),
      loop_some (pre := ['5']) (name := ['B']) (rest := []) (by decide +kernel), loop_none] <;>
      decide +kernel

/-- Finding: removing a reference can join characters to a reference which wasn't there. -/
theorem joined_searched :
    expand (exampleEnv [("B", "x")]) "$${A}{B}".toList = "x".toList := by
  rw [expand, loop_some (pre := ['$']) (name := ['A']) (rest := ['{', 'B', '}']) (by decide +kernel),
    loop_some (pre := []) (name := ['B']) (rest := []) (by decide +kernel), loop_none] <;> decide +kernel

end Lue.Environment

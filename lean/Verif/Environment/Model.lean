/-
Expanding environment variables in the names of datasets in JSON descriptions.

source/data_model/utility/source/environment.cpp

Text is a list of characters, the environment a function. Matching the regular expression
`\$\{([^}]+)\}` is modelled by `search`: the first position at which `${`, one or more characters other
than `}`, and `}` are found.
-/

namespace Lue.Environment

abbrev Text := List Char

/-- The values of variables, if they are set. -/
abbrev Env := Text → Option Text

/-- Match of the regular expression (environment.cpp:9) at the start of a text: the name and what comes
    after the match. -/
def matchAt : Text → Option (Text × Text)
  | '$' :: '{' :: r =>
    match r.takeWhile (· ≠ '}'), r.dropWhile (· ≠ '}') with
    | c :: name, '}' :: rest => some (c :: name, rest)
    | _, _ => none
  | _ => none

/-- `std::regex_search` (environment.cpp:21): what comes before the first match, the name, and what
    comes after the match. -/
def search : Text → Option (Text × Text × Text)
  | [] => none
  | c :: s =>
    match matchAt (c :: s) with
    | some (name, rest) => some ([], name, rest)
    | none => (search s).map fun m => (c :: m.1, m.2.1, m.2.2)

/-- Value to insert, empty if the variable is not set: environment.cpp:29-31 -/
def value (env : Env) (name : Text) : Text := (env name).getD []

theorem matchAt_length {s name rest : Text} (h : matchAt s = some (name, rest)) :
    s.length = name.length + 3 + rest.length := by
  unfold matchAt at h
  split at h
  · rename_i r
    split at h
    · rename_i c n rs h1 h2
      have := List.takeWhile_append_dropWhile (p := fun x : Char => decide (x ≠ '}')) (l := r)
      simp only [h1, h2] at this
      simp only [Option.some.injEq, Prod.mk.injEq] at h
      obtain ⟨rfl, rfl⟩ := h
      rw [← this]
      simp
      omega
    · simp at h
  · simp at h

theorem search_length {s pre name rest : Text} (h : search s = some (pre, name, rest)) :
    s.length = pre.length + name.length + 3 + rest.length := by
  induction s generalizing pre with
  | nil => simp [search] at h
  | cons c s ih =>
    unfold search at h
    split at h
    · rename_i n r hm
      simp only [Option.some.injEq, Prod.mk.injEq] at h
      obtain ⟨rfl, rfl, rfl⟩ := h
      have := matchAt_length hm
      simp at this ⊢
      omega
    · simp only [Option.map_eq_some_iff] at h
      obtain ⟨⟨p, n, r⟩, hs, he⟩ := h
      simp only [Prod.mk.injEq] at he
      obtain ⟨rfl, rfl, rfl⟩ := he
      have := ih hs
      simp
      omega

/-- The loop, environment.cpp:21-38. `idx` is the index of the first character to search in. -/
def loop (env : Env) (s : Text) (idx : Nat) : Text :=
  match _h : search (s.drop idx) with
  | none => s
  | some (pre, name, rest) =>
    loop env (s.take idx ++ (pre ++ (value env name ++ rest))) (idx + (value env name).length)
termination_by s.length - idx
decreasing_by
  have := search_length _h
  simp only [List.length_drop] at this
  simp only [List.length_append, List.length_take]
  omega

/-- `expand_environment_variables`: environment.cpp:7-41 -/
def expand (env : Env) (s : Text) : Text := loop env s 0

end Lue.Environment

import Mathlib.Data.List.Nodup
import Mathlib.Data.List.Perm.Basic

/-!
Model of the `std::unordered_map` used by the operations: a collection of pairs with distinct keys.
-/
namespace Lue

/-- `std::unordered_map<K, V>`: pairs, in some order. -/
abbrev AMap (K V : Type) := List (K × V)

namespace AMap

variable {K V : Type} [DecidableEq K]

/-- `find` -/
def get (m : AMap K V) (k : K) : Option V := (m.find? fun e => e.1 = k).map Prod.snd

/-- `m[k] = v`: overwrite or insert. -/
def put : AMap K V → K → V → AMap K V
  | [], k, v => [(k, v)]
  | (k', v') :: m, k, v => if k' = k then (k, v) :: m else (k', v') :: put m k v

/-- The keys are distinct. -/
def Ok (m : AMap K V) : Prop := (m.map Prod.fst).Nodup

theorem ok_nil : Ok ([] : AMap K V) := List.nodup_nil

theorem get_nil (k : K) : get ([] : AMap K V) k = none := rfl

theorem get_cons (k' : K) (v' : V) (m : AMap K V) (k : K) :
    get ((k', v') :: m) k = if k' = k then some v' else get m k := by
  unfold get
  by_cases h : k' = k <;> simp [h]

theorem get_put (m : AMap K V) (k k' : K) (v : V) : get (put m k v) k' = if k = k' then some v else get m k' := by
  induction m with
  | nil => simp [put, get_cons, get_nil]
  | cons e m ih =>
    obtain ⟨a, b⟩ := e
    simp only [put]
    split
    · rename_i h
      subst h
      simp only [get_cons]
      split <;> rfl
    · rename_i h
      simp only [get_cons, ih]
      by_cases h1 : a = k' <;> by_cases h2 : k = k' <;> simp [h1, h2]
      subst h1; subst h2; exact absurd rfl h

theorem mem_keys_put (m : AMap K V) (k : K) (v : V) (a : K) :
    a ∈ (put m k v).map Prod.fst ↔ a = k ∨ a ∈ m.map Prod.fst := by
  induction m with
  | nil => simp [put]
  | cons e m ih =>
    obtain ⟨b, c⟩ := e
    simp only [put]
    split
    · rename_i h; subst h; simp
    · simp only [List.map_cons, List.mem_cons, ih]; tauto

theorem Ok.put {m : AMap K V} (h : Ok m) (k : K) (v : V) : Ok (put m k v) := by
  induction m with
  | nil => simp [AMap.put, Ok]
  | cons e m ih =>
    obtain ⟨a, b⟩ := e
    have h' := List.nodup_cons.mp h
    simp only [AMap.put]
    split
    · rename_i hk; subst hk; exact h
    · rename_i hk
      refine List.nodup_cons.mpr ⟨?_, ih h'.2⟩
      rw [mem_keys_put]
      rintro (h1 | h1)
      · exact hk h1
      · exact h'.1 h1

theorem mem_iff_get {m : AMap K V} (h : Ok m) (k : K) (v : V) : (k, v) ∈ m ↔ get m k = some v := by
  induction m with
  | nil => simp [get_nil]
  | cons e m ih =>
    obtain ⟨a, b⟩ := e
    have h' := List.nodup_cons.mp h
    simp only [List.mem_cons, Prod.mk.injEq, get_cons]
    by_cases hk : a = k
    · subst hk
      simp only [if_true, Option.some.injEq]
      constructor
      · rintro (⟨_, h1⟩ | h1)
        · exact h1.symm
        · exact absurd (List.mem_map_of_mem (f := Prod.fst) h1) h'.1
      · intro h1; exact .inl ⟨trivial, h1.symm⟩
    · simp only [hk, if_false, ← ih h'.2]
      constructor
      · rintro (⟨h1, _⟩ | h1)
        · exact absurd h1.symm hk
        · exact h1
      · exact .inr

theorem Ok.perm {m m' : AMap K V} (h : Ok m) (hp : m'.Perm m) : Ok m' := (hp.map _).nodup_iff.mpr h

theorem get_perm {m m' : AMap K V} (h : Ok m) (hp : m'.Perm m) (k : K) : get m' k = get m k := by
  apply Option.ext
  intro v
  rw [← mem_iff_get (h.perm hp), ← mem_iff_get h, hp.mem_iff]

theorem get_isSome {m : AMap K V} {k : K} : (∃ v, get m k = some v) ↔ k ∈ m.map Prod.fst := by
  induction m with
  | nil => simp [get_nil]
  | cons e m ih =>
    obtain ⟨a, b⟩ := e
    rw [get_cons]
    by_cases h : a = k
    · simp [h]
    · have h' : k ≠ a := fun h2 => h h2.symm
      simp only [h, if_false, ih, List.map_cons, List.mem_cons, h', false_or]

/-- `for ((k, s) : other) m[k] = f(m.find(k), s)`, in any order of iteration: at most one update per key. -/
theorem get_foldl_put {S : Type} (f : Option V → S → V) (l : AMap K S) (hl : Ok l) (m : AMap K V) (k : K) :
    get (l.foldl (fun m e => put m e.1 (f (get m e.1) e.2)) m) k =
      match get l k with
      | none => get m k
      | some s => some (f (get m k) s) := by
  induction l generalizing m with
  | nil => rfl
  | cons e l ih =>
    obtain ⟨a, b⟩ := e
    have hl' := List.nodup_cons.mp hl
    rw [List.foldl_cons, ih hl'.2, get_cons]
    by_cases h : a = k
    · subst h
      have hn : get l a = none := by
        cases hg : get l a with
        | none => rfl
        | some s => exact absurd (get_isSome.mp ⟨s, hg⟩) hl'.1
      simp [hn, get_put]
    · simp only [h, if_false, get_put]

theorem ok_foldl_put {S : Type} (f : Option V → S → V) (l : AMap K S) (m : AMap K V) (hm : Ok m) :
    Ok (l.foldl (fun m e => put m e.1 (f (get m e.1) e.2)) m) := by
  induction l generalizing m with
  | nil => exact hm
  | cons e l ih => rw [List.foldl_cons]; exact ih _ (hm.put _ _)

end AMap
end Lue

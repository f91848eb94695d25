import Verif.PyIO.Spec

/-!
# Pathnames of arrays
-/
namespace Lue.PyIO

open Lue.RasterView

theorem splitSlash_ne_nil (s : Name) : splitSlash s ≠ [] := by
  cases s with
  | nil => simp [splitSlash]
  | cons c cs =>
    unfold splitSlash
    split
    · simp
    · split <;> simp

theorem splitSlash_append (a b : Name) : splitSlash (a ++ '/' :: b) = splitSlash a ++ splitSlash b := by
  induction a with
  | nil => simp [splitSlash]
  | cons c a ih =>
    rw [List.cons_append, splitSlash, ih]
    conv_rhs => rw [splitSlash]
    split
    · simp
    · cases h : splitSlash a with
      | nil => exact absurd h (splitSlash_ne_nil a)
      | cons t ts => simp

theorem splitSlash_single {a : Name} (h : '/' ∉ a) : splitSlash a = [a] := by
  induction a with
  | nil => rfl
  | cons c a ih =>
    rw [List.mem_cons, not_or] at h
    rw [splitSlash, if_neg (fun e => h.1 e.symm), ih h.2]

/-- A string is made of its tokens. -/
def joinSlash : List Name → Name
  | [] => []
  | [t] => t
  | t :: t' :: ts => t ++ '/' :: joinSlash (t' :: ts)

theorem joinSlash_cons {t : Name} {ts : List Name} (h : ts ≠ []) : joinSlash (t :: ts) = t ++ '/' :: joinSlash ts := by
  cases ts with
  | nil => exact absurd rfl h
  | cons t' ts => rfl

theorem joinSlash_split (s : Name) : joinSlash (splitSlash s) = s := by
  induction s with
  | nil => rfl
  | cons c s ih =>
    rw [splitSlash]
    split
    · rename_i h
      rw [joinSlash_cons (splitSlash_ne_nil s), ih, h]; rfl
    · cases h : splitSlash s with
      | nil => exact absurd h (splitSlash_ne_nil s)
      | cons t ts =>
        rw [h] at ih
        cases ts with
        | nil => simp only [joinSlash] at ih ⊢; rw [ih]
        | cons t' ts => simp only [joinSlash, List.cons_append] at ih ⊢; rw [ih]

theorem split_noSlash (s : Name) : ∀ t ∈ splitSlash s, '/' ∉ t := by
  induction s with
  | nil => simp [splitSlash]
  | cons c s ih =>
    rw [splitSlash]
    split
    · intro t ht
      rcases List.mem_cons.mp ht with rfl | ht
      · simp
      · exact ih t ht
    · rename_i hc
      cases h : splitSlash s with
      | nil => exact absurd h (splitSlash_ne_nil s)
      | cons t ts =>
        rw [h] at ih
        intro t' ht'
        rcases List.mem_cons.mp ht' with rfl | ht'
        · rw [List.mem_cons, not_or]
          exact ⟨fun e => hc e.symm, ih t (by simp)⟩
        · exact ih t' (by simp [ht'])

/-- Empty tokens, except for the first one, are due to subsequent slashes or a slash at the end. -/
theorem tail_ne_nil {s : Name} (h1 : s.getLast? ≠ some '/') (h2 : ¬ (['/', '/'] : Name) <:+: s) :
    ∀ t ∈ (splitSlash s).tail, t ≠ [] := by
  induction s with
  | nil => simp [splitSlash]
  | cons c s ih =>
    have h2' : ¬ (['/', '/'] : Name) <:+: s := fun h => h2 (h.trans (List.suffix_cons c s).isInfix)
    by_cases hs : s = []
    · subst hs
      rw [splitSlash]
      have : c ≠ '/' := fun e => h1 (by rw [e]; rfl)
      simp [splitSlash, this]
    · have h1' : s.getLast? ≠ some '/' := by rwa [List.getLast?_cons_of_ne_nil hs] at h1
      have ih := ih h1' h2'
      rw [splitSlash]
      split
      · rename_i hc
        rw [List.tail_cons]
        cases s with
        | nil => exact absurd rfl hs
        | cons c' s =>
          have hc' : c' ≠ '/' := by
            intro e
            exact h2 ⟨[], s, by rw [hc, e]; rfl⟩
          rw [splitSlash, if_neg hc'] at ih ⊢
          cases h : splitSlash s with
          | nil => exact absurd h (splitSlash_ne_nil s)
          | cons t ts =>
            rw [h] at ih
            dsimp only at ih ⊢
            intro t' ht'
            rcases List.mem_cons.mp ht' with rfl | ht'
            · simp
            · exact ih t' ht'
      · cases h : splitSlash s with
        | nil => exact absurd h (splitSlash_ne_nil s)
        | cons t ts =>
          rw [h] at ih
          exact ih

theorem foldl_append_eq {p : Name} (hp : p ≠ []) (hl : p.getLast? ≠ some '/') (ts : List Name) (h : ∀ t ∈ ts, t ≠ [])
    (hs : ∀ t ∈ ts, '/' ∉ t) : ts.foldl appendPath p = joinSlash (p :: ts) := by
  induction ts generalizing p with
  | nil => rfl
  | cons t ts ih =>
    have ht := h t (by simp)
    have hst := hs t (by simp)
    rw [List.foldl_cons, appendPath, if_neg (by simp [hp, hl]), ih]
    · cases ts with
      | nil => simp [joinSlash]
      | cons t' ts => simp [joinSlash]
    · simp
    · rw [List.getLast?_append_of_ne_nil _ (by simp), List.getLast?_cons_of_ne_nil ht]
      intro e
      exact hst (List.mem_of_getLast? e)
    · exact fun t' ht' => h t' (by simp [ht'])
    · exact fun t' ht' => hs t' (by simp [ht'])

/-- The dataset pathname obtained from its tokens -/
theorem dataset_eq {p : Name} (h : FilePath p) :
    ∃ front others, splitSlash p = front :: others ∧
      (if isAbsolute p then '/' :: others.foldl appendPath front else others.foldl appendPath front) = p := by
  obtain ⟨h0, h1, h2⟩ := h
  have htail := tail_ne_nil h1 h2
  have hno := split_noSlash p
  have hjoin := joinSlash_split p
  cases hs : splitSlash p with
  | nil => exact absurd hs (splitSlash_ne_nil p)
  | cons front others =>
    refine ⟨front, others, rfl, ?_⟩
    rw [hs] at htail hno hjoin
    rw [List.tail_cons] at htail
    by_cases hf : front = []
    · subst hf
      cases others with
      | nil => rw [joinSlash] at hjoin; exact absurd hjoin.symm h0
      | cons t ts =>
        have habs : isAbsolute p = true := by rw [← hjoin]; rfl
        rw [habs, if_pos rfl, List.foldl_cons]
        have e : appendPath [] t = t := by simp [appendPath]
        rw [e, foldl_append_eq (htail t (by simp)) _ ts (fun t' h => htail t' (by simp [h]))
          (fun t' h => hno t' (by simp [h]))]
        · exact hjoin
        · intro e
          exact hno t (by simp) (List.mem_of_getLast? e)
    · have hfs := hno front (by simp)
      have habs : isAbsolute p = false := by
        rw [← hjoin]
        cases front with
        | nil => exact absurd rfl hf
        | cons c cs =>
          have hc : c ≠ '/' := fun e => hfs (by simp [e])
          cases others <;> simp [joinSlash, isAbsolute, hc]
      rw [habs, if_neg (by simp), foldl_append_eq hf _ others htail (fun t' h => hno t' (by simp [h]))]
      · exact hjoin
      · intro e
        exact hfs (List.mem_of_getLast? e)

theorem split_pathname {p : ArrayPath} (h : p.Ok) :
    splitSlash p.pathname = splitSlash p.dataset ++ [p.phenomenon, p.propertySet, p.layer] := by
  unfold ArrayPath.pathname
  rw [splitSlash_append, splitSlash_append, splitSlash_append, splitSlash_single h.phenomenon,
    splitSlash_single h.propertySet, splitSlash_single h.layer]
  rfl

/-- **C52**: the parts of the pathname of an array are found. -/
theorem parse_pathname {p : ArrayPath} (h : p.Ok) : parseArrayPathname p.pathname = .ok p := by
  obtain ⟨front, others, h1, h2⟩ := dataset_eq h.dataset
  have habs : isAbsolute p.pathname = isAbsolute p.dataset := by
    unfold ArrayPath.pathname isAbsolute
    cases hd : p.dataset with
    | nil => exact absurd hd h.dataset.1
    | cons c cs => rfl
  unfold parseArrayPathname
  rw [split_pathname h, habs, h1, List.reverse_append]
  have h3 : (front :: others).reverse.reverse = front :: others := List.reverse_reverse _
  cases h4 : (front :: others).reverse with
  | nil => simp at h4
  | cons last rest =>
    rw [h4] at h3
    simp only [List.reverse_cons, List.reverse_nil, List.nil_append, List.cons_append]
    rw [← List.reverse_cons, h3]
    dsimp only
    rw [h2]

theorem split_length (s : Name) : (splitSlash s).length = s.count '/' + 1 := by
  induction s with
  | nil => rfl
  | cons c s ih =>
    rw [splitSlash, List.count_cons]
    split
    · rename_i h
      simp [ih, h]
    · rename_i h
      cases hs : splitSlash s with
      | nil => exact absurd hs (splitSlash_ne_nil s)
      | cons t ts =>
        rw [hs] at ih
        simp at ih ⊢
        simp [ih, h]

/-- **C52**: pathnames with less than three slashes are refused, others are accepted. -/
theorem parse_iff (s : Name) : (∃ p, parseArrayPathname s = .ok p) ↔ 3 ≤ s.count '/' := by
  have h := split_length s
  unfold parseArrayPathname
  have hr : (splitSlash s).reverse.length = s.count '/' + 1 := by rw [List.length_reverse, h]
  match hs : (splitSlash s).reverse, hr with
  | [], hr => simp at hr
  | [a], hr => simp at hr ⊢; omega
  | [a, b], hr => simp at hr ⊢; omega
  | [a, b, c], hr => simp at hr ⊢; omega
  | a :: b :: c :: l :: r, hr =>
    simp only [List.length_cons] at hr
    constructor
    · intro _; omega
    · intro _
      cases hq : (l :: r).reverse with
      | nil => simp at hq
      | cons f o => dsimp only; rw [hq]; exact ⟨_, rfl⟩

/-- **C52**: parts of other pathnames never contain slashes, except for the pathname of the dataset. -/
theorem parse_names {s : Name} {p : ArrayPath} (h : parseArrayPathname s = .ok p) :
    '/' ∉ p.phenomenon ∧ '/' ∉ p.propertySet ∧ '/' ∉ p.layer := by
  have hno := split_noSlash s
  unfold parseArrayPathname at h
  split at h
  · rename_i a b c l r hs
    have hm : ∀ t ∈ a :: b :: c :: l :: r, '/' ∉ t := by
      intro t ht
      exact hno t (List.mem_reverse.mp (by rw [hs]; exact ht))
    split at h
    · simp only [Except.ok.injEq] at h
      rw [← h]
      exact ⟨hm c (by simp), hm b (by simp), hm a (by simp)⟩
    · cases h
  · cases h

example : parseArrayPathname "/data/elevation.lue/areas/constant/elevation".toList =
    .ok ⟨"/data/elevation.lue".toList, "areas".toList, "constant".toList, "elevation".toList⟩ := by decide

example : (⟨"/data/elevation.lue".toList, "areas".toList, "constant".toList, "elevation".toList⟩ : ArrayPath).Ok :=
  ⟨⟨by decide, by decide, by decide⟩, by decide, by decide, by decide⟩

example : parseArrayPathname "elevation.lue/elevation".toList = .error .thrown := by decide

end Lue.PyIO

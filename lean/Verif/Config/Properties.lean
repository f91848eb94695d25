import Verif.Config.Spec
import Verif.DataModel.Proofs
import Verif.Calculate.Paths

/-!
# C57: configuration entries are read as they are written
-/
namespace Lue.Config

open Calculate (Str)

/-! ### Matching -/

/-- If the rest of the expression does not match at a character which can be matched by `p`, there is nothing to try after
matching as many characters as possible -/
theorem many_det {α : Type} (p : Char → Bool) (k : Str → Str → Option α) (hk : ∀ acc c b, p c = true → k acc (c :: b) = none)
    (acc s : Str) : many p k acc s = k (acc ++ s.takeWhile p) (s.dropWhile p) := by
  induction s generalizing acc with
  | nil => simp [many]
  | cons c cs ih =>
    unfold many
    by_cases hc : p c = true
    · rw [if_pos hc, ih, hk acc c cs hc, List.takeWhile_cons, if_pos hc, List.dropWhile_cons, if_pos hc]
      rw [List.append_assoc, List.singleton_append]
      cases k (acc ++ c :: cs.takeWhile p) (cs.dropWhile p) <;> rfl
    · rw [if_neg hc, List.takeWhile_cons, if_neg hc, List.dropWhile_cons, if_neg hc, List.append_nil]

theorem space_not_digit {c : Char} (h : isSpace c = true) : c.isDigit = false := by
  by_contra hc
  simp only [Bool.not_eq_false, Char.isDigit, Bool.and_eq_true, decide_eq_true_eq] at hc
  simp only [isSpace, Bool.or_eq_true, beq_iff_eq] at h
  have h1 : 48 ≤ c.toNat := hc.1
  rcases h with ((((h | h) | h) | h) | h) | h
  · subst h; exact absurd h1 (by decide)
  · subst h; exact absurd h1 (by decide)
  · subst h; exact absurd h1 (by decide)
  · subst h; exact absurd h1 (by decide)
  · omega
  · omega

theorem digit_not_space {c : Char} (h : c.isDigit = true) : isSpace c = false := by
  by_contra hc
  rw [space_not_digit (by simpa using hc)] at h; cases h

theorem digit_ne_comma {c : Char} (h : c.isDigit = true) : c ≠ ',' := by
  rintro rfl; exact absurd h (by decide)

theorem space_ne_comma {c : Char} (h : isSpace c = true) : c ≠ ',' := by
  rintro rfl; exact absurd h (by decide)

theorem spaces_end (ds s : Str) :
    many isSpace (fun _ s => endOrComma ds s) [] s = endOrComma ds (s.dropWhile isSpace) := by
  rw [many_det]
  intro acc c b hc
  simp [endOrComma, space_ne_comma hc]

theorem digitsAt_cons {c : Char} (cs : Str) (hc : c.isDigit = true) :
    digitsAt (c :: cs) = endOrComma (c :: cs.takeWhile Char.isDigit) ((cs.dropWhile Char.isDigit).dropWhile isSpace) := by
  unfold digitsAt
  dsimp only
  rw [if_pos hc, many_det, spaces_end]
  · rfl
  · intro acc c b hc
    rw [spaces_end, List.dropWhile_cons, if_neg (by rw [digit_not_space hc]; simp)]
    simp [endOrComma, digit_ne_comma hc]

theorem matchAt_eq (s : Str) : matchAt s = digitsAt (s.dropWhile isSpace) := by
  unfold matchAt
  rw [many_det]
  intro acc c b hc
  simp [digitsAt, space_not_digit hc]

theorem dropWhile_append_of_all {p : Char → Bool} {a b : Str} (ha : ∀ c ∈ a, p c = true) :
    (a ++ b).dropWhile p = b.dropWhile p ∧ (a ++ b).takeWhile p = a ++ b.takeWhile p := by
  induction a with
  | nil => exact ⟨rfl, rfl⟩
  | cons x xs ih =>
    obtain ⟨h1, h2⟩ := ih (fun c hc => ha c (by simp [hc]))
    have hx := ha x (by simp)
    constructor
    · rw [List.cons_append, List.dropWhile_cons, if_pos hx, h1]
    · rw [List.cons_append, List.takeWhile_cons, if_pos hx, h2, List.cons_append]

theorem dropWhile_not {p : Char → Bool} {b : Str} (hb : ∀ c, b.head? = some c → p c = false) :
    b.dropWhile p = b ∧ b.takeWhile p = [] := by
  cases b with
  | nil => exact ⟨rfl, rfl⟩
  | cons x xs =>
    have := hb x rfl
    simp [this]

/-- Text which is matched: digits, with spaces around it -/
def Full (p ds : Str) : Prop := ∃ a b, p = a ++ ds ++ b ∧ Spaces a ∧ Digits ds ∧ Spaces b

/-- What comes after the match -/
def After (tail t : Str) : Prop := (tail = [] ∧ t = []) ∨ tail = ',' :: t

theorem after_head {tail t : Str} (h : After tail t) {p : Char → Bool} (hp : p ',' = false) :
    ∀ c, tail.head? = some c → p c = false := by
  rcases h with ⟨rfl, -⟩ | rfl
  · intro c hc; cases hc
  · intro c hc
    have : ',' = c := Option.some.inj hc
    rw [← this]; exact hp

theorem matchAt_full {p ds tail t : Str} (h : Full p ds) (ht : After tail t) : matchAt (p ++ tail) = some (ds, t) := by
  obtain ⟨a, b, rfl, ha, hd, hb⟩ := h
  obtain ⟨hne, hd⟩ := hd
  cases ds with
  | nil => exact absurd rfl hne
  | cons d ds =>
    have hdd := hd d (by simp)
    rw [matchAt_eq, List.append_assoc, List.append_assoc, (dropWhile_append_of_all ha).1, List.cons_append,
      List.dropWhile_cons, if_neg (by rw [digit_not_space hdd]; simp), digitsAt_cons _ hdd]
    have hbt : ∀ c, (b ++ tail).head? = some c → c.isDigit = false := by
      intro c hc
      cases b with
      | nil => exact after_head ht (by decide) c hc
      | cons x xs =>
        have : x = c := Option.some.inj hc
        rw [← this]; exact space_not_digit (hb x (by simp))
    obtain ⟨e1, e2⟩ := dropWhile_append_of_all (p := Char.isDigit) (a := ds) (b := b ++ tail)
      (fun c hc => hd c (by simp [hc]))
    obtain ⟨e3, e4⟩ := dropWhile_not hbt
    rw [e1, e2, e3, e4, List.append_nil, (dropWhile_append_of_all hb).1, (dropWhile_not (after_head ht (by decide))).1]
    rcases ht with ⟨rfl, rfl⟩ | rfl
    · rfl
    · simp [endOrComma]

theorem takeWhile_all (p : Char → Bool) (s : Str) : ∀ c ∈ s.takeWhile p, p c = true := by
  induction s with
  | nil => intro c hc; cases hc
  | cons x xs ih =>
    intro c hc
    rw [List.takeWhile_cons] at hc
    split at hc
    · rcases List.mem_cons.mp hc with rfl | hc
      · assumption
      · exact ih c hc
    · cases hc

theorem full_of_matchAt {s ds t : Str} (h : matchAt s = some (ds, t)) :
    ∃ p tail, s = p ++ tail ∧ Full p ds ∧ After tail t := by
  rw [matchAt_eq] at h
  have hs := (List.takeWhile_append_dropWhile (p := isSpace) (l := s)).symm
  cases hd : s.dropWhile isSpace with
  | nil => rw [hd] at h; cases h
  | cons c cs =>
    rw [hd] at h
    by_cases hc : c.isDigit = true
    · rw [digitsAt_cons cs hc] at h
      have hcs := (List.takeWhile_append_dropWhile (p := Char.isDigit) (l := cs)).symm
      have hcs2 := (List.takeWhile_append_dropWhile (p := isSpace) (l := cs.dropWhile Char.isDigit)).symm
      generalize htl : (cs.dropWhile Char.isDigit).dropWhile isSpace = tail at h hcs2
      have key : ds = c :: cs.takeWhile Char.isDigit ∧ After tail t := by
        cases tail with
        | nil =>
          have := Option.some.inj h
          exact ⟨(congrArg Prod.fst this).symm, .inl ⟨rfl, (congrArg Prod.snd this).symm⟩⟩
        | cons x xs =>
          have h' : (if x = ',' then some (c :: cs.takeWhile Char.isDigit, xs) else none) = some (ds, t) := h
          by_cases hx : x = ','
          · rw [if_pos hx] at h'
            have := Option.some.inj h'
            refine ⟨(congrArg Prod.fst this).symm, .inr ?_⟩
            rw [hx]; exact congrArg (',' :: ·) (congrArg Prod.snd this)
          · rw [if_neg hx] at h'; cases h'
      obtain ⟨k1, k2⟩ := key
      refine ⟨s.takeWhile isSpace ++ ds ++ (cs.dropWhile Char.isDigit).takeWhile isSpace, tail, ?_,
        ⟨_, _, rfl, takeWhile_all _ _, ⟨by rw [k1]; simp, ?_⟩, takeWhile_all _ _⟩, k2⟩
      · conv_lhs => rw [hs, hd, hcs, hcs2]
        rw [k1]; simp
      · rw [k1]; intro x hx
        rcases List.mem_cons.mp hx with rfl | hx
        · exact hc
        · exact takeWhile_all _ _ x hx
    · simp [digitsAt, hc] at h

theorem full_no_comma {p ds : Str} (h : Full p ds) : ',' ∉ p := by
  obtain ⟨a, b, rfl, ha, hd, hb⟩ := h
  intro hc
  simp only [List.mem_append] at hc
  rcases hc with (hc | hc) | hc
  · exact space_ne_comma (ha _ hc) rfl
  · exact digit_ne_comma (hd.2 _ hc) rfl
  · exact space_ne_comma (hb _ hc) rfl

theorem Full.ends {p ds : Str} (h : Full p ds) : Ends p ds := by
  obtain ⟨a, b, rfl, ha, hd, hb⟩ := h
  refine ⟨a, b, rfl, hd, hb, ?_⟩
  intro c hc
  exact space_not_digit (ha c (List.mem_of_getLast? hc))

/-- The digits at the end of some text are unique -/
theorem ends_unique {p ds ds' : Str} (h : Ends p ds) (h' : Ends p ds') : ds = ds' := by
  have key : ∀ {ds : Str}, Ends p ds →
      (p.reverse.dropWhile isSpace).takeWhile Char.isDigit = ds.reverse := by
    rintro ds ⟨j, b, rfl, ⟨hne, hd⟩, hb, hj⟩
    rw [List.reverse_append, List.reverse_append,
      (dropWhile_append_of_all (a := b.reverse) (fun c hc => hb c (by simpa using hc))).1]
    have hh : ∀ c, (ds.reverse ++ j.reverse).head? = some c → isSpace c = false := by
      intro c hc
      cases hr : ds.reverse with
      | nil => exact absurd (by simpa using hr) hne
      | cons x xs =>
        rw [hr] at hc
        have : x = c := Option.some.inj hc
        subst this
        exact digit_not_space (hd x (by rw [← List.mem_reverse, hr]; simp))
    rw [(dropWhile_not hh).1,
      (dropWhile_append_of_all (p := Char.isDigit) (a := ds.reverse) (fun c hc => hd c (by simpa using hc))).2,
      (dropWhile_not (p := Char.isDigit) (b := j.reverse) (fun c hc => hj c (by simpa using hc))).2, List.append_nil]
  have h1 := key h
  rw [key h'] at h1
  have := congrArg List.reverse h1
  simpa using this.symm

theorem split_first {p p' t t' : Str} (hp : ',' ∉ p) (hp' : ',' ∉ p') (h : p ++ ',' :: t = p' ++ ',' :: t') :
    p = p' ∧ t = t' := by
  induction p generalizing p' with
  | nil =>
    cases p' with
    | nil => exact ⟨rfl, by simpa using h⟩
    | cons x xs =>
      simp only [List.nil_append, List.cons_append, List.cons.injEq] at h
      exact absurd (by rw [h.1]; simp) hp'
  | cons y ys ih =>
    cases p' with
    | nil =>
      simp only [List.nil_append, List.cons_append, List.cons.injEq] at h
      exact absurd (by rw [← h.1]; simp) hp
    | cons x xs =>
      simp only [List.cons_append, List.cons.injEq] at h
      obtain ⟨e1, e2⟩ := ih (p' := xs) (fun hc => hp (by simp [hc])) (fun hc => hp' (by simp [hc])) h.2
      exact ⟨by rw [h.1, e1], e2⟩

/-- There is only a match at the start if the whole part is matched -/
theorem matchAt_none {p tail t : Str} (hp : ',' ∉ p) (ht : After tail t) (h : ∀ ds, ¬Full p ds) :
    matchAt (p ++ tail) = none := by
  cases hm : matchAt (p ++ tail) with
  | none => rfl
  | some r =>
    obtain ⟨ds, t'⟩ := r
    obtain ⟨p', tail', e1, e2, e3⟩ := full_of_matchAt hm
    have hp' := full_no_comma e2
    exfalso
    have : p = p' := by
      rcases ht with ⟨rfl, rfl⟩ | rfl <;> rcases e3 with ⟨rfl, rfl⟩ | rfl
      · simpa using e1
      · rw [List.append_nil] at e1
        exact absurd (by rw [e1]; simp) hp
      · rw [List.append_nil] at e1
        exact absurd (by rw [← e1]; simp) hp'
      · exact (split_first hp hp' e1).1
    rw [← this] at e2
    exact h ds e2

theorem search_step {c : Char} {cs : Str} (h : matchAt (c :: cs) = none) : search (c :: cs) = search cs := by
  conv_lhs => unfold search
  rw [h]

theorem search_hit {s : Str} {r : Str × Str} (h : matchAt s = some r) : search s = some r := by
  cases s with
  | nil => exact h
  | cons c cs => unfold search; rw [h]

/-- The digits at the end of the first part are found -/
theorem search_ends {p ds tail t : Str} (hp : ',' ∉ p) (he : Ends p ds) (ht : After tail t) :
    search (p ++ tail) = some (ds, t) := by
  induction p with
  | nil =>
    obtain ⟨j, b, h1, h2, -⟩ := he
    have : ds = [] := by
      have := congrArg List.length h1
      simp only [List.length_nil, List.length_append] at this
      exact List.eq_nil_of_length_eq_zero (by omega)
    exact absurd this h2.1
  | cons x xs ih =>
    by_cases hf : ∃ ds', Full (x :: xs) ds'
    · obtain ⟨ds', hf⟩ := hf
      rw [ends_unique he hf.ends]
      exact search_hit (matchAt_full hf ht)
    · rw [not_exists] at hf
      have hm := matchAt_none hp ht hf
      rw [List.cons_append] at hm ⊢
      rw [search_step hm]
      refine ih (fun hc => hp (by simp [hc])) ?_
      obtain ⟨j, b, h1, h2, h3, h4⟩ := he
      cases j with
      | nil => exact absurd (show Full (x :: xs) ds from ⟨[], b, h1, (fun c hc => absurd hc (by simp)), h2, h3⟩) (hf ds)
      | cons y ys =>
        simp only [List.cons_append, List.cons.injEq] at h1
        refine ⟨ys, b, h1.2, h2, h3, ?_⟩
        intro c hc
        apply h4
        cases ys with
        | nil => cases hc
        | cons z zs => simpa using hc

/-- A part without digits at its end is skipped -/
theorem search_no_ends {p tail t : Str} (hp : ',' ∉ p) (he : ∀ ds, ¬Ends p ds) (ht : After tail t) :
    search (p ++ tail) = search tail := by
  induction p with
  | nil => rfl
  | cons x xs ih =>
    have hm := matchAt_none hp ht (fun ds hf => he ds hf.ends)
    rw [List.cons_append] at hm ⊢
    rw [search_step hm]
    refine ih (fun hc => hp (by simp [hc])) ?_
    rintro ds ⟨j, b, h1, h2, h3, h4⟩
    by_cases hx : x.isDigit = true ∧ j = []
    · refine he (x :: ds) ⟨[], b, by rw [h1, hx.2]; rfl, ⟨by simp, ?_⟩, h3, by intro c hc; cases hc⟩
      intro c hc
      rcases List.mem_cons.mp hc with rfl | hc
      · exact hx.1
      · exact h2.2 c hc
    · refine he ds ⟨x :: j, b, by rw [h1]; rfl, h2, h3, ?_⟩
      intro c hc
      cases j with
      | nil =>
        have : x = c := Option.some.inj hc
        subst this
        by_contra hxx
        exact hx ⟨by simpa using hxx, rfl⟩
      | cons y ys => exact h4 c (by simpa using hc)

theorem search_comma (t : Str) : search (',' :: t) = search t := by
  apply search_step
  have := matchAt_none (p := []) (tail := ',' :: t) (t := t) (by simp) (.inr rfl) (by
    rintro ds ⟨a, b, h1, -, h2, -⟩
    have := congrArg List.length h1
    simp only [List.length_nil, List.length_append] at this
    exact h2.1 (List.eq_nil_of_length_eq_zero (by omega)))
  simpa using this

/-- Each text consists of a part, and maybe a comma with more text -/
theorem parts_of (s : Str) : (',' ∉ s) ∨ ∃ p t, s = p ++ ',' :: t ∧ ',' ∉ p := by
  induction s with
  | nil => left; simp
  | cons x xs ih =>
    by_cases hx : x = ','
    · right; exact ⟨[], xs, by rw [hx]; rfl, by simp⟩
    · rcases ih with h | ⟨p, t, h1, h2⟩
      · left; intro hc; rcases List.mem_cons.mp hc with h' | h'
        · exact hx h'.symm
        · exact h h'
      · right
        refine ⟨x :: p, t, by rw [h1]; rfl, ?_⟩
        intro hc; rcases List.mem_cons.mp hc with h' | h'
        · exact hx h'.symm
        · exact h2 h'

/-! ### Lists -/

theorem search_nil : search [] = none := rfl

/-- What is read is unique -/
theorem reads_unique {s : Str} {r r' : List Str} (h : Reads s r) (h' : Reads s r') : r = r' := by
  induction h generalizing r' with
  | nil =>
    generalize hs : ([] : Str) = s at h'
    cases h' with
    | nil => rfl
    | last hp he =>
      subst hs
      obtain ⟨j, b, h1, h2, -⟩ := he
      have := congrArg List.length h1
      simp only [List.length_nil, List.length_append] at this
      exact absurd (List.eq_nil_of_length_eq_zero (by omega)) h2.1
    | more => have := congrArg List.length hs; simp at this
    | skip => have := congrArg List.length hs; simp at this
  | last hp he =>
    rename_i p ds
    generalize hs : p = s at h'
    cases h' with
    | nil =>
      subst hs
      obtain ⟨j, b, h1, h2, -⟩ := he
      have := congrArg List.length h1
      simp only [List.length_nil, List.length_append] at this
      exact absurd (List.eq_nil_of_length_eq_zero (by omega)) h2.1
    | last _ he' => subst hs; rw [ends_unique he he']
    | more => subst hs; simp at hp
    | skip => subst hs; simp at hp
  | more hp he _ ih =>
    rename_i p ds t r _
    generalize hs : p ++ ',' :: t = s at h'
    cases h' with
    | nil => have := congrArg List.length hs; simp at this
    | last hp' _ => rw [← hs] at hp'; simp at hp'
    | more hp' he' ht' =>
      obtain ⟨rfl, rfl⟩ := split_first hp hp' hs
      rw [ends_unique he he', ih ht']
    | skip hp' he' hne ht' =>
      obtain ⟨rfl, rfl⟩ := split_first hp hp' hs
      exact absurd he (he' _)
  | skip hp he hne _ ih =>
    rename_i p t r _
    generalize hs : p ++ ',' :: t = s at h'
    cases h' with
    | nil => have := congrArg List.length hs; simp at this
    | last hp' _ => rw [← hs] at hp'; simp at hp'
    | more hp' he' ht' =>
      obtain ⟨rfl, rfl⟩ := split_first hp hp' hs
      exact absurd he' (he _)
    | skip hp' he' hne' ht' =>
      obtain ⟨rfl, rfl⟩ := split_first hp hp' hs
      exact ih ht'

/-- If something is read, something is found -/
theorem reads_search {s : Str} {r : List Str} (h : Reads s r) (hne : r ≠ []) : search s ≠ none := by
  induction h with
  | nil => exact absurd rfl hne
  | last hp he =>
    have := search_ends hp he (tail := []) (t := []) (.inl ⟨rfl, rfl⟩)
    rw [List.append_nil] at this
    rw [this]; simp
  | more hp he _ _ => rw [search_ends hp he (.inr rfl)]; simp
  | skip hp he hne' _ ih => rw [search_no_ends hp he (.inr rfl), search_comma]; exact ih hne'

/-- What the loop does, given what is read -/
theorem castLoop_reads (cast : Str → M Int) {s : Str} {r : List Str} (h : Reads s r) :
    ∀ (n : Nat) (acc : List Int), s.length < n →
      castLoop cast n s acc = r.mapM cast >>= (fun vs => .ok (acc ++ vs)) := by
  have step : ∀ {s ds t : Str} (n : Nat) (acc : List Int), search s = some (ds, t) →
      castLoop cast (n + 1) s acc = cast ds >>= (fun v => castLoop cast n t (acc ++ [v])) := by
    intro s ds t n acc hs
    conv_lhs => unfold castLoop
    rw [hs]
  have comb : ∀ (ds : Str) (r : List Str) (acc : List Int),
      (cast ds >>= fun v => r.mapM cast >>= fun vs => (.ok (acc ++ [v] ++ vs) : M (List Int))) =
        (ds :: r).mapM cast >>= fun vs => .ok (acc ++ vs) := by
    intro ds r acc
    rw [List.mapM_cons]
    cases cast ds with
    | error e => rfl
    | ok v =>
      simp only [M.bind_ok]
      cases r.mapM cast with
      | error e => rfl
      | ok vs => simp [M.bind_ok, pure, Except.pure]
  induction h with
  | nil =>
    intro n acc hn
    obtain ⟨n, rfl⟩ : ∃ m, n = m + 1 := ⟨n - 1, by omega⟩
    simp [castLoop, search_nil, M.bind_ok, pure, Except.pure]
  | last hp he =>
    rename_i p ds
    intro n acc hn
    have hne : p ≠ [] := by
      rintro rfl
      obtain ⟨j, b, h1, h2, -⟩ := he
      have := congrArg List.length h1
      simp only [List.length_nil, List.length_append] at this
      exact h2.1 (List.eq_nil_of_length_eq_zero (by omega))
    have hl : 0 < p.length := List.length_pos_iff.mpr hne
    obtain ⟨n, rfl⟩ : ∃ m, n = m + 2 := ⟨n - 2, by omega⟩
    have hs := search_ends hp he (tail := []) (t := []) (.inl ⟨rfl, rfl⟩)
    rw [List.append_nil] at hs
    rw [step (n + 1) acc hs, ← comb ds [] acc]
    congr 1
    funext v
    simp [castLoop, search_nil, M.bind_ok, pure, Except.pure]
  | more hp he _ ih =>
    rename_i p ds t r _
    intro n acc hn
    simp only [List.length_append, List.length_cons] at hn
    obtain ⟨n, rfl⟩ : ∃ m, n = m + 1 := ⟨n - 1, by omega⟩
    rw [step n acc (search_ends hp he (.inr rfl)), ← comb ds r acc]
    congr 1
    funext v
    exact ih n _ (by omega)
  | skip hp he hne ht ih =>
    rename_i p t r
    intro n acc hn
    simp only [List.length_append, List.length_cons] at hn
    obtain ⟨n, rfl⟩ : ∃ m, n = m + 1 := ⟨n - 1, by omega⟩
    have hs : search (p ++ ',' :: t) = search t := by
      rw [search_no_ends hp he (.inr rfl), search_comma]
    rw [← ih (n + 1) acc (by omega)]
    unfold castLoop
    rw [hs]
    cases hst : search t with
    | some r => rfl
    | none => exact absurd hst (reads_search ht hne)

/-- If nothing can be read, the value is refused -/
theorem castLoop_refuses (cast : Str → M Int) (hcast : ∀ ds e, cast ds = .error e → e = .thrown) :
    ∀ (n : Nat) (s : Str) (acc : List Int), s.length < n → (∀ r, ¬Reads s r) → castLoop cast n s acc = .error .thrown := by
  intro n
  induction n with
  | zero => intro s acc h; omega
  | succ n ih =>
    intro s
    induction hl : s.length using Nat.strong_induction_on generalizing s with
    | _ l ihl =>
    subst hl
    intro acc hn hr
    rcases parts_of s with hs | ⟨p, t, rfl, hp⟩
    · have he : ∀ ds, ¬Ends s ds := fun ds he => hr _ (.last hs he)
      have h := search_no_ends hs he (tail := []) (t := []) (.inl ⟨rfl, rfl⟩)
      rw [List.append_nil, search_nil] at h
      unfold castLoop
      rw [h]
      dsimp only
      rw [if_neg]
      rintro rfl
      exact hr _ .nil
    · simp only [List.length_append, List.length_cons] at hn
      by_cases he : ∃ ds, Ends p ds
      · obtain ⟨ds, he⟩ := he
        unfold castLoop
        rw [search_ends hp he (.inr rfl)]
        dsimp only
        cases hc : cast ds with
        | error e => rw [hcast ds e hc]; rfl
        | ok v =>
          rw [M.bind_ok]
          exact ih t _ (by omega) (fun r h => hr _ (.more hp he h))
      · rw [not_exists] at he
        have hs : search (p ++ ',' :: t) = search t := by rw [search_no_ends hp he (.inr rfl), search_comma]
        cases hst : search t with
        | none =>
          unfold castLoop
          rw [hs, hst]
          dsimp only
          rw [if_neg (by simp)]
        | some x =>
          have : castLoop cast (n + 1) (p ++ ',' :: t) acc = castLoop cast (n + 1) t acc := by
            unfold castLoop
            rw [hs, hst]
          rw [this]
          refine ihl t.length (by simp only [List.length_append, List.length_cons]; omega) t rfl acc (by omega) ?_
          intro r h
          refine hr r (.skip hp he ?_ h)
          rintro rfl
          generalize hrr : ([] : List Str) = rr at h
          cases h with
          | nil => cases hst
          | last => cases hrr
          | more => cases hrr
          | skip _ _ hne _ => exact hne hrr.symm

/-! ### Numbers -/

theorem decimal_append (a b : Str) : decimal (a ++ b) = b.foldl (fun n c => n * 10 + (c.toNat - 48)) (decimal a) := by
  unfold decimal; rw [List.foldl_append]

/-- The digits of a number, and the number with those digits -/
theorem decimal_name (n : Nat) : decimal (DataModel.name n) = n := by
  have key : ∀ l : List Nat, (∀ d ∈ l, d < 10) → decimal (l.map Nat.digitChar).reverse = Nat.ofDigits 10 l := by
    intro l hl
    induction l with
    | nil => rfl
    | cons d l ih =>
      rw [List.map_cons, List.reverse_cons, decimal_append, ih (fun x hx => hl x (by simp [hx])), Nat.ofDigits_cons]
      have hd : (Nat.digitChar d).toNat - 48 = d := by
        have := hl d (by simp)
        rcases (by omega : d = 0 ∨ d = 1 ∨ d = 2 ∨ d = 3 ∨ d = 4 ∨ d = 5 ∨ d = 6 ∨ d = 7 ∨ d = 8 ∨ d = 9) with
          h | h | h | h | h | h | h | h | h | h <;> subst h <;> rfl
      simp only [List.foldl_cons, List.foldl_nil, hd]
      omega
  unfold DataModel.name
  by_cases hn : n = 0
  · subst hn; rfl
  · rw [if_neg hn, key _ (fun d hd => Nat.digits_lt_base (by omega) hd), Nat.ofDigits_digits]

theorem digits_not_sign {c : Char} (h : c.isDigit = true) : c ≠ '-' ∧ c ≠ '+' := by
  constructor <;> · rintro rfl; exact absurd h (by decide)

/-- C57: digits are read as the number with those digits, if it can be represented -/
theorem toUnsigned_digits (bits : Nat) {ds : Str} (h : Digits ds) :
    toUnsigned bits ds = if decimal ds < 2 ^ bits then .ok (decimal ds : Int) else .error .thrown := by
  obtain ⟨hne, hd⟩ := h
  have hall : ds.all Char.isDigit = true := List.all_eq_true.mpr hd
  unfold toUnsigned
  split
  · exact absurd rfl (digits_not_sign (hd '-' (by simp))).1
  · exact absurd rfl (digits_not_sign (hd '+' (by simp))).2
  · simp [hne, hall]

theorem toSigned_digits (bits : Nat) {ds : Str} (h : Digits ds) :
    toSigned bits ds = if decimal ds < 2 ^ (bits - 1) then .ok (decimal ds : Int) else .error .thrown := by
  obtain ⟨hne, hd⟩ := h
  have hall : ds.all Char.isDigit = true := List.all_eq_true.mpr hd
  unfold toSigned
  split
  · exact absurd rfl (digits_not_sign (hd '-' (by simp))).1
  · exact absurd rfl (digits_not_sign (hd '+' (by simp))).2
  · simp [hne, hall]

/-- An optional sign followed by digits -/
def Signed (t : Str) (negative : Bool) (ds : Str) : Prop :=
  Digits ds ∧ if negative then t = '-' :: ds else t = ds ∨ t = '+' :: ds

/-- C57: a signed number is read if and only if it is an optional sign followed by digits, and can be represented -/
theorem toSigned_iff (bits : Nat) (t : Str) (v : Int) :
    toSigned bits t = .ok v ↔ ∃ negative ds, Signed t negative ds ∧ v = (if negative then -(decimal ds : Int) else decimal ds) ∧
      -2 ^ (bits - 1) ≤ v ∧ v < 2 ^ (bits - 1) := by
  have hpow : (0 : Int) < 2 ^ (bits - 1) := by positivity
  have hcast : ((2 ^ (bits - 1) : Nat) : Int) = 2 ^ (bits - 1) := by push_cast; rfl
  constructor
  · intro h
    unfold toSigned at h
    split at h
    · rename_i ds
      split at h
      · rename_i hc
        have := Except.ok.inj h
        refine ⟨true, ds, ⟨⟨hc.1, List.all_eq_true.mp hc.2.1⟩, rfl⟩, this.symm, ?_⟩
        have := hc.2.2
        omega
      · cases h
    · rename_i ds
      split at h
      · rename_i hc
        have := Except.ok.inj h
        refine ⟨false, ds, ⟨⟨hc.1, List.all_eq_true.mp hc.2.1⟩, .inr rfl⟩, this.symm, ?_⟩
        have := hc.2.2
        omega
      · cases h
    · rename_i ds _ _
      split at h
      · rename_i hc
        have := Except.ok.inj h
        refine ⟨false, t, ⟨⟨hc.1, List.all_eq_true.mp hc.2.1⟩, .inl rfl⟩, this.symm, ?_⟩
        have := hc.2.2
        omega
      · cases h
  · rintro ⟨negative, ds, ⟨hd, ht⟩, hv, h1, h2⟩
    cases negative with
    | true =>
      simp only [if_true] at ht hv
      subst ht
      show (if ds ≠ [] ∧ _ ∧ _ then _ else _) = _
      rw [if_pos ⟨hd.1, List.all_eq_true.mpr hd.2, by omega⟩, hv]
    | false =>
      simp only [Bool.false_eq_true, if_false] at ht hv
      rcases ht with rfl | rfl
      · rw [toSigned_digits bits hd, if_pos (by omega), hv]
      · show (if ds ≠ [] ∧ _ ∧ _ then _ else _) = _
        rw [if_pos ⟨hd.1, List.all_eq_true.mpr hd.2, by omega⟩, hv]

/-- C57: a negative number is accepted for an entry with an unsigned type: the number modulo a power of two is read -/
theorem toUnsigned_negative (bits : Nat) {ds : Str} (h : Digits ds) (h1 : 0 < decimal ds) (h2 : decimal ds < 2 ^ bits) :
    toUnsigned bits ('-' :: ds) = .ok (2 ^ bits - decimal ds : Int) := by
  show (if ds ≠ [] ∧ _ ∧ _ then _ else _) = _
  rw [if_pos ⟨h.1, List.all_eq_true.mpr h.2, h2⟩, Nat.mod_eq_of_lt (by omega)]
  congr 1
  have : ((2 ^ bits : Nat) : Int) = 2 ^ bits := by push_cast; rfl
  omega

theorem toUnsigned_thrown (bits : Nat) (t : Str) (e : Err) (h : toUnsigned bits t = .error e) : e = .thrown := by
  unfold toUnsigned at h
  split at h <;> split at h <;> first | cases h; done | exact (Except.error.inj h).symm

theorem toSigned_thrown (bits : Nat) (t : Str) (e : Err) (h : toSigned bits t = .error e) : e = .thrown := by
  unfold toSigned at h
  split at h <;> split at h <;> first | cases h; done | exact (Except.error.inj h).symm

/-! ### Lists in brackets -/

theorem trimVector_iff (value body : Str) :
    trimVector value = .ok body ↔ value = '[' :: (body ++ [']']) ∧ ']' ∉ body := by
  constructor
  · intro h
    unfold trimVector at h
    split at h
    · rename_i rest
      split at h
      · rename_i hc
        have hb := Except.ok.inj h
        rw [← hb]
        refine ⟨?_, hc.2⟩
        congr 1
        obtain ⟨hne, hl⟩ := List.getLast?_eq_some_iff.mp hc.1
        rw [hl]; simp
      · cases h
    · cases h
  · rintro ⟨rfl, h⟩
    show (if _ ∧ _ then _ else _) = _
    rw [if_pos ⟨by simp, by simpa using h⟩]
    simp

theorem trimVector_thrown (value : Str) (e : Err) (h : trimVector value = .error e) : e = .thrown := by
  unfold trimVector at h
  split at h
  · split at h
    · cases h
    · exact (Except.error.inj h).symm
  · exact (Except.error.inj h).symm

/-- The numbers which can be represented -/
def Range (signed : Bool) (n : Nat) : Prop := if signed then n < 2 ^ 63 else n < 2 ^ 64

instance (signed : Bool) (n : Nat) : Decidable (Range signed n) := by unfold Range; infer_instance

def toInt (signed : Bool) : Str → M Int := if signed then toSigned 64 else toUnsigned 64

theorem toInt_digits (signed : Bool) {ds : Str} (h : Digits ds) :
    toInt signed ds = if Range signed (decimal ds) then .ok (decimal ds : Int) else .error .thrown := by
  cases signed with
  | true => exact toSigned_digits 64 h
  | false => exact toUnsigned_digits 64 h

theorem toInt_thrown (signed : Bool) (t : Str) (e : Err) (h : toInt signed t = .error e) : e = .thrown := by
  cases signed with
  | true => exact toSigned_thrown 64 t e h
  | false => exact toUnsigned_thrown 64 t e h

theorem mapM_toInt (signed : Bool) {r : List Str} (h : ∀ ds ∈ r, Digits ds) :
    r.mapM (toInt signed) =
      if ∀ ds ∈ r, Range signed (decimal ds) then .ok (r.map (fun ds => (decimal ds : Int))) else .error .thrown := by
  induction r with
  | nil => simp; rfl
  | cons ds r ih =>
    rw [List.mapM_cons, toInt_digits signed (h ds (by simp)), ih (fun x hx => h x (List.mem_cons_of_mem _ hx))]
    by_cases h1 : Range signed (decimal ds)
    · rw [if_pos h1, M.bind_ok]
      by_cases h2 : ∀ x ∈ r, Range signed (decimal x)
      · rw [if_pos h2, if_pos (by intro x hx; rcases List.mem_cons.mp hx with rfl | hx; exact h1; exact h2 x hx)]
        rfl
      · rw [if_neg h2, if_neg (fun hc => h2 (fun x hx => hc x (List.mem_cons_of_mem _ hx)))]
        rfl
    · have h3 : ¬∀ x ∈ ds :: r, Range signed (decimal x) := fun hc => h1 (hc ds (by simp))
      rw [if_neg h1, if_neg h3]
      rfl

theorem reads_digits {s : Str} {r : List Str} (h : Reads s r) : ∀ ds ∈ r, Digits ds := by
  have he : ∀ {p ds : Str}, Ends p ds → Digits ds := fun ⟨_, _, _, h, _⟩ => h
  induction h with
  | nil => intro ds hds; cases hds
  | last _ h => intro ds hds; rw [List.mem_singleton.mp hds]; exact he h
  | more _ h _ ih =>
    intro ds hds
    rcases List.mem_cons.mp hds with rfl | hds
    · exact he h
    · exact ih ds hds
  | skip _ _ _ _ ih => exact ih

/-- C57: which lists are read, and what is read -/
theorem castList_iff (signed : Bool) (value : Str) (vs : List Int) :
    castList (toInt signed) value = .ok vs ↔
      ∃ body r, value = '[' :: (body ++ [']']) ∧ ']' ∉ body ∧ Reads body r ∧ (∀ ds ∈ r, Range signed (decimal ds)) ∧
        vs = r.map (fun ds => (decimal ds : Int)) := by
  unfold castList
  constructor
  · intro h
    cases ht : trimVector value with
    | error e => rw [ht] at h; cases h
    | ok body =>
      rw [ht, M.bind_ok] at h
      obtain ⟨h1, h2⟩ := (trimVector_iff value body).mp ht
      by_cases hr : ∃ r, Reads body r
      · obtain ⟨r, hr⟩ := hr
        rw [castLoop_reads _ hr _ _ (by omega), mapM_toInt signed (reads_digits hr)] at h
        split at h
        · rename_i hR
          exact ⟨body, r, h1, h2, hr, hR, (Except.ok.inj h).symm⟩
        · cases h
      · rw [not_exists] at hr
        rw [castLoop_refuses _ (toInt_thrown signed) _ _ _ (by omega) hr] at h
        cases h
  · rintro ⟨body, r, h1, h2, h3, h4, rfl⟩
    rw [(trimVector_iff value body).mpr ⟨h1, h2⟩, M.bind_ok, castLoop_reads _ h3 _ _ (by omega),
      mapM_toInt signed (reads_digits h3), if_pos h4]
    rfl

/-- C57: each other value is refused -/
theorem castList_thrown (signed : Bool) (value : Str) (e : Err) (h : castList (toInt signed) value = .error e) :
    e = .thrown := by
  unfold castList at h
  cases ht : trimVector value with
  | error e' => rw [ht] at h; rw [← Except.error.inj h]; exact trimVector_thrown value e' ht
  | ok body =>
    rw [ht, M.bind_ok] at h
    by_cases hr : ∃ r, Reads body r
    · obtain ⟨r, hr⟩ := hr
      rw [castLoop_reads _ hr _ _ (by omega), mapM_toInt signed (reads_digits hr)] at h
      split at h
      · cases h
      · exact (Except.error.inj h).symm
    · rw [not_exists] at hr
      rw [castLoop_refuses _ (toInt_thrown signed) _ _ _ (by omega) hr] at h
      exact (Except.error.inj h).symm

theorem numbers_reads {r : List Str} {t : Str} (h : Numbers r t) : Reads t r ∧ ']' ∉ t := by
  have full : ∀ {a ds b : Str}, Spaces a → Digits ds → Spaces b →
      Ends (a ++ ds ++ b) ds ∧ ',' ∉ a ++ ds ++ b ∧ ']' ∉ a ++ ds ++ b := by
    intro a ds b ha hd hb
    have hf : Full (a ++ ds ++ b) ds := ⟨a, b, rfl, ha, hd, hb⟩
    refine ⟨hf.ends, full_no_comma hf, ?_⟩
    intro hc
    simp only [List.mem_append] at hc
    rcases hc with (hc | hc) | hc
    · exact absurd (ha _ hc) (by decide)
    · exact absurd (hd.2 _ hc) (by decide)
    · exact absurd (hb _ hc) (by decide)
  induction h with
  | last ha hd hb =>
    obtain ⟨h1, h2, h3⟩ := full ha hd hb
    exact ⟨.last h2 h1, h3⟩
  | cons ha hd hb _ ih =>
    obtain ⟨h1, h2, h3⟩ := full ha hd hb
    refine ⟨.more h2 h1 ih.1, ?_⟩
    intro hc
    rw [List.mem_append] at hc
    rcases hc with hc | hc
    · exact h3 hc
    · rcases List.mem_cons.mp hc with hc | hc
      · exact absurd hc (by decide)
      · exact ih.2 hc

/-- C57: a list of numbers is read as these numbers, or refused if one of them can't be represented -/
theorem list_read (signed : Bool) {r : List Str} {t : Str} (h : Numbers r t) :
    castList (toInt signed) ('[' :: (t ++ [']'])) =
      if ∀ ds ∈ r, Range signed (decimal ds) then .ok (r.map (fun ds => (decimal ds : Int))) else .error .thrown := by
  obtain ⟨h1, h2⟩ := numbers_reads h
  by_cases hr : ∀ ds ∈ r, Range signed (decimal ds)
  · rw [if_pos hr]
    exact (castList_iff signed _ _).mpr ⟨t, r, rfl, h2, h1, hr, rfl⟩
  · rw [if_neg hr]
    cases hc : castList (toInt signed) ('[' :: (t ++ [']'])) with
    | error e => rw [castList_thrown signed _ e hc]
    | ok vs =>
      obtain ⟨body, r', e1, e2, e3, e4, -⟩ := (castList_iff signed _ _).mp hc
      simp only [List.cons.injEq, true_and, List.append_left_inj] at e1
      subst e1
      rw [reads_unique h1 e3] at hr
      exact absurd e4 hr

/-- A list of numbers as it is usually written -/
def written : List Nat → Str
  | [] => []
  | [n] => DataModel.name n
  | n :: m :: ns => DataModel.name n ++ ", ".toList ++ written (m :: ns)

theorem name_Digits (n : Nat) : Digits (DataModel.name n) := Calculate.name_digits n

theorem written_numbers (ns : List Nat) (hne : ns ≠ []) : ∀ {a : Str}, Spaces a → Numbers (ns.map DataModel.name) (a ++ written ns) := by
  have h0 : Spaces [] := fun c hc => absurd hc (by simp)
  induction ns with
  | nil => intro a _; exact absurd rfl hne
  | cons n ns ih =>
    intro a ha
    cases ns with
    | nil =>
      have := Numbers.last ha (name_Digits n) h0
      simpa [written] using this
    | cons m ns =>
      have := Numbers.cons ha (name_Digits n) h0
        (ih (by simp) (a := [' ']) (by intro c hc; rw [List.mem_singleton.mp hc]; decide))
      simpa [written] using this

/-- C57: a list of numbers which is written, is read -/
theorem list_round_trip (signed : Bool) (ns : List Nat) (h : ∀ n ∈ ns, Range signed n) :
    castList (toInt signed) ('[' :: (written ns ++ [']'])) = .ok (ns.map (fun n : Nat => (n : Int))) := by
  by_cases hne : ns = []
  · subst hne
    exact (castList_iff signed _ _).mpr ⟨[], [], rfl, by simp, .nil, by simp, rfl⟩
  · have := list_read signed (written_numbers ns hne (a := []) (fun c hc => absurd hc (by simp)))
    rw [List.nil_append] at this
    rw [this, if_pos]
    · rw [List.map_map]
      congr 1
      apply List.map_congr_left
      intro n _
      simp [decimal_name]
    · intro ds hds
      obtain ⟨n, hn, rfl⟩ := List.mem_map.mp hds
      rw [decimal_name]; exact h n hn

/-- C57: the value of an entry which is a list -/
theorem list_iff (signed : Bool) (value : Str) (v : Val) :
    cast (if signed then .signedList else .unsignedList) value = .ok v ↔
      ∃ vs, castList (toInt signed) value = .ok vs ∧ v = .list vs := by
  have h : cast (if signed then .signedList else .unsignedList) value = (castList (toInt signed) value).map Val.list := by
    cases signed <;> rfl
  rw [h]
  cases hc : castList (toInt signed) value with
  | error e => constructor
               · intro h; cases h
               · rintro ⟨a, h, -⟩; cases h
  | ok l =>
    constructor
    · intro h; exact ⟨l, rfl, (Except.ok.inj h).symm⟩
    · rintro ⟨a, h, rfl⟩
      rw [← Except.ok.inj h]; rfl

/-- C57: the value of an entry which is a number, or a text -/
theorem value_iff (bits : Nat) (value : Str) (v : Val) :
    (cast (.signed bits) value = .ok v ↔ ∃ n, toSigned bits value = .ok n ∧ v = .int n) ∧
    (cast (.unsigned bits) value = .ok v ↔ ∃ n, toUnsigned bits value = .ok n ∧ v = .int n) ∧
    (cast .string value = .ok v ↔ v = .string value) := by
  refine ⟨?_, ?_, ?_⟩
  · show (toSigned bits value).map Val.int = _ ↔ _
    cases toSigned bits value with
    | error e => constructor
                 · intro h; cases h
                 · rintro ⟨a, h, -⟩; cases h
    | ok n => constructor
              · intro h; exact ⟨n, rfl, (Except.ok.inj h).symm⟩
              · rintro ⟨a, h, rfl⟩; rw [← Except.ok.inj h]; rfl
  · show (toUnsigned bits value).map Val.int = _ ↔ _
    cases toUnsigned bits value with
    | error e => constructor
                 · intro h; cases h
                 · rintro ⟨a, h, -⟩; cases h
    | ok n => constructor
              · intro h; exact ⟨n, rfl, (Except.ok.inj h).symm⟩
              · rintro ⟨a, h, rfl⟩; rw [← Except.ok.inj h]; rfl
  · show Except.ok _ = _ ↔ _
    constructor
    · intro h; exact (Except.ok.inj h).symm
    · rintro rfl; rfl

/-- C57: the shape of an array is read from a list of two numbers -/
theorem shape_iff (signed : Bool) (value : Str) (v : Val) :
    cast (if signed then .signedShape else .unsignedShape) value = .ok v ↔
      ∃ a b, castList (toInt signed) value = .ok [a, b] ∧ v = .shape a b := by
  have h : cast (if signed then .signedShape else .unsignedShape) value = castList (toInt signed) value >>= toShape := by
    cases signed <;> rfl
  rw [h]
  cases hc : castList (toInt signed) value with
  | error e => constructor
               · intro h; cases h
               · rintro ⟨a, b, h, -⟩; cases h
  | ok l =>
    rw [M.bind_ok]
    constructor
    · intro h
      unfold toShape at h
      split at h
      · rename_i a b
        exact ⟨a, b, rfl, (Except.ok.inj h).symm⟩
      · cases h
    · rintro ⟨a, b, h, rfl⟩
      rw [Except.ok.inj h]; rfl

/-- C57: a negative number in a list is read as a positive number -/
theorem sign_lost (n : Nat) (h : n < 2 ^ 63) :
    castList (toInt true) ("[-".toList ++ DataModel.name n ++ "]".toList) = .ok [(n : Int)] := by
  refine (castList_iff true _ _).mpr ⟨'-' :: DataModel.name n, [DataModel.name n], by simp, ?_, .last ?_ ?_, ?_, ?_⟩
  · intro hc
    rcases List.mem_cons.mp hc with hc | hc
    · exact absurd hc (by decide)
    · exact absurd ((name_Digits n).2 _ hc) (by decide)
  · intro hc
    rcases List.mem_cons.mp hc with hc | hc
    · exact absurd hc (by decide)
    · exact absurd ((name_Digits n).2 _ hc) (by decide)
  · refine ⟨['-'], [], by simp, name_Digits n, fun c hc => absurd hc (by simp), ?_⟩
    intro c hc
    have : '-' = c := by simpa using hc
    rw [← this]; decide
  · intro ds hds
    rw [List.mem_singleton.mp hds, decimal_name]; exact h
  · simp [decimal_name]

/-- C57: values in front of a missing comma, and the integral part of a number, are dropped -/
theorem values_dropped :
    castList (toInt false) "[10 20, 30]".toList = .ok [20, 30] ∧ castList (toInt false) "[1.5]".toList = .ok [5] ∧
      castList (toInt false) "[ten, 20,]".toList = .ok [20] := by
  refine ⟨?_, ?_, ?_⟩ <;> decide +kernel

/-! ### Entries -/

/-- C57: a required entry is read if it is present and not empty, and refused otherwise -/
theorem required_iff (conf : Configuration) (ty : Ty) (section_ key : Str) (v : Val) :
    requiredIn conf ty section_ key = .ok v ↔
      ∃ value, conf (section_ ++ '.' :: key) = some value ∧ value ≠ [] ∧ cast ty value = .ok v := by
  unfold requiredIn configurationEntry
  cases hc : conf (section_ ++ '.' :: key) with
  | none => simp
  | some value =>
    by_cases hv : value = []
    · simp [hv]
    · simp [hv]

/-- C57: the default value of an optional entry is returned if and only if it is missing or empty. If it can't be read,
the entry is refused. -/
theorem optional_spec (conf : Configuration) (ty : Ty) (section_ key : Str) (default : Val) :
    (∀ value, conf (section_ ++ '.' :: key) = some value → value ≠ [] →
      optionalIn conf ty section_ key default = cast ty value) ∧
    (conf (section_ ++ '.' :: key) = none ∨ conf (section_ ++ '.' :: key) = some [] →
      optionalIn conf ty section_ key default = .ok default) := by
  unfold optionalIn configurationEntry
  constructor
  · intro value h hv; simp [h, hv]
  · rintro (h | h) <;> simp [h]

/-- C57: the section of the application is named after the name of the program, whatever directory it is in -/
theorem applicationSection_spec (conf : Configuration) {dir name : Str} (hn : '/' ∉ name)
    (h : conf "hpx.program_name".toList = some (dir ++ '/' :: name) ∨ conf "hpx.program_name".toList = some name) :
    applicationSection conf = "application.".toList ++ name := by
  unfold applicationSection
  congr 1
  unfold fileName
  rcases h with h | h
  · rw [h, Option.getD_some]
    cases hs : Calculate.splitLast '/' (dir ++ '/' :: name) with
    | none => exact absurd (by simp) (Calculate.splitLast_none.mp hs)
    | some ab =>
      obtain ⟨a, b⟩ := ab
      obtain ⟨b', rfl, h2, h3⟩ := Calculate.splitLast_some hs
      dsimp only
      have key : ∀ {x y x' y' : Str}, '/' ∉ y → '/' ∉ y' → x ++ '/' :: y = x' ++ '/' :: y' → y = y' := by
        intro x y x' y' hy hy' h
        have h' := congrArg List.reverse h
        simp only [List.reverse_append, List.reverse_cons, List.append_assoc, List.singleton_append] at h'
        have hy1 : '/' ∉ y.reverse := by simpa using hy
        have hy2 : '/' ∉ y'.reverse := by simpa using hy'
        have : y.reverse = y'.reverse := by
          clear hy hy' h
          generalize y.reverse = u at h' hy1
          generalize y'.reverse = w at h' hy2
          induction u generalizing w with
          | nil =>
            cases w with
            | nil => rfl
            | cons c cs =>
              simp only [List.nil_append, List.cons_append, List.cons.injEq] at h'
              exact absurd (by rw [h'.1]; simp) hy2
          | cons d ds ih =>
            cases w with
            | nil =>
              simp only [List.nil_append, List.cons_append, List.cons.injEq] at h'
              exact absurd (by rw [← h'.1]; simp) hy1
            | cons c cs =>
              simp only [List.cons_append, List.cons.injEq] at h'
              rw [h'.1, ih (fun hc => hy1 (List.mem_cons_of_mem _ hc)) cs h'.2 (fun hc => hy2 (List.mem_cons_of_mem _ hc))]
        have := congrArg List.reverse this
        simpa using this
      simpa using key h3 hn h2.symm
  · rw [h, Option.getD_some, Calculate.splitLast_none.mpr hn]

/-! ### Examples -/

example : castList (toInt false) "[200, 300]".toList = .ok [200, 300] := by decide +kernel
example : castList (toInt false) "[]".toList = .ok [] := by decide +kernel
example : castList (toInt false) "[ ]".toList = .error .thrown := by decide +kernel
example : castList (toInt false) "[1, x]".toList = .error .thrown := by decide +kernel
example : castList (toInt false) "1, 2".toList = .error .thrown := by decide +kernel
example : cast .unsignedShape "[ 20 ,30 ]".toList = .ok (.shape 20 30) := by decide +kernel
example : cast (.unsigned 32) "-1".toList = .ok (.int 4294967295) := by decide +kernel
example : cast (.signed 32) "-12".toList = .ok (.int (-12)) := by decide +kernel
example : Numbers ["10".toList, "2".toList] " 10 ,2".toList :=
  Numbers.cons (a := " ".toList) (ds := "10".toList) (b := " ".toList) (by unfold Spaces; decide)
    (by unfold Digits; decide) (by unfold Spaces; decide)
    (Numbers.last (a := []) (ds := "2".toList) (b := []) (by unfold Spaces; decide) (by unfold Digits; decide)
      (by unfold Spaces; decide))

end Lue.Config

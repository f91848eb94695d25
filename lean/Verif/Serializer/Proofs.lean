import Verif.Serializer.Spec
import Mathlib.Data.List.Nodup
import Mathlib.Tactic.SplitIfs
import Mathlib.Tactic.Push

/-!
# Invariants of the serializer
-/
namespace Lue.Serializer

/-! ## The collection of tuples -/

theorem get_set (m : TupleByGeneration) (g h : Nat) (e : Entry) :
    get (set m g e) h = if h = g then some e else get m h := by
  induction m with
  | nil =>
    simp only [set, get, List.find?_cons, List.find?_nil]
    by_cases hh : h = g
    · subst hh; simp
    · have : (g == h) = false := by simpa using fun h' => hh h'.symm
      simp [this, hh]
  | cons a m ih =>
    obtain ⟨k, f⟩ := a
    simp only [set]
    by_cases h1 : g < k
    · simp only [h1, if_true]
      simp only [get, List.find?_cons]
      by_cases hh : h = g
      · subst hh; simp
      · have : (g == h) = false := by simpa using fun h' => hh h'.symm
        simp [this, hh]
    · by_cases h2 : g = k
      · subst h2
        simp only [Nat.lt_irrefl, if_false, if_true]
        simp only [get, List.find?_cons]
        by_cases hh : h = g
        · subst hh; simp
        · have : (g == h) = false := by simpa using fun h' => hh h'.symm
          simp [this, hh]
      · simp only [h1, h2, if_false]
        by_cases h3 : k = h
        · subst h3
          have : k ≠ g := fun h' => h2 h'.symm
          simp [get, this]
        · have h3' : (k == h) = false := by simpa using h3
          have e1 : get ((k, f) :: set m g e) h = get (set m g e) h := by simp [get, h3']
          have e2 : get ((k, f) :: m) h = get m h := by simp [get, h3']
          rw [e1, e2, ih]

theorem keys_set_mem (m : TupleByGeneration) (g : Nat) (e : Entry) (hs : (m.map (·.1)).Pairwise (· < ·))
    (hg : g ∈ m.map (·.1)) : (set m g e).map (·.1) = m.map (·.1) := by
  induction m with
  | nil => simp at hg
  | cons a m ih =>
    obtain ⟨k, f⟩ := a
    simp only [set]
    simp only [List.map_cons, List.pairwise_cons, List.mem_cons] at hs hg
    rcases hg with rfl | hg
    · simp
    · have := hs.1 g hg
      have h1 : ¬ g < k := by omega
      have h2 : ¬ g = k := by omega
      simp only [h1, h2, if_false, List.map_cons]
      rw [ih hs.2 hg]

theorem keys_set_new (m : TupleByGeneration) (g : Nat) (e : Entry) (hg : ∀ k ∈ m.map (·.1), k < g) :
    (set m g e).map (·.1) = m.map (·.1) ++ [g] := by
  induction m with
  | nil => rfl
  | cons a m ih =>
    obtain ⟨k, f⟩ := a
    simp only [List.map_cons, List.mem_cons, forall_eq_or_imp] at hg
    simp only [set]
    have h1 : ¬ g < k := by omega
    have h2 : ¬ g = k := by omega
    simp only [h1, h2, if_false, List.map_cons, List.cons_append]
    rw [ih hg.2]

theorem get_isSome (m : TupleByGeneration) (g : Nat) : (∃ e, get m g = some e) ↔ g ∈ m.map (·.1) := by
  simp only [get, List.mem_map]
  constructor
  · rintro ⟨e, he⟩
    cases hf : m.find? (fun e => e.1 == g) with
    | none => rw [hf] at he; simp at he
    | some a =>
      have h1 := List.mem_of_find?_eq_some hf
      have h2 := List.find?_some hf
      exact ⟨a, h1, by simpa using h2⟩
  · rintro ⟨a, ha, rfl⟩
    cases hf : m.find? (fun e => e.1 == a.1) with
    | none =>
      have := List.find?_eq_none.mp hf a ha
      simp at this
    | some b => exact ⟨b.2, rfl⟩

theorem contains_iff (m : TupleByGeneration) (g : Nat) : contains m g = true ↔ g ∈ m.map (·.1) := by
  simp [contains, List.any_eq_true]

/-- The generations in the collection are 0, 1, ..., n. -/
def Keys (m : TupleByGeneration) (n : Nat) : Prop := m.map (·.1) = List.range n

theorem Keys.mem {m : TupleByGeneration} {n : Nat} (h : Keys m n) (g : Nat) : g ∈ m.map (·.1) ↔ g < n := by
  rw [h, List.mem_range]

theorem Keys.set {m : TupleByGeneration} {n : Nat} (h : Keys m n) {g : Nat} (hg : g < n) (e : Entry) : Keys (set m g e) n := by
  unfold Keys
  rw [keys_set_mem]
  · exact h
  · rw [h]; exact List.pairwise_lt_range
  · rw [h.mem]; exact hg

theorem Keys.add {m : TupleByGeneration} {n : Nat} (h : Keys m n) : Keys (addTuple m n) (n + 1) := by
  unfold Keys addTuple
  rw [keys_set_new]
  · rw [h, List.range_succ]
  · intro k hk; exact (h.mem k).mp hk

theorem Keys.last {m : TupleByGeneration} {n : Nat} (h : Keys m (n + 1)) : lastGeneration m = n := by
  unfold lastGeneration
  rw [h, List.range_succ]; simp

theorem addTuples {m : TupleByGeneration} : ∀ (c n : Nat), Keys m n →
    Keys ((List.range' n c).foldl addTuple m) (n + c) ∧
      ∀ h, get ((List.range' n c).foldl addTuple m) h = if n ≤ h ∧ h < n + c then some ⟨true, false⟩ else get m h := by
  intro c
  induction c with
  | zero => intro n hn; exact ⟨hn, fun h => by simp; intro h1 h2; omega⟩
  | succ c ih =>
    intro n hn
    obtain ⟨h1, h2⟩ := ih n hn
    rw [List.range'_1_concat, List.foldl_append]
    simp only [List.foldl_cons, List.foldl_nil]
    refine ⟨h1.add, fun h => ?_⟩
    rw [addTuple, get_set, h2]
    by_cases hh : h = n + c
    · subst hh; simp
    · simp only [hh, if_false]
      by_cases h3 : n ≤ h ∧ h < n + c
      · rw [if_pos h3, if_pos ⟨h3.1, by omega⟩]
      · rw [if_neg h3, if_neg (by omega)]

/-- What the collection of a key looks like: empty or generations 0, ..., n. Generation 0 is ready. -/
def Shape (m : TupleByGeneration) : Prop := m = [] ∨ ∃ n, 2 ≤ n ∧ Keys m n ∧ ∃ p, get m 0 = some ⟨p, true⟩

theorem addMissing_spec {m : TupleByGeneration} (h : Shape m) {g : Nat} (hg : 1 ≤ g) :
    Shape (addMissing m g) ∧ g ∈ (addMissing m g).map (·.1) ∧ 2 ≤ (addMissing m g).length ∧
      (∀ k, k ∈ m.map (·.1) → k ∈ (addMissing m g).map (·.1) ∧ get (addMissing m g) k = get m k) ∧
      (∀ k, 1 ≤ k → k ∈ (addMissing m g).map (·.1) → k ∉ m.map (·.1) → get (addMissing m g) k = some ⟨true, false⟩) ∧
      (∀ k, k < g → k ∈ (addMissing m g).map (·.1)) := by
  unfold addMissing
  by_cases hc : contains m g = true
  · rw [if_pos hc]
    have hmem := (contains_iff m g).mp hc
    rcases h with rfl | ⟨n, hn, hk, p, hp⟩
    · simp [contains] at hc
    · refine ⟨Or.inr ⟨n, hn, hk, p, hp⟩, hmem, ?_, fun k hk => ⟨hk, rfl⟩, fun k _ h1 h2 => absurd h1 h2, ?_⟩
      · have : (m.map (·.1)).length = n := by rw [hk]; simp
        simp at this; omega
      · intro k hkg
        rw [hk.mem] at hmem ⊢; omega
  · rw [if_neg hc]
    have hmem : g ∉ m.map (·.1) := fun h' => hc ((contains_iff m g).mpr h')
    -- after adding the first tuple
    obtain ⟨n, hn, hk, ⟨p, hp⟩, hold, hsub, hnew⟩ : ∃ n, 1 ≤ n ∧ Keys (addFirst m) n ∧ (∃ p, get (addFirst m) 0 = some ⟨p, true⟩) ∧
        (∀ k, k ∈ m.map (·.1) → get (addFirst m) k = get m k) ∧ (∀ k ∈ m.map (·.1), k < n) ∧
        (∀ k, 1 ≤ k → k < n → k ∈ m.map (·.1)) := by
      rcases h with rfl | ⟨n, hn, hk, hp⟩
      · refine ⟨1, by omega, ?_, ⟨true, ?_⟩, ?_, ?_, ?_⟩
        · rfl
        · rfl
        · intro k hk; simp at hk
        · intro k hk; simp at hk
        · intro k h1 h2; omega
      · have hne : m.isEmpty = false := by
          cases m with
          | nil => have := congrArg List.length hk; simp at this; omega
          | cons a m => rfl
        have : addFirst m = m := by simp [addFirst, hne]
        rw [this]
        exact ⟨n, by omega, hk, hp, fun _ _ => rfl, fun k hk' => (hk.mem k).mp hk', fun k _ h2 => (hk.mem k).mpr h2⟩
    have hgn : n ≤ g := by
      by_contra hlt
      exact hmem (hnew g hg (by omega))
    obtain ⟨n', rfl⟩ : ∃ n', n = n' + 1 := ⟨n - 1, by omega⟩
    have hl : lastGeneration (addFirst m) = n' := hk.last
    simp only [hl]
    obtain ⟨h1, h2⟩ := addTuples (g - n') (n' + 1) hk
    have hN : n' + 1 + (g - n') = g + 1 := by omega
    rw [hN] at h1 h2
    have hlen : ((List.foldl addTuple (addFirst m) (List.range' (n' + 1) (g - n'))).map (·.1)).length = g + 1 := by
      rw [h1]; simp
    refine ⟨Or.inr ⟨g + 1, by omega, h1, p, ?_⟩, ?_, ?_, ?_, ?_, ?_⟩
    · rw [h2, if_neg (by omega)]; exact hp
    · rw [h1.mem]; omega
    · simp at hlen; omega
    · intro k hk'
      have hkn := hsub k hk'
      refine ⟨?_, ?_⟩
      · rw [h1.mem]; omega
      · rw [h2, if_neg (by omega), hold k hk']
    · intro k hk1 hk2 hk3
      rw [h1.mem] at hk2
      have : n' + 1 ≤ k := by
        by_contra hlt
        exact hk3 (hnew k hk1 (by omega))
      rw [h2, if_pos ⟨this, hk2⟩]
    · intro k hkg
      rw [h1.mem]; omega

theorem Shape.set {m : TupleByGeneration} (h : Shape m) {g : Nat} (hg : g ∈ m.map (·.1)) (hg1 : 1 ≤ g) (e : Entry) :
    Shape (set m g e) := by
  rcases h with rfl | ⟨n, hn, hk, p, hp⟩
  · simp at hg
  · refine Or.inr ⟨n, hn, hk.set ((hk.mem g).mp hg) e, p, ?_⟩
    rw [get_set, if_neg (by omega)]; exact hp

theorem Shape.mem_set {m : TupleByGeneration} (h : Shape m) {g : Nat} (hg : g ∈ m.map (·.1)) (e : Entry) (k : Nat) :
    k ∈ (Serializer.set m g e).map (·.1) ↔ k ∈ m.map (·.1) := by
  rcases h with rfl | ⟨n, hn, hk, p, hp⟩
  · simp at hg
  · rw [(hk.set ((hk.mem g).mp hg) e).mem, hk.mem]

/-! ## The invariant -/

variable {K : Type} [DecidableEq K]

/-- The task has called `promise_for`. -/
def Phase.requested : Phase → Bool
  | .idle => false
  | _ => true

/-- The promise of the task is usable. -/
def Phase.ok (g : Nat) : Phase → Prop
  | .promised v => v = true
  | .waiting v p => v = true ∧ p = g - 1
  | .running v => v = true
  | _ => True

structure Inv (tasks : List (K × Nat)) (d : K → Nat) (s : State K) : Prop where
  noError : s.error = false
  shape : ∀ k, Shape (s.maps k)
  /-- Requested generations, and their predecessors, are in the collection -/
  mem : ∀ (i : Nat) k g, tasks[i]? = some (k, g) → (s.phase i).requested = true → ∀ h, h ≤ g → h ∈ (s.maps k).map (·.1)
  /-- The promise is in the collection as long as it has not been requested -/
  promise : ∀ k g e, 1 ≤ g → get (s.maps k) g = some e →
    ∀ i : Nat, tasks[i]? = some (k, g) → (e.promise = true ↔ (s.phase i).requested = false)
  /-- The tasks that are done are the first ones -/
  ready : ∀ k g e, 1 ≤ g → get (s.maps k) g = some e → (e.ready = true ↔ g ≤ d k)
  done : ∀ (i : Nat) k g, tasks[i]? = some (k, g) → (s.phase i = .done ↔ g ≤ d k)
  doneMem : ∀ k g, 1 ≤ g → g ≤ d k → g ∈ (s.maps k).map (·.1)
  doneTask : ∀ k g, 1 ≤ g → g ≤ d k → (k, g) ∈ tasks
  ok : ∀ (i : Nat) k g, tasks[i]? = some (k, g) → (s.phase i).ok g
  running : ∀ (i : Nat) k g v, tasks[i]? = some (k, g) → s.phase i = .running v → g = d k + 1
  trace : ∀ k, eventsOf k s.trace = serial k (d k) ∧ (∀ (i : Nat) v, tasks[i]? = some (k, d k + 1) → s.phase i ≠ .running v) ∨
    eventsOf k s.trace = serial k (d k) ++ [.start k (d k + 1)] ∧ ∃ (i : Nat) (v : Bool), tasks[i]? = some (k, d k + 1) ∧ s.phase i = .running v

theorem inv_init (tasks : List (K × Nat)) (ht : Tasks tasks) : Inv tasks (fun _ => 0) (init K) := by
  refine ⟨rfl, fun _ => Or.inl rfl, ?_, ?_, ?_, ?_, ?_, ?_, ?_, ?_, ?_⟩
  · intro i k g _ h; simp [init, Phase.requested] at h
  · intro k g e _ h; simp [init, get] at h
  · intro k g e _ h; simp [init, get] at h
  · intro i k g h
    have := ht.pos _ (List.mem_of_getElem? h)
    simp [init] at *; omega
  · intro k g h1 h2; omega
  · intro k g h1 h2; omega
  · intro i k g _; simp [init, Phase.ok]
  · intro i k g v _ h; simp [init] at h
  · intro k
    left
    refine ⟨rfl, ?_⟩
    intro i v _; simp [init]

theorem index_unique {tasks : List (K × Nat)} (ht : Tasks tasks) {i j : Nat} {t : K × Nat} (hi : tasks[i]? = some t)
    (hj : tasks[j]? = some t) : i = j := by
  obtain ⟨hi', hi⟩ := List.getElem?_eq_some_iff.mp hi
  obtain ⟨hj', hj⟩ := List.getElem?_eq_some_iff.mp hj
  exact (List.Nodup.getElem_inj_iff ht.nodup).mp (hi.trans hj.symm)

theorem inv_request {tasks : List (K × Nat)} (ht : Tasks tasks) {d : K → Nat} {s s' : State K} (h : Inv tasks d s) {i : Nat} {k : K}
    {g : Nat} (hi : tasks[i]? = some (k, g)) (hs : request s i k g = some s') : Inv tasks d s' := by
  have hg : 1 ≤ g := ht.pos _ (List.mem_of_getElem? hi)
  unfold request at hs
  cases hph : s.phase i with
  | idle =>
    simp only [hph] at hs
    obtain ⟨a1, a2, a3, a4, a5, a6⟩ := addMissing_spec (h.shape k) hg
    obtain ⟨e, he⟩ := (get_isSome _ _).mpr a2
    have hpf : promiseFor (s.maps k) g = some (e.promise, set (addMissing (s.maps k) g) g { e with promise := false }) := by
      unfold promiseFor
      rw [if_neg (by omega)]
      simp only
      rw [if_neg (by omega), he]
    simp only [hpf, Option.some.injEq] at hs
    subst hs
    have hprom : e.promise = true := by
      by_cases hin : g ∈ (s.maps k).map (·.1)
      · rw [(a4 g hin).2] at he
        exact (h.promise k g e hg he i hi).mpr (by simp [hph, Phase.requested])
      · rw [a5 g hg a2 hin] at he
        injection he with he; subst he; rfl
    have hready : e.ready = true ↔ g ≤ d k := by
      by_cases hin : g ∈ (s.maps k).map (·.1)
      · rw [(a4 g hin).2] at he
        exact h.ready k g e hg he
      · rw [a5 g hg a2 hin] at he
        injection he with he; subst he
        have : ¬ g ≤ d k := fun hle => hin (h.doneMem k g hg hle)
        simp [this]
    have hphase : ∀ j, (update s.phase i (.promised e.promise) j) = if j = i then .promised e.promise else s.phase j := fun j => rfl
    have hmaps : ∀ k', update s.maps k (set (addMissing (s.maps k) g) g { e with promise := false }) k' =
      if k' = k then set (addMissing (s.maps k) g) g { e with promise := false } else s.maps k' := fun _ => rfl
    have hget : ∀ k' h', 1 ≤ h' → ∀ e', get (update s.maps k (set (addMissing (s.maps k) g) g { e with promise := false }) k') h' = some e' →
        (k' = k ∧ h' = g ∧ e' = { e with promise := false }) ∨ (¬ (k' = k ∧ h' = g) ∧ (get (s.maps k') h' = some e' ∨
          (e' = ⟨true, false⟩ ∧ h' ∉ (s.maps k').map (·.1)))) := by
      intro k' h' hh' e' hge
      rw [hmaps] at hge
      by_cases hk : k' = k
      · subst hk
        rw [if_pos rfl, get_set] at hge
        by_cases hh : h' = g
        · subst hh
          rw [if_pos rfl] at hge
          injection hge with hge
          exact Or.inl ⟨rfl, rfl, hge.symm⟩
        · rw [if_neg hh] at hge
          refine Or.inr ⟨fun h => hh h.2, ?_⟩
          by_cases hin : h' ∈ (s.maps k').map (·.1)
          · rw [(a4 h' hin).2] at hge; exact Or.inl hge
          · have hm : h' ∈ (addMissing (s.maps k') g).map (·.1) := (get_isSome _ _).mp ⟨e', hge⟩
            rw [a5 h' hh' hm hin] at hge
            injection hge with hge
            exact Or.inr ⟨hge.symm, hin⟩
      · rw [if_neg hk] at hge
        exact Or.inr ⟨fun h => hk h.1, Or.inl hge⟩
    have hmem : ∀ k' h', h' ∈ (s.maps k').map (·.1) →
        h' ∈ (update s.maps k (set (addMissing (s.maps k) g) g { e with promise := false }) k').map (·.1) := by
      intro k' h' hh
      rw [hmaps]
      by_cases hk : k' = k
      · subst hk
        rw [if_pos rfl, a1.mem_set a2]
        exact (a4 h' hh).1
      · rw [if_neg hk]; exact hh
    refine ⟨h.noError, ?_, ?_, ?_, ?_, ?_, ?_, h.doneTask, ?_, ?_, ?_⟩
    · intro k'
      simp only [hmaps]
      by_cases hk : k' = k
      · rw [if_pos hk]; exact a1.set a2 hg _
      · rw [if_neg hk]; exact h.shape k'
    · intro j k' g' hj hreq h' hh'
      by_cases hji : j = i
      · subst hji
        rw [hi] at hj; injection hj with hj; injection hj with hk1 hg1; subst hk1; subst hg1
        simp only [hmaps, if_true]
        rw [a1.mem_set a2]
        by_cases he : h' = g
        · rw [he]; exact a2
        · exact a6 h' (by omega)
      · simp only [hphase, if_neg hji] at hreq
        exact hmem k' h' (h.mem j k' g' hj hreq h' hh')
    · intro k' g' e' hg' hge j hj
      rcases hget k' g' hg' e' hge with ⟨rfl, rfl, rfl⟩ | ⟨hne, hor⟩
      · have : j = i := index_unique ht hj hi
        subst this
        simp [hphase, Phase.requested]
      · have hji : j ≠ i := by
          rintro rfl
          rw [hi] at hj; injection hj with hj; injection hj with h1 h2
          exact hne ⟨h1.symm, h2.symm⟩
        simp only [hphase, if_neg hji]
        rcases hor with hor | ⟨rfl, hnot⟩
        · exact h.promise k' g' e' hg' hor j hj
        · have : (s.phase j).requested = false := by
            by_contra hcon
            exact hnot (h.mem j k' g' hj (by simpa using hcon) g' (Nat.le_refl _))
          simp [this]
    · intro k' g' e' hg' hge
      rcases hget k' g' hg' e' hge with ⟨rfl, rfl, rfl⟩ | ⟨hne, hor⟩
      · exact hready
      · rcases hor with hor | ⟨rfl, hnot⟩
        · exact h.ready k' g' e' hg' hor
        · have : ¬ g' ≤ d k' := fun hle => hnot (h.doneMem k' g' hg' hle)
          simp [this]
    · intro j k' g' hj
      by_cases hji : j = i
      · subst hji
        simp only [hphase, if_true]
        have := h.done j k' g' hj
        rw [hph] at this
        simpa using this
      · simp only [hphase, if_neg hji]; exact h.done j k' g' hj
    · intro k' g' h1 h2
      exact hmem k' g' (h.doneMem k' g' h1 h2)
    · intro j k' g' hj
      by_cases hji : j = i
      · simp only [hphase, if_pos hji]; exact hprom
      · simp only [hphase, if_neg hji]; exact h.ok j k' g' hj
    · intro j k' g' v hj hr
      by_cases hji : j = i
      · simp only [hphase, if_pos hji] at hr; simp at hr
      · simp only [hphase, if_neg hji] at hr; exact h.running j k' g' v hj hr
    · intro k'
      rcases h.trace k' with ⟨h1, h2⟩ | ⟨h1, j, v, h2, h3⟩
      · left
        refine ⟨h1, fun j v hj => ?_⟩
        by_cases hji : j = i
        · simp [hphase, hji]
        · simp only [hphase, if_neg hji]; exact h2 j v hj
      · right
        refine ⟨h1, j, v, h2, ?_⟩
        have hji : j ≠ i := by rintro rfl; rw [hph] at h3; simp at h3
        simp only [hphase, if_neg hji]; exact h3
  | _ => simp [hph] at hs

/-- A task that is not done nor running continues with another phase, the collections do not change. -/
theorem inv_phase {tasks : List (K × Nat)} {d : K → Nat} {s : State K} (h : Inv tasks d s) {i : Nat} {k : K} {g : Nat}
    (hi : tasks[i]? = some (k, g)) (hreq : (s.phase i).requested = true) (hnr : ∀ v, s.phase i ≠ .running v)
    (hnd : s.phase i ≠ .done) {p : Phase} (hp : p.requested = true) (hpr : ∀ v, p ≠ .running v) (hpd : p ≠ .done)
    (hok : p.ok g) : Inv tasks d { s with phase := update s.phase i p } := by
  have hphase : ∀ j, (update s.phase i p j) = if j = i then p else s.phase j := fun j => rfl
  refine ⟨h.noError, h.shape, ?_, ?_, h.ready, ?_, h.doneMem, h.doneTask, ?_, ?_, ?_⟩
  · intro j k' g' hj hr
    by_cases hji : j = i
    · subst hji; exact h.mem j k' g' hj hreq
    · simp only [hphase, if_neg hji] at hr; exact h.mem j k' g' hj hr
  · intro k' g' e' hg' hge j hj
    by_cases hji : j = i
    · subst hji
      have := h.promise k' g' e' hg' hge j hj
      simp only [hphase, if_true, hp]
      rw [hreq] at this; exact this
    · simp only [hphase, if_neg hji]; exact h.promise k' g' e' hg' hge j hj
  · intro j k' g' hj
    by_cases hji : j = i
    · subst hji
      have := h.done j k' g' hj
      simp only [hphase, if_true]
      constructor
      · intro h'; exact absurd h' hpd
      · intro h'; exact absurd (this.mpr h') hnd
    · simp only [hphase, if_neg hji]; exact h.done j k' g' hj
  · intro j k' g' hj
    by_cases hji : j = i
    · subst hji
      rw [hi] at hj; injection hj with hj; injection hj with h1 h2; subst h1; subst h2
      simp only [hphase, if_true]; exact hok
    · simp only [hphase, if_neg hji]; exact h.ok j k' g' hj
  · intro j k' g' v hj hr
    by_cases hji : j = i
    · simp only [hphase, if_pos hji] at hr; exact absurd hr (hpr v)
    · simp only [hphase, if_neg hji] at hr; exact h.running j k' g' v hj hr
  · intro k'
    rcases h.trace k' with ⟨h1, h2⟩ | ⟨h1, j, v, h2, h3⟩
    · left
      refine ⟨h1, fun j v hj => ?_⟩
      by_cases hji : j = i
      · simp only [hphase, if_pos hji]; exact hpr v
      · simp only [hphase, if_neg hji]; exact h2 j v hj
    · right
      refine ⟨h1, j, v, h2, ?_⟩
      have hji : j ≠ i := by rintro rfl; exact hnr v h3
      simp only [hphase, if_neg hji]; exact h3

theorem inv_attach {tasks : List (K × Nat)} (ht : Tasks tasks) {d : K → Nat} {s s' : State K} (h : Inv tasks d s) {i : Nat} {k : K}
    {g : Nat} (hi : tasks[i]? = some (k, g)) (hs : attach s i k g = some s') : Inv tasks d s' := by
  have hg : 1 ≤ g := ht.pos _ (List.mem_of_getElem? hi)
  unfold attach at hs
  cases hph : s.phase i with
  | promised v =>
    simp only [hph] at hs
    have hm : (g - 1) ∈ (s.maps k).map (·.1) := h.mem i k g hi (by simp [hph, Phase.requested]) (g - 1) (by omega)
    have hw : whenPredecessorDone (s.maps k) g = some (g - 1) := by
      unfold whenPredecessorDone whenDone
      rw [if_neg (by omega), if_pos ((contains_iff _ _).mpr hm)]
    simp only [hw, Option.some.injEq] at hs
    subst hs
    have hok := h.ok i k g hi
    rw [hph] at hok
    exact inv_phase h hi (by simp [hph, Phase.requested]) (by simp [hph]) (by simp [hph]) (by simp [Phase.requested]) (by simp)
      (by simp) ⟨hok, rfl⟩
  | _ => simp [hph] at hs

theorem eventsOf_append (k : K) (a b : List (Event K)) : eventsOf k (a ++ b) = eventsOf k a ++ eventsOf k b := by
  simp [eventsOf]

theorem serial_succ (k : K) (n : Nat) : serial k (n + 1) = serial k n ++ [.start k (n + 1), .finish k (n + 1)] := by
  unfold serial
  rw [List.range'_1_concat, List.flatMap_append]
  simp [Nat.add_comm]

theorem inv_start {tasks : List (K × Nat)} (ht : Tasks tasks) {d : K → Nat} {s s' : State K} (h : Inv tasks d s) {i : Nat} {k : K}
    {g : Nat} (hi : tasks[i]? = some (k, g)) (hs : start s i k g = some s') : Inv tasks d s' := by
  have hg : 1 ≤ g := ht.pos _ (List.mem_of_getElem? hi)
  unfold start at hs
  cases hph : s.phase i with
  | waiting v p =>
    have hok := h.ok i k g hi
    rw [hph] at hok
    obtain ⟨hv, rfl⟩ := hok
    simp only [hph] at hs
    cases hge : get (s.maps k) (g - 1) with
    | none => rw [hge] at hs; simp at hs
    | some e =>
      rw [hge] at hs
      simp only at hs
      split at hs
      case isFalse => simp at hs
      rename_i hready
      simp only [Option.some.injEq] at hs
      subst hs
      have hle : g - 1 ≤ d k := by
        by_cases h0 : g - 1 = 0
        · omega
        · exact (h.ready k (g - 1) e (by omega) hge).mp hready
      have hnd : ¬ g ≤ d k := fun hle => by
        have := (h.done i k g hi).mpr hle
        rw [hph] at this; simp at this
      have hgd : g = d k + 1 := by omega
      have hphase : ∀ j, (update s.phase i (.running v) j) = if j = i then .running v else s.phase j := fun j => rfl
      refine ⟨h.noError, h.shape, ?_, ?_, h.ready, ?_, h.doneMem, h.doneTask, ?_, ?_, ?_⟩
      · intro j k' g' hj hr
        by_cases hji : j = i
        · subst hji; exact h.mem j k' g' hj (by simp [hph, Phase.requested])
        · simp only [hphase, if_neg hji] at hr; exact h.mem j k' g' hj hr
      · intro k' g' e' hg' hge' j hj
        have hh := h.promise k' g' e' hg' hge' j hj
        by_cases hji : j = i
        · subst hji
          rw [hph] at hh
          simpa [hphase, Phase.requested] using hh
        · simp only [hphase, if_neg hji]; exact hh
      · intro j k' g' hj
        by_cases hji : j = i
        · subst hji
          have := h.done j k' g' hj
          rw [hph] at this
          simpa [hphase] using this
        · simp only [hphase, if_neg hji]; exact h.done j k' g' hj
      · intro j k' g' hj
        by_cases hji : j = i
        · simp only [hphase, if_pos hji]; exact hv
        · simp only [hphase, if_neg hji]; exact h.ok j k' g' hj
      · intro j k' g' v' hj hr
        by_cases hji : j = i
        · subst hji
          rw [hi] at hj; injection hj with hj; injection hj with h1 h2; subst h1; subst h2
          exact hgd
        · simp only [hphase, if_neg hji] at hr; exact h.running j k' g' v' hj hr
      · intro k'
        by_cases hk : k' = k
        · subst hk
          rcases h.trace k' with ⟨h1, h2⟩ | ⟨h1, j, v', h2, h3⟩
          · right
            refine ⟨?_, i, v, hgd ▸ hi, by simp [hphase]⟩
            simp only [eventsOf_append, h1]
            simp [eventsOf, Event.key, hgd]
          · have : j = i := index_unique ht h2 (hgd ▸ hi)
            subst this
            rw [hph] at h3; simp at h3
        · have he : eventsOf k' (s.trace ++ [Event.start k g]) = eventsOf k' s.trace := by
            simp only [eventsOf_append]
            have : eventsOf k' [Event.start k g] = [] := by
              have h' : ¬ k = k' := fun h => hk h.symm
              simp [eventsOf, Event.key, h']
            rw [this, List.append_nil]
          simp only [he]
          rcases h.trace k' with ⟨h1, h2⟩ | ⟨h1, j, v', h2, h3⟩
          · left
            refine ⟨h1, fun j v' hj => ?_⟩
            have hji : j ≠ i := by
              rintro rfl
              rw [hi] at hj; injection hj with hj; injection hj with h1 h2; exact hk h1.symm
            simp only [hphase, if_neg hji]; exact h2 j v' hj
          · right
            have hji : j ≠ i := by rintro rfl; rw [hph] at h3; simp at h3
            exact ⟨h1, j, v', h2, by simp only [hphase, if_neg hji]; exact h3⟩
  | _ => simp [hph] at hs

theorem inv_finish {tasks : List (K × Nat)} (ht : Tasks tasks) {d : K → Nat} {s s' : State K} (h : Inv tasks d s) {i : Nat} {k : K}
    {g : Nat} (hi : tasks[i]? = some (k, g)) (hs : finish s i k g = some s') : Inv tasks (update d k (d k + 1)) s' := by
  have hg : 1 ≤ g := ht.pos _ (List.mem_of_getElem? hi)
  unfold finish at hs
  cases hph : s.phase i with
  | running v =>
    have hok := h.ok i k g hi
    rw [hph] at hok
    have hv : v = true := hok
    simp only [hph] at hs
    have hgd : g = d k + 1 := h.running i k g v hi hph
    have hmem : g ∈ (s.maps k).map (·.1) := h.mem i k g hi (by simp [hph, Phase.requested]) g (Nat.le_refl _)
    obtain ⟨e, he⟩ := (get_isSome _ _).mpr hmem
    have hr : e.ready = false := by
      have := h.ready k g e hg he
      cases h' : e.ready with
      | false => rfl
      | true => have := this.mp h'; omega
    rw [he] at hs
    simp only [hv, hr, Bool.not_false, Bool.and_self, if_true, Option.some.injEq] at hs
    subst hs
    have hphase : ∀ j, (update s.phase i .done j) = if j = i then .done else s.phase j := fun j => rfl
    have hmaps : ∀ k', update s.maps k (set (s.maps k) g { e with ready := true }) k' =
      if k' = k then set (s.maps k) g { e with ready := true } else s.maps k' := fun _ => rfl
    have hd : ∀ k', update d k (d k + 1) k' = if k' = k then d k + 1 else d k' := fun _ => rfl
    have hm : ∀ k' h', h' ∈ (update s.maps k (set (s.maps k) g { e with ready := true }) k').map (·.1) ↔
        h' ∈ (s.maps k').map (·.1) := by
      intro k' h'
      rw [hmaps]
      by_cases hk : k' = k
      · subst hk; rw [if_pos rfl]; exact (h.shape k').mem_set hmem _ _
      · rw [if_neg hk]
    refine ⟨h.noError, ?_, ?_, ?_, ?_, ?_, ?_, ?_, ?_, ?_, ?_⟩
    · intro k'
      simp only [hmaps]
      by_cases hk : k' = k
      · rw [if_pos hk]; exact (h.shape k).set hmem hg _
      · rw [if_neg hk]; exact h.shape k'
    · intro j k' g' hj hreq h' hh'
      rw [hm]
      by_cases hji : j = i
      · subst hji; exact h.mem j k' g' hj (by simp [hph, Phase.requested]) h' hh'
      · simp only [hphase, if_neg hji] at hreq; exact h.mem j k' g' hj hreq h' hh'
    · intro k' g' e' hg' hge j hj
      have hph' : ((update s.phase i .done j).requested = false) ↔ ((s.phase j).requested = false) := by
        by_cases hji : j = i
        · subst hji; simp [hphase, hph, Phase.requested]
        · simp only [hphase, if_neg hji]
      simp only [hph']
      simp only [hmaps] at hge
      by_cases hk : k' = k
      · subst hk
        rw [if_pos rfl, get_set] at hge
        by_cases hh : g' = g
        · subst hh
          rw [if_pos rfl] at hge
          injection hge with hge; subst hge
          exact h.promise k' g' e hg' he j hj
        · rw [if_neg hh] at hge; exact h.promise k' g' e' hg' hge j hj
      · rw [if_neg hk] at hge; exact h.promise k' g' e' hg' hge j hj
    · intro k' g' e' hg' hge
      simp only [hmaps] at hge
      simp only [hd]
      by_cases hk : k' = k
      · subst hk
        rw [if_pos rfl, get_set] at hge
        rw [if_pos rfl]
        by_cases hh : g' = g
        · subst hh
          rw [if_pos rfl] at hge
          injection hge with hge; subst hge
          simp; omega
        · rw [if_neg hh] at hge
          rw [h.ready k' g' e' hg' hge]; omega
      · rw [if_neg hk] at hge ⊢; exact h.ready k' g' e' hg' hge
    · intro j k' g' hj
      simp only [hd]
      by_cases hji : j = i
      · subst hji
        rw [hi] at hj; injection hj with hj; injection hj with h1 h2; subst h1; subst h2
        simp [hphase]; omega
      · simp only [hphase, if_neg hji]
        rw [h.done j k' g' hj]
        by_cases hk : k' = k
        · subst hk
          rw [if_pos rfl]
          have : g' ≠ d k' + 1 := by
            intro hh
            exact hji (index_unique ht hj (by rw [hh, ← hgd]; exact hi))
          omega
        · rw [if_neg hk]
    · intro k' g' h1 h2
      rw [hm]
      simp only [hd] at h2
      by_cases hk : k' = k
      · subst hk
        rw [if_pos rfl] at h2
        by_cases hh : g' = g
        · rw [hh]; exact hmem
        · exact h.doneMem k' g' h1 (by omega)
      · rw [if_neg hk] at h2; exact h.doneMem k' g' h1 h2
    · intro k' g' h1 h2
      simp only [hd] at h2
      by_cases hk : k' = k
      · subst hk
        rw [if_pos rfl] at h2
        by_cases hh : g' = g
        · rw [hh]; exact List.mem_of_getElem? hi
        · exact h.doneTask k' g' h1 (by omega)
      · rw [if_neg hk] at h2; exact h.doneTask k' g' h1 h2
    · intro j k' g' hj
      by_cases hji : j = i
      · simp only [hphase, if_pos hji]; trivial
      · simp only [hphase, if_neg hji]; exact h.ok j k' g' hj
    · intro j k' g' v' hj hr'
      by_cases hji : j = i
      · simp only [hphase, if_pos hji] at hr'; simp at hr'
      · simp only [hphase, if_neg hji] at hr'
        simp only [hd]
        by_cases hk : k' = k
        · subst hk
          have := h.running j k' g' v' hj hr'
          exact absurd (index_unique ht hj (by rw [this, ← hgd]; exact hi)) hji
        · rw [if_neg hk]; exact h.running j k' g' v' hj hr'
    · intro k'
      simp only [hd]
      by_cases hk : k' = k
      · subst hk
        rw [if_pos rfl]
        left
        refine ⟨?_, ?_⟩
        · rcases h.trace k' with ⟨h1, h2⟩ | ⟨h1, -⟩
          · exact absurd hph (h2 i v (hgd ▸ hi))
          · rw [eventsOf_append, h1, serial_succ, List.append_assoc]
            simp [eventsOf, Event.key, hgd]
        · intro j v' hj
          by_cases hji : j = i
          · simp [hphase, hji]
          · simp only [hphase, if_neg hji]
            intro hr'
            have := h.running j k' _ v' hj hr'
            omega
      · rw [if_neg hk]
        have he : eventsOf k' (s.trace ++ [Event.finish k g]) = eventsOf k' s.trace := by
          simp only [eventsOf_append]
          have : eventsOf k' [Event.finish k g] = [] := by
            have h' : ¬ k = k' := fun h => hk h.symm
            simp [eventsOf, Event.key, h']
          rw [this, List.append_nil]
        simp only [he]
        rcases h.trace k' with ⟨h1, h2⟩ | ⟨h1, j, v', h2, h3⟩
        · left
          refine ⟨h1, fun j v' hj => ?_⟩
          have hji : j ≠ i := by
            rintro rfl
            rw [hi] at hj; injection hj with hj; injection hj with h1 h2; exact hk h1.symm
          simp only [hphase, if_neg hji]; exact h2 j v' hj
        · right
          have hji : j ≠ i := by
            rintro rfl
            rw [hi] at h2; injection h2 with h2; injection h2 with h1 h2; exact hk h1.symm
          exact ⟨h1, j, v', h2, by simp only [hphase, if_neg hji]; exact h3⟩
  | _ => simp [hph] at hs

theorem inv_step {tasks : List (K × Nat)} (ht : Tasks tasks) {d : K → Nat} {s s' : State K} (h : Inv tasks d s) {a : Action}
    (hs : step tasks s a = some s') : ∃ d', Inv tasks d' s' := by
  cases a with
  | request i =>
    simp only [step] at hs
    obtain ⟨⟨k, g⟩, hi, hs⟩ := Option.bind_eq_some_iff.mp hs
    exact ⟨d, inv_request ht h hi hs⟩
  | attach i =>
    simp only [step] at hs
    obtain ⟨⟨k, g⟩, hi, hs⟩ := Option.bind_eq_some_iff.mp hs
    exact ⟨d, inv_attach ht h hi hs⟩
  | start i =>
    simp only [step] at hs
    obtain ⟨⟨k, g⟩, hi, hs⟩ := Option.bind_eq_some_iff.mp hs
    exact ⟨d, inv_start ht h hi hs⟩
  | finish i =>
    simp only [step] at hs
    obtain ⟨⟨k, g⟩, hi, hs⟩ := Option.bind_eq_some_iff.mp hs
    exact ⟨_, inv_finish ht h hi hs⟩

theorem inv_run {tasks : List (K × Nat)} (ht : Tasks tasks) {s s' : State K} {as : List Action} (hr : Run tasks s as s') :
    ∀ {d}, Inv tasks d s → ∃ d', Inv tasks d' s' := by
  induction hr with
  | nil => intro d h; exact ⟨d, h⟩
  | cons hs _ ih =>
    intro d h
    obtain ⟨d', h'⟩ := inv_step ht h hs
    exact ih h'

theorem inv_reachable {tasks : List (K × Nat)} (ht : Tasks tasks) {s : State K} (h : Reachable tasks s) : ∃ d, Inv tasks d s := by
  obtain ⟨as, hr⟩ := h
  exact inv_run ht hr (inv_init tasks ht)

end Lue.Serializer

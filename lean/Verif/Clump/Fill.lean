import Verif.Clump.Step

/-!
C23: flood fill.
-/
namespace Lue.Clump

open Relation

variable {Z : Type} [DecidableEq Z] {nr nc : Nat} {zones : List (Option Z)} {zoneId : Z} {clumpId : Nat}

/-- Whether (1) or not (0) cells are connected to diagonal neighbours -/
def reachOf (diagonal : Bool) : Nat := if diagonal then 1 else 0

/-- Number of cells at the west side of spans which are not searched backwards -/
def gapOf (diagonal : Bool) : Nat := if diagonal then 0 else 1

/-- The array of zones as a function of the location -/
def at2 {α : Type} (nc : Nat) (data : List (Option α)) : Nat × Nat → Option α := fun c => cell nc data c.1 c.2

/-- Cells which are part of a clump are part of a complete clump. -/
def Closed (nc : Nat) (diagonal : Bool) (zones : List (Option Z)) (clumps : List (Option Nat)) : Prop :=
  ∀ c c', Linked diagonal (at2 nc zones) c c' → (at2 nc clumps c = none ↔ at2 nc clumps c' = none)

/-- The cell is, or will be, part of the clump. -/
def Done (nc : Nat) (zones : List (Option Z)) (zoneId : Z) (k : Nat) (clumps : List (Option Nat)) (stack : List Request)
    (row c : Nat) : Prop :=
  cell nc clumps row c ≠ none ∨ ∃ q ∈ stack, q.row = row ∧ ∃ x, q.west ≤ x + k ∧ x ≤ q.east + k ∧ SameRun nc zones zoneId row x c

/-- Cells in rows next to each other are neighbours. -/
def Vertical (k row c row' c' : Nat) : Prop := (row + 1 = row' ∨ row' + 1 = row) ∧ c ≤ c' + k ∧ c' ≤ c + k

theorem Vertical.adjacent {diagonal : Bool} {row c row' c' : Nat} (h : Vertical (reachOf diagonal) row c row' c') :
    Adjacent diagonal (row, c) (row', c') := by
  obtain ⟨h1, h2, h3⟩ := h
  refine .inr ⟨h1, ?_⟩
  cases diagonal with
  | false => simp only [reachOf, Bool.false_eq_true, if_false] at h2 h3; exact .inl (by simp only; omega)
  | true =>
    simp only [reachOf, if_true] at h2 h3
    by_cases h : c = c'
    · exact .inl h
    · exact .inr ⟨rfl, by simp only; omega⟩

theorem adjacent_cases {diagonal : Bool} {row c row' c' : Nat} (h : Adjacent diagonal (row, c) (row', c')) :
    (row = row' ∧ (c + 1 = c' ∨ c' + 1 = c)) ∨ Vertical (reachOf diagonal) row c row' c' := by
  rcases h with h | ⟨h1, h2⟩
  · exact .inl h
  · refine .inr ⟨h1, ?_⟩
    rcases h2 with h2 | ⟨h2, h3⟩
    · simp only at h2; omega
    · subst h2; simp only [reachOf, if_true] at h3 ⊢; omega

structure FillInv (nr nc : Nat) (zones : List (Option Z)) (zoneId : Z) (clumpId : Nat) (diagonal : Bool) (row col : Nat)
    (base : List (Option Nat)) (s : List (Option Nat) × List Request) : Prop where
  len : s.1.length = nr * nc
  frame : ∀ i j, cell nc s.1 i j = cell nc base i j ∨
    (New nc clumpId base s.1 i j ∧ ReflTransGen (Linked diagonal (at2 nc zones)) (row, col) (i, j))
  uni : ∀ i c, Conn nc zones zoneId i c → Conn nc zones zoneId i (c + 1) →
    (cell nc s.1 i c = none ↔ cell nc s.1 i (c + 1) = none)
  valid : ∀ q ∈ s.2, q.row < nr ∧ q.west ≤ q.east ∧ q.east < nc
  reach : ∀ q ∈ s.2, ∀ x, q.west ≤ x + reachOf diagonal → x ≤ q.east + reachOf diagonal → Conn nc zones zoneId q.row x →
    ReflTransGen (Linked diagonal (at2 nc zones)) (row, col) (q.row, x)
  near : ∀ i j i' j', New nc clumpId base s.1 i j → Vertical (reachOf diagonal) i j i' j' → Conn nc zones zoneId i' j' →
    Done nc zones zoneId (reachOf diagonal) s.1 s.2 i' j'
  back : ∀ q ∈ s.2, ∀ pr, (if q.down then pr + 1 = q.row else pr = q.row + 1) → ∀ c c', q.west ≤ c + gapOf diagonal →
    c ≤ q.east → Conn nc zones zoneId q.row c → Vertical (reachOf diagonal) q.row c pr c' → Conn nc zones zoneId pr c' →
    Done nc zones zoneId (reachOf diagonal) s.1 s.2 pr c'
  start : Done nc zones zoneId (reachOf diagonal) s.1 s.2 row col

theorem sameRun_self {row c : Nat} (h : Conn nc zones zoneId row c) : SameRun nc zones zoneId row c c := fun d hd => by
  rw [show d = c by omega]; exact h

/-- Runs of cells are added as a whole. -/
theorem run_marked {cl : List (Option Nat)} {row : Nat}
    (huni : ∀ c, Conn nc zones zoneId row c → Conn nc zones zoneId row (c + 1) →
      (cell nc cl row c = none ↔ cell nc cl row (c + 1) = none)) {x y : Nat} (h : SameRun nc zones zoneId row x y)
    (hx : cell nc cl row x ≠ none) : cell nc cl row y ≠ none := by
  have key : ∀ d a, (∀ c, a ≤ c → c ≤ a + d → Conn nc zones zoneId row c) →
      (cell nc cl row a = none ↔ cell nc cl row (a + d) = none) := by
    intro d
    induction d with
    | zero => intro a _; rfl
    | succ d ih =>
      intro a ha
      rw [ih a (fun c h1 h2 => ha c h1 (by omega))]
      exact huni (a + d) (ha _ (by omega) (by omega)) (ha _ (by omega) (by omega))
  rcases Nat.le_total x y with hxy | hxy
  · have := key (y - x) x (fun c h1 h2 => h c (by omega))
    rw [show x + (y - x) = y by omega] at this
    exact fun hn => hx (this.2 hn)
  · have := key (x - y) y (fun c h1 h2 => h c (by omega))
    rw [show y + (x - y) = x by omega] at this
    exact fun hn => hx (this.1 hn)

theorem reach_conn {diagonal : Bool} {row col i j : Nat} (hstart : Conn nc zones zoneId row col)
    (h : ReflTransGen (Linked diagonal (at2 nc zones)) (row, col) (i, j)) : Conn nc zones zoneId i j := by
  have : ∀ c, ReflTransGen (Linked diagonal (at2 nc zones)) (row, col) c → at2 nc zones c = some zoneId := by
    intro c hc
    induction hc with
    | refl => exact hstart
    | tail _ h ih => rw [← h.2.2]; exact ih
  exact this _ h

theorem linked_of_conn {diagonal : Bool} {i j i' j' : Nat} (h : Conn nc zones zoneId i j) (h' : Conn nc zones zoneId i' j')
    (ha : Adjacent diagonal (i, j) (i', j')) : Linked diagonal (at2 nc zones) (i, j) (i', j') := by
  unfold Conn at h h'
  exact ⟨ha, by unfold at2; rw [h]; simp, by unfold at2; rw [h, h']⟩

theorem next_row {row : Nat} {down : Bool} (hr : row < nr) (h : rowAvailable nr row down = true) :
    nextRow row down < nr ∧ (row + 1 = nextRow row down ∨ nextRow row down + 1 = row) := by
  unfold rowAvailable at h
  unfold nextRow
  cases down with
  | false => simp at h ⊢; omega
  | true => simp at h ⊢; omega

theorem fill_step (hz : zones.length = nr * nc) {diagonal : Bool} {row col : Nat} (hstart : Conn nc zones zoneId row col)
    {base : List (Option Nat)} {cl : List (Option Nat)} {q : Request} {rest : List Request}
    (hs : FillInv nr nc zones zoneId clumpId diagonal row col base (cl, q :: rest)) :
    ∃ s', popRequest nr nc zones zoneId clumpId diagonal (cl, q :: rest) = .ok s' ∧
      FillInv nr nc zones zoneId clumpId diagonal row col base s' ∧
      s'.2.length + 4 * unmarked s'.1 < (q :: rest).length + 4 * unmarked cl := by
  obtain ⟨hr, hwe, he⟩ := hs.valid q (List.mem_cons_self ..)
  obtain ⟨cl', ps, h1, hp⟩ := process_ok (clumpId := clumpId) hz diagonal hr he hwe hs.len (rest := rest) (hs.uni q.row)
  replace hp : Processed nr nc zones zoneId clumpId (reachOf diagonal) (gapOf diagonal) q cl cl' ps := hp
  have hk : reachOf diagonal ≤ 1 := by unfold reachOf; split <;> omega
  have huni : ∀ i c, Conn nc zones zoneId i c → Conn nc zones zoneId i (c + 1) →
      (cell nc cl' i c = none ↔ cell nc cl' i (c + 1) = none) := by
    intro i c e1 e2
    by_cases hi : i = q.row
    · subst hi; exact hp.uni c e1 e2
    · rw [hp.other i c hi, hp.other i (c + 1) hi]; exact hs.uni i c e1 e2
  -- What is marked remains marked
  have hmono : ∀ i j, cell nc cl i j ≠ none → cell nc cl' i j ≠ none := by
    intro i j h
    by_cases hi : i = q.row
    · subst hi
      rcases hp.sound j with h' | h'
      · rw [h']; exact h
      · exact absurd h'.1.1 h
    · rw [hp.other i j hi]; exact h
  have hdone : ∀ i j, Done nc zones zoneId (reachOf diagonal) cl (q :: rest) i j →
      Done nc zones zoneId (reachOf diagonal) cl' (ps ++ rest) i j := by
    intro i j h
    rcases h with h | ⟨q', hq', e1, x, e2, e3, e4⟩
    · exact .inl (hmono i j h)
    · rcases List.mem_cons.1 hq' with e | e
      · subst e; subst e1
        have := hp.comp x e2 e3 (e4 x (by omega))
        exact .inl (run_marked hp.uni e4 this)
      · exact .inr ⟨q', List.mem_append_right _ e, e1, x, e2, e3, e4⟩
  -- Newly added cells
  have hadd : ∀ i j, New nc clumpId base cl' i j → New nc clumpId base cl i j ∨ (i = q.row ∧ New nc clumpId cl cl' i j) := by
    intro i j h
    by_cases hi : i = q.row
    · subst hi
      rcases hp.sound j with h' | h'
      · exact .inl ⟨h.1, by rw [← h']; exact h.2⟩
      · exact .inr ⟨rfl, h'.1⟩
    · exact .inl ⟨h.1, by rw [← hp.other i j hi]; exact h.2⟩
  have hnb : ∀ j, New nc clumpId cl cl' q.row j →
      New nc clumpId base cl' q.row j ∧ ReflTransGen (Linked diagonal (at2 nc zones)) (row, col) (q.row, j) := by
    intro j h
    constructor
    · refine ⟨?_, h.2⟩
      rcases hs.frame q.row j with h' | h'
      · rw [← h']; exact h.1
      · have := h'.1.2; simp only at this; rw [h.1] at this; cases this
    · rcases hp.sound j with h' | ⟨_, x, e1, e2, e3⟩
      · have := h.2; rw [h', h.1] at this; cases this
      · have hx : ReflTransGen (Linked diagonal (at2 nc zones)) (row, col) (q.row, x) :=
          hs.reach q (List.mem_cons_self ..) x e1 e2 (e3 x (by omega))
        have step : ∀ d y, SameRun nc zones zoneId q.row y (y + d) →
            ReflTransGen (Linked diagonal (at2 nc zones)) (q.row, y) (q.row, y + d) ∧
            ReflTransGen (Linked diagonal (at2 nc zones)) (q.row, y + d) (q.row, y) := by
          intro d
          induction d with
          | zero => intro y _; exact ⟨.refl, .refl⟩
          | succ d ih =>
            intro y hy
            obtain ⟨f1, f2⟩ := ih y (fun c hc => hy c (by omega))
            have g1 := hy (y + d) (by omega)
            have g2 := hy (y + (d + 1)) (by omega)
            exact ⟨f1.tail (linked_of_conn g1 g2 (.inl ⟨rfl, .inl rfl⟩)),
              ReflTransGen.head (linked_of_conn g2 g1 (.inl ⟨rfl, .inr rfl⟩)) f2⟩
        rcases Nat.le_total x j with hxj | hxj
        · have := (step (j - x) x (by rw [show x + (j - x) = j by omega]; exact e3)).1
          rw [show x + (j - x) = j by omega] at this
          exact hx.trans this
        · have := (step (x - j) j (by rw [show j + (x - j) = x by omega]; exact fun c hc => e3 c (by omega))).2
          rw [show j + (x - j) = x by omega] at this
          exact hx.trans this
  have hconn : ∀ j, New nc clumpId cl cl' q.row j → Conn nc zones zoneId q.row j := fun j h => reach_conn hstart (hnb j h).2
  -- Cells next to a span which is added are marked
  have hbeside : ∀ p ∈ ps, ∀ c', p.west ≤ c' + 1 → c' ≤ p.east + 1 → Conn nc zones zoneId q.row c' →
      cell nc cl' q.row c' ≠ none := by
    intro p hpm c' e1 e2 e3
    obtain ⟨_, _, v3, v4⟩ := hp.pushes.valid p hpm
    by_cases i1 : c' + 1 = p.west
    · have := v4 p.west (Nat.le_refl _) v3
      have h3 := (hp.uni c' e3 (i1 ▸ hconn _ this))
      rw [i1, this.2] at h3
      exact fun hn => by have := h3.1 hn; cases this
    · by_cases i2 : c' = p.east + 1
      · have := v4 p.east v3 (Nat.le_refl _)
        have h3 := (hp.uni p.east (hconn _ this) (i2 ▸ e3))
        rw [← i2, this.2] at h3
        exact fun hn => by have := h3.2 hn; cases this
      · rw [(v4 c' (by omega) (by omega)).2]; simp
  refine ⟨(cl', ps ++ rest), h1, ⟨hp.len, ?_, huni, ?_, ?_, ?_, ?_, hdone _ _ hs.start⟩, ?_⟩
  · intro i j
    by_cases hi : i = q.row
    · subst hi
      rcases hp.sound j with h | h
      · simp only
        rcases hs.frame q.row j with h' | h'
        · exact .inl (by rw [h, h'])
        · exact .inr ⟨⟨h'.1.1, by rw [h]; exact h'.1.2⟩, h'.2⟩
      · exact .inr (hnb j h.1)
    · simp only
      rcases hs.frame i j with h' | h'
      · exact .inl (by rw [hp.other i j hi, h'])
      · exact .inr ⟨⟨h'.1.1, by rw [hp.other i j hi]; exact h'.1.2⟩, h'.2⟩
  · intro p hpm
    rcases List.mem_append.1 hpm with hpm | hpm
    · obtain ⟨v1, v2, v3, v4⟩ := hp.pushes.valid p hpm
      refine ⟨?_, v3, ((hconn _ (v4 p.east v3 (Nat.le_refl _))).lt hz).2⟩
      rw [v2]
      exact (next_row hr v1).1
    · exact hs.valid p (List.mem_cons_of_mem _ hpm)
  · intro p hpm x e1 e2 e3
    rcases List.mem_append.1 hpm with hpm | hpm
    · obtain ⟨v1, v2, v3, v4⟩ := hp.pushes.valid p hpm
      have : ∃ y, p.west ≤ y ∧ y ≤ p.east ∧ y ≤ x + reachOf diagonal ∧ x ≤ y + reachOf diagonal := by
        by_cases i1 : x < p.west
        · exact ⟨p.west, by omega, by omega, by omega, by omega⟩
        · by_cases i2 : p.east < x
          · exact ⟨p.east, by omega, by omega, by omega, by omega⟩
          · exact ⟨x, by omega, by omega, by omega, by omega⟩
      obtain ⟨y, y1, y2, y3, y4⟩ := this
      have hy := v4 y y1 y2
      refine (hnb y hy).2.tail (linked_of_conn (hconn y hy) e3 (Vertical.adjacent ⟨?_, y3, y4⟩))
      rw [v2]
      exact (next_row hr v1).2
    · exact hs.reach p (List.mem_cons_of_mem _ hpm) x e1 e2 e3
  · intro i j i' j' hn hv hc
    rcases hadd i j hn with ho | ⟨rfl, ho⟩
    · exact hdone _ _ (hs.near i j i' j' ho hv hc)
    · have hi' := (hc.lt hz).1
      have push : ∀ p ∈ ps, p.west ≤ j → j ≤ p.east → p.row = i' →
          Done nc zones zoneId (reachOf diagonal) cl' (ps ++ rest) i' j' := fun p hpm e1 e2 e3 =>
        .inr ⟨p, List.mem_append_left _ hpm, e3, j', by have := hv.2; omega, by have := hv.2; omega, sameRun_self hc⟩
      by_cases hd : (if q.down then q.row + 1 = i' else i' + 1 = q.row)
      · have ha : rowAvailable nr q.row q.down = true := by
          unfold rowAvailable; cases hq : q.down <;> simp_all <;> omega
        obtain ⟨p, p1, p2, p3, p4⟩ := hp.pushes.ahead j ho (by omega) ha
        refine push p p1 p3 p4 ?_
        rw [(hp.pushes.valid p p1).2.1, p2]
        unfold nextRow; cases hq : q.down <;> simp_all
        omega
      · have hd' : if q.down then i' + 1 = q.row else i' = q.row + 1 := by
          have := hv.1; cases hq : q.down <;> simp_all <;> omega
        have ha : rowAvailable nr q.row (!q.down) = true := by
          unfold rowAvailable; cases hq : q.down <;> simp_all <;> omega
        rcases hp.pushes.back j ho ha with ⟨e1, e2⟩ | ⟨p, p1, p2, p3, p4⟩
        · exact hdone _ _ (hs.back q (List.mem_cons_self ..) i' hd' j j' e1 e2 (hconn j ho) hv hc)
        · refine push p p1 p3 p4 ?_
          rw [(hp.pushes.valid p p1).2.1, p2]
          unfold nextRow; cases hq : q.down <;> simp_all
          omega
  · intro p hpm pr hpr c c' e1 e2 e3 hv hc
    rcases List.mem_append.1 hpm with hpm | hpm
    · obtain ⟨v1, v2, v3, v4⟩ := hp.pushes.valid p hpm
      have : pr = q.row := by
        unfold rowAvailable at v1
        unfold nextRow at v2
        cases hq : p.down <;> simp_all
        omega
      subst this
      have h2 := hv.2
      refine .inl (hbeside p hpm c' ?_ ?_ hc)
      all_goals
        cases diagonal <;> simp only [reachOf, gapOf, Bool.false_eq_true, if_false, if_true] at h2 e1 ⊢ <;> omega
    · exact hdone _ _ (hs.back p (List.mem_cons_of_mem _ hpm) pr hpr c c' e1 e2 e3 hv hc)
  · have := hp.count
    simp only [List.length_append, List.length_cons]; omega

/-- Flood fill adds exactly the cells connected to the start. -/
theorem floodFill_ok (hz : zones.length = nr * nc) {diagonal : Bool} {row col : Nat} {base : List (Option Nat)}
    (hl : base.length = nr * nc) (hcl : Closed nc diagonal zones base) (hzone : cell nc zones row col ≠ none)
    (hnone : cell nc base row col = none) (hwest : ∀ c, c + 1 = col → cell nc zones row c ≠ cell nc zones row col)
    {fuel : Nat} (hfuel : 4 * (nr * nc) + 2 < fuel) :
    ∃ clumps, floodFill fuel nr nc diagonal zones row col base clumpId = .ok clumps ∧ clumps.length = nr * nc ∧
      ∀ c, (ReflTransGen (Linked diagonal (at2 nc zones)) (row, col) c → at2 nc base c = none ∧ at2 nc clumps c = some clumpId) ∧
        (¬ ReflTransGen (Linked diagonal (at2 nc zones)) (row, col) c → at2 nc clumps c = at2 nc base c) := by
  obtain ⟨zoneId, hzid⟩ := Option.ne_none_iff_exists'.1 hzone
  have hstart : Conn nc zones zoneId row col := hzid
  obtain ⟨hr, hc⟩ := hstart.lt hz
  have hclosed : ∀ c, ReflTransGen (Linked diagonal (at2 nc zones)) (row, col) c → at2 nc base c = none := by
    intro c h
    induction h with
    | refl => exact hnone
    | tail _ h ih => exact (hcl _ _ h).1 ih
  have hwest' : ∀ c, c + 1 = col → ¬ Conn nc zones zoneId row c := fun c h hc => hwest c h (hc.trans hzid.symm)
  have hk : reachOf diagonal ≤ 1 := by unfold reachOf; split <;> omega
  have hinit : FillInv nr nc zones zoneId clumpId diagonal row col base
      (base, pushIf nr row col col false [⟨row, col, col, true⟩]) := by
    have hmem : ∀ q ∈ pushIf nr row col col false [⟨row, col, col, true⟩], q = ⟨row, col, col, true⟩ ∨
        (0 < row ∧ q = ⟨row - 1, col, col, false⟩) := by
      intro q hq
      rw [pushIf_eq] at hq
      rcases List.mem_append.1 hq with hq | hq
      · obtain ⟨e1, rfl⟩ := mem_pushed.1 hq
        refine .inr ⟨by simpa [rowAvailable] using e1, by simp [nextRow]⟩
      · exact .inl (by simpa using hq)
    have hq1 : (⟨row, col, col, true⟩ : Request) ∈ pushIf nr row col col false [⟨row, col, col, true⟩] := by
      rw [pushIf_eq]; simp
    have hq2 : 0 < row → (⟨row - 1, col, col, false⟩ : Request) ∈ pushIf nr row col col false [⟨row, col, col, true⟩] := by
      intro h
      rw [pushIf_eq]
      refine List.mem_append_left _ (mem_pushed.2 ⟨by simpa [rowAvailable] using h, by simp [nextRow]⟩)
    refine ⟨hl, fun _ _ => .inl rfl, ?_, ?_, ?_, ?_, ?_, ?_⟩
    · intro i c e1 e2
      exact hcl (i, c) (i, c + 1) (linked_of_conn e1 e2 (.inl ⟨rfl, .inl rfl⟩))
    · intro q hq
      rcases hmem q hq with rfl | ⟨h0, rfl⟩
      · exact ⟨hr, Nat.le_refl _, hc⟩
      · exact ⟨by simp only; omega, Nat.le_refl _, hc⟩
    · intro q hq x e1 e2 e3
      rcases hmem q hq with rfl | ⟨h0, rfl⟩
      · simp only at e1 e2 e3 ⊢
        by_cases hx : x = col
        · rw [hx]
        · exact .single (linked_of_conn hstart e3 (.inl ⟨rfl, by simp only; omega⟩))
      · exact .single (linked_of_conn hstart e3 (Vertical.adjacent ⟨.inr (by simp only; omega), e1, e2⟩))
    · intro i j i' j' hn; exact absurd hn not_new_self
    · intro q hq pr hpr c c' e1 e2 e3 hv hc'
      have hv2 := hv.2
      rcases hmem q hq with rfl | ⟨h0, rfl⟩
      · simp only [if_true] at hpr e1 e2 e3
        have hcc : c = col := by
          by_contra hne
          refine hwest' c ?_ e3
          have : gapOf diagonal ≤ 1 := by unfold gapOf; split <;> omega
          omega
        refine .inr ⟨_, hq2 (by omega), by simp only; omega, c', ?_, ?_, sameRun_self hc'⟩ <;> simp only <;> omega
      · simp only [Bool.false_eq_true, if_false] at hpr e1 e2
        have hprr : pr = row := by omega
        subst hprr
        by_cases hcc : c = col
        · refine .inr ⟨_, hq1, rfl, c', ?_, ?_, sameRun_self hc'⟩ <;> simp only <;> omega
        · exfalso
          cases diagonal with
          | true => simp only [gapOf, if_true] at e1; omega
          | false =>
            simp only [gapOf, reachOf, Bool.false_eq_true, if_false] at e1 hv2
            exact hwest' c' (by omega) hc'
    · exact .inr ⟨_, hq1, rfl, col, by simp only; omega, by simp only; omega, sameRun_self hstart⟩
  obtain ⟨s, h1, h2, h3⟩ := whileLoop_ok
    (FillInv nr nc zones zoneId clumpId diagonal row col base) (fun s => s.2.length + 4 * unmarked s.1)
    (cond := fun s => !s.2.isEmpty) (body := popRequest nr nc zones zoneId clumpId diagonal)
    (fun s hs hc => by
      obtain ⟨cl, st⟩ := s
      cases st with
      | nil => simp at hc
      | cons q rest =>
        obtain ⟨s', e1, e2, e3⟩ := fill_step hz hstart hs
        exact ⟨s', e1, e2, e3⟩)
    fuel (base, pushIf nr row col col false [⟨row, col, col, true⟩]) hinit (by
      have e1 : unmarked base ≤ nr * nc := hl ▸ List.count_le_length
      have e2 := pushed_length nr row col col false
      rw [pushIf_eq]
      simp only [List.length_append, List.length_cons, List.length_nil]
      omega)
  have hempty : s.2 = [] := by simpa using h3
  have hmark : ∀ i j, Done nc zones zoneId (reachOf diagonal) s.1 s.2 i j →
      at2 nc base (i, j) = none → New nc clumpId base s.1 i j := by
    intro i j h hb
    rcases h with h | ⟨q, hq, _⟩
    · rcases h2.frame i j with h' | h'
      · exact absurd (h'.trans hb) h
      · exact h'.1
    · rw [hempty] at hq; simp at hq
  have hall : ∀ c, ReflTransGen (Linked diagonal (at2 nc zones)) (row, col) c → New nc clumpId base s.1 c.1 c.2 := by
    intro c h
    induction h with
    | refl => exact hmark row col h2.start hnone
    | @tail b c hb hbc ih =>
      have hcz : Conn nc zones zoneId c.1 c.2 := reach_conn hstart (hb.tail hbc)
      have hbz : Conn nc zones zoneId b.1 b.2 := reach_conn hstart hb
      have hbase := hclosed c (hb.tail hbc)
      refine hmark c.1 c.2 ?_ hbase
      rcases adjacent_cases (show Adjacent diagonal (b.1, b.2) (c.1, c.2) from hbc.1) with ⟨e1, e2⟩ | hv
      · refine .inl ?_
        rcases e2 with e2 | e2
        · have := (h2.uni b.1 b.2 hbz (by rw [e1, e2]; exact hcz))
          rw [ih.2, e1, e2] at this
          exact fun hn => by have := this.2 hn; cases this
        · have := (h2.uni c.1 c.2 hcz (by rw [← e1, e2]; exact hbz))
          rw [e2, ← e1, ih.2] at this
          rw [← e1]
          exact fun hn => by have := this.1 hn; cases this
      · exact h2.near b.1 b.2 c.1 c.2 ih hv hcz
  refine ⟨s.1, ?_, h2.len, fun c => ⟨fun h => ⟨hclosed c h, (hall c h).2⟩, fun h => ?_⟩⟩
  · unfold floodFill
    rw [get_ok hz hr hc, M.bind_ok, hzid]
    simp only [h1, M.bind_ok]
    rfl
  · rcases h2.frame c.1 c.2 with h' | h'
    · exact h'
    · exact absurd h'.2 h

end Lue.Clump

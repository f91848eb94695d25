import Verif.Clump.Process

/-!
C23: handling a single request, continued.
-/
namespace Lue.Clump

variable {Z : Type} [DecidableEq Z] {nr nc : Nat} {zones : List (Option Z)} {zoneId : Z} {clumpId : Nat}

/-- The result of handling a request. `ps` are the requests pushed. `k`: whether (1) or not (0) cells are connected to
diagonal neighbours. -/
structure Processed (nr nc : Nat) (zones : List (Option Z)) (zoneId : Z) (clumpId k gap : Nat) (q : Request)
    (cl0 cl' : List (Option Nat)) (ps : List Request) : Prop where
  len : cl'.length = nr * nc
  other : ∀ i j, i ≠ q.row → cell nc cl' i j = cell nc cl0 i j
  sound : ∀ j, cell nc cl' q.row j = cell nc cl0 q.row j ∨
    (New nc clumpId cl0 cl' q.row j ∧ ∃ x, q.west ≤ x + k ∧ x ≤ q.east + k ∧ SameRun nc zones zoneId q.row x j)
  comp : ∀ x, q.west ≤ x + k → x ≤ q.east + k → Conn nc zones zoneId q.row x → cell nc cl' q.row x ≠ none
  uni : ∀ c, Conn nc zones zoneId q.row c → Conn nc zones zoneId q.row (c + 1) →
    (cell nc cl' q.row c = none ↔ cell nc cl' q.row (c + 1) = none)
  pushes : Pushes nr nc clumpId gap q cl0 cl' 0 0 ps
  count : ps.length + 4 * unmarked cl' ≤ 4 * unmarked cl0

theorem not_new_self {cl : List (Option Nat)} {row c : Nat} : ¬ New nc clumpId cl cl row c := fun h => by
  have h1 := h.1; rw [h.2] at h1; cases h1

/-- The start of the loop, in case cells to the west of the span do not have to be added. -/
theorem init_plain {k gap : Nat} {q : Request} {cl0 : List (Option Nat)} (hl : cl0.length = nr * nc) (hwe : q.west ≤ q.east)
    {rest : List Request} (hk : k ≤ 1)
    (huni : ∀ c, Conn nc zones zoneId q.row c → Conn nc zones zoneId q.row (c + 1) →
      (cell nc cl0 q.row c = none ↔ cell nc cl0 q.row (c + 1) = none))
    (hcomp : k = 1 → ∀ c, c + 1 = q.west → Conn nc zones zoneId q.row c → cell nc cl0 q.row c ≠ none)
    (hfirst : Conn nc zones zoneId q.row q.west → cell nc cl0 q.row q.west = none →
      ∀ c, c + 1 = q.west → ¬ Conn nc zones zoneId q.row c) :
    ScanInv nr nc zones zoneId clumpId k gap q cl0 rest ⟨q.west, q.west, cl0, rest⟩ where
  len := hl
  le := Nat.le_refl _
  col_le := Nat.le_refl _
  bound := .inl (by simp only; omega)
  other _ _ _ := rfl
  sound _ := .inl rfl
  comp x h1 h2 h3 h4 := hcomp (by simp only at h2; omega) x (by simp only at h2; omega) h4
  pend c h1 h2 := by simp only at h1 h2; omega
  uni c h1 h2 _ := huni c h1 h2
  first _ := hfirst
  pushes := ⟨[], rfl, ⟨by simp, fun c h => absurd h not_new_self, fun c h => absurd h not_new_self⟩, by simp⟩

/-- The start of the loop, in case cells [a, west) are added. -/
theorem init_west {k gap a hi : Nat} {q : Request} {cl0 cl1 : List (Option Nat)} (hwe : q.west ≤ q.east)
    {rest : List Request} (hk : k ≤ 1) (cond : Prop) [Decidable cond]
    (huni : ∀ c, Conn nc zones zoneId q.row c → Conn nc zones zoneId q.row (c + 1) →
      (cell nc cl0 q.row c = none ↔ cell nc cl0 q.row (c + 1) = none))
    (haw : a ≤ q.west) (hm : Marked nr nc zones zoneId clumpId q.row a q.west cl0 cl1)
    (hstop : ∀ c, c + 1 = a → ¬ Conn nc zones zoneId q.row c)
    (hnone : cell nc cl0 q.row (q.west - 1) = none)
    (hsound : a < q.west → k = 1 ∨ Conn nc zones zoneId q.row q.west)
    (hc1 : cond → a ≤ hi ∧ hi < q.west)
    (hc2 : ∀ c, a ≤ c → c < q.west → q.west ≤ c + gap ∨ (cond ∧ c ≤ hi)) :
    ScanInv nr nc zones zoneId clumpId k gap q cl0 rest
      ⟨q.west, a, cl1, if cond then pushIf nr q.row a hi (!q.down) rest else rest⟩ := by
  have hval : ∀ j, cell nc cl1 q.row j = if a ≤ j ∧ j < q.west then some clumpId else cell nc cl0 q.row j := fun j => by
    rw [hm.cells]; simp only [true_and]
  have hn : ∀ d c, c + 1 + d = q.west → a ≤ c → cell nc cl0 q.row c = none := by
    intro d
    induction d with
    | zero => intro c hc _; rw [show c = q.west - 1 by omega]; exact hnone
    | succ d ih =>
      intro c hc hac
      exact (huni c (hm.conn c hac (by omega)) (hm.conn (c + 1) (by omega) (by omega))).2 (ih (c + 1) (by omega) (by omega))
  have hnew : ∀ c, a ≤ c → c < q.west → New nc clumpId cl0 cl1 q.row c := fun c h1 h2 =>
    ⟨hn (q.west - (c + 1)) c (by omega) h1, by rw [hval, if_pos ⟨h1, h2⟩]⟩
  have hold : ∀ c, New nc clumpId cl0 cl1 q.row c → a ≤ c ∧ c < q.west := fun c h => by
    by_contra hno
    have := h.2
    rw [hval, if_neg hno, h.1] at this
    cases this
  refine ⟨hm.len, Nat.le_refl _, haw, .inl (by simp only; omega), ?_, ?_, ?_, hnew, ?_, ?_, ?_⟩
  · intro i j hi
    simp only
    rw [hm.cells, if_neg (by omega)]
  · intro j
    simp only
    by_cases hj : a ≤ j ∧ j < q.west
    · refine .inr ⟨hnew j hj.1 hj.2, ?_⟩
      rcases hsound (by omega) with h | h
      · exact ⟨q.west - 1, by omega, by omega, fun c hc => hm.conn c (by omega) (by omega)⟩
      · refine ⟨q.west, by omega, hwe, fun c hc => ?_⟩
        by_cases hcw : c = q.west
        · rw [hcw]; exact h
        · exact hm.conn c (by omega) (by omega)
    · exact .inl (by rw [hval, if_neg hj])
  · intro x h1 h2 h3 h4
    simp only at h2 ⊢
    by_cases hx : a ≤ x
    · rw [(hnew x hx h2).2]; simp
    · exact absurd h4 (hstop x (by omega))
  · intro c hc hc' hno
    simp only at hno ⊢
    rw [hval, hval]
    by_cases i1 : a ≤ c ∧ c < q.west
    · rw [if_pos i1]
      have : a ≤ c + 1 ∧ c + 1 < q.west := by omega
      rw [if_pos this]
    · rw [if_neg i1]
      by_cases i2 : a ≤ c + 1 ∧ c + 1 < q.west
      · exact absurd hc (hstop c (by omega))
      · rw [if_neg i2]; exact huni c hc hc'
  · intro h1 _ _ c h2
    simp only at h1 h2
    exact hstop c (by omega)
  · refine ⟨if cond then pushed nr q.row a hi (!q.down) else [], ?_, ⟨?_, ?_, ?_⟩, ?_⟩
    · simp only [pushIf_eq]
      split <;> simp
    · intro p hp
      split at hp
      · rename_i h
        obtain ⟨e1, rfl⟩ := mem_pushed.1 hp
        have := hc1 h
        exact ⟨e1, rfl, this.1, fun c g1 g2 => hnew c g1 (by simp only at g2; omega)⟩
      · simp at hp
    · intro c hc hno
      exact absurd (hold c hc) hno
    · intro c hc ha
      have h := hold c hc
      rcases hc2 c h.1 h.2 with h1 | ⟨h1, h2⟩
      · exact .inl ⟨h1, by omega⟩
      · exact .inr ⟨⟨nextRow q.row (!q.down), a, hi, !q.down⟩, by rw [if_pos h1]; exact mem_pushed.2 ⟨ha, rfl⟩, rfl, h.1, h2⟩
    · have l1 := pushed_length nr q.row a hi (!q.down)
      have : (if cond then pushed nr q.row a hi (!q.down) else []).length ≤ 1 := by split <;> simp [l1]
      simp only
      by_cases haw' : a < q.west
      · have := hm.count_lt a (Nat.le_refl _) haw' (hnew a (Nat.le_refl _) haw').1
        rw [if_pos haw']; omega
      · have hcf : ¬ cond := fun h => by have := hc1 h; omega
        have := hm.count
        rw [if_neg haw', if_neg hcf]; simp; omega

theorem westNonDiagonal_ok (hz : zones.length = nr * nc) {q : Request} (hr : q.row < nr) (he : q.east < nc)
    (hwe : q.west ≤ q.east) {cl0 : List (Option Nat)} (hl : cl0.length = nr * nc) {rest : List Request}
    (huni : ∀ c, Conn nc zones zoneId q.row c → Conn nc zones zoneId q.row (c + 1) →
      (cell nc cl0 q.row c = none ↔ cell nc cl0 q.row (c + 1) = none)) :
    ∃ col cl1 rs, westNonDiagonal nr nc zones zoneId clumpId q cl0 rest = .ok (col, cl1, rs) ∧
      ScanInv nr nc zones zoneId clumpId 0 1 q cl0 rest ⟨q.west, col, cl1, rs⟩ := by
  unfold westNonDiagonal
  by_cases hw : q.west > 0
  · rw [connected_ok hz hr (by omega), added_ok hl hr (by omega)]
    by_cases hc : Conn nc zones zoneId q.row q.west
    · cases ha : cell nc cl0 q.row (q.west - 1) with
      | none =>
        obtain ⟨a, cl1, h1, h2, h3, hm⟩ := scanWest_ok (zoneId := zoneId) (clumpId := clumpId) hz hr q.west cl0 hl (by omega)
        refine ⟨a, cl1, if a < q.west - 1 then pushIf nr q.row a (q.west - 2) (!q.down) rest else rest, ?_,
          init_west hwe (by omega) (a < q.west - 1) huni h2 hm h3 ha (fun _ => .inr hc) (by omega) (by omega)⟩
        simp only [hw, hc, decide_true, andThen, if_true, M.bind_ok, h1, Option.isSome, Bool.not_false]
        split <;> rfl
      | some v =>
        refine ⟨q.west, cl0, rest, ?_, init_plain hl hwe (by omega) huni (by omega) ?_⟩
        · simp only [hw, hc, decide_true, andThen, if_true, M.bind_ok, Option.isSome]
          rfl
        · intro _ hn c hc1 hc2
          have := (huni c hc2 (hc1 ▸ hc)).2 (hc1 ▸ hn)
          rw [show c = q.west - 1 by omega, ha] at this
          cases this
    · refine ⟨q.west, cl0, rest, ?_, init_plain hl hwe (by omega) huni (by omega) (fun h => absurd h hc)⟩
      simp only [hw, hc, decide_true, decide_false, andThen, if_true, M.bind_ok]
      rfl
  · refine ⟨q.west, cl0, rest, ?_, init_plain hl hwe (by omega) huni (by omega) (fun _ _ c h => by omega)⟩
    simp only [hw, decide_false, andThen]
    rfl

theorem westDiagonal_ok (hz : zones.length = nr * nc) {q : Request} (hr : q.row < nr) (he : q.east < nc)
    (hwe : q.west ≤ q.east) {cl0 : List (Option Nat)} (hl : cl0.length = nr * nc) {rest : List Request}
    (huni : ∀ c, Conn nc zones zoneId q.row c → Conn nc zones zoneId q.row (c + 1) →
      (cell nc cl0 q.row c = none ↔ cell nc cl0 q.row (c + 1) = none)) :
    ∃ col cl1 rs, westDiagonal nr nc zones zoneId clumpId q cl0 rest = .ok (col, cl1, rs) ∧
      ScanInv nr nc zones zoneId clumpId 1 0 q cl0 rest ⟨q.west, col, cl1, rs⟩ := by
  unfold westDiagonal
  by_cases hw : q.west > 0
  · rw [connected_ok hz hr (by omega), added_ok hl hr (by omega)]
    by_cases hc : Conn nc zones zoneId q.row (q.west - 1)
    · cases ha : cell nc cl0 q.row (q.west - 1) with
      | none =>
        obtain ⟨a, cl1, h1, h2, h3, hm⟩ := scanWest_ok (zoneId := zoneId) (clumpId := clumpId) hz hr q.west cl0 hl (by omega)
        refine ⟨a, cl1, if a < q.west then pushIf nr q.row a (q.west - 1) (!q.down) rest else rest, ?_,
          init_west hwe (by omega) (a < q.west) huni h2 hm h3 ha (fun _ => .inl rfl) (by omega) (by omega)⟩
        simp only [hw, hc, decide_true, andThen, if_true, M.bind_ok, h1, Option.isSome, Bool.not_false]
        split <;> rfl
      | some v =>
        refine ⟨q.west, cl0, rest, ?_, init_plain hl hwe (by omega) huni ?_ ?_⟩
        · simp only [hw, hc, decide_true, andThen, if_true, M.bind_ok, Option.isSome]
          rfl
        · intro _ c hc1 _
          rw [show c = q.west - 1 by omega, ha]; simp
        · intro hcw hn c hc1 hc2
          have := (huni c hc2 (hc1 ▸ hcw)).2 (hc1 ▸ hn)
          rw [show c = q.west - 1 by omega, ha] at this
          cases this
    · have hnc : ∀ c, c + 1 = q.west → ¬ Conn nc zones zoneId q.row c := fun c h => by
        rw [show c = q.west - 1 by omega]; exact hc
      refine ⟨q.west, cl0, rest, ?_, init_plain hl hwe (by omega) huni (fun _ c h h' => absurd h' (hnc c h)) (fun _ _ => hnc)⟩
      simp only [hw, hc, decide_true, decide_false, andThen, if_true, M.bind_ok]
      rfl
  · refine ⟨q.west, cl0, rest, ?_, init_plain hl hwe (by omega) huni (fun _ c h => by omega) (fun _ _ c h => by omega)⟩
    simp only [hw, decide_false, andThen]
    rfl

theorem processNonDiagonal_ok (hz : zones.length = nr * nc) {q : Request} (hr : q.row < nr) (he : q.east < nc)
    (hwe : q.west ≤ q.east) {cl0 : List (Option Nat)} (hl : cl0.length = nr * nc) {rest : List Request}
    (huni : ∀ c, Conn nc zones zoneId q.row c → Conn nc zones zoneId q.row (c + 1) →
      (cell nc cl0 q.row c = none ↔ cell nc cl0 q.row (c + 1) = none)) :
    ∃ cl' ps, processNonDiagonal nr nc zones zoneId clumpId q (cl0, rest) = .ok (cl', ps ++ rest) ∧
      Processed nr nc zones zoneId clumpId 0 1 q cl0 cl' ps := by
  obtain ⟨col, cl1, rs, h1, h2⟩ := westNonDiagonal_ok (clumpId := clumpId) hz hr he hwe hl (rest := rest) huni
  obtain ⟨s, h3, h4, h5, h6⟩ := scan_ok hz hr he hwe h2 rfl
  obtain ⟨ps, h7, h8, h9⟩ := h4.pushes
  refine ⟨s.clumps, ps, ?_, h4.len, h4.other, ?_, ?_, ?_, ?_, by omega⟩
  · simp only [processNonDiagonal, h1, M.bind_ok, h3]
    rw [h7]; rfl
  · intro j
    rcases h4.sound j with h | ⟨h, x, e1, e2, e3⟩
    · exact .inl h
    · exact .inr ⟨h, x, e1, by omega, e3⟩
  · intro x e1 e2 e3
    exact h4.comp x e1 (by omega) (by omega) e3
  · intro c e1 e2
    exact h4.uni c e1 e2 (by omega)
  · exact ⟨h8.valid, fun c e1 _ => h8.ahead c e1 (by omega), h8.back⟩

theorem processDiagonal_ok (hz : zones.length = nr * nc) {q : Request} (hr : q.row < nr) (he : q.east < nc)
    (hwe : q.west ≤ q.east) {cl0 : List (Option Nat)} (hl : cl0.length = nr * nc) {rest : List Request}
    (huni : ∀ c, Conn nc zones zoneId q.row c → Conn nc zones zoneId q.row (c + 1) →
      (cell nc cl0 q.row c = none ↔ cell nc cl0 q.row (c + 1) = none)) :
    ∃ cl' ps, processDiagonal nr nc zones zoneId clumpId q (cl0, rest) = .ok (cl', ps ++ rest) ∧
      Processed nr nc zones zoneId clumpId 1 0 q cl0 cl' ps := by
  obtain ⟨col, cl1, rs, h1, h2⟩ := westDiagonal_ok (clumpId := clumpId) hz hr he hwe hl (rest := rest) huni
  obtain ⟨s, h3, h4, h5, h6⟩ := scan_ok hz hr he hwe h2 rfl
  obtain ⟨ps, h7, h8, h9⟩ := h4.pushes
  have huni' : ∀ c, Conn nc zones zoneId q.row c → Conn nc zones zoneId q.row (c + 1) →
      (cell nc s.clumps q.row c = none ↔ cell nc s.clumps q.row (c + 1) = none) := fun c e1 e2 => h4.uni c e1 e2 (by omega)
  -- Nothing to be done after the loop
  have hplain : (Conn nc zones zoneId q.row (q.east + 1) → cell nc s.clumps q.row (q.east + 1) ≠ none) →
      Processed nr nc zones zoneId clumpId 1 0 q cl0 s.clumps ps := fun hlast =>
    { len := h4.len
      other := h4.other
      sound := fun j => by
        rcases h4.sound j with h | ⟨h, x, e1, e2, e3⟩
        · exact .inl h
        · exact .inr ⟨h, x, e1, by omega, e3⟩
      comp := fun x e1 e2 e3 => by
        by_cases hx : x = q.east + 1
        · rw [hx]; exact hlast (hx ▸ e3)
        · exact h4.comp x e1 (by omega) (by omega) e3
      uni := huni'
      pushes := ⟨h8.valid, fun c e1 _ => h8.ahead c e1 (by omega), h8.back⟩
      count := by omega }
  simp only [processDiagonal, h1, M.bind_ok, h3]
  unfold eastDiagonal
  by_cases c1 : q.east < nc - 1
  · by_cases c2 : s.west - 1 = q.east
    · have hsw : s.west = q.east + 1 := by omega
      rw [connected_ok hz hr (by omega), added_ok h4.len hr (by omega)]
      by_cases c3 : Conn nc zones zoneId q.row s.west
      · cases c4 : cell nc s.clumps q.row s.west with
        | none =>
          obtain ⟨b, cl', g1, g2, g3, g4, hm⟩ := scanEast_ok (zoneId := zoneId) (clumpId := clumpId) hz hr (nc - s.west) s.west
            s.clumps h4.len (by omega)
          have hb : s.west < b := by
            rcases Nat.eq_or_lt_of_le g2 with h | h
            · exact absurd (h ▸ c3) g4
            · exact h
          have hval : ∀ j, cell nc cl' q.row j = if s.west ≤ j ∧ j < b then some clumpId else cell nc s.clumps q.row j :=
            fun j => by rw [hm.cells]; simp only [true_and]
          have hnone : ∀ c, s.west ≤ c → c < b → cell nc s.clumps q.row c = none :=
            none_chain (fun _ => c4) hm.conn fun c _ e1 e2 => huni' c e1 e2
          have hin : ∀ c, s.west ≤ c → c < b → New nc clumpId cl0 cl' q.row c := fun c e1 e2 => by
            refine ⟨?_, by rw [hval, if_pos ⟨e1, e2⟩]⟩
            rcases h4.sound c with h | h
            · rw [← h]; exact hnone c e1 e2
            · exact h.1.1
          have hnew : ∀ c, New nc clumpId cl0 s.clumps q.row c → New nc clumpId cl0 cl' q.row c := fun c h => hm.new h
          have hout : ∀ c, New nc clumpId cl0 cl' q.row c → ¬ New nc clumpId cl0 s.clumps q.row c → s.west ≤ c ∧ c < b := by
            intro c e1 e2
            by_contra hno
            exact e2 ⟨e1.1, by have := e1.2; rwa [hval, if_neg hno] at this⟩
          refine ⟨cl', pushed nr q.row (q.east + 1) (b - 1) (!q.down) ++ pushed nr q.row (q.east + 1) (b - 1) q.down ++ ps, ?_,
            hm.len, ?_, ?_, ?_, ?_, ?_, ?_⟩
          · simp only [c1, c2, c3, decide_true, andThen, if_true, M.bind_ok, Option.isSome, Bool.not_false, g1, pushIf_eq, h7,
              List.append_assoc]
            rfl
          · intro i j hi
            rw [hm.cells, if_neg (by omega), h4.other i j hi]
          · intro j
            by_cases hj : s.west ≤ j ∧ j < b
            · exact .inr ⟨hin j hj.1 hj.2, s.west, by omega, by omega, fun c hc => hm.conn c (by omega) (by omega)⟩
            · rcases h4.sound j with h | ⟨h, x, e1, e2, e3⟩
              · exact .inl (by rw [hval, if_neg hj, h])
              · exact .inr ⟨hnew j h, x, e1, by omega, e3⟩
          · intro x e1 e2 e3
            rw [hval]
            by_cases hx : s.west ≤ x ∧ x < b
            · simp [hx]
            · rw [if_neg hx]; exact h4.comp x e1 (by omega) (by omega) e3
          · intro c e1 e2
            rw [hval, hval]
            by_cases i1 : s.west ≤ c ∧ c < b
            · by_cases i2 : s.west ≤ c + 1 ∧ c + 1 < b
              · simp [i1, i2]
              · exact absurd (show Conn nc zones zoneId q.row b by rw [show b = c + 1 by omega]; exact e2) g4
            · rw [if_neg i1]
              by_cases i2 : s.west ≤ c + 1 ∧ c + 1 < b
              · refine absurd e1 (h4.first (by omega) c3 c4 c (by omega))
              · rw [if_neg i2]; exact huni' c e1 e2
          · refine h8.append hnew ?_ ?_ ?_
            · intro p hp
              rcases List.mem_append.1 hp with hp | hp
              all_goals
                obtain ⟨e1, rfl⟩ := mem_pushed.1 hp
                exact ⟨e1, rfl, by simp only; omega, fun c f1 f2 => hin c (by simp only at f1; omega) (by simp only at f2; omega)⟩
            · intro c e1 _ e2 ha
              have := hout c e1 (fun h => e2 ⟨h, by omega⟩)
              exact ⟨_, List.mem_append_right _ (mem_pushed.2 ⟨ha, rfl⟩), rfl, by simp only; omega, by simp only; omega⟩
            · intro c e1 e2 ha
              have := hout c e1 e2
              exact .inr ⟨_, List.mem_append_left _ (mem_pushed.2 ⟨ha, rfl⟩), rfl, by simp only; omega, by simp only; omega⟩
          · have l1 := pushed_length nr q.row (q.east + 1) (b - 1) (!q.down)
            have l2 := pushed_length nr q.row (q.east + 1) (b - 1) q.down
            have := hm.count_lt s.west (Nat.le_refl _) hb c4
            simp only [List.length_append]; omega
        | some v =>
          refine ⟨s.clumps, ps, ?_, hplain fun _ => by rw [← hsw, c4]; simp⟩
          simp only [c1, c2, c3, decide_true, andThen, if_true, M.bind_ok, Option.isSome]
          rw [← h7]; rfl
      · refine ⟨s.clumps, ps, ?_, hplain fun h => absurd (hsw ▸ h) c3⟩
        simp only [c1, c2, c3, decide_true, decide_false, andThen, if_true, M.bind_ok]
        rw [← h7]; rfl
    · refine ⟨s.clumps, ps, ?_, hplain fun h => ?_⟩
      · simp only [c1, c2, decide_true, decide_false, andThen, if_true]
        rw [← h7]; rfl
      · have h10 : Conn nc zones zoneId q.row q.east := by
          rcases h4.bound with h | h
          · omega
          · exact h
        have := h4.comp q.east (by omega) (by omega) (Nat.le_refl _) h10
        exact fun hn => this ((huni' q.east h10 h).2 hn)
  · refine ⟨s.clumps, ps, ?_, hplain fun h => by have := (h.lt hz).2; omega⟩
    simp only [c1, decide_false, andThen]
    rw [← h7]; rfl

/-- Handling a request -/
theorem process_ok (hz : zones.length = nr * nc) (diagonal : Bool) {q : Request} (hr : q.row < nr) (he : q.east < nc)
    (hwe : q.west ≤ q.east) {cl0 : List (Option Nat)} (hl : cl0.length = nr * nc) {rest : List Request}
    (huni : ∀ c, Conn nc zones zoneId q.row c → Conn nc zones zoneId q.row (c + 1) →
      (cell nc cl0 q.row c = none ↔ cell nc cl0 q.row (c + 1) = none)) :
    ∃ cl' ps, popRequest nr nc zones zoneId clumpId diagonal (cl0, q :: rest) = .ok (cl', ps ++ rest) ∧
      Processed nr nc zones zoneId clumpId (if diagonal then 1 else 0) (if diagonal then 0 else 1) q cl0 cl' ps := by
  cases diagonal with
  | false => exact processNonDiagonal_ok hz hr he hwe hl huni
  | true => exact processDiagonal_ok hz hr he hwe hl huni

end Lue.Clump

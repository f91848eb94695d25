import Verif.Clump.Row

/-!
C23: handling a single request.
-/
namespace Lue.Clump

variable {Z : Type} [DecidableEq Z] {nr nc : Nat} {zones : List (Option Z)} {zoneId : Z} {clumpId : Nat}

/-- All cells in between two cells in a row are part of the zone, including these cells. -/
def SameRun (nc : Nat) (zones : List (Option Z)) (zoneId : Z) (row x y : Nat) : Prop :=
  ∀ c, (x ≤ c ∧ c ≤ y) ∨ (y ≤ c ∧ c ≤ x) → Conn nc zones zoneId row c

/-- A cell is added to the clump. -/
def New (nc clumpId : Nat) (clumps clumps' : List (Option Nat)) (row c : Nat) : Prop :=
  cell nc clumps row c = none ∧ cell nc clumps' row c = some clumpId

/-- The requests pushed while handling request `q`. Cells [lo, hi) still have to be considered. -/
structure Pushes (nr nc clumpId gap : Nat) (q : Request) (clumps clumps' : List (Option Nat)) (lo hi : Nat)
    (ps : List Request) : Prop where
  valid : ∀ p ∈ ps, rowAvailable nr q.row p.down = true ∧ p.row = nextRow q.row p.down ∧ p.west ≤ p.east ∧
    ∀ c, p.west ≤ c → c ≤ p.east → New nc clumpId clumps clumps' q.row c
  ahead : ∀ c, New nc clumpId clumps clumps' q.row c → ¬ (lo ≤ c ∧ c < hi) → rowAvailable nr q.row q.down = true →
    ∃ p ∈ ps, p.down = q.down ∧ p.west ≤ c ∧ c ≤ p.east
  back : ∀ c, New nc clumpId clumps clumps' q.row c → rowAvailable nr q.row (!q.down) = true →
    (q.west ≤ c + gap ∧ c ≤ q.east) ∨ ∃ p ∈ ps, p.down = !q.down ∧ p.west ≤ c ∧ c ≤ p.east

/-- The request pushed, if any. -/
def pushed (nr row west east : Nat) (down : Bool) : List Request :=
  if rowAvailable nr row down then [⟨nextRow row down, west, east, down⟩] else []

theorem pushIf_eq (nr row west east : Nat) (down : Bool) (rs : List Request) :
    pushIf nr row west east down rs = pushed nr row west east down ++ rs := by
  unfold pushIf pushed; split <;> rfl

theorem pushed_length (nr row west east : Nat) (down : Bool) : (pushed nr row west east down).length ≤ 1 := by
  unfold pushed; split <;> simp

theorem mem_pushed {nr row west east : Nat} {down : Bool} {p : Request} :
    p ∈ pushed nr row west east down ↔ rowAvailable nr row down = true ∧ p = ⟨nextRow row down, west, east, down⟩ := by
  unfold pushed; split <;> simp_all

/-- The state at the start of each iteration of the loop over the cells in the span of the parent. -/
structure ScanInv (nr nc : Nat) (zones : List (Option Z)) (zoneId : Z) (clumpId k gap : Nat) (q : Request)
    (cl0 : List (Option Nat)) (rest : List Request) (s : Scan) : Prop where
  len : s.clumps.length = nr * nc
  le : q.west ≤ s.west
  col_le : s.col ≤ s.west
  bound : s.west ≤ q.east + 1 ∨ Conn nc zones zoneId q.row q.east
  other : ∀ i j, i ≠ q.row → cell nc s.clumps i j = cell nc cl0 i j
  sound : ∀ j, cell nc s.clumps q.row j = cell nc cl0 q.row j ∨
    (New nc clumpId cl0 s.clumps q.row j ∧ ∃ x, q.west ≤ x + k ∧ x ≤ q.east ∧ SameRun nc zones zoneId q.row x j)
  comp : ∀ x, q.west ≤ x + k → x < s.west → x ≤ q.east → Conn nc zones zoneId q.row x → cell nc s.clumps q.row x ≠ none
  pend : ∀ c, s.col ≤ c → c < s.west → New nc clumpId cl0 s.clumps q.row c
  uni : ∀ c, Conn nc zones zoneId q.row c → Conn nc zones zoneId q.row (c + 1) → ¬ (s.col < s.west ∧ c + 1 = s.west) →
    (cell nc s.clumps q.row c = none ↔ cell nc s.clumps q.row (c + 1) = none)
  first : s.col = s.west → Conn nc zones zoneId q.row s.west → cell nc s.clumps q.row s.west = none →
    ∀ c, c + 1 = s.west → ¬ Conn nc zones zoneId q.row c
  pushes : ∃ ps, s.requests = ps ++ rest ∧ Pushes nr nc clumpId gap q cl0 s.clumps s.col s.west ps ∧
    ps.length + 4 * unmarked s.clumps + (if s.col < s.west then 3 else 0) ≤ 4 * unmarked cl0

theorem extend_ok (hz : zones.length = nr * nc) {row west : Nat} (hr : row < nr) (hw : west < nc) {clumps : List (Option Nat)}
    (hl : clumps.length = nr * nc) :
    ∃ b clumps', extend nc zones zoneId clumpId row west clumps = .ok (b, clumps') ∧ west ≤ b ∧ b ≤ nc ∧
      Marked nr nc zones zoneId clumpId row west b clumps clumps' ∧
      (¬ Conn nc zones zoneId row b ∨ (b = west ∧ cell nc clumps row west ≠ none)) ∧
      (west < b → cell nc clumps row west = none) := by
  unfold extend
  rw [added_ok hl hr hw, M.bind_ok]
  cases hc : cell nc clumps row west with
  | none =>
    obtain ⟨b, cl', h1, h2, h3, h4, h5⟩ := scanEast_ok (zoneId := zoneId) (clumpId := clumpId) hz hr (nc - west) west clumps hl
      (by omega)
    exact ⟨b, cl', h1, h2, h3, h5, .inl h4, fun _ => rfl⟩
  | some v =>
    exact ⟨west, clumps, rfl, Nat.le_refl _, by omega, ⟨hl, fun c h1 h2 => by omega, fun i j => by rw [if_neg (by omega)],
      Nat.le_refl _, fun c h1 h2 => by omega⟩, .inr ⟨rfl, by simp⟩, fun h => by omega⟩

/-- Cells which are already part of the clump remain so. -/
theorem Marked.new {row a b : Nat} {cl0 cl cl' : List (Option Nat)} (h : Marked nr nc zones zoneId clumpId row a b cl cl')
    {c : Nat} (hn : New nc clumpId cl0 cl row c) : New nc clumpId cl0 cl' row c := by
  refine ⟨hn.1, ?_⟩
  rw [h.cells]
  split
  · rfl
  · exact hn.2

/-- Adding cells to the requests. -/
theorem Pushes.append {gap lo hi lo' hi' : Nat} {q : Request} {cl0 cl cl' : List (Option Nat)} {ps ns : List Request}
    (h : Pushes nr nc clumpId gap q cl0 cl lo hi ps)
    (hnew : ∀ c, New nc clumpId cl0 cl q.row c → New nc clumpId cl0 cl' q.row c)
    (hvalid : ∀ p ∈ ns, rowAvailable nr q.row p.down = true ∧ p.row = nextRow q.row p.down ∧ p.west ≤ p.east ∧
      ∀ c, p.west ≤ c → c ≤ p.east → New nc clumpId cl0 cl' q.row c)
    (hahead : ∀ c, New nc clumpId cl0 cl' q.row c → ¬ (lo' ≤ c ∧ c < hi') →
      ¬ (New nc clumpId cl0 cl q.row c ∧ ¬ (lo ≤ c ∧ c < hi)) → rowAvailable nr q.row q.down = true →
      ∃ p ∈ ns, p.down = q.down ∧ p.west ≤ c ∧ c ≤ p.east)
    (hback : ∀ c, New nc clumpId cl0 cl' q.row c → ¬ New nc clumpId cl0 cl q.row c →
      rowAvailable nr q.row (!q.down) = true →
      (q.west ≤ c + gap ∧ c ≤ q.east) ∨ ∃ p ∈ ns, p.down = !q.down ∧ p.west ≤ c ∧ c ≤ p.east) :
    Pushes nr nc clumpId gap q cl0 cl' lo' hi' (ns ++ ps) where
  valid p hp := by
    rcases List.mem_append.1 hp with hp | hp
    · exact hvalid p hp
    · obtain ⟨h1, h2, h3, h4⟩ := h.valid p hp
      exact ⟨h1, h2, h3, fun c hc hc' => hnew c (h4 c hc hc')⟩
  ahead c hc hn ha := by
    by_cases ho : New nc clumpId cl0 cl q.row c ∧ ¬ (lo ≤ c ∧ c < hi)
    · obtain ⟨p, hp, h1⟩ := h.ahead c ho.1 ho.2 ha
      exact ⟨p, List.mem_append_right _ hp, h1⟩
    · obtain ⟨p, hp, h1⟩ := hahead c hc hn ho ha
      exact ⟨p, List.mem_append_left _ hp, h1⟩
  back c hc ha := by
    by_cases ho : New nc clumpId cl0 cl q.row c
    · rcases h.back c ho ha with h1 | ⟨p, hp, h1⟩
      · exact .inl h1
      · exact .inr ⟨p, List.mem_append_right _ hp, h1⟩
    · rcases hback c hc ho ha with h1 | ⟨p, hp, h1⟩
      · exact .inl h1
      · exact .inr ⟨p, List.mem_append_left _ hp, h1⟩

/-- Cells which are about to be added are not part of a clump yet. -/
theorem none_chain {row a b : Nat} {cl : List (Option Nat)} (h0 : a < b → cell nc cl row a = none)
    (hconn : ∀ c, a ≤ c → c < b → Conn nc zones zoneId row c)
    (huni : ∀ c, a ≤ c → Conn nc zones zoneId row c → Conn nc zones zoneId row (c + 1) →
      (cell nc cl row c = none ↔ cell nc cl row (c + 1) = none)) :
    ∀ c, a ≤ c → c < b → cell nc cl row c = none := by
  intro c hc hcb
  induction c with
  | zero => rw [show 0 = a by omega]; exact h0 (by omega)
  | succ c ih =>
    by_cases ha : a = c + 1
    · rw [← ha]; exact h0 (by omega)
    · exact (huni c (by omega) (hconn c (by omega) (by omega)) (hconn _ hc hcb)).1 (ih (by omega) (by omega))

theorem scanBody_ok (hz : zones.length = nr * nc) {k gap : Nat} {q : Request} (hr : q.row < nr) (he : q.east < nc)
    {cl0 : List (Option Nat)} {rest : List Request} {s : Scan}
    (hs : ScanInv nr nc zones zoneId clumpId k gap q cl0 rest s) (hw : s.west ≤ q.east) :
    ∃ s', scanBody nr nc zones zoneId clumpId q s = .ok s' ∧ ScanInv nr nc zones zoneId clumpId k gap q cl0 rest s' ∧
      s.west < s'.west := by
  obtain ⟨b, cl', h1, h2, h3, hm, h4, h5⟩ := extend_ok (zoneId := zoneId) (clumpId := clumpId) hz hr (show s.west < nc by omega) hs.len
  obtain ⟨w', g1, g2, g3, g4, g5⟩ := skip_ok (zoneId := zoneId) hz hr (q.east + 1 - (b + 1)) (b + 1) (by omega)
  obtain ⟨ps, hps, hp, hcount⟩ := hs.pushes
  have hnone : ∀ c, s.west ≤ c → c < b → cell nc s.clumps q.row c = none :=
    none_chain h5 hm.conn fun c hc hc1 hc2 => hs.uni c hc1 hc2 (by omega)
  have hnone0 : ∀ c, s.west ≤ c → c < b → cell nc cl0 q.row c = none := fun c hc hcb => by
    rcases hs.sound c with h | h
    · rw [← h]; exact hnone c hc hcb
    · exact h.1.1
  have hval : ∀ j, cell nc cl' q.row j = if s.west ≤ j ∧ j < b then some clumpId else cell nc s.clumps q.row j := fun j => by
    rw [hm.cells]; simp only [true_and]
  have hin : ∀ c, s.west ≤ c → c < b → New nc clumpId cl0 cl' q.row c := fun c hc hcb =>
    ⟨hnone0 c hc hcb, by rw [hval, if_pos ⟨hc, hcb⟩]⟩
  have hnew : ∀ c, New nc clumpId cl0 s.clumps q.row c → New nc clumpId cl0 cl' q.row c := fun c h => hm.new h
  have huni : ∀ c, Conn nc zones zoneId q.row c → Conn nc zones zoneId q.row (c + 1) →
      (cell nc cl' q.row c = none ↔ cell nc cl' q.row (c + 1) = none) := by
    intro c hc hc'
    rw [hval, hval]
    by_cases i1 : s.west ≤ c ∧ c < b
    · by_cases i2 : s.west ≤ c + 1 ∧ c + 1 < b
      · simp [i1, i2]
      · have : c + 1 = b := by omega
        rw [this] at hc'
        rcases h4 with h4 | h4
        · exact absurd hc' h4
        · omega
    · by_cases i2 : s.west ≤ c + 1 ∧ c + 1 < b
      · have hcw : c + 1 = s.west := by omega
        rw [if_neg i1, if_pos i2]
        by_cases hcol : s.col < s.west
        · have := (hs.pend c (by omega) (by omega)).2
          simp [this]
        · exact absurd hc (hs.first (by have := hs.col_le; omega) (hcw ▸ hc') (h5 (by omega)) c hcw)
      · rw [if_neg i1, if_neg i2]
        by_cases hex : s.col < s.west ∧ c + 1 = s.west
        · have h6 := (hs.pend c (by omega) (by omega)).2
          rcases h4 with h4 | h4
          · exact absurd (show Conn nc zones zoneId q.row b by rw [show b = c + 1 by omega]; exact hc') h4
          · rw [hex.2]; simp [h6, h4.2]
        · exact hs.uni c hc hc' hex
  have hbe : b ≤ q.east → b + 1 + (q.east + 1 - (b + 1)) = q.east + 1 := by omega
  refine ⟨⟨w', w', cl', if b - 1 > q.east then pushIf nr q.row (q.east + 1) (b - 1) (!q.down)
      (if b > s.col then pushIf nr q.row s.col (b - 1) q.down s.requests else s.requests)
    else (if b > s.col then pushIf nr q.row s.col (b - 1) q.down s.requests else s.requests)⟩, ?_, ⟨hm.len, ?_, Nat.le_refl _, ?_, ?_, ?_, ?_, ?_, ?_, ?_, ?_⟩, by simp only; omega⟩
  rotate_left
  · have := hs.le; simp only; omega
  · simp only
    by_cases hb : b ≤ q.east
    · exact .inl (by omega)
    · exact .inr (hm.conn _ hw (by omega))
  · intro i j hi
    simp only
    rw [hm.cells, if_neg (by omega), hs.other i j hi]
  · intro j
    simp only
    by_cases hj : s.west ≤ j ∧ j < b
    · refine .inr ⟨hin j hj.1 hj.2, s.west, by have := hs.le; omega, hw, fun c hc => hm.conn c (by omega) (by omega)⟩
    · rcases hs.sound j with h | ⟨h, hx⟩
      · exact .inl (by rw [hval, if_neg hj, h])
      · exact .inr ⟨hnew j h, hx⟩
  · intro x hx1 hx2 hx3 hx4
    simp only at hx2 ⊢
    rw [hval]
    by_cases hx : s.west ≤ x ∧ x < b
    · simp [hx]
    · rw [if_neg hx]
      by_cases hxw : x < s.west
      · exact hs.comp x hx1 hxw hx3 hx4
      · by_cases hxb : x = b
        · rcases h4 with h4 | h4
          · exact absurd (hxb ▸ hx4) h4
          · rw [hxb, h4.1]; exact h4.2
        · exact absurd hx4 (g4 x (by omega) (by omega))
  · intro c hc1 hc2; simp only at hc1 hc2; omega
  · intro c hc hc' _; exact huni c hc hc'
  · intro _ hc1 hc2 c hc3 hc4
    simp only at hc1 hc2 hc3
    by_cases hw1 : w' = b + 1
    · have hcb : c = b := by omega
      rcases h4 with h4 | h4
      · exact h4 (hcb ▸ hc4)
      · have := (huni c hc4 (hc3 ▸ hc1)).2 (hc3 ▸ hc2)
        rw [hval, if_neg (by omega), hcb, h4.1] at this
        exact h4.2 this
    · exact g4 c (by omega) (by omega) hc4
  · refine ⟨(if b - 1 > q.east then pushed nr q.row (q.east + 1) (b - 1) (!q.down) else []) ++
      (if b > s.col then pushed nr q.row s.col (b - 1) q.down else []) ++ ps, ?_, ?_, ?_⟩
    rotate_left
    · refine hp.append hnew ?_ ?_ ?_
      · intro p hmem
        rcases List.mem_append.1 hmem with hmem | hmem
        · split at hmem
          · obtain ⟨e1, rfl⟩ := mem_pushed.1 hmem
            exact ⟨e1, rfl, by simp only; omega, fun c hc1 hc2 => hin c (by simp only at hc1; omega) (by simp only at hc2; omega)⟩
          · simp at hmem
        · split at hmem
          · obtain ⟨e1, rfl⟩ := mem_pushed.1 hmem
            refine ⟨e1, rfl, by simp only; omega, fun c hc1 hc2 => ?_⟩
            simp only at hc1 hc2
            by_cases hcw : c < s.west
            · exact hnew c (hs.pend c hc1 hcw)
            · exact hin c (by omega) (by omega)
          · simp at hmem
      · intro c hc _ hno ha
        have hcc : s.col ≤ c ∧ c < b := by
          by_cases hcw : s.west ≤ c ∧ c < b
          · have := hs.col_le; omega
          · have hold : New nc clumpId cl0 s.clumps q.row c := ⟨hc.1, by have := hc.2; rwa [hval, if_neg hcw] at this⟩
            have : s.col ≤ c ∧ c < s.west := by by_contra hn; exact hno ⟨hold, hn⟩
            omega
        rw [if_pos (show b > s.col by omega)]
        exact ⟨_, List.mem_append_right _ (mem_pushed.2 ⟨ha, rfl⟩), rfl, hcc.1, by simp only; omega⟩
      · intro c hc hno ha
        have hcw : s.west ≤ c ∧ c < b := by
          by_contra hcw
          exact hno ⟨hc.1, by have := hc.2; rwa [hval, if_neg hcw] at this⟩
        by_cases hce : c ≤ q.east
        · exact .inl ⟨by have := hs.le; omega, hce⟩
        · rw [if_pos (show b - 1 > q.east by omega)]
          exact .inr ⟨_, List.mem_append_left _ (mem_pushed.2 ⟨ha, rfl⟩), rfl, by simp only; omega, by simp only; omega⟩
    · have l1 := pushed_length nr q.row (q.east + 1) (b - 1) (!q.down)
      have l2 := pushed_length nr q.row s.col (b - 1) q.down
      have hcle := hs.col_le
      simp only [List.length_append, Nat.lt_irrefl, if_false]
      by_cases hb : s.west < b
      · have := hm.count_lt s.west (Nat.le_refl _) hb (h5 hb)
        have : (if b - 1 > q.east then pushed nr q.row (q.east + 1) (b - 1) (!q.down) else []).length ≤ 1 := by
          split <;> simp [l1]
        have : (if b > s.col then pushed nr q.row s.col (b - 1) q.down else []).length ≤ 1 := by
          split <;> simp [l2]
        omega
      · have := hm.count
        rw [if_neg (show ¬ b - 1 > q.east by omega)]
        by_cases hbc : b > s.col
        · rw [if_pos hbc]
          rw [if_pos (show s.col < s.west by omega)] at hcount
          simp only [List.length_nil]; omega
        · rw [if_neg hbc]
          rw [if_neg (show ¬ s.col < s.west by omega)] at hcount
          simp only [List.length_nil]; omega
    · simp only [pushIf_eq, hps]
      split <;> split <;> simp
  · unfold scanBody
    simp only [h1, M.bind_ok, g1]
    rfl

/-- The whole loop. -/
theorem scan_ok (hz : zones.length = nr * nc) {k gap : Nat} {q : Request} (hr : q.row < nr) (he : q.east < nc)
    (hwe : q.west ≤ q.east) {cl0 : List (Option Nat)} {rest : List Request} {s : Scan}
    (hs : ScanInv nr nc zones zoneId clumpId k gap q cl0 rest s) (hw : s.west = q.west) :
    ∃ s', scan nr nc zones zoneId clumpId q s = .ok s' ∧ ScanInv nr nc zones zoneId clumpId k gap q cl0 rest s' ∧
      q.east < s'.west ∧ s'.col = s'.west := by
  obtain ⟨s', h1, h2, h3⟩ := whileLoop_ok
    (fun s => ScanInv nr nc zones zoneId clumpId k gap q cl0 rest s ∧ (q.east < s.west → s.col = s.west))
    (fun s => q.east + 1 - s.west)
    (cond := fun s => decide (s.west ≤ q.east)) (body := scanBody nr nc zones zoneId clumpId q)
    (fun s hs hc => by
      obtain ⟨s', h1, h2, h3⟩ := scanBody_ok hz hr he hs.1 (by simpa using hc)
      refine ⟨s', h1, ⟨h2, fun _ => ?_⟩, ?_⟩
      · unfold scanBody at h1
        revert h1
        cases extend nc zones zoneId clumpId q.row s.west s.clumps with
        | error e => intro h; cases h
        | ok r =>
          simp only [M.bind_ok]
          cases skip nc zones zoneId q.row (q.east + 1 - (r.1 + 1)) (r.1 + 1) with
          | error e => intro h; cases h
          | ok w => intro h; simp only [M.bind_ok] at h; cases h; rfl
      · have : s.west ≤ q.east := by simpa using hc
        omega) (q.east + 2 - s.west) s ⟨hs, fun h => by omega⟩ (by omega)
  have h3' : q.east < s'.west := by simpa using h3
  exact ⟨s', h1, h2.1, h3', h2.2 h3'⟩

end Lue.Clump

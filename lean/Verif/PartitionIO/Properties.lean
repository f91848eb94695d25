import Verif.PartitionIO.Spec
import Mathlib.Data.List.Nodup

/-!
# Properties of the bookkeeping of input cells and output cells (C68)
-/
namespace Lue.PartitionIO

variable {n : Nat} {V : Type}

theorem bind_eq_ok {α β : Type} {x : M α} {f : α → M β} {b : β} : (x >>= f) = .ok b ↔ ∃ a, x = .ok a ∧ f a = .ok b := by
  cases x with
  | error e => constructor <;> intro h <;> simp [bind, Except.bind] at h
  | ok a => simp [bind, Except.bind]

theorem ok_bind {α β : Type} (a : α) (f : α → M β) : ((.ok a : M α) >>= f) = f a := rfl

theorem require_true (debug : Bool) : require debug true = .ok () := by cases debug <;> rfl

theorem require_ok {c : Bool} {u : Unit} : require true c = .ok u ↔ c = true := by cases c <;> simp [require]

/-! ### Space -/

namespace Tiling

variable (t : Tiling n)

theorem start_add (d : Fin n) (p : Int) (k : Nat) : t.start d p + k ≤ t.start d (p + k) := by
  induction k with
  | zero => simp
  | succ k ih =>
    have := t.increasing d (p + k)
    have e : p + ((k + 1 : Nat) : Int) = p + k + 1 := by push_cast; omega
    rw [e]
    push_cast
    omega

theorem start_mono (d : Fin n) {p q : Int} (h : p ≤ q) : t.start d p ≤ t.start d q := by
  obtain ⟨k, rfl⟩ : ∃ k : Nat, q = p + k := ⟨(q - p).toNat, by omega⟩
  have := t.start_add d p k
  omega

/-- Each position is in a single partition. -/
theorem contains_unique {p q x : Vec n} (hp : t.Contains p x) (hq : t.Contains q x) : p = q := by
  funext d
  have h1 := hp d
  have h2 := hq d
  rcases Int.lt_trichotomy (p d) (q d) with h | h | h
  · have := t.start_mono d (show p d + 1 ≤ q d by omega)
    omega
  · exact h
  · have := t.start_mono d (show q d + 1 ≤ p d by omega)
    omega

theorem contains_position (p i : Vec n) : t.Contains p (t.position p i) ↔ t.IsCell p i := by
  unfold Contains IsCell position shape
  constructor <;> intro h d <;> have := h d <;> omega

/-- Each position has a single pair of indices within a partition. -/
theorem position_inj {p i j : Vec n} (h : t.position p i = t.position p j) : i = j := by
  funext d
  have := congrFun h d
  simp only [position] at this
  omega

end Tiling

variable {t : Tiling n} {p : Vec n}

/-- The offset of the partition is that of the partition that contains the neighbouring cell. -/
theorem contains_partitionOffset {s : State n V} (hs : s.shape = t.shape p) {i offset : Vec n} (hi : t.IsCell p i)
    (ho : IsStep offset) : t.Contains (p + partitionOffset s i offset) (t.position p i + offset) := by
  intro d
  have h1 := hi d
  have h2 := ho d
  have hp1 := t.increasing d (p d + -1)
  have hp2 := t.increasing d (p d + 1)
  simp only [Pi.add_apply, Tiling.position, partitionOffset, hs, Tiling.shape] at *
  split
  · rw [show p d + -1 + 1 = p d by omega] at *
    omega
  · split
    · omega
    · simp only [Int.add_zero]
      omega

theorem partitionOffset_eq {s : State n V} (hs : s.shape = t.shape p) {i offset q : Vec n} (hi : t.IsCell p i)
    (ho : IsStep offset) : partitionOffset s i offset = q ↔ t.Contains (p + q) (t.position p i + offset) := by
  have h := contains_partitionOffset hs hi ho
  constructor
  · rintro rfl
    exact h
  · intro h'
    have := t.contains_unique h h'
    funext d
    have := congrFun this d
    simp only [Pi.add_apply] at this
    omega

theorem partitionOffset_isStep (s : State n V) (i offset : Vec n) : IsStep (partitionOffset s i offset) := by
  intro d
  unfold partitionOffset
  split
  · exact .inl rfl
  · split
    · exact .inr (.inr rfl)
    · exact .inr (.inl rfl)

/-- The indices passed along are those of the neighbouring cell, in the partition it is part of. -/
theorem inputCell_position {s : State n V} (hs : s.shape = t.shape p) {i offset : Vec n} :
    t.position (p + partitionOffset s i offset) (inputCellIdxs s i offset (t.shape (p + partitionOffset s i offset))) =
      t.position p i + offset := by
  funext d
  simp only [Pi.add_apply, Tiling.position, inputCellIdxs, Tiling.shape, hs]
  by_cases h1 : i d = 0 ∧ offset d = -1
  · have e : partitionOffset s i offset d = -1 := by simp [partitionOffset, h1]
    rw [if_pos h1, e, show p d + -1 + 1 = p d by omega]
    omega
  · rw [if_neg h1]
    by_cases h2 : i d = t.start d (p d + 1) - t.start d (p d) - 1 ∧ offset d = 1
    · have e : partitionOffset s i offset d = 1 := by simp [partitionOffset, h1, hs, Tiling.shape, h2]
      rw [if_pos h2, e]
      omega
    · have e : partitionOffset s i offset d = 0 := by simp only [partitionOffset, hs, Tiling.shape, if_neg h1, if_neg h2]
      rw [if_neg h2, e, Int.add_zero]
      omega

theorem pointsTowardsNeighbour_iff {i offset : Vec n} (hi : t.IsCell p i) (ho : IsStep offset) :
    pointsTowardsNeighbour i offset (t.shape p) = true ↔ ¬t.Contains p (t.position p i + offset) := by
  unfold pointsTowardsNeighbour Tiling.Contains
  rw [decide_eq_true_iff, not_forall]
  apply exists_congr
  intro d
  have h1 := hi d
  have h2 := ho d
  simp only [Pi.add_apply, Tiling.position, Tiling.shape] at *
  omega

/-! ### Invariants -/

variable {s : State n V} {outs : List (Vec n × Vec n × V)}

theorem invariants_iff (hs : s.shape = t.shape p) (h1 : s.offsets = outs.map fun e => (e.1, e.2.1))
    (h2 : s.values = outs.map fun e => (e.1, e.2.2)) (ho : ∀ e ∈ outs, t.IsCell p e.1 ∧ IsStep e.2.1) :
    invariants s = true ↔ (∀ e ∈ outs, ¬t.Contains p (destination t p e).1) ∧
      ∀ i ∈ s.inputs, t.IsCell p i ∧ ∃ d, i d = 0 ∨ i d = t.shape p d - 1 := by
  have hl : s.offsets.length = s.values.length := by rw [h1, h2, List.length_map, List.length_map]
  have hout : s.offsets.all (fun e => pointsTowardsNeighbour e.1 e.2 s.shape) = true ↔
      ∀ e ∈ outs, ¬t.Contains p (destination t p e).1 := by
    rw [h1, List.all_eq_true, hs]
    simp only [List.mem_map, forall_exists_index, and_imp, forall_apply_eq_imp_iff₂]
    apply forall_congr'
    intro e
    apply imp_congr_right
    intro he
    exact pointsTowardsNeighbour_iff (ho e he).1 (ho e he).2
  have hin : s.inputs.all (fun i => isWithinPartition i s.shape && onPartitionBorder i s.shape) = true ↔
      ∀ i ∈ s.inputs, t.IsCell p i ∧ ∃ d, i d = 0 ∨ i d = t.shape p d - 1 := by
    rw [List.all_eq_true, hs]
    simp only [Bool.and_eq_true, isWithinPartition, onPartitionBorder, decide_eq_true_iff]
    rfl
  unfold invariants
  rw [Bool.and_eq_true, Bool.and_eq_true, Bool.and_eq_true, decide_eq_true_iff, hout, hin]
  constructor
  · rintro ⟨⟨_, h⟩, h'⟩
    exact ⟨h', h⟩
  · rintro ⟨h', h⟩
    refine ⟨⟨⟨hl, ?_⟩, h⟩, h'⟩
    rw [Bool.or_eq_true, Bool.not_eq_true', decide_eq_false_iff_not]
    by_cases hz : ∀ d, s.shape d = 0
    · right
      have none : ∀ i, t.IsCell p i → ∀ d : Fin n, False := by
        intro i hi d
        have := hi d
        have := hz d
        rw [hs] at this
        omega
      have hi0 : s.inputs = [] := by
        rw [List.eq_nil_iff_forall_not_mem]
        intro i hi
        obtain ⟨hc, d, _⟩ := h i hi
        exact none i hc d
      have ho0 : outs = [] := by
        rw [List.eq_nil_iff_forall_not_mem]
        intro e he
        apply h' e he
        intro d
        exact (none e.1 (ho e he).1 d).elim
      rw [hi0, h1, h2, ho0]
      rfl
    · exact .inl hz

theorem Holds.invariants (h : Holds t p s outs) : invariants s = true :=
  (invariants_iff h.shape h.offsets h.values fun e he => ⟨(h.outputs e he).1, (h.outputs e he).2.1⟩).mpr
    ⟨fun e he => (h.outputs e he).2.2, h.inputs⟩

/-- A new instance is accepted if and only if the input cells are cells along the border. -/
theorem construct_ok_iff (t : Tiling n) (p : Vec n) (inputs : List (Vec n)) (s : State n V) :
    construct true (t.shape p) inputs = .ok s ↔
      s = ⟨t.shape p, inputs, [], []⟩ ∧ ∀ i ∈ inputs, t.IsCell p i ∧ ∃ d, i d = 0 ∨ i d = t.shape p d - 1 := by
  have key := invariants_iff (t := t) (p := p) (s := (⟨t.shape p, inputs, [], []⟩ : State n V)) (outs := []) rfl rfl rfl
    (by intro e he; cases he)
  unfold construct
  rw [bind_eq_ok]
  constructor
  · rintro ⟨u, h1, h2⟩
    exact ⟨(Except.ok.inj h2).symm, (key.mp (require_ok.mp h1)).2⟩
  · rintro ⟨h1, h2⟩
    refine ⟨(), require_ok.mpr (key.mpr ⟨(by intro e he; cases he), h2⟩), ?_⟩
    rw [h1]
    rfl

theorem holds_construct {inputs : List (Vec n)} (h : construct true (t.shape p) inputs = .ok s) : Holds t p s [] := by
  obtain ⟨rfl, hi⟩ := (construct_ok_iff t p inputs s).mp h
  exact ⟨rfl, rfl, rfl, List.nodup_nil, (by intro e he; cases he), hi⟩

/-! ### Maps -/

theorem get_map {W : Type} (f : Vec n × Vec n × V → W) {l : List (Vec n × Vec n × V)} (hd : (l.map fun e => e.1).Nodup)
    {e : Vec n × Vec n × V} (he : e ∈ l) : AMap.get (l.map fun e => (e.1, f e)) e.1 = some (f e) := by
  have hok : AMap.Ok (l.map fun e => (e.1, f e)) := by
    unfold AMap.Ok
    rw [List.map_map]
    exact hd
  rw [← AMap.mem_iff_get hok]
  exact List.mem_map_of_mem he

theorem has_map {W : Type} (f : Vec n × Vec n × V → W) (l : List (Vec n × Vec n × V)) (i : Vec n) :
    has (l.map fun e => (e.1, f e)) i = true ↔ i ∈ l.map fun e => e.1 := by
  unfold has
  rw [Option.isSome_iff_exists, AMap.get_isSome, List.map_map]
  rfl

/-! ### Input cells -/

theorem solved_iff (s : State n V) : isSolved s = true ↔ s.inputs = [] := List.isEmpty_iff

theorem removeInputCell_ok {debug : Bool} {i : Vec n} (hi : i ∈ s.inputs) :
    removeInputCell debug s i = .ok ⟨s.shape, s.inputs.erase i, s.offsets, s.values⟩ := by
  have : s.inputs.contains i = true := List.contains_iff_mem.mpr hi
  unfold removeInputCell
  rw [this, require_true, ok_bind, if_pos rfl]
  rfl

theorem removeInputCell_ok_iff {i : Vec n} :
    (∃ s', removeInputCell true s i = .ok s') ↔ containsInputCell s i = true := by
  constructor
  · rintro ⟨s', h⟩
    obtain ⟨u, h, _⟩ := bind_eq_ok.mp h
    exact require_ok.mp h
  · intro h
    exact ⟨_, removeInputCell_ok (List.contains_iff_mem.mp h)⟩

theorem Holds.remove (h : Holds t p s outs) (i : Vec n) : Holds t p ⟨s.shape, s.inputs.erase i, s.offsets, s.values⟩ outs :=
  ⟨h.shape, h.offsets, h.values, h.distinct, h.outputs, fun j hj => h.inputs j (List.mem_of_mem_erase hj)⟩

/-! ### Output cells -/

theorem emplace_map {W : Type} (f : Vec n × Vec n × V → W) (l : List (Vec n × Vec n × V)) (e : Vec n × Vec n × V)
    (he : e.1 ∉ l.map fun e => e.1) :
    emplace (l.map fun e => (e.1, f e)) e.1 (f e) = (l ++ [e]).map fun e => (e.1, f e) := by
  unfold emplace
  rw [if_neg (by rw [has_map]; exact he), List.map_append]
  rfl

theorem Holds.add (h : Holds t p s outs) {i offset : Vec n} {v : V} (hi : t.IsCell p i) (ho : IsStep offset)
    (hn : ¬t.Contains p (t.position p i + offset)) (hk : i ∉ outs.map fun e => e.1) :
    Holds t p ⟨s.shape, s.inputs, emplace s.offsets i offset, emplace s.values i v⟩ (outs ++ [(i, offset, v)]) := by
  refine ⟨h.shape, ?_, ?_, ?_, ?_, h.inputs⟩
  · show emplace s.offsets i offset = _
    rw [h.offsets]
    exact emplace_map (fun e => e.2.1) outs (i, offset, v) hk
  · show emplace s.values i v = _
    rw [h.values]
    exact emplace_map (fun e => e.2.2) outs (i, offset, v) hk
  · rw [List.map_append]
    exact List.nodup_append.mpr ⟨h.distinct, by simp, by
      intro a ha b hb
      simp only [List.map_cons, List.map_nil, List.mem_singleton] at hb
      subst hb
      intro e
      exact hk (e ▸ ha)⟩
  · intro e he
    rcases List.mem_append.mp he with he | he
    · exact h.outputs e he
    · rw [List.mem_singleton] at he
      subst he
      exact ⟨hi, ho, hn⟩

theorem addOutputCell_ok {debug : Bool} (h : Holds t p s outs) {i offset : Vec n} {v : V} (hi : t.IsCell p i) (ho : IsStep offset)
    (hn : ¬t.Contains p (t.position p i + offset)) (hk : i ∉ outs.map fun e => e.1) :
    addOutputCell debug s i offset v = .ok ⟨s.shape, s.inputs, emplace s.offsets i offset, emplace s.values i v⟩ := by
  have h' := h.add (v := v) hi ho hn hk
  have k1 : has s.offsets i = false := by
    rw [h.offsets, ← Bool.not_eq_true, has_map (fun e => e.2.1)]
    exact hk
  have k2 : has s.values i = false := by
    rw [h.values, ← Bool.not_eq_true, has_map (fun e => e.2.2)]
    exact hk
  have hm : i ∈ (outs ++ [(i, offset, v)]).map fun e => e.1 := by simp
  have k3 : has (emplace s.offsets i offset) i = true := by
    have := h'.offsets
    simp only at this
    rw [this, has_map (fun e => e.2.1)]
    exact hm
  have k4 : has (emplace s.values i v) i = true := by
    have := h'.values
    simp only at this
    rw [this, has_map (fun e => e.2.2)]
    exact hm
  unfold addOutputCell
  simp only [k1, k2, k3, k4, h'.invariants, Bool.not_false, require_true, ok_bind]
  rfl

/-- An output cell is accepted if and only if it is not present already and the offset is towards a cell of another partition. -/
theorem addOutputCell_ok_iff (h : Holds t p s outs) {i offset : Vec n} {v : V} (hi : t.IsCell p i) (ho : IsStep offset) :
    (∃ s', addOutputCell true s i offset v = .ok s') ↔
      (i ∉ outs.map fun e => e.1) ∧ ¬t.Contains p (t.position p i + offset) := by
  constructor
  · rintro ⟨s', hs'⟩
    obtain ⟨u, h1, hs'⟩ := bind_eq_ok.mp hs'
    obtain ⟨u, h2, hs'⟩ := bind_eq_ok.mp hs'
    obtain ⟨u, h3, hs'⟩ := bind_eq_ok.mp hs'
    have h1 := require_ok.mp h1
    have h3 := require_ok.mp h3
    have hk : i ∉ outs.map fun e => e.1 := by
      rw [← has_map (fun e => e.2.1), ← h.offsets]
      intro hc
      rw [hc] at h1
      cases h1
    refine ⟨hk, ?_⟩
    have e1 := emplace_map (fun e => e.2.1) outs (i, offset, v) hk
    have e2 := emplace_map (fun e => e.2.2) outs (i, offset, v) hk
    rw [← h.offsets] at e1
    rw [← h.values] at e2
    have := (invariants_iff (t := t) (p := p) (outs := outs ++ [(i, offset, v)])
      (s := ⟨s.shape, s.inputs, emplace s.offsets i offset, emplace s.values i v⟩) h.shape e1 e2 (by
      intro e he
      rcases List.mem_append.mp he with he | he
      · exact ⟨(h.outputs e he).1, (h.outputs e he).2.1⟩
      · rw [List.mem_singleton] at he
        subst he
        exact ⟨hi, ho⟩)).mp h3
    exact this.1 (i, offset, v) (by simp)
  · rintro ⟨hk, hn⟩
    exact ⟨_, addOutputCell_ok h hi ho hn hk⟩

/-! ### Draining -/

/-- The material that has to go to the partition at offset `q` -/
def goes (t : Tiling n) (p q : Vec n) (e : Vec n × Vec n × V) : Bool := decide (t.Contains (p + q) (destination t p e).1)

theorem drainCell_ok (debug : Bool) (h : Holds t p s outs) {q : Vec n} {e : Vec n × Vec n × V} (he : e ∈ outs)
    (result : List (Vec n × V) × List (Vec n)) :
    drainCell debug s q (t.shape (p + q)) result (e.1, e.2.1) = .ok (if goes t p q e = true then
      (result.1 ++ [(inputCellIdxs s e.1 e.2.1 (t.shape (p + q)), e.2.2)], result.2 ++ [e.1]) else result) := by
  obtain ⟨hi, ho, hn⟩ := h.outputs e he
  have hq := partitionOffset_eq (q := q) h.shape hi ho
  unfold drainCell
  by_cases hg : goes t p q e = true
  · have hg' : t.Contains (p + q) (t.position p e.1 + e.2.1) := of_decide_eq_true hg
    rw [if_pos (hq.mpr hg'), if_pos hg]
    have k1 : has s.offsets e.1 = true := by
      rw [h.offsets, has_map (fun e => e.2.1)]
      exact List.mem_map_of_mem he
    have k2 : has s.values e.1 = true := by
      rw [h.values, has_map (fun e => e.2.2)]
      exact List.mem_map_of_mem he
    have g1 : at' s.offsets e.1 = .ok e.2.1 := by
      unfold at'
      rw [h.offsets, get_map (fun e => e.2.1) h.distinct he]
    have g2 : at' s.values e.1 = .ok e.2.2 := by
      unfold at'
      rw [h.values, get_map (fun e => e.2.2) h.distinct he]
    have hw : isWithinPartition (inputCellIdxs s e.1 e.2.1 (t.shape (p + q))) (t.shape (p + q)) = true := by
      have hpos := inputCell_position h.shape (i := e.1) (offset := e.2.1)
      rw [hq.mpr hg'] at hpos
      rw [← hpos, t.contains_position] at hg'
      exact decide_eq_true hg'
    unfold inputCell value
    simp only [k1, k2, g1, g2, hw, require_true, ok_bind, pure, Except.pure]
  · have hg' : ¬t.Contains (p + q) (t.position p e.1 + e.2.1) := fun hc => hg (decide_eq_true hc)
    rw [if_neg (fun hc => hg' (hq.mp hc)), if_neg hg]
    rfl

theorem drain_loop (debug : Bool) (h : Holds t p s outs) (q : Vec n) (l : List (Vec n × Vec n × V)) (hl : ∀ e ∈ l, e ∈ outs)
    (result : List (Vec n × V) × List (Vec n)) :
    (l.map fun e => (e.1, e.2.1)).foldlM (drainCell debug s q (t.shape (p + q))) result = .ok
      (result.1 ++ (l.filter (goes t p q)).map (fun e => (inputCellIdxs s e.1 e.2.1 (t.shape (p + q)), e.2.2)),
       result.2 ++ (l.filter (goes t p q)).map fun e => e.1) := by
  induction l generalizing result with
  | nil => simp [pure, Except.pure]
  | cons e l ih =>
    rw [List.map_cons, List.foldlM_cons, drainCell_ok debug h (hl e List.mem_cons_self) result, ok_bind,
      ih (fun a ha => hl a (List.mem_cons_of_mem _ ha))]
    by_cases hg : goes t p q e = true
    · simp [List.filter_cons, hg]
    · simp [List.filter_cons, hg]

theorem erase_map {W : Type} (f : Vec n × Vec n × V → W) (l : List (Vec n × Vec n × V)) (i : Vec n) :
    erase (l.map fun e => (e.1, f e)) i = (l.filter fun e => !decide (e.1 = i)).map fun e => (e.1, f e) := by
  unfold erase
  rw [List.filter_map]
  rfl

theorem Holds.filter (h : Holds t p s outs) (g : Vec n × Vec n × V → Bool) :
    Holds t p ⟨s.shape, s.inputs, (outs.filter g).map fun e => (e.1, e.2.1), (outs.filter g).map fun e => (e.1, e.2.2)⟩
      (outs.filter g) :=
  ⟨h.shape, rfl, rfl, List.Nodup.sublist (List.filter_sublist.map _) h.distinct,
    fun e he => h.outputs e (List.mem_of_mem_filter he), h.inputs⟩

theorem Holds.eq (h : Holds t p s outs) :
    s = ⟨s.shape, s.inputs, outs.map fun e => (e.1, e.2.1), outs.map fun e => (e.1, e.2.2)⟩ := by
  rw [← h.offsets, ← h.values]

theorem removeOutputCell_ok (debug : Bool) (h : Holds t p s outs) {i : Vec n} (hi : i ∈ outs.map fun e => e.1) :
    removeOutputCell debug s i = .ok ⟨s.shape, s.inputs, (outs.filter fun e => !decide (e.1 = i)).map fun e => (e.1, e.2.1),
      (outs.filter fun e => !decide (e.1 = i)).map fun e => (e.1, e.2.2)⟩ := by
  have k1 : has s.offsets i = true := by
    rw [h.offsets, has_map (fun e => e.2.1)]
    exact hi
  have k2 : has s.values i = true := by
    rw [h.values, has_map (fun e => e.2.2)]
    exact hi
  have e1 : erase s.offsets i = (outs.filter fun e => !decide (e.1 = i)).map fun e => (e.1, e.2.1) := by
    rw [h.offsets, erase_map (fun e => e.2.1)]
  have e2 : erase s.values i = (outs.filter fun e => !decide (e.1 = i)).map fun e => (e.1, e.2.2) := by
    rw [h.values, erase_map (fun e => e.2.2)]
  have hv := (h.filter fun e => !decide (e.1 = i)).invariants
  unfold removeOutputCell
  simp only [k1, k2, require_true, ok_bind, e1, e2, hv]
  rfl

theorem remove_loop (debug : Bool) (l : List (Vec n)) : ∀ (s : State n V) (outs : List (Vec n × Vec n × V)), Holds t p s outs →
    l.Nodup → (∀ i ∈ l, i ∈ outs.map fun e => e.1) →
    l.foldlM (removeOutputCell debug) s = .ok ⟨s.shape, s.inputs, (outs.filter fun e => !decide (e.1 ∈ l)).map fun e => (e.1, e.2.1),
      (outs.filter fun e => !decide (e.1 ∈ l)).map fun e => (e.1, e.2.2)⟩ := by
  induction l with
  | nil =>
    intro s outs h _ _
    have : (outs.filter fun e => !decide (e.1 ∈ ([] : List (Vec n)))) = outs := by simp
    rw [this, ← h.eq]
    rfl
  | cons i l ih =>
    intro s outs h hd hm
    obtain ⟨hil, hd⟩ := List.nodup_cons.mp hd
    rw [List.foldlM_cons, removeOutputCell_ok debug h (hm i List.mem_cons_self), ok_bind,
      ih _ _ (h.filter fun e => !decide (e.1 = i)) hd]
    · have : ((outs.filter fun e => !decide (e.1 = i)).filter fun e => !decide (e.1 ∈ l)) =
          outs.filter fun e => !decide (e.1 ∈ i :: l) := by
        rw [List.filter_filter]
        apply List.filter_congr
        intro e _
        by_cases h1 : e.1 = i <;> by_cases h2 : e.1 ∈ l <;> simp [h1, h2]
      rw [this]
    · intro j hj
      obtain ⟨e, he, rfl⟩ := List.mem_map.mp (hm j (List.mem_cons_of_mem _ hj))
      refine List.mem_map.mpr ⟨e, List.mem_filter.mpr ⟨he, ?_⟩, rfl⟩
      have : e.1 ≠ i := fun hc => hil (hc ▸ hj)
      simp [this]

theorem drain_ok (debug : Bool) (h : Holds t p s outs) {q : Vec n} (hne : outs ≠ []) (hq : IsStep q) :
    drain debug s q (t.shape (p + q)) = .ok
      (⟨s.shape, s.inputs, (outs.filter fun e => !goes t p q e).map fun e => (e.1, e.2.1),
        (outs.filter fun e => !goes t p q e).map fun e => (e.1, e.2.2)⟩,
      (outs.filter (goes t p q)).map fun e => (inputCellIdxs s e.1 e.2.1 (t.shape (p + q)), e.2.2)) := by
  have k1 : isDrained s = false := by
    unfold isDrained
    rw [h.offsets]
    cases outs with
    | nil => exact (hne rfl).elim
    | cons a l => rfl
  have k2 : decide (∀ d, q d = -1 ∨ q d = 0 ∨ q d = 1) = true := decide_eq_true hq
  have hl := drain_loop debug h q outs (fun e he => he) ([], [])
  rw [← h.offsets] at hl
  have hr := remove_loop debug ((outs.filter (goes t p q)).map fun e => e.1) s outs h
    (List.Nodup.sublist (List.filter_sublist.map _) h.distinct) (by
      intro i hi
      obtain ⟨e, he, rfl⟩ := List.mem_map.mp hi
      exact List.mem_map_of_mem (List.mem_of_mem_filter he))
  have hf : (outs.filter fun e => !decide (e.1 ∈ (outs.filter (goes t p q)).map fun e => e.1)) =
      outs.filter fun e => !goes t p q e := by
    apply List.filter_congr
    intro e he
    congr 1
    rw [Bool.eq_iff_iff, decide_eq_true_iff]
    constructor
    · intro hm
      obtain ⟨e', he', heq⟩ := List.mem_map.mp hm
      have : e' = e := List.inj_on_of_nodup_map h.distinct (List.mem_of_mem_filter he') he heq
      rw [← this]
      exact (List.mem_filter.mp he').2
    · intro hg
      exact List.mem_map.mpr ⟨e, List.mem_filter.mpr ⟨he, hg⟩, rfl⟩
  rw [hf] at hr
  unfold drain
  simp only [k1, k2, Bool.not_false, require_true, ok_bind, hl, List.nil_append, hr]
  rfl

/-- Draining is possible if and only if there is something to drain, and the offset is to a neighbouring partition. -/
theorem drain_ok_iff (h : Holds t p s outs) (q : Vec n) :
    (∃ r, drain true s q (t.shape (p + q)) = .ok r) ↔ outs ≠ [] ∧ IsStep q := by
  constructor
  · rintro ⟨r, hr⟩
    obtain ⟨u, h1, hr⟩ := bind_eq_ok.mp hr
    obtain ⟨u, h2, hr⟩ := bind_eq_ok.mp hr
    have h2 := require_ok.mp h2
    rw [decide_eq_true_iff] at h2
    refine ⟨?_, h2⟩
    rintro rfl
    have := require_ok.mp h1
    unfold isDrained at this
    rw [h.offsets] at this
    cases this
  · rintro ⟨h1, h2⟩
    exact ⟨_, drain_ok true h h1 h2⟩

/-- Draining to the partition at offset `q` results in exactly the material that has to go there, at the indices of the cells that have
to receive it. All other material is kept. -/
theorem drain_spec (debug : Bool) (h : Holds t p s outs) {q : Vec n} (hne : outs ≠ []) (hq : IsStep q) :
    ∃ s' result, drain debug s q (t.shape (p + q)) = .ok (s', result) ∧
      (∀ e ∈ result, t.IsCell (p + q) e.1) ∧
      (result.map fun e => (t.position (p + q) e.1, e.2)) =
        (outs.filter fun e => decide (t.Contains (p + q) (destination t p e).1)).map (destination t p) ∧
      Holds t p s' (outs.filter fun e => !decide (t.Contains (p + q) (destination t p e).1)) ∧
      s'.inputs = s.inputs := by
  refine ⟨_, _, drain_ok debug h hne hq, ?_, ?_, h.filter fun e => !goes t p q e, rfl⟩
  · intro e he
    obtain ⟨a, ha, rfl⟩ := List.mem_map.mp he
    obtain ⟨ha, hg⟩ := List.mem_filter.mp ha
    have hg' : t.Contains (p + q) (t.position p a.1 + a.2.1) := of_decide_eq_true hg
    obtain ⟨hi, ho, _⟩ := h.outputs a ha
    have hpos := inputCell_position h.shape (i := a.1) (offset := a.2.1)
    rw [(partitionOffset_eq (q := q) h.shape hi ho).mpr hg'] at hpos
    rw [← hpos, t.contains_position] at hg'
    exact hg'
  · rw [List.map_map]
    apply List.map_congr_left
    intro a ha
    obtain ⟨ha, hg⟩ := List.mem_filter.mp ha
    have hg' : t.Contains (p + q) (t.position p a.1 + a.2.1) := of_decide_eq_true hg
    obtain ⟨hi, ho, _⟩ := h.outputs a ha
    have hpos := inputCell_position h.shape (i := a.1) (offset := a.2.1)
    rw [(partitionOffset_eq (q := q) h.shape hi ho).mpr hg'] at hpos
    simp only [Function.comp_apply, destination, hpos]

end Lue.PartitionIO

import Verif.PartitionIO.Properties
import Mathlib.Data.List.Perm.Basic
import Mathlib.Data.Fin.VecNotation

/-!
# Properties of the bookkeeping of input cells and output cells (C68): queries and histories
-/
namespace Lue.PartitionIO

variable {n : Nat} {V : Type} {t : Tiling n} {p : Vec n} {s : State n V} {outs : List (Vec n × Vec n × V)}

/-! ### Queries -/

theorem drained_iff (h : Holds t p s outs) : isDrained s = true ↔ outs = [] := by
  unfold isDrained
  rw [h.offsets, List.isEmpty_iff, List.map_eq_nil_iff]

theorem mem_setInsert (l : List (Vec n)) (x y : Vec n) : y ∈ setInsert l x ↔ y ∈ l ∨ y = x := by
  unfold setInsert
  split
  · next hc =>
    have := List.contains_iff_mem.mp hc
    constructor
    · exact .inl
    · rintro (h | rfl)
      · exact h
      · exact this
  · simp

theorem nodup_setInsert {l : List (Vec n)} (x : Vec n) (h : l.Nodup) : (setInsert l x).Nodup := by
  unfold setInsert
  split
  · exact h
  · next hc =>
    refine List.nodup_append.mpr ⟨h, by simp, ?_⟩
    intro a ha b hb
    rw [List.mem_singleton] at hb
    subst hb
    rintro rfl
    exact hc (List.contains_iff_mem.mpr ha)

theorem foldl_setInsert {α : Type} (f : α → Vec n) (l : List α) (r : List (Vec n)) (hr : r.Nodup) :
    (l.foldl (fun r e => setInsert r (f e)) r).Nodup ∧
      ∀ y, y ∈ l.foldl (fun r e => setInsert r (f e)) r ↔ y ∈ r ∨ ∃ e ∈ l, f e = y := by
  induction l generalizing r with
  | nil => simp [hr]
  | cons a l ih =>
    obtain ⟨h1, h2⟩ := ih (setInsert r (f a)) (nodup_setInsert _ hr)
    refine ⟨h1, fun y => ?_⟩
    rw [List.foldl_cons, h2, mem_setInsert]
    constructor
    · rintro ((h | h) | ⟨e, he, h⟩)
      · exact .inl h
      · exact .inr ⟨a, List.mem_cons_self, h.symm⟩
      · exact .inr ⟨e, List.mem_cons_of_mem _ he, h⟩
    · rintro (h | ⟨e, he, h⟩)
      · exact .inl (.inl h)
      · rcases List.mem_cons.mp he with rfl | he
        · exact .inl (.inr h.symm)
        · exact .inr ⟨e, he, h⟩

/-- The partitions that are drained to are those that contain a cell that material has to go to. -/
theorem partitionOffsets_spec (h : Holds t p s outs) : (partitionOffsets s).Nodup ∧
    ∀ q, q ∈ partitionOffsets s ↔ ∃ e ∈ outs, t.Contains (p + q) (destination t p e).1 := by
  obtain ⟨h1, h2⟩ := foldl_setInsert (fun e : Vec n × Vec n => partitionOffset s e.1 e.2) s.offsets [] List.nodup_nil
  refine ⟨h1, fun q => ?_⟩
  have := h2 q
  unfold partitionOffsets
  rw [this, h.offsets]
  constructor
  · rintro (hc | ⟨e, he, hq⟩)
    · cases hc
    · obtain ⟨a, ha, rfl⟩ := List.mem_map.mp he
      obtain ⟨hi, ho, _⟩ := h.outputs a ha
      exact ⟨a, ha, (partitionOffset_eq h.shape hi ho).mp hq⟩
  · rintro ⟨a, ha, hq⟩
    obtain ⟨hi, ho, _⟩ := h.outputs a ha
    exact .inr ⟨(a.1, a.2.1), List.mem_map.mpr ⟨a, ha, rfl⟩, (partitionOffset_eq h.shape hi ho).mpr hq⟩

/-- The offsets are those of neighbouring partitions. -/
theorem partitionOffsets_neighbour (h : Holds t p s outs) {q : Vec n} (hq : q ∈ partitionOffsets s) : IsStep q ∧ q ≠ 0 := by
  obtain ⟨e, he, hc⟩ := ((partitionOffsets_spec h).2 q).mp hq
  obtain ⟨hi, ho, hn⟩ := h.outputs e he
  constructor
  · rw [← (partitionOffset_eq h.shape hi ho).mpr hc]
    exact partitionOffset_isStep _ _ _
  · rintro rfl
    apply hn
    have : p + 0 = p := by
      funext d
      simp
    rw [this] at hc
    exact hc

theorem get_countOffset (l : List (Vec n × Nat)) (q q' : Vec n) :
    (AMap.get (countOffset l q) q').getD 0 = (AMap.get l q').getD 0 + (if q = q' then 1 else 0) := by
  induction l with
  | nil =>
    unfold countOffset
    rw [AMap.get_cons, AMap.get_nil]
    split <;> rfl
  | cons a l ih =>
    obtain ⟨k, c⟩ := a
    unfold countOffset
    split
    · next h =>
      subst h
      rw [AMap.get_cons, AMap.get_cons]
      split <;> simp
    · next h =>
      rw [AMap.get_cons, AMap.get_cons]
      split
      · next h' =>
        subst h'
        have : ¬q = k := fun e => h e.symm
        simp [this]
      · exact ih

theorem mem_countOffset (l : List (Vec n × Nat)) (q a : Vec n) :
    a ∈ (countOffset l q).map Prod.fst ↔ a ∈ l.map Prod.fst ∨ a = q := by
  induction l with
  | nil => simp [countOffset]
  | cons b l ih =>
    obtain ⟨k, c⟩ := b
    unfold countOffset
    split
    · next h =>
      subst h
      simp only [List.map_cons, List.mem_cons]
      tauto
    · simp only [List.map_cons, List.mem_cons, ih]
      tauto

theorem ok_countOffset {l : List (Vec n × Nat)} (q : Vec n) (h : (l.map Prod.fst).Nodup) :
    ((countOffset l q).map Prod.fst).Nodup := by
  induction l with
  | nil => simp [countOffset]
  | cons b l ih =>
    obtain ⟨k, c⟩ := b
    obtain ⟨h1, h2⟩ := List.nodup_cons.mp h
    unfold countOffset
    split
    · exact List.nodup_cons.mpr ⟨h1, h2⟩
    · next hne =>
      refine List.nodup_cons.mpr ⟨?_, ih h2⟩
      rw [mem_countOffset]
      rintro (hc | hc)
      · exact h1 hc
      · exact hne hc

theorem foldl_countOffset {α : Type} (f : α → Vec n) (l : List α) (r : List (Vec n × Nat)) (hr : (r.map Prod.fst).Nodup) :
    ((l.foldl (fun r e => countOffset r (f e)) r).map Prod.fst).Nodup ∧
      (∀ q, (AMap.get (l.foldl (fun r e => countOffset r (f e)) r) q).getD 0 =
        (AMap.get r q).getD 0 + (l.filter fun e => decide (f e = q)).length) ∧
      ∀ q, q ∈ (l.foldl (fun r e => countOffset r (f e)) r).map Prod.fst ↔ q ∈ r.map Prod.fst ∨ ∃ e ∈ l, f e = q := by
  induction l generalizing r with
  | nil => simp [hr]
  | cons a l ih =>
    obtain ⟨h1, h2, h3⟩ := ih (countOffset r (f a)) (ok_countOffset _ hr)
    refine ⟨h1, fun q => ?_, fun q => ?_⟩
    · rw [List.foldl_cons, h2, get_countOffset]
      by_cases hq : f a = q <;> simp [List.filter_cons, hq]
      omega
    · rw [List.foldl_cons, h3, mem_countOffset]
      constructor
      · rintro ((h | h) | ⟨e, he, h⟩)
        · exact .inl h
        · exact .inr ⟨a, List.mem_cons_self, h.symm⟩
        · exact .inr ⟨e, List.mem_cons_of_mem _ he, h⟩
      · rintro (h | ⟨e, he, h⟩)
        · exact .inl (.inl h)
        · rcases List.mem_cons.mp he with rfl | he
          · exact .inl (.inr h.symm)
          · exact .inr ⟨e, he, h⟩

/-- For each of these partitions, the number of output cells that drain to it is returned. -/
theorem partitionOffsetCounts_spec (h : Holds t p s outs) : ((partitionOffsetCounts s).map Prod.fst).Nodup ∧
    ∀ q c, (q, c) ∈ partitionOffsetCounts s ↔
      0 < c ∧ c = (outs.filter fun e => decide (t.Contains (p + q) (destination t p e).1)).length := by
  obtain ⟨h1, h2, h3⟩ :=
    foldl_countOffset (fun e : Vec n × Vec n => partitionOffset s e.1 e.2) s.offsets [] (by simp)
  refine ⟨h1, fun q c => ?_⟩
  have h2 := h2 q
  have h3 := h3 q
  have hlen : (s.offsets.filter fun e => decide (partitionOffset s e.1 e.2 = q)).length =
      (outs.filter fun e => decide (t.Contains (p + q) (destination t p e).1)).length := by
    rw [h.offsets, List.filter_map, List.length_map]
    congr 1
    apply List.filter_congr
    intro e he
    obtain ⟨hi, ho, _⟩ := h.outputs e he
    exact decide_eq_decide.mpr (partitionOffset_eq h.shape hi ho)
  rw [hlen] at h2
  have hpos : (∃ e ∈ s.offsets, partitionOffset s e.1 e.2 = q) ↔
      0 < (outs.filter fun e => decide (t.Contains (p + q) (destination t p e).1)).length := by
    rw [← hlen, List.length_pos_iff_exists_mem]
    constructor
    · rintro ⟨e, he, hq⟩
      exact ⟨e, List.mem_filter.mpr ⟨he, decide_eq_true hq⟩⟩
    · rintro ⟨e, he⟩
      obtain ⟨he, hq⟩ := List.mem_filter.mp he
      exact ⟨e, he, of_decide_eq_true hq⟩
  change _ ∈ List.foldl _ _ _ ↔ _
  rw [AMap.mem_iff_get h1]
  simp only [AMap.get_nil, Option.getD_none, Nat.zero_add] at h2
  constructor
  · intro hg
    rw [hg] at h2
    have hm : q ∈ (List.foldl (fun r (e : Vec n × Vec n) => countOffset r (partitionOffset s e.1 e.2)) [] s.offsets).map Prod.fst :=
      AMap.get_isSome.mp ⟨c, hg⟩
    rcases h3.mp hm with hc | hc
    · cases hc
    · have := hpos.mp hc
      simp only [Option.getD_some] at h2
      exact ⟨by omega, h2⟩
  · rintro ⟨hc, hl⟩
    rw [← h2] at hl
    have hne : q ∈ (List.foldl (fun r (e : Vec n × Vec n) => countOffset r (partitionOffset s e.1 e.2)) [] s.offsets).map Prod.fst := by
      rw [h3, hpos, ← h2]
      exact .inr (by omega)
    obtain ⟨c', hc'⟩ := AMap.get_isSome.mpr hne
    rw [hc'] at hl
    rw [hc', hl]
    rfl

/-! ### Histories -/

theorem perform_spec {op : Op n V} (h : Holds t p s outs) (hv : op.Valid t p) {s' : State n V} {r : List (Vec n × Vec n × V)}
    (hr : op.perform true s = .ok (s', r)) : ∃ outs',
      Holds t p s' outs' ∧
      ((outs ++ op.added).map (destination t p)).Perm (r.map (arrival t p) ++ outs'.map (destination t p)) ∧
      (∀ e ∈ r, IsStep e.1 ∧ e.1 ≠ 0 ∧ t.IsCell (p + e.1) e.2.1) ∧
      s.inputs.Perm (op.removed ++ s'.inputs) ∧
      ∀ debug, op.perform debug s = .ok (s', r) := by
  cases op with
  | addOutputCell i offset v =>
    obtain ⟨s1, h1, h2⟩ := bind_eq_ok.mp hr
    obtain ⟨hi, ho⟩ := hv
    obtain ⟨hk, hn⟩ := (addOutputCell_ok_iff (v := v) h hi ho).mp ⟨s1, h1⟩
    have he := Except.ok.inj h2
    rw [addOutputCell_ok h hi ho hn hk] at h1
    have e1 := Except.ok.inj h1
    have e2 : s1 = s' := congrArg Prod.fst he
    have e3 : ([] : List (Vec n × Vec n × V)) = r := congrArg Prod.snd he
    rw [← e2, ← e3, ← e1]
    refine ⟨_, h.add hi ho hn hk, by simp [Op.added], (by intro e he; cases he), by simp [Op.removed], fun debug => ?_⟩
    show (addOutputCell debug s i offset v >>= _) = _
    rw [addOutputCell_ok h hi ho hn hk]
    rfl
  | removeInputCell i =>
    obtain ⟨s1, h1, h2⟩ := bind_eq_ok.mp hr
    have hi := List.contains_iff_mem.mp (removeInputCell_ok_iff.mp ⟨s1, h1⟩)
    have he := Except.ok.inj h2
    rw [removeInputCell_ok hi] at h1
    have e1 := Except.ok.inj h1
    have e2 : s1 = s' := congrArg Prod.fst he
    have e3 : ([] : List (Vec n × Vec n × V)) = r := congrArg Prod.snd he
    rw [← e2, ← e3, ← e1]
    refine ⟨_, h.remove i, by simp [Op.added], (by intro e he; cases he), ?_, fun debug => ?_⟩
    · exact List.perm_cons_erase hi
    · show (removeInputCell debug s i >>= _) = _
      rw [removeInputCell_ok hi]
      rfl
  | drain q shape =>
    obtain ⟨r1, h1, h2⟩ := bind_eq_ok.mp hr
    have hq : IsStep q := by
      obtain ⟨u, h2, h3⟩ := bind_eq_ok.mp h1
      obtain ⟨u, h4, h5⟩ := bind_eq_ok.mp h3
      have h4 := require_ok.mp h4
      rw [decide_eq_true_iff] at h4
      exact h4
    have hs : shape = t.shape (p + q) := hv hq
    subst hs
    obtain ⟨hne, _⟩ := (drain_ok_iff h q).mp ⟨r1, h1⟩
    obtain ⟨s2, res, k1, k2, k3, k4, k5⟩ := drain_spec true h hne hq
    rw [k1] at h1
    have e1 := Except.ok.inj h1
    have he := Except.ok.inj h2
    rw [← e1] at he
    have e2 : s2 = s' := congrArg Prod.fst he
    have e3 : (res.map fun e => (q, e)) = r := congrArg Prod.snd he
    subst e2
    subst e3
    refine ⟨_, k4, ?_, ?_, ?_, fun debug => ?_⟩
    · have : (res.map fun e => (q, e)).map (arrival t p) =
          (outs.filter fun e => decide (t.Contains (p + q) (destination t p e).1)).map (destination t p) := by
        rw [List.map_map, ← k3]
        rfl
      have ha : (Op.drain q (t.shape (p + q)) : Op n V).added = [] := rfl
      rw [this, ← List.map_append, ha, List.append_nil]
      exact (List.filter_append_perm _ outs).symm.map _
    · intro e he
      obtain ⟨a, ha, rfl⟩ := List.mem_map.mp he
      refine ⟨hq, ?_, k2 a ha⟩
      rintro (rfl : q = 0)
      have : res.map (fun e => (t.position (p + 0) e.1, e.2)) = [] := by
        rw [k3, List.map_eq_nil_iff, List.filter_eq_nil_iff]
        intro b hb
        rw [decide_eq_true_iff]
        have e0 : p + (0 : Vec n) = p := by
          funext d
          simp
        rw [e0]
        exact (h.outputs b hb).2.2
      rw [List.map_eq_nil_iff] at this
      rw [this] at ha
      cases ha
    · rw [k5]
      exact List.Perm.refl _
    · show (PartitionIO.drain debug s q (t.shape (p + q)) >>= _) = _
      rw [drain_ok true h hne hq] at k1
      rw [drain_ok debug h hne hq, Except.ok.inj k1]
      rfl

theorem run_spec (ops : List (Op n V)) : ∀ (s : State n V) (outs : List (Vec n × Vec n × V)), Holds t p s outs →
    (∀ op ∈ ops, op.Valid t p) → ∀ {s' : State n V} {drained : List (Vec n × Vec n × V)}, run true s ops = .ok (s', drained) →
    ∃ outs', Holds t p s' outs' ∧
      ((outs ++ ops.flatMap Op.added).map (destination t p)).Perm (drained.map (arrival t p) ++ outs'.map (destination t p)) ∧
      (∀ e ∈ drained, IsStep e.1 ∧ e.1 ≠ 0 ∧ t.IsCell (p + e.1) e.2.1) ∧
      s.inputs.Perm (ops.flatMap Op.removed ++ s'.inputs) ∧
      ∀ debug, run debug s ops = .ok (s', drained) := by
  induction ops with
  | nil =>
    intro s outs h _ s' drained hr
    have he := Except.ok.inj hr
    have e1 : s = s' := congrArg Prod.fst he
    have e2 : ([] : List (Vec n × Vec n × V)) = drained := congrArg Prod.snd he
    subst e1
    subst e2
    exact ⟨outs, h, by simp, (by intro e he; cases he), by simp, fun _ => rfl⟩
  | cons op ops ih =>
    intro s outs h hv s' drained hr
    obtain ⟨⟨s1, r1⟩, h1, hr⟩ := bind_eq_ok.mp hr
    obtain ⟨⟨s2, r2⟩, h2, hr⟩ := bind_eq_ok.mp hr
    have he := Except.ok.inj hr
    have e1 : s2 = s' := congrArg Prod.fst he
    have e2 : r1 ++ r2 = drained := congrArg Prod.snd he
    subst e1
    subst e2
    obtain ⟨o1, a1, a2, a3, a4, a5⟩ := perform_spec h (hv op List.mem_cons_self) h1
    obtain ⟨o2, b1, b2, b3, b4, b5⟩ := ih s1 o1 a1 (fun o ho => hv o (List.mem_cons_of_mem _ ho)) h2
    refine ⟨o2, b1, ?_, ?_, ?_, fun debug => ?_⟩
    · rw [List.flatMap_cons, ← List.append_assoc, List.map_append, List.map_append (f := arrival t p), List.append_assoc]
      rw [List.map_append] at b2
      refine (a2.append_right _).trans ?_
      rw [List.append_assoc]
      exact b2.append_left _
    · intro e he
      rcases List.mem_append.mp he with he | he
      · exact a3 e he
      · exact b3 e he
    · rw [List.flatMap_cons, List.append_assoc]
      exact a4.trans (b4.append_left _)
    · show (op.perform debug s >>= fun r => run debug r.1 ops >>= fun r' => pure (r'.1, r.2 ++ r'.2)) = _
      rw [a5 debug, ok_bind]
      show (run debug s1 ops >>= _) = _
      rw [b5 debug, ok_bind]
      rfl

/-- Whatever the history of calls: no material is lost or duplicated, all material that is drained arrives in the cell it was sent to, in
one of the neighbouring partitions, and input cells are solved one by one. Builds without assertions behave the same. -/
theorem history (t : Tiling n) (p : Vec n) {inputs : List (Vec n)} {s s' : State n V} {ops : List (Op n V)}
    {drained : List (Vec n × Vec n × V)} (hs : construct true (t.shape p) inputs = .ok s) (hv : ∀ op ∈ ops, op.Valid t p)
    (hr : run true s ops = .ok (s', drained)) : ∃ remaining, Holds t p s' remaining ∧
      ((ops.flatMap Op.added).map (destination t p)).Perm (drained.map (arrival t p) ++ remaining.map (destination t p)) ∧
      (∀ e ∈ drained, IsStep e.1 ∧ e.1 ≠ 0 ∧ t.IsCell (p + e.1) e.2.1) ∧
      inputs.Perm (ops.flatMap Op.removed ++ s'.inputs) ∧
      (isDrained s' = true ↔ remaining = []) ∧
      (isSolved s' = true ↔ inputs.Perm (ops.flatMap Op.removed)) ∧
      ∀ debug, (construct debug (t.shape p) inputs >>= fun s => run debug s ops) = .ok (s', drained) := by
  obtain ⟨o, h1, h2, h3, h4, h5⟩ := run_spec ops s [] (holds_construct hs) hv hr
  have hin : s = ⟨t.shape p, inputs, [], []⟩ := ((construct_ok_iff t p inputs s).mp hs).1
  rw [List.nil_append] at h2
  have h4' : inputs.Perm (ops.flatMap Op.removed ++ s'.inputs) := by
    rw [hin] at h4
    exact h4
  refine ⟨o, h1, h2, h3, h4', drained_iff h1, ?_, fun debug => ?_⟩
  · rw [solved_iff]
    constructor
    · intro h0
      rw [h0, List.append_nil] at h4'
      exact h4'
    · intro hp
      have := hp.length_eq
      have := h4'.length_eq
      rw [List.length_append] at this
      exact List.length_eq_zero_iff.mp (by omega)
  · have : construct debug (t.shape p) inputs = .ok s := by
      cases debug with
      | true => exact hs
      | false =>
        rw [hin]
        rfl
    rw [this, ok_bind]
    exact h5 debug

/-- Once everything is drained: what arrived is what was sent. -/
theorem history_drained (t : Tiling n) (p : Vec n) {inputs : List (Vec n)} {s s' : State n V} {ops : List (Op n V)}
    {drained : List (Vec n × Vec n × V)} (hs : construct true (t.shape p) inputs = .ok s) (hv : ∀ op ∈ ops, op.Valid t p)
    (hr : run true s ops = .ok (s', drained)) (hd : isDrained s' = true) :
    (drained.map (arrival t p)).Perm ((ops.flatMap Op.added).map (destination t p)) := by
  obtain ⟨o, _, h2, _, _, h5, _⟩ := history t p hs hv hr
  rw [h5.mp hd, List.map_nil, List.append_nil] at h2
  exact h2.symm

/-- After draining to a partition, nothing is left for it. -/
theorem drain_partitionOffsets (h : Holds t p s outs) {q : Vec n} {s' : State n V} {r : List (Vec n × V)}
    (hr : drain true s q (t.shape (p + q)) = .ok (s', r)) (q' : Vec n) :
    q' ∈ partitionOffsets s' ↔ q' ∈ partitionOffsets s ∧ q' ≠ q := by
  obtain ⟨hne, hq⟩ := (drain_ok_iff h q).mp ⟨_, hr⟩
  obtain ⟨s2, res, k1, k2, k3, k4, k5⟩ := drain_spec true h hne hq
  rw [k1] at hr
  have : s2 = s' := congrArg Prod.fst (Except.ok.inj hr)
  subst this
  rw [(partitionOffsets_spec k4).2, (partitionOffsets_spec h).2]
  constructor
  · rintro ⟨e, he, hc⟩
    obtain ⟨he, hn⟩ := List.mem_filter.mp he
    refine ⟨⟨e, he, hc⟩, ?_⟩
    rintro rfl
    rw [decide_eq_true hc] at hn
    cases hn
  · rintro ⟨⟨e, he, hc⟩, hqq⟩
    refine ⟨e, List.mem_filter.mpr ⟨he, ?_⟩, hc⟩
    rw [Bool.not_eq_true', decide_eq_false_iff_not]
    intro hc'
    apply hqq
    have := t.contains_unique hc hc'
    funext d
    have := congrFun this d
    simp only [Pi.add_apply] at this
    omega

/-- Draining to each of the partitions, in whatever order, drains the partition: each call succeeds. -/
theorem drain_all (qs : List (Vec n)) : ∀ (s : State n V) (outs : List (Vec n × Vec n × V)), Holds t p s outs → qs.Nodup →
    (∀ q, q ∈ qs ↔ q ∈ partitionOffsets s) → ∀ debug, ∃ s' drained,
      run debug s (qs.map fun q => .drain q (t.shape (p + q))) = .ok (s', drained) ∧ isDrained s' = true ∧
      (drained.map (arrival t p)).Perm (outs.map (destination t p)) := by
  intro s outs h hd hq debug
  have key : ∀ (qs : List (Vec n)) (s : State n V) (outs : List (Vec n × Vec n × V)), Holds t p s outs → qs.Nodup →
      (∀ q, q ∈ qs ↔ q ∈ partitionOffsets s) → ∃ s' drained,
      run true s (qs.map fun q => .drain q (t.shape (p + q))) = .ok (s', drained) ∧ isDrained s' = true := by
    intro qs
    induction qs with
    | nil =>
      intro s outs h _ hq
      refine ⟨s, [], rfl, (drained_iff h).mpr ?_⟩
      rw [List.eq_nil_iff_forall_not_mem]
      intro e he
      obtain ⟨hi, ho, _⟩ := h.outputs e he
      have := (hq (partitionOffset s e.1 e.2.1)).mpr
        (((partitionOffsets_spec h).2 _).mpr ⟨e, he, contains_partitionOffset h.shape hi ho⟩)
      cases this
    | cons q qs ih =>
      intro s outs h hd hq
      obtain ⟨h1, hd⟩ := List.nodup_cons.mp hd
      have hm := (hq q).mp List.mem_cons_self
      have hst := (partitionOffsets_neighbour h hm).1
      have hne : outs ≠ [] := by
        obtain ⟨e, he, _⟩ := ((partitionOffsets_spec h).2 q).mp hm
        rintro rfl
        cases he
      obtain ⟨s2, res, k1, k2, k3, k4, k5⟩ := drain_spec true h hne hst
      obtain ⟨s3, d3, r3, i3⟩ := ih s2 _ k4 hd (fun q' => by
        rw [drain_partitionOffsets h k1, ← hq, List.mem_cons]
        constructor
        · intro hc
          exact ⟨.inr hc, fun e => h1 (e ▸ hc)⟩
        · rintro ⟨rfl | hc, hn⟩
          · exact (hn rfl).elim
          · exact hc)
      refine ⟨s3, (res.map fun e => (q, e)) ++ d3, ?_, i3⟩
      rw [List.map_cons]
      show ((PartitionIO.drain true s q (t.shape (p + q)) >>= fun r => pure (r.1, r.2.map fun e => (q, e))) >>= fun r =>
        run true r.1 _ >>= fun r' => pure (r'.1, r.2 ++ r'.2)) = _
      rw [k1, ok_bind]
      show (run true s2 _ >>= _) = _
      rw [r3, ok_bind]
      rfl
  obtain ⟨s', drained, hr, hdr⟩ := key qs s outs h hd hq
  obtain ⟨o, b1, b2, b3, b4, b5⟩ := run_spec _ s outs h (by
    intro op hop
    obtain ⟨q, _, rfl⟩ := List.mem_map.mp hop
    intro _
    rfl) hr
  refine ⟨s', drained, b5 debug, hdr, ?_⟩
  rw [(drained_iff b1).mp hdr] at b2
  have e : (qs.map fun q => (Op.drain q (t.shape (p + q)) : Op n V)).flatMap Op.added = [] := by
    rw [List.flatMap_eq_nil_iff]
    intro op hop
    obtain ⟨q, _, rfl⟩ := List.mem_map.mp hop
    rfl
  rw [e, List.append_nil, List.map_nil, List.append_nil] at b2
  exact b2.symm

/-! ### Examples -/

/-- Partitions of three by two cells -/
def exampleTiling : Tiling 2 := ⟨fun d k => if d = 0 then 3 * k else 2 * k, fun d k => by split <;> omega⟩

/-- The partition at row 1, column 0, with two input cells. Cell (0, 1) drains to the north-east, cell (2, 1) to the east. The first is
drained, and an input cell is solved. -/
def exampleOps : List (Op 2 Nat) :=
  [.addOutputCell ![0, 1] ![-1, 1] 5, .addOutputCell ![2, 1] ![0, 1] 7, .removeInputCell ![1, 0], .drain ![-1, 1] ![3, 2]]

example : ∀ op ∈ exampleOps, op.Valid exampleTiling ![1, 0] := by
  intro op hop
  simp only [exampleOps, List.mem_cons, List.not_mem_nil, or_false] at hop
  rcases hop with rfl | rfl | rfl | rfl
  · exact ⟨by unfold Tiling.IsCell; decide +kernel, by unfold IsStep; decide +kernel⟩
  · exact ⟨by unfold Tiling.IsCell; decide +kernel, by unfold IsStep; decide +kernel⟩
  · trivial
  · intro _
    decide +kernel

/-- What was sent to the north-east arrives in cell (2, 0) of the partition to the north-east; the other output cell remains, and so does
one of the input cells. -/
example : ((construct true (exampleTiling.shape ![1, 0]) [![1, 0], ![2, 0]] >>= fun s => run true s exampleOps).map fun r =>
    (r.1.inputs, r.2)).toOption = some ([![2, 0]], [(![-1, 1], ![2, 0], 5)]) := by
  decide +kernel

example : ((construct true (exampleTiling.shape ![1, 0]) [![1, 0], ![2, 0]] >>= fun s => run true s exampleOps).map fun r =>
    (r.1.offsets, r.1.values)).toOption = some ([(![2, 1], ![0, 1])], [(![2, 1], 7)]) := by
  decide +kernel

end Lue.PartitionIO

import Verif.UniqueId.Model
import Mathlib.Data.List.Pairwise

namespace Lue.UniqueId

variable {α : Type}

/-- Number of elements in the first `e` elements which get an ID. -/
def nrBefore (isNoData truth : α → Bool) (data : List α) (e : Nat) : Nat :=
  (data.take e).countP fun x => !isNoData x && truth x

theorem nrBefore_le (isNoData truth : α → Bool) (data : List α) (e : Nat) :
    nrBefore isNoData truth data e ≤ e := by
  unfold nrBefore
  exact (List.countP_le_length).trans (by simp)

theorem nrBefore_succ (isNoData truth : α → Bool) (data : List α) (e : Nat) (x : α) (h : data[e]? = some x) :
    nrBefore isNoData truth data (e + 1) =
      nrBefore isNoData truth data e + if !isNoData x && truth x then 1 else 0 := by
  unfold nrBefore
  rw [List.take_add_one, h]
  simp [List.countP_append, List.countP_cons]

theorem nrBefore_mono (isNoData truth : α → Bool) (data : List α) {e e' : Nat} (h : e ≤ e') :
    nrBefore isNoData truth data e ≤ nrBefore isNoData truth data e' :=
  ((List.take_prefix_take_left h).sublist).countP_le

/-- The value assigned to element `e` -/
def idValue (isNoData truth : α → Bool) (mark : Nat) (data : List α) (start e : Nat) (x : α) : Nat :=
  if isNoData x then mark else if truth x then start + nrBefore isNoData truth data e else 0

theorem uniqueIdPartition_ok (isNoData truth : α → Bool) (mark : Nat) (garbage : Nat → Nat) (data : List α)
    (start : Nat) :
    ∃ r, uniqueIdPartition isNoData truth mark garbage data start = .ok r ∧ r.length = data.length ∧
      ∀ e x, data[e]? = some x → r[e]? = some (idValue isNoData truth mark data start e x) := by
  have key : ∀ n ≤ data.length, ∃ r, forLoop n (fun i (s : List Nat × Nat) => do
      let x ← rd data i
      if isNoData x then
        return (← wr s.1 i mark, s.2)
      else if truth x then
        return (← wr s.1 i s.2, s.2 + 1)
      else
        return (← wr s.1 i 0, s.2)) (uninitialised data.length garbage, start) =
        (.ok (r, start + nrBefore isNoData truth data n) : M _) ∧
      r.length = data.length ∧
      ∀ e x, e < n → data[e]? = some x → r[e]? = some (idValue isNoData truth mark data start e x) := by
    intro n
    induction n with
    | zero => intro _; exact ⟨uninitialised data.length garbage, by simp [forLoop, nrBefore]; rfl, by simp [uninitialised],
        by intro e x h; omega⟩
    | succ n ih =>
      intro hn
      obtain ⟨r, h1, h2, h3⟩ := ih (by omega)
      have hx : data[n]? = some data[n] := by simp [hn]
      refine ⟨r.set n (idValue isNoData truth mark data start n data[n]), ?_, by simp [h2], ?_⟩
      · unfold forLoop at h1 ⊢
        rw [List.range_succ, List.foldlM_append, h1]
        simp only [M.bind_ok, List.foldlM_cons, List.foldlM_nil, rd_ok hx, nrBefore_succ _ _ _ _ _ hx,
          wr_ok _ (show n < r.length by omega), idValue]
        by_cases ha : isNoData data[n] <;> by_cases hb : truth data[n] <;> simp [ha, hb] <;> rfl
      · intro e x he hex
        by_cases h : e = n
        · subst h
          rw [hx] at hex
          injection hex with hex
          rw [List.getElem?_set_self (by omega), hex]
        · rw [List.getElem?_set_ne (by omega)]
          exact h3 e x (by omega) hex
  obtain ⟨r, h1, h2, h3⟩ := key data.length (Nat.le_refl _)
  refine ⟨r, ?_, h2, fun e x h => h3 e x (List.getElem?_eq_some_iff.mp h).1 h⟩
  unfold uniqueIdPartition
  rw [h1]; rfl

/-! ### The loop -/

theorem rotateOne_take {β : Type} (v : List β) (i n : Nat) (hi : i < n + 1) (hn : n + 1 ≤ v.length) :
    (rotateOne v i (n + 1)).take n = v.take i ++ (v.take (n + 1)).drop (i + 1) := by
  unfold rotateOne
  rw [List.append_assoc, List.append_assoc, ← List.append_assoc (v.take i)]
  exact List.take_left' (by simp; omega)

theorem rotateOne_length {β : Type} (v : List β) (i n : Nat) (hi : i < n) (hn : n ≤ v.length) :
    (rotateOne v i n).length = v.length := by
  simp [rotateOne]; omega

theorem rotateOne_map {β γ : Type} (f : β → γ) (v : List β) (i n : Nat) :
    (rotateOne v i n).map f = rotateOne (v.map f) i n := by
  simp [rotateOne]

/-- Invariant of the loop. `size k` is the number of elements in partition `k`. -/
structure Inv (N : Nat) (size : Nat → Nat) (s : State) : Prop where
  le : s.toHandle ≤ s.idxs.length
  sizes : s.sizes.take s.toHandle = (s.idxs.take s.toHandle).map size
  perm : (s.launched.map Prod.fst ++ s.idxs.take s.toHandle).Perm (List.range N)
  start : s.start = 1 + (s.launched.map fun e => size e.1).sum
  disj : s.launched.Pairwise fun a b => a.2 + size a.1 ≤ b.2
  bound : ∀ e ∈ s.launched, 1 ≤ e.2 ∧ e.2 + size e.1 ≤ s.start

theorem step_inv {N : Nat} {size : Nat → Nat} {s : State} (h : Inv N size s) {n pick : Nat} (hn : s.toHandle = n + 1)
    (hp : pick < n + 1) : ∃ s', step s pick = .ok s' ∧ s'.toHandle = n ∧ Inv N size s' := by
  have hle := h.le
  have hk : s.idxs[pick]? = some s.idxs[pick] := by simp
  have hs : (s.sizes.take s.toHandle)[pick]? = some (size s.idxs[pick]) := by
    rw [h.sizes, List.getElem?_map, List.getElem?_take]; simp only [hn, hp, if_true, hk, Option.map_some]
  have hlen : (s.sizes.take s.toHandle).length = n + 1 := by rw [h.sizes]; simp; omega
  refine ⟨_, by simp only [step, rd_ok hk, rd_ok hs, M.bind_ok]; rfl, by simp [hn], ?_⟩
  have ht : (rotateOne s.idxs pick (n + 1)).take n = s.idxs.take pick ++ (s.idxs.take (n + 1)).drop (pick + 1) :=
    rotateOne_take _ _ _ hp (by omega)
  refine ⟨?_, ?_, ?_, ?_, ?_, ?_⟩
  · simp only [hn]
    rw [rotateOne_length _ _ _ hp (by omega)]; omega
  · simp only [hn, Nat.add_sub_cancel]
    rw [← hn, h.sizes, hn, ← rotateOne_map, ← List.map_take, rotateOne_take _ _ _ hp (by simp; omega), ht]
    simp [List.take_take]
    omega
  · simp only [hn, Nat.add_sub_cancel, ht, List.map_append, List.map_cons, List.map_nil]
    refine List.Perm.trans ?_ h.perm
    rw [List.append_assoc]
    refine List.Perm.append_left _ ?_
    have e : s.idxs.take (n + 1) = s.idxs.take pick ++ (s.idxs[pick] :: (s.idxs.take (n + 1)).drop (pick + 1)) := by
      conv_lhs => rw [← List.take_append_drop pick (s.idxs.take (n + 1))]
      congr 1
      · rw [List.take_take]; congr 1; omega
      · rw [List.drop_eq_getElem_cons (by simp; omega)]; simp
    rw [hn]
    conv_rhs => rw [e]
    simp only [List.singleton_append]
    exact List.perm_middle.symm
  · simp only [h.start, List.map_append, List.map_cons, List.map_nil, List.sum_append, List.sum_cons, List.sum_nil]
    omega
  · rw [List.pairwise_append]
    refine ⟨h.disj, by simp, ?_⟩
    intro a ha b hb
    simp only [List.mem_singleton] at hb
    rw [hb]; exact (h.bound a ha).2
  · intro e he
    rcases List.mem_append.mp he with he | he
    · have := h.bound e he
      exact ⟨this.1, by simp only; omega⟩
    · simp only [List.mem_singleton] at he
      rw [he]
      exact ⟨by have := h.start; simp only; omega, by simp⟩

theorem launches_ok (sizes : List Nat) {picks : List Nat} (hp : IsPicks sizes.length picks) :
    ∃ l, launches sizes picks = .ok l ∧ (l.map Prod.fst).Perm (List.range sizes.length) ∧
      (l.Pairwise fun a b => a.2 + sizes.getD a.1 0 ≤ b.2) ∧
      ∀ e ∈ l, 1 ≤ e.2 ∧ e.2 + sizes.getD e.1 0 ≤ 1 + sizes.sum := by
  have key : ∀ (n : Nat) (picks : List Nat) (s : State), IsPicks n picks → s.toHandle = n →
      Inv sizes.length (fun k => sizes.getD k 0) s →
      ∃ s', picks.foldlM step s = .ok s' ∧ s'.toHandle = 0 ∧ Inv sizes.length (fun k => sizes.getD k 0) s' := by
    intro n
    induction n with
    | zero =>
      intro picks s hp hn h
      cases picks with
      | nil => exact ⟨s, rfl, hn, h⟩
      | cons => exact hp.elim
    | succ n ih =>
      intro picks s hp hn h
      cases picks with
      | nil => exact hp.elim
      | cons p ps =>
        obtain ⟨s', h1, h2, h3⟩ := step_inv h hn hp.1
        obtain ⟨s'', h4, h5⟩ := ih ps s' hp.2 h2 h3
        exact ⟨s'', by rw [List.foldlM_cons, h1]; exact h4, h5⟩
  obtain ⟨s, h1, h2, h3⟩ := key sizes.length picks ⟨List.range sizes.length, sizes, sizes.length, 1, []⟩ hp rfl
    ⟨by simp, by
      simp only
      rw [List.take_of_length_le (by simp), List.take_of_length_le (by simp)]
      apply List.ext_getElem?
      intro i
      by_cases h : i < sizes.length <;> simp [h] <;> omega,
      by simp [List.take_of_length_le], by simp, by simp, by simp⟩
  have hperm := h3.perm
  rw [h2] at hperm
  simp only [List.take_zero, List.append_nil] at hperm
  refine ⟨s.launched, by simp only [launches, h1, M.bind_ok]; rfl, hperm, h3.disj, ?_⟩
  intro e he
  have hb := h3.bound e he
  have hs := h3.start
  have : (s.launched.map fun e => sizes.getD e.1 0).sum = sizes.sum := by
    have e1 : (s.launched.map fun e => sizes.getD e.1 0) = (s.launched.map Prod.fst).map fun k => sizes.getD k 0 := by
      rw [List.map_map]; rfl
    rw [e1, (hperm.map _).sum_nat]
    congr 1
    apply List.ext_getElem?
    intro i
    by_cases h : i < sizes.length <;> simp [h] <;> omega
  rw [this] at hs
  exact ⟨hb.1, by omega⟩

theorem setPromises_ok {π : Type} {n : Nat} {tasks : List (Nat × Nat)} (ht : (tasks.map Prod.fst).Perm (List.range n))
    {order : List Nat} (ho : IsOrder n order) (task : Nat × Nat → M π) {r : Nat → π}
    (hr : ∀ e ∈ tasks, task e = .ok (r e.1)) :
    (do
      let promises ← order.foldlM (fun (promises : List (Option π)) t => do
        let e ← rd tasks t
        let p ← task e
        setPromise promises e.1 p) (List.replicate n none)
      collect promises) = (.ok ((List.range n).map r) : M _) := by
  have hlen : tasks.length = n := by have := ht.length_eq; simpa using this
  have hnd : (tasks.map Prod.fst).Nodup := ht.nodup_iff.mpr List.nodup_range
  have key : ∀ (l : List Nat) (s : List (Option π)), l.Nodup → (∀ t ∈ l, t < n) → s.length = n →
      (∀ t ∈ l, ∀ e, tasks[t]? = some e → s[e.1]? = some none) →
      ∃ s', l.foldlM (fun (promises : List (Option π)) t => do
        let e ← rd tasks t
        let p ← task e
        setPromise promises e.1 p) s = .ok s' ∧ s'.length = n ∧
        ∀ k < n, s'[k]? = if ∃ t ∈ l, ∃ e, tasks[t]? = some e ∧ e.1 = k then some (some (r k)) else s[k]? := by
    intro l
    induction l with
    | nil => intro s _ _ hs _; exact ⟨s, rfl, hs, by simp⟩
    | cons a l ih =>
      intro s hnl hl hs hfree
      have ha : a < tasks.length := by rw [hlen]; exact hl a (by simp)
      have hae : tasks[a]? = some tasks[a] := by simp [ha]
      have hmem : tasks[a] ∈ tasks := List.getElem_mem ha
      have hfa := hfree a (by simp) _ hae
      have hlt : tasks[a].1 < n := by
        have := ht.mem_iff.mp (List.mem_map_of_mem (f := Prod.fst) hmem); simpa using this
      obtain ⟨s', he, hl', hv⟩ := ih (s.set tasks[a].1 (some (r tasks[a].1))) (List.nodup_cons.mp hnl).2
        (fun t ht => hl t (by simp [ht])) (by simp [hs]) (by
          intro t htl e hte
          have hne : tasks[a].1 ≠ e.1 := by
            intro heq
            have h1 : (tasks.map Prod.fst)[a]? = some e.1 := by simp [hae, heq]
            have h2 : (tasks.map Prod.fst)[t]? = some e.1 := by simp [hte]
            have := (List.nodup_iff_injective_get.mp hnd)
            have hat : a = t := by
              have hat' := List.Nodup.getElem_inj_iff hnd (i := a) (j := t)
                (hi := by simpa using ha) (hj := by simpa using (List.getElem?_eq_some_iff.mp hte).1)
              apply hat'.mp
              have e1 := List.getElem?_eq_some_iff.mp h1
              have e2 := List.getElem?_eq_some_iff.mp h2
              rw [e1.2, e2.2]
            exact (List.nodup_cons.mp hnl).1 (hat ▸ htl)
          rw [List.getElem?_set_ne hne]
          exact hfree t (by simp [htl]) e hte)
      refine ⟨s', ?_, hl', ?_⟩
      · rw [List.foldlM_cons, rd_ok hae]
        simp only [M.bind_ok, hr _ hmem, setPromise, hfa]
        exact he
      · intro k hk
        rw [hv k hk]
        by_cases h1 : ∃ t ∈ l, ∃ e, tasks[t]? = some e ∧ e.1 = k
        · have h2 : ∃ t ∈ a :: l, ∃ e, tasks[t]? = some e ∧ e.1 = k := by
            obtain ⟨t, ht, h⟩ := h1; exact ⟨t, by simp [ht], h⟩
          rw [if_pos h1, if_pos h2]
        · rw [if_neg h1]
          by_cases h3 : tasks[a].1 = k
          · rw [if_pos ⟨a, by simp, _, hae, h3⟩, h3, List.getElem?_set_self (by omega)]
          · rw [List.getElem?_set_ne h3, if_neg]
            rintro ⟨t, ht, e, hte, hek⟩
            rcases List.mem_cons.mp ht with h | h
            · subst h; rw [hae] at hte; injection hte with hte; subst hte; exact h3 hek
            · exact h1 ⟨t, h, e, hte, hek⟩
  obtain ⟨s', he, hl', hv⟩ := key order (List.replicate n none) (ho.nodup_iff.mpr List.nodup_range)
    (fun t ht => by have := ho.mem_iff.mp ht; simpa using this) (by simp) (by
      intro t _ e hte
      have hmem : e ∈ tasks := List.mem_of_getElem? hte
      have := ht.mem_iff.mp (List.mem_map_of_mem (f := Prod.fst) hmem)
      simp only [List.mem_range] at this
      simp [this])
  have hs' : s' = ((List.range n).map r).map some := by
    apply List.ext_getElem?
    intro k
    by_cases hk : k < n
    · rw [hv k hk, if_pos]
      · simp [hk]
      · obtain ⟨e, he, hek⟩ := List.mem_map.mp (ht.mem_iff.mpr (by simpa using hk))
        obtain ⟨t, htl, hte⟩ := List.getElem_of_mem he
        exact ⟨t, ho.mem_iff.mpr (by simp; omega), e, by simp [htl, hte], hek⟩
    · rw [List.getElem?_eq_none (by omega), List.getElem?_eq_none (by simp; omega)]
  rw [he, M.bind_ok, hs']
  exact mapM_some _

theorem length_cellIdxs (a0 a1 : Nat) : (cellIdxs a0 a1).length = a0 * a1 := by
  simp [cellIdxs, List.length_flatMap]

/-- C11: whatever the order in which the sizes of the partitions become available and the tasks complete, unique_id
numbers the cells with a valid, true condition with distinct positive numbers, not larger than the number of cells.
Cells with a false condition get zero, and cells with an invalid condition are marked as no-data. -/
theorem uniqueId_spec (isNoData truth : α → Bool) (mark : Nat) (garbage : Nat → Nat) {x : PArr α} {v : Arr α}
    (hx : Represents x v) {picks order : List Nat} (hp : IsPicks (x.grid.n0 * x.grid.n1) picks)
    (ho : IsOrder (x.grid.n0 * x.grid.n1) order) :
    ∃ r u, uniqueId isNoData truth mark garbage picks order x = .ok r ∧ r.grid = x.grid ∧ Represents r u ∧
      (∀ i j, i < x.grid.a0 → j < x.grid.a1 → isNoData (v i j) = true → u i j = mark) ∧
      (∀ i j, i < x.grid.a0 → j < x.grid.a1 → isNoData (v i j) = false → truth (v i j) = false → u i j = 0) ∧
      (∀ i j, i < x.grid.a0 → j < x.grid.a1 → isNoData (v i j) = false → truth (v i j) = true →
        0 < u i j ∧ u i j ≤ x.grid.a0 * x.grid.a1) ∧
      (∀ i j i' j', i < x.grid.a0 → j < x.grid.a1 → i' < x.grid.a0 → j' < x.grid.a1 →
        isNoData (v i j) = false → truth (v i j) = true → isNoData (v i' j') = false → truth (v i' j') = true →
        u i j = u i' j' → i = i' ∧ j = j') := by
  classical
  have hnr := hx.nr_parts
  obtain ⟨l, hl, hperm, hdisj, hbound⟩ := launches_ok (x.parts.map List.length) (by simpa [hnr] using hp)
  rw [List.length_map, hnr] at hperm
  -- the start value of each partition
  have hex : ∀ k, k < x.grid.n0 * x.grid.n1 → ∃ s, (k, s) ∈ l := by
    intro k hk
    obtain ⟨e, he, hek⟩ := List.mem_map.mp (hperm.mem_iff.mpr (by simpa using hk))
    exact ⟨e.2, by rw [← hek]; exact he⟩
  let st : Nat → Nat := fun k => if h : k < x.grid.n0 * x.grid.n1 then (hex k h).choose else 0
  have hst : ∀ k, k < x.grid.n0 * x.grid.n1 → (k, st k) ∈ l := by
    intro k hk; simp only [st, hk, dif_pos]; exact (hex k hk).choose_spec
  have hndl : (l.map Prod.fst).Nodup := hperm.nodup_iff.mpr List.nodup_range
  have hst' : ∀ e ∈ l, e.2 = st e.1 := by
    intro e he
    have h1 : e.1 < x.grid.n0 * x.grid.n1 := by
      have := hperm.mem_iff.mp (List.mem_map_of_mem (f := Prod.fst) he); simpa using this
    have h2 := hst _ h1
    have := List.inj_on_of_nodup_map hndl he h2 rfl
    exact congrArg Prod.snd this
  -- the contents of each partition
  have hpart : ∀ k, ∃ q, x.parts[k]? = none ∨ (uniqueIdPartition isNoData truth mark garbage (x.parts.getD k []) (st k) = .ok q ∧
      q.length = (x.parts.getD k []).length ∧ ∀ e y, (x.parts.getD k [])[e]? = some y →
        q[e]? = some (idValue isNoData truth mark (x.parts.getD k []) (st k) e y)) := by
    intro k
    obtain ⟨q, hq⟩ := uniqueIdPartition_ok isNoData truth mark garbage (x.parts.getD k []) (st k)
    exact ⟨q, .inr hq⟩
  choose q hq using hpart
  have hq' : ∀ k p, x.parts[k]? = some p → uniqueIdPartition isNoData truth mark garbage p (st k) = .ok (q k) ∧
      (q k).length = p.length ∧ ∀ e y, p[e]? = some y →
        (q k)[e]? = some (idValue isNoData truth mark p (st k) e y) := by
    intro k p hk
    have : x.parts.getD k [] = p := by simp [List.getD, hk]
    rcases hq k with h | h
    · rw [hk] at h; cases h
    · rwa [this] at h
  have hrun := setPromises_ok hperm ho (fun e => do
    uniqueIdPartition isNoData truth mark garbage (← rd x.parts e.1) e.2) (r := q) (by
      intro e he
      have h1 : e.1 < x.grid.n0 * x.grid.n1 := by
        have := hperm.mem_iff.mp (List.mem_map_of_mem (f := Prod.fst) he); simpa using this
      have hk : x.parts[e.1]? = some (x.parts[e.1]'(by omega)) := by simp
      rw [rd_ok hk, M.bind_ok, hst' e he]
      exact (hq' _ _ hk).1)
  let u : Arr Nat := assemble x.grid fun k0 k1 l0 l1 => (q (k0 * x.grid.n1 + k1)).getD (l0 * x.grid.cols k1 + l1) 0
  have hu : ∀ i j k0 k1 l0 l1, IsCell x.grid i j k0 k1 l0 l1 → ∃ p, x.parts[k0 * x.grid.n1 + k1]? = some p ∧
      p.length = x.grid.rows k0 * x.grid.cols k1 ∧
      (q (k0 * x.grid.n1 + k1))[l0 * x.grid.cols k1 + l1]? = some (u i j) ∧
      u i j = idValue isNoData truth mark p (st (k0 * x.grid.n1 + k1)) (l0 * x.grid.cols k1 + l1) (v i j) ∧
      p[l0 * x.grid.cols k1 + l1]? = some (v i j) := by
    intro i j k0 k1 l0 l1 hc
    obtain ⟨p, h1, h2, h3⟩ := hx.part hc.k0_lt hc.k1_lt
    have h4 := h3 _ _ hc.l0_lt hc.l1_lt
    rw [← hc.i_eq, ← hc.j_eq] at h4
    have h5 := (hq' _ _ h1).2.2 _ _ h4
    have h6 : u i j = (q (k0 * x.grid.n1 + k1)).getD (l0 * x.grid.cols k1 + l1) 0 := hc.assemble hx.ok _
    have h7 : u i j = idValue isNoData truth mark p (st (k0 * x.grid.n1 + k1)) (l0 * x.grid.cols k1 + l1) (v i j) := by
      rw [h6, List.getD_eq_getElem?_getD, h5]; rfl
    exact ⟨p, h1, h2, by rw [h5, h7], h7, h4⟩
  refine ⟨⟨x.grid, (List.range (x.grid.n0 * x.grid.n1)).map q⟩, u, ?_, rfl, ⟨hx.ok, by simp, ?_, ?_⟩, ?_, ?_, ?_, ?_⟩
  · unfold uniqueId
    rw [hl, M.bind_ok]
    simp only [hnr]
    have := congrArg (fun r => r >>= fun parts => (pure ⟨x.grid, parts⟩ : M (PArr Nat))) hrun
    simp only [bind_assoc] at this
    exact this
  · intro k0 k1 p h0 h1 hp
    simp only at h0 h1
    have hk := idx_lt h0 h1
    obtain ⟨p', h2, h3, _⟩ := hx.part h0 h1
    simp only [List.getElem?_map, List.getElem?_range hk, Option.map_some, Option.some.injEq] at hp
    rw [← hp, (hq' _ _ h2).2.1, h3]
  · intro i j k0 k1 l0 l1 hc
    obtain ⟨p, _, _, h, _⟩ := hu i j k0 k1 l0 l1 hc
    simp only [PArr.elem?, List.getElem?_map, List.getElem?_range (idx_lt hc.k0_lt hc.k1_lt), Option.map_some,
      Option.bind_some]
    exact h
  · intro i j hi hj hn
    obtain ⟨k0, k1, l0, l1, hc⟩ := exists_isCell hx.ok hi hj
    obtain ⟨p, _, _, _, h, _⟩ := hu i j k0 k1 l0 l1 hc
    rw [h]; simp [idValue, hn]
  · intro i j hi hj hn ht
    obtain ⟨k0, k1, l0, l1, hc⟩ := exists_isCell hx.ok hi hj
    obtain ⟨p, _, _, _, h, _⟩ := hu i j k0 k1 l0 l1 hc
    rw [h]; simp [idValue, hn, ht]
  · intro i j hi hj hn ht
    obtain ⟨k0, k1, l0, l1, hc⟩ := exists_isCell hx.ok hi hj
    obtain ⟨p, h1, h2, _, h, h4⟩ := hu i j k0 k1 l0 l1 hc
    have hb := hbound _ (hst _ (idx_lt hc.k0_lt hc.k1_lt))
    have hsum : (x.parts.map List.length).sum = x.grid.a0 * x.grid.a1 := by
      rw [← List.length_flatten, hx.flatten_perm.length_eq, cells, List.length_map, length_cellIdxs]
    have hsz : (x.parts.map List.length).getD (k0 * x.grid.n1 + k1) 0 = p.length := by simp [List.getD, h1]
    rw [hsum, hsz] at hb
    have hlt := nrBefore_le isNoData truth p (l0 * x.grid.cols k1 + l1)
    have hle : l0 * x.grid.cols k1 + l1 < p.length := (List.getElem?_eq_some_iff.mp h4).1
    simp only [h, idValue, hn, ht, Bool.false_eq_true, if_false, if_true]
    simp only at hb
    omega
  · intro i j i' j' hi hj hi' hj' hn ht hn' ht' heq
    obtain ⟨k0, k1, l0, l1, hc⟩ := exists_isCell hx.ok hi hj
    obtain ⟨k0', k1', l0', l1', hc'⟩ := exists_isCell hx.ok hi' hj'
    obtain ⟨p, h1, h2, _, h, h4⟩ := hu i j k0 k1 l0 l1 hc
    obtain ⟨p', h1', h2', _, h', h4'⟩ := hu i' j' k0' k1' l0' l1' hc'
    simp only [h, h', idValue, hn, ht, hn', ht', Bool.false_eq_true, if_false, if_true] at heq
    have hle : l0 * x.grid.cols k1 + l1 < p.length := (List.getElem?_eq_some_iff.mp h4).1
    have hle' : l0' * x.grid.cols k1' + l1' < p'.length := (List.getElem?_eq_some_iff.mp h4').1
    have hlt := nrBefore_le isNoData truth p (l0 * x.grid.cols k1 + l1)
    have hlt' := nrBefore_le isNoData truth p' (l0' * x.grid.cols k1' + l1')
    have hm := hst _ (idx_lt hc.k0_lt hc.k1_lt)
    have hm' := hst _ (idx_lt hc'.k0_lt hc'.k1_lt)
    have hsz : (x.parts.map List.length).getD (k0 * x.grid.n1 + k1) 0 = p.length := by simp [List.getD, h1]
    have hsz' : (x.parts.map List.length).getD (k0' * x.grid.n1 + k1') 0 = p'.length := by simp [List.getD, h1']
    by_cases hk : k0 * x.grid.n1 + k1 = k0' * x.grid.n1 + k1'
    · -- the same partition
      have e0 : k0 = k0' := by rw [← idx_div hc.k1_lt (k0 := k0), hk, idx_div hc'.k1_lt]
      have e1 : k1 = k1' := by rw [← idx_mod hc.k1_lt (k0 := k0), hk, idx_mod hc'.k1_lt]
      subst e0; subst e1
      rw [h1] at h1'
      injection h1' with h1'
      subst h1'
      have hb : nrBefore isNoData truth p (l0 * x.grid.cols k1 + l1) =
          nrBefore isNoData truth p (l0' * x.grid.cols k1 + l1') := by omega
      have hs := nrBefore_succ isNoData truth p _ _ h4
      have hs' := nrBefore_succ isNoData truth p _ _ h4'
      simp only [hn, ht, hn', ht', Bool.not_false, Bool.and_self, if_true] at hs hs'
      have he : l0 * x.grid.cols k1 + l1 = l0' * x.grid.cols k1 + l1' := by
        rcases Nat.lt_trichotomy (l0 * x.grid.cols k1 + l1) (l0' * x.grid.cols k1 + l1') with hlt | h | hlt
        · have := nrBefore_mono isNoData truth p (show l0 * x.grid.cols k1 + l1 + 1 ≤ l0' * x.grid.cols k1 + l1' from hlt)
          omega
        · exact h
        · have := nrBefore_mono isNoData truth p (show l0' * x.grid.cols k1 + l1' + 1 ≤ l0 * x.grid.cols k1 + l1 from hlt)
          omega
      have f0 : l0 = l0' := by rw [← idx_div hc.l1_lt (k0 := l0), he, idx_div hc'.l1_lt]
      have f1 : l1 = l1' := by rw [← idx_mod hc.l1_lt (k0 := l0), he, idx_mod hc'.l1_lt]
      rw [hc.i_eq, hc.j_eq, hc'.i_eq, hc'.j_eq, f0, f1]
      exact ⟨rfl, rfl⟩
    · exfalso
      have hd : (∀ a ∈ l, ∀ b ∈ l, a ≠ b → a.2 + (x.parts.map List.length).getD a.1 0 ≤ b.2 ∨
          b.2 + (x.parts.map List.length).getD b.1 0 ≤ a.2) := by
        have hl := List.Pairwise.imp (S := fun a b : Nat × Nat =>
          a.2 + (x.parts.map List.length).getD a.1 0 ≤ b.2 ∨ b.2 + (x.parts.map List.length).getD b.1 0 ≤ a.2)
          (fun h => Or.inl h) hdisj
        haveI : Std.Symm (fun a b : Nat × Nat =>
          a.2 + (x.parts.map List.length).getD a.1 0 ≤ b.2 ∨ b.2 + (x.parts.map List.length).getD b.1 0 ≤ a.2) :=
          ⟨fun _ _ h => h.symm⟩
        intro a ha b hb hab
        exact List.Pairwise.forall hl ha hb hab
      have := hd _ hm _ hm' (by intro h; exact hk (congrArg Prod.fst h))
      simp only [hsz, hsz'] at this
      omega

example : ∃ (x : PArr Nat), Represents x (fun _ j => [1, 99, 0, 7, 1, 1].getD j 0) ∧
    IsPicks (x.grid.n0 * x.grid.n1) [1, 1, 0] ∧ IsOrder (x.grid.n0 * x.grid.n1) [2, 0, 1] ∧
    uniqueId (· == 99) (· != 0) 99 (fun _ => 0) [1, 1, 0] [2, 0, 1] x =
      .ok ⟨x.grid, [[5, 99], [0, 1], [3, 4]]⟩ :=
  ⟨store ⟨1, 6, 1, 2⟩ _, store_represents ⟨by decide, by decide, by decide, by decide⟩ _,
    by refine ⟨?_, ?_, ?_, trivial⟩ <;> decide, by unfold IsOrder; decide, rfl⟩

end Lue.UniqueId

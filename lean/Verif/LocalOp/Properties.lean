import Verif.LocalOp.Model

/-!
C07: local operations handle no-data, domain and range per cell, independent of the partitioning and of the order in
which the partitions are computed.
-/
namespace Lue.LocalOp

variable {α β δ γ : Type}

/-! ### Specification -/

/-- An element is a valid value, or no-data. -/
def valid (isNoData : α → Bool) (x : α) : Option α := if isNoData x then none else some x

/-- What must be computed for each cell, by a unary operation: `none` is no-data. -/
def unarySpec (P : Policies1 α γ) (f : α → γ) (x : α) : Option γ := do
  let x ← valid P.indp x
  guard (P.dp x)
  let r := f x
  guard (P.rp x r)
  return r

/-- Same, for a binary operation. -/
def binarySpec (P : Policies2 α β γ) (f : α → β → γ) (x : α) (y : β) : Option γ := do
  let x ← valid P.indp1 x
  let y ← valid P.indp2 y
  guard (P.dp x y)
  let r := f x y
  guard (P.rp x y r)
  return r

/-- Same, for a ternary operation. -/
def ternarySpec (P : Policies3 α β δ γ) (f : α → β → δ → γ) (x : α) (y : β) (z : δ) : Option γ := do
  let x ← valid P.indp1 x
  let y ← valid P.indp2 y
  let z ← valid P.indp3 z
  guard (P.dp x y z)
  return f x y z

/-- Same, for where. -/
def whereSpec (ndc : α → Bool) (ndt nde : β → Bool) (truth : α → Bool) (c : α) (t e : β) : Option β := do
  let c ← valid ndc c
  if truth c then valid ndt t else valid nde e

/-! ### Partitions -/

/-- Operation `op` on partitions works element by element, and accesses no elements outside of the partitions. -/
def ElementWise1 (op : List α → M (List γ)) (f : α → γ) : Prop :=
  ∀ p, ∃ r, op p = .ok r ∧ r.length = p.length ∧ ∀ (i : Nat) (x : α), p[i]? = some x → r[i]? = some (f x)

/-- Same, for two partitions of the same size. -/
def ElementWise2 (op : List α → List β → M (List γ)) (f : α → β → γ) : Prop :=
  ∀ p q, p.length = q.length → ∃ r, op p q = .ok r ∧ r.length = p.length ∧
    ∀ (i : Nat) x y, p[i]? = some x → q[i]? = some y → r[i]? = some (f x y)

/-- Same, for three partitions of the same size. -/
def ElementWise3 (op : List α → List β → List δ → M (List γ)) (f : α → β → δ → γ) : Prop :=
  ∀ p q s, p.length = q.length → p.length = s.length → ∃ r, op p q s = .ok r ∧ r.length = p.length ∧
    ∀ (i : Nat) x y z, p[i]? = some x → q[i]? = some y → s[i]? = some z → r[i]? = some (f x y z)

theorem markAll_eq (mark : γ) (n : Nat) (garbage : Nat → γ) :
    markAll mark n (uninitialised n garbage) = .ok ((List.range n).map fun _ => mark) :=
  forLoop_write (fun _ => mark) _ (fun i hi out ho => wr_ok _ (by omega)) _ (by simp [uninitialised])

theorem elementWise_of_loop1 (op : List α → M (List γ)) (f : α → γ)
    (body : List α → Nat → List γ → M (List γ)) (garbage : Nat → γ)
    (hop : ∀ p, op p = forLoop p.length (body p) (uninitialised p.length garbage))
    (hb : ∀ p i x out, p[i]? = some x → out.length = p.length → body p i out = .ok (out.set i (f x))) :
    ElementWise1 op f := by
  intro p
  rcases Nat.eq_zero_or_pos p.length with h0 | hpos
  · refine ⟨[], ?_, by simp [h0], ?_⟩
    · rw [hop, h0]; rfl
    · intro i x hx
      have := (List.getElem?_eq_some_iff.mp hx).1
      omega
  · have d : α := p[0]
    let val : Nat → γ := fun i => f (p.getD i d)
    refine ⟨(List.range p.length).map val, ?_, by simp, ?_⟩
    · rw [hop]
      refine forLoop_write val _ ?_ _ (by simp [uninitialised])
      intro i hi out ho
      apply hb p i _ out _ ho
      simp [hi]
    · intro i x hx
      have hi := (List.getElem?_eq_some_iff.mp hx).1
      simp [hi, val, List.getD_eq_getElem?_getD]
      rw [List.getElem?_eq_getElem hi] at hx
      exact congrArg f (Option.some.inj hx)

theorem elementWise_of_loop2 (op : List α → List β → M (List γ)) (f : α → β → γ)
    (body : List α → List β → Nat → List γ → M (List γ)) (garbage : Nat → γ)
    (hop : ∀ p q, op p q = forLoop p.length (body p q) (uninitialised p.length garbage))
    (hb : ∀ p q i x y out, p[i]? = some x → q[i]? = some y → out.length = p.length →
      body p q i out = .ok (out.set i (f x y))) :
    ElementWise2 op f := by
  intro p q hl
  have := elementWise_of_loop1 (fun pq : List (α × β) => forLoop pq.length (body (pq.map Prod.fst) (pq.map Prod.snd))
    (uninitialised pq.length garbage)) (fun xy => f xy.1 xy.2) (fun pq => body (pq.map Prod.fst) (pq.map Prod.snd))
    garbage (fun _ => rfl) (by
      intro pq i xy out hxy ho
      exact hb _ _ _ _ _ _ (by simp [hxy]) (by simp [hxy]) (by simpa using ho)) (p.zip q)
  obtain ⟨r, hr, hlen, hv⟩ := this
  dsimp only at hr
  have hz : (p.zip q).length = p.length := by simp [hl]
  rw [hz] at hr hlen
  rw [List.map_fst_zip (by omega), List.map_snd_zip (by omega)] at hr
  refine ⟨r, by rw [hop]; exact hr, hlen, ?_⟩
  intro i x y hx hy
  exact hv i (x, y) (by rw [List.getElem?_zip_eq_some]; exact ⟨hx, hy⟩)

theorem elementWise_of_loop3 (op : List α → List β → List δ → M (List γ)) (f : α → β → δ → γ)
    (body : List α → List β → List δ → Nat → List γ → M (List γ)) (garbage : Nat → γ)
    (hop : ∀ p q s, op p q s = forLoop p.length (body p q s) (uninitialised p.length garbage))
    (hb : ∀ p q s i x y z out, p[i]? = some x → q[i]? = some y → s[i]? = some z → out.length = p.length →
      body p q s i out = .ok (out.set i (f x y z))) :
    ElementWise3 op f := by
  intro p q s hl hl'
  have := elementWise_of_loop2 (fun (p : List α) (qs : List (β × δ)) => forLoop p.length
    (body p (qs.map Prod.fst) (qs.map Prod.snd))
    (uninitialised p.length garbage)) (fun x yz => f x yz.1 yz.2)
    (fun p qs => body p (qs.map Prod.fst) (qs.map Prod.snd))
    garbage (fun _ _ => rfl) (by
      intro p qs i x yz out hx hyz ho
      exact hb _ _ _ _ _ _ _ _ hx (by simp [hyz]) (by simp [hyz]) ho) p (q.zip s) (by simp; omega)
  obtain ⟨r, hr, hlen, hv⟩ := this
  dsimp only at hr
  rw [List.map_fst_zip (by omega), List.map_snd_zip (by omega)] at hr
  refine ⟨r, by rw [hop]; exact hr, hlen, ?_⟩
  intro i x y z hx hy hz
  exact hv i x (y, z) hx (by rw [List.getElem?_zip_eq_some]; exact ⟨hy, hz⟩)

theorem elementWise_mark1 (op : List α → M (List γ)) (mark : γ) (garbage : Nat → γ) (f : α → γ) (hf : ∀ x, f x = mark)
    (hop : ∀ p, op p = markAll mark p.length (uninitialised p.length garbage)) : ElementWise1 op f := by
  intro p
  refine ⟨_, by rw [hop, markAll_eq], by simp, ?_⟩
  intro i x hx
  have hi := (List.getElem?_eq_some_iff.mp hx).1
  simp [hi, hf]

theorem elementWise_mark2 (op : List α → List β → M (List γ)) (mark : γ) (garbage : Nat → γ) (f : α → β → γ)
    (hf : ∀ x y, f x y = mark)
    (hop : ∀ p q, op p q = markAll mark p.length (uninitialised p.length garbage)) : ElementWise2 op f := by
  intro p q _
  refine ⟨_, by rw [hop, markAll_eq], by simp, ?_⟩
  intro i x y hx _
  have hi := (List.getElem?_eq_some_iff.mp hx).1
  simp [hi, hf]

/-- `markAll` reduces all to one write per cell, tactic for the bodies of the loops. -/
theorem wr_rd (out : List γ) (i : Nat) (v : γ) (h : i < out.length) : rd (out.set i v) i = .ok v :=
  rd_ok (by simp [h])

theorem unaryPartition_elementWise (P : Policies1 α γ) (f : α → γ) (garbage : Nat → γ) :
    ElementWise1 (unaryPartition P f garbage) (fun x => (unarySpec P f x).getD P.mark) := by
  refine elementWise_of_loop1 _ _ _ garbage (fun p => rfl) ?_
  intro p i x out hx ho
  have hi : i < out.length := by have := (List.getElem?_eq_some_iff.mp hx).1; omega
  simp only [rd_ok hx, M.bind_ok, unarySpec, valid]
  by_cases h1 : P.indp x <;> by_cases h2 : P.dp x <;> by_cases h3 : P.rp x (f x) <;>
    simp [h1, h2, h3, wr_ok, hi, M.bind_ok, wr_rd, guard, failure]

theorem binaryPartition_elementWise (P : Policies2 α β γ) (f : α → β → γ) (garbage : Nat → γ) :
    ElementWise2 (binaryPartition P f garbage) (fun x y => (binarySpec P f x y).getD P.mark) := by
  refine elementWise_of_loop2 _ _ _ garbage (fun p q => rfl) ?_
  intro p q i x y out hx hy ho
  have hi : i < out.length := by have := (List.getElem?_eq_some_iff.mp hx).1; omega
  simp only [rd_ok hx, rd_ok hy, M.bind_ok, binarySpec, valid]
  by_cases h1 : P.indp1 x <;> by_cases h1' : P.indp2 y <;> by_cases h2 : P.dp x y <;>
    by_cases h3 : P.rp x y (f x y) <;>
    simp [h1, h1', h2, h3, wr_ok, hi, M.bind_ok, wr_rd, guard, failure]

theorem binaryPartitionAS_elementWise (P : Policies2 α β γ) (f : α → β → γ) (garbage : Nat → γ) (y : β) :
    ElementWise1 (fun data => binaryPartitionAS P f garbage data y) (fun x => (binarySpec P f x y).getD P.mark) := by
  by_cases h1' : P.indp2 y
  · refine elementWise_mark1 _ P.mark garbage _ ?_ ?_
    · intro x; by_cases h1 : P.indp1 x <;> simp [binarySpec, valid, h1, h1']
    · intro p; simp [binaryPartitionAS, h1']
  refine elementWise_of_loop1 _ _ _ garbage (fun p => by simp only [binaryPartitionAS, h1']; rfl) ?_
  intro p i x out hx ho
  have hi : i < out.length := by have := (List.getElem?_eq_some_iff.mp hx).1; omega
  simp only [rd_ok hx, M.bind_ok, binarySpec, valid]
  by_cases h1 : P.indp1 x <;> by_cases h2 : P.dp x y <;> by_cases h3 : P.rp x y (f x y) <;>
    simp [h1, h1', h2, h3, wr_ok, hi, M.bind_ok, wr_rd, guard, failure]

theorem binaryPartitionSA_elementWise (P : Policies2 α β γ) (f : α → β → γ) (garbage : Nat → γ) (x : α) :
    ElementWise1 (fun data => binaryPartitionSA P f garbage x data) (fun y => (binarySpec P f x y).getD P.mark) := by
  by_cases h1' : P.indp1 x
  · refine elementWise_mark1 _ P.mark garbage _ ?_ ?_
    · intro y; simp [binarySpec, valid, h1']
    · intro p; simp [binaryPartitionSA, h1']
  refine elementWise_of_loop1 _ _ _ garbage (fun p => by simp only [binaryPartitionSA, h1']; rfl) ?_
  intro p i y out hx ho
  have hi : i < out.length := by have := (List.getElem?_eq_some_iff.mp hx).1; omega
  simp only [rd_ok hx, M.bind_ok, binarySpec, valid]
  by_cases h1 : P.indp2 y <;> by_cases h2 : P.dp x y <;> by_cases h3 : P.rp x y (f x y) <;>
    simp [h1, h1', h2, h3, wr_ok, hi, M.bind_ok, wr_rd, guard, failure]

theorem ternaryPartition_elementWise (P : Policies3 α β δ γ) (f : α → β → δ → γ) (garbage : Nat → γ) :
    ElementWise3 (ternaryPartition P f garbage) (fun x y z => (ternarySpec P f x y z).getD P.mark) := by
  refine elementWise_of_loop3 _ _ _ garbage (fun p q s => rfl) ?_
  intro p q s i x y z out hx hy hz ho
  have hi : i < out.length := by have := (List.getElem?_eq_some_iff.mp hx).1; omega
  simp only [rd_ok hx, rd_ok hy, rd_ok hz, M.bind_ok, ternarySpec, valid]
  by_cases h1 : P.indp1 x <;> by_cases h2 : P.indp2 y <;> by_cases h3 : P.indp3 z <;> by_cases h4 : P.dp x y z <;>
    simp [h1, h2, h3, h4, wr_ok, hi, M.bind_ok, guard, failure]

theorem ternaryPartitionAAS_elementWise (P : Policies3 α β δ γ) (f : α → β → δ → γ) (garbage : Nat → γ) (z : δ) :
    ElementWise2 (fun p q => ternaryPartitionAAS P f garbage p q z)
      (fun x y => (ternarySpec P f x y z).getD P.mark) := by
  by_cases h3 : P.indp3 z
  · refine elementWise_mark2 _ P.mark garbage _ ?_ ?_
    · intro x y; by_cases h1 : P.indp1 x <;> by_cases h2 : P.indp2 y <;> simp [ternarySpec, valid, h1, h2, h3]
    · intro p q; simp [ternaryPartitionAAS, h3]
  refine elementWise_of_loop2 _ _ _ garbage (fun p q => by simp only [ternaryPartitionAAS, h3]; rfl) ?_
  intro p q i x y out hx hy ho
  have hi : i < out.length := by have := (List.getElem?_eq_some_iff.mp hx).1; omega
  simp only [rd_ok hx, rd_ok hy, M.bind_ok, ternarySpec, valid]
  by_cases h1 : P.indp1 x <;> by_cases h2 : P.indp2 y <;> by_cases h4 : P.dp x y z <;>
    simp [h1, h2, h3, h4, wr_ok, hi, M.bind_ok, guard, failure]

theorem ternaryPartitionASA_elementWise (P : Policies3 α β δ γ) (f : α → β → δ → γ) (garbage : Nat → γ) (y : β) :
    ElementWise2 (fun p s => ternaryPartitionASA P f garbage p y s)
      (fun x z => (ternarySpec P f x y z).getD P.mark) := by
  by_cases h3 : P.indp2 y
  · refine elementWise_mark2 _ P.mark garbage _ ?_ ?_
    · intro x z; by_cases h1 : P.indp1 x <;> by_cases h2 : P.indp3 z <;> simp [ternarySpec, valid, h1, h2, h3]
    · intro p q; simp [ternaryPartitionASA, h3]
  refine elementWise_of_loop2 _ _ _ garbage (fun p q => by simp only [ternaryPartitionASA, h3]; rfl) ?_
  intro p q i x z out hx hy ho
  have hi : i < out.length := by have := (List.getElem?_eq_some_iff.mp hx).1; omega
  simp only [rd_ok hx, rd_ok hy, M.bind_ok, ternarySpec, valid]
  by_cases h1 : P.indp1 x <;> by_cases h2 : P.indp3 z <;> by_cases h4 : P.dp x y z <;>
    simp [h1, h2, h3, h4, wr_ok, hi, M.bind_ok, guard, failure]

theorem ternaryPartitionASS_elementWise (P : Policies3 α β δ γ) (f : α → β → δ → γ) (garbage : Nat → γ) (y : β)
    (z : δ) :
    ElementWise1 (fun p => ternaryPartitionASS P f garbage p y z)
      (fun x => (ternarySpec P f x y z).getD P.mark) := by
  by_cases h2 : P.indp2 y
  · refine elementWise_mark1 _ P.mark garbage _ ?_ ?_
    · intro x; by_cases h1 : P.indp1 x <;> simp [ternarySpec, valid, h1, h2]
    · intro p; simp [ternaryPartitionASS, h2]
  by_cases h3 : P.indp3 z
  · refine elementWise_mark1 _ P.mark garbage _ ?_ ?_
    · intro x; by_cases h1 : P.indp1 x <;> simp [ternarySpec, valid, h1, h2, h3]
    · intro p; simp [ternaryPartitionASS, h3]
  refine elementWise_of_loop1 _ _ _ garbage (fun p => by simp only [ternaryPartitionASS, h2, h3]; rfl) ?_
  intro p i x out hx ho
  have hi : i < out.length := by have := (List.getElem?_eq_some_iff.mp hx).1; omega
  simp only [rd_ok hx, M.bind_ok, ternarySpec, valid]
  by_cases h1 : P.indp1 x <;> by_cases h4 : P.dp x y z <;>
    simp [h1, h2, h3, h4, wr_ok, hi, M.bind_ok, guard, failure]

theorem wherePartition_elementWise (P : Policies3 α β β β) (hdp : ∀ c t e, P.dp c t e = true) (truth : α → Bool)
    (garbage : Nat → β) :
    ElementWise3 (wherePartition P truth garbage)
      (fun c t e => (whereSpec P.indp1 P.indp2 P.indp3 truth c t e).getD P.mark) := by
  refine elementWise_of_loop3 _ _ _ garbage (fun p q s => rfl) ?_
  intro p q s i x y z out hx hy hz ho
  have hi : i < out.length := by have := (List.getElem?_eq_some_iff.mp hx).1; omega
  simp only [rd_ok hx, rd_ok hy, rd_ok hz, M.bind_ok, whereSpec, valid, hdp]
  by_cases h1 : P.indp1 x <;> by_cases h2 : P.indp2 y <;> by_cases h3 : P.indp3 z <;> by_cases h4 : truth x <;>
    simp [h1, h2, h3, h4, wr_ok, hi]

theorem wherePartitionAAS_elementWise (P : Policies3 α β β β) (hdp : ∀ c t e, P.dp c t e = true) (truth : α → Bool)
    (garbage : Nat → β) (z : β) :
    ElementWise2 (fun p q => wherePartitionAAS P truth garbage p q z)
      (fun c t => (whereSpec P.indp1 P.indp2 P.indp3 truth c t z).getD P.mark) := by
  refine elementWise_of_loop2 _ _ _ garbage (fun p q => rfl) ?_
  intro p q i x y out hx hy ho
  have hi : i < out.length := by have := (List.getElem?_eq_some_iff.mp hx).1; omega
  simp only [rd_ok hx, rd_ok hy, M.bind_ok, whereSpec, valid, hdp]
  by_cases h1 : P.indp1 x <;> by_cases h2 : P.indp2 y <;> by_cases h3 : P.indp3 z <;> by_cases h4 : truth x <;>
    simp [h1, h2, h3, h4, wr_ok, hi]

/-- The policies of the second and third argument are swapped in the code: they must be the same. -/
theorem wherePartitionASA_elementWise (P : Policies3 α β β β) (hdp : ∀ c t e, P.dp c t e = true)
    (hnd : P.indp2 = P.indp3) (truth : α → Bool) (garbage : Nat → β) (y : β) :
    ElementWise2 (fun p s => wherePartitionASA P truth garbage p y s)
      (fun c e => (whereSpec P.indp1 P.indp2 P.indp3 truth c y e).getD P.mark) := by
  refine elementWise_of_loop2 _ _ _ garbage (fun p q => rfl) ?_
  intro p q i x z out hx hy ho
  have hi : i < out.length := by have := (List.getElem?_eq_some_iff.mp hx).1; omega
  simp only [rd_ok hx, rd_ok hy, M.bind_ok, whereSpec, valid, hdp, hnd]
  by_cases h1 : P.indp1 x <;> by_cases h2 : P.indp3 y <;> by_cases h3 : P.indp3 z <;> by_cases h4 : truth x <;>
    simp [h1, h2, h3, h4, wr_ok, hi]

theorem wherePartitionASS_elementWise (P : Policies3 α β β β) (hdp : ∀ c t e, P.dp c t e = true)
    (hnd : P.indp2 = P.indp3) (truth : α → Bool) (garbage : Nat → β) (y z : β) :
    ElementWise1 (fun p => wherePartitionASS P truth garbage p y z)
      (fun c => (whereSpec P.indp1 P.indp2 P.indp3 truth c y z).getD P.mark) := by
  refine elementWise_of_loop1 _ _ _ garbage (fun p => rfl) ?_
  intro p i x out hx ho
  have hi : i < out.length := by have := (List.getElem?_eq_some_iff.mp hx).1; omega
  simp only [rd_ok hx, M.bind_ok, whereSpec, valid, hdp, hnd]
  by_cases h1 : P.indp1 x <;> by_cases h2 : P.indp3 y <;> by_cases h3 : P.indp3 z <;> by_cases h4 : truth x <;>
    simp [h1, h2, h3, h4, wr_ok, hi]

/-! ### From partitions to arrays -/

theorem array1_spec {op : List α → M (List γ)} {f : α → γ} (hop : ElementWise1 op f) {x : PArr α} {v : Arr α}
    (hx : Represents x v) {order : List Nat} (ho : IsOrder (x.grid.n0 * x.grid.n1) order) :
    ∃ r, array1 op order x = .ok r ∧ r.grid = x.grid ∧ Represents r (fun i j => f (v i j)) := by
  obtain ⟨parts, hp, hr⟩ := runTasks_represents (task := fun k => do op (← rd x.parts k)) (w := fun i j => f (v i j))
    hx.ok ho (by
      intro k0 k1 h0 h1
      obtain ⟨p, hpk, hlen, hv⟩ := hx.part h0 h1
      obtain ⟨r, hr, hrl, hre⟩ := hop p
      refine ⟨r, ?_, by omega, fun l0 l1 hl0 hl1 => hre _ _ (hv l0 l1 hl0 hl1)⟩
      simp only [rd_ok hpk, M.bind_ok, hr])
  exact ⟨_, by simp only [array1, hp, M.bind_ok], rfl, hr⟩

theorem array2_spec {op : List α → List β → M (List γ)} {f : α → β → γ} (hop : ElementWise2 op f) {x : PArr α}
    {y : PArr β} {v : Arr α} {w : Arr β}
    (hx : Represents x v) (hy : Represents y w) (hg : y.grid = x.grid)
    {order : List Nat} (ho : IsOrder (x.grid.n0 * x.grid.n1) order) :
    ∃ r, array2 op order x y = .ok r ∧ r.grid = x.grid ∧ Represents r (fun i j => f (v i j) (w i j)) := by
  obtain ⟨parts, hp, hr⟩ := runTasks_represents (task := fun k => do op (← rd x.parts k) (← rd y.parts k))
    (w := fun i j => f (v i j) (w i j)) hx.ok ho (by
      intro k0 k1 h0 h1
      obtain ⟨p, hpk, hlen, hv⟩ := hx.part h0 h1
      obtain ⟨q, hqk, hlen', hw⟩ := hy.part (by rw [hg]; exact h0) (by rw [hg]; exact h1)
      rw [hg] at hqk hlen' hw
      obtain ⟨r, hr, hrl, hre⟩ := hop p q (by omega)
      refine ⟨r, ?_, by omega, fun l0 l1 hl0 hl1 => hre _ _ _ (hv l0 l1 hl0 hl1) (hw l0 l1 hl0 hl1)⟩
      simp only [rd_ok hpk, rd_ok hqk, M.bind_ok, hr])
  exact ⟨_, by simp only [array2, verifyCompatible_same hg.symm, hp, M.bind_ok], rfl, hr⟩

theorem array3_spec {op : List α → List β → List δ → M (List γ)} {f : α → β → δ → γ} (hop : ElementWise3 op f)
    {x : PArr α} {y : PArr β} {z : PArr δ} {v : Arr α} {w : Arr β} {u : Arr δ}
    (hx : Represents x v) (hy : Represents y w) (hz : Represents z u) (hg : y.grid = x.grid) (hg' : z.grid = x.grid)
    {order : List Nat} (ho : IsOrder (x.grid.n0 * x.grid.n1) order) :
    ∃ r, array3 op order x y z = .ok r ∧ r.grid = x.grid ∧
      Represents r (fun i j => f (v i j) (w i j) (u i j)) := by
  obtain ⟨parts, hp, hr⟩ := runTasks_represents
    (task := fun k => do op (← rd x.parts k) (← rd y.parts k) (← rd z.parts k))
    (w := fun i j => f (v i j) (w i j) (u i j)) hx.ok ho (by
      intro k0 k1 h0 h1
      obtain ⟨p, hpk, hlen, hv⟩ := hx.part h0 h1
      obtain ⟨q, hqk, hlen', hw⟩ := hy.part (by rw [hg]; exact h0) (by rw [hg]; exact h1)
      obtain ⟨s, hsk, hlen'', hu⟩ := hz.part (by rw [hg']; exact h0) (by rw [hg']; exact h1)
      rw [hg] at hqk hlen' hw
      rw [hg'] at hsk hlen'' hu
      obtain ⟨r, hr, hrl, hre⟩ := hop p q s (by omega) (by omega)
      refine ⟨r, ?_, by omega, fun l0 l1 hl0 hl1 => hre _ _ _ _ (hv l0 l1 hl0 hl1) (hw l0 l1 hl0 hl1)
        (hu l0 l1 hl0 hl1)⟩
      simp only [rd_ok hpk, rd_ok hqk, rd_ok hsk, M.bind_ok, hr])
  exact ⟨_, by simp only [array3, verifyCompatible_same hg.symm, verifyCompatible_same hg'.symm, hp, M.bind_ok],
    rfl, hr⟩

/-! ### C07 -/

/-- Unary operations, for all arrays, partitionings, policies, functors, orders of completion. -/
theorem unary_spec (P : Policies1 α γ) (f : α → γ) (garbage : Nat → γ) {x : PArr α} {v : Arr α} (hx : Represents x v)
    {order : List Nat} (ho : IsOrder (x.grid.n0 * x.grid.n1) order) :
    ∃ r, unaryArray P f garbage order x = .ok r ∧ r.grid = x.grid ∧
      Represents r (fun i j => (unarySpec P f (v i j)).getD P.mark) :=
  array1_spec (unaryPartition_elementWise P f garbage) hx ho

/-- Binary operations on arrays with the same partitioning. -/
theorem binary_spec (P : Policies2 α β γ) (f : α → β → γ) (garbage : Nat → γ) {x : PArr α} {y : PArr β} {v : Arr α}
    {w : Arr β} (hx : Represents x v) (hy : Represents y w) (hg : y.grid = x.grid)
    {order : List Nat} (ho : IsOrder (x.grid.n0 * x.grid.n1) order) :
    ∃ r, binaryArray P f garbage order x y = .ok r ∧ r.grid = x.grid ∧
      Represents r (fun i j => (binarySpec P f (v i j) (w i j)).getD P.mark) :=
  array2_spec (binaryPartition_elementWise P f garbage) hx hy hg ho

/-- Binary operations on an array and a scalar give what they give for an array filled with the scalar. -/
theorem binaryAS_spec (P : Policies2 α β γ) (f : α → β → γ) (garbage : Nat → γ) {x : PArr α} {v : Arr α}
    (hx : Represents x v) (y : β) {order : List Nat} (ho : IsOrder (x.grid.n0 * x.grid.n1) order) :
    ∃ r, binaryArrayAS P f garbage order x y = .ok r ∧ r.grid = x.grid ∧
      Represents r (fun i j => (binarySpec P f (v i j) y).getD P.mark) :=
  array1_spec (binaryPartitionAS_elementWise P f garbage y) hx ho

/-- Binary operations on a scalar and an array. -/
theorem binarySA_spec (P : Policies2 α β γ) (f : α → β → γ) (garbage : Nat → γ) (x : α) {y : PArr β} {w : Arr β}
    (hy : Represents y w) {order : List Nat} (ho : IsOrder (y.grid.n0 * y.grid.n1) order) :
    ∃ r, binaryArraySA P f garbage order x y = .ok r ∧ r.grid = y.grid ∧
      Represents r (fun i j => (binarySpec P f x (w i j)).getD P.mark) :=
  array1_spec (binaryPartitionSA_elementWise P f garbage x) hy ho

/-- Operations on scalars only. -/
theorem scalar_spec (P : Policies1 α γ) (f : α → γ) (x : α) : unaryScalar P f x = (unarySpec P f x).getD P.mark := by
  unfold unaryScalar unarySpec valid
  by_cases h1 : P.indp x <;> by_cases h2 : P.dp x <;> by_cases h3 : P.rp x (f x) <;> simp [h1, h2, h3, guard, failure]

theorem scalar2_spec (P : Policies2 α β γ) (f : α → β → γ) (x : α) (y : β) :
    binaryScalar P f x y = (binarySpec P f x y).getD P.mark := by
  unfold binaryScalar binarySpec valid
  by_cases h1 : P.indp1 x <;> by_cases h1' : P.indp2 y <;> by_cases h2 : P.dp x y <;>
    by_cases h3 : P.rp x y (f x y) <;> simp [h1, h1', h2, h3, guard, failure]

/-- Ternary operations, all overloads. -/
theorem ternary_spec (P : Policies3 α β δ γ) (f : α → β → δ → γ) (garbage : Nat → γ) {x : PArr α} {y : PArr β}
    {z : PArr δ} {v : Arr α} {w : Arr β} {u : Arr δ} (hx : Represents x v) (hy : Represents y w)
    (hz : Represents z u) (hg : y.grid = x.grid) (hg' : z.grid = x.grid) (y' : β) (z' : δ)
    {order : List Nat} (ho : IsOrder (x.grid.n0 * x.grid.n1) order) :
    (∃ r, array3 (ternaryPartition P f garbage) order x y z = .ok r ∧ r.grid = x.grid ∧
      Represents r (fun i j => (ternarySpec P f (v i j) (w i j) (u i j)).getD P.mark)) ∧
    (∃ r, array2 (fun p q => ternaryPartitionAAS P f garbage p q z') order x y = .ok r ∧ r.grid = x.grid ∧
      Represents r (fun i j => (ternarySpec P f (v i j) (w i j) z').getD P.mark)) ∧
    (∃ r, array2 (fun p q => ternaryPartitionASA P f garbage p y' q) order x z = .ok r ∧ r.grid = x.grid ∧
      Represents r (fun i j => (ternarySpec P f (v i j) y' (u i j)).getD P.mark)) ∧
    (∃ r, array1 (fun p => ternaryPartitionASS P f garbage p y' z') order x = .ok r ∧ r.grid = x.grid ∧
      Represents r (fun i j => (ternarySpec P f (v i j) y' z').getD P.mark)) :=
  ⟨array3_spec (ternaryPartition_elementWise P f garbage) hx hy hz hg hg' ho,
   array2_spec (ternaryPartitionAAS_elementWise P f garbage z') hx hy hg ho,
   array2_spec (ternaryPartitionASA_elementWise P f garbage y') hx hz hg' ho,
   array1_spec (ternaryPartitionASS_elementWise P f garbage y' z') hx ho⟩

/-- Where, overloads with an array for true values. -/
theorem where_spec (P : Policies3 α β β β) (hdp : ∀ c t e, P.dp c t e = true) (truth : α → Bool)
    (garbage : Nat → β) {c : PArr α} {t e : PArr β} {vc : Arr α} {vt ve : Arr β} (hc : Represents c vc)
    (ht : Represents t vt) (he : Represents e ve) (hg : t.grid = c.grid) (hg' : e.grid = c.grid) (e' : β)
    {order : List Nat} (ho : IsOrder (c.grid.n0 * c.grid.n1) order) :
    (∃ r, array3 (wherePartition P truth garbage) order c t e = .ok r ∧ r.grid = c.grid ∧ Represents r
      (fun i j => (whereSpec P.indp1 P.indp2 P.indp3 truth (vc i j) (vt i j) (ve i j)).getD P.mark)) ∧
    (∃ r, array2 (fun p q => wherePartitionAAS P truth garbage p q e') order c t = .ok r ∧ r.grid = c.grid ∧ Represents r
      (fun i j => (whereSpec P.indp1 P.indp2 P.indp3 truth (vc i j) (vt i j) e').getD P.mark)) :=
  ⟨array3_spec (wherePartition_elementWise P hdp truth garbage) hc ht he hg hg' ho,
   array2_spec (wherePartitionAAS_elementWise P hdp truth garbage e') hc ht hg ho⟩

/-- Where, overloads with a scalar for the true value. The no-data policies of the expressions must be the same. -/
theorem where_scalar_spec (P : Policies3 α β β β) (hdp : ∀ c t e, P.dp c t e = true) (hnd : P.indp2 = P.indp3)
    (truth : α → Bool) (garbage : Nat → β) {c : PArr α} {e : PArr β} {vc : Arr α} {ve : Arr β}
    (hc : Represents c vc) (he : Represents e ve) (hg' : e.grid = c.grid) (t' e' : β)
    {order : List Nat} (ho : IsOrder (c.grid.n0 * c.grid.n1) order) :
    (∃ r, array2 (fun p q => wherePartitionASA P truth garbage p t' q) order c e = .ok r ∧ r.grid = c.grid ∧ Represents r
      (fun i j => (whereSpec P.indp1 P.indp2 P.indp3 truth (vc i j) t' (ve i j)).getD P.mark)) ∧
    (∃ r, array1 (fun p => wherePartitionASS P truth garbage p t' e') order c = .ok r ∧ r.grid = c.grid ∧ Represents r
      (fun i j => (whereSpec P.indp1 P.indp2 P.indp3 truth (vc i j) t' e').getD P.mark)) :=
  ⟨array2_spec (wherePartitionASA_elementWise P hdp hnd truth garbage t') hc he hg' ho,
   array1_spec (wherePartitionASS_elementWise P hdp hnd truth garbage t' e') hc ho⟩

/-- If the policies differ, these overloads test the wrong one. -/
theorem where_scalar_wrong : ∃ (P : Policies3 Bool Nat Nat Nat), (∀ c t e, P.dp c t e = true) ∧
    wherePartitionASS P id (fun _ => 0) [true] 5 0 = .ok [5] ∧
    (whereSpec P.indp1 P.indp2 P.indp3 id true 5 0).getD P.mark = 99 :=
  ⟨⟨fun _ => false, fun t => t == 5, fun e => e == 7, fun _ _ _ => true, 99⟩, fun _ _ _ => rfl, by decide, by decide⟩

/-- Two-argument where: a cell for which the condition does not hold becomes no-data. -/
theorem where2_spec (ndc : α → Bool) (ndt : β → Bool) (truth : α → Bool) (mark : β) (c : α) (t : β) :
    (binarySpec ⟨ndc, ndt, fun c _ => truth c, fun _ _ _ => true, mark⟩ whereFunctor c t).getD mark =
      if ndc c = false ∧ truth c = true ∧ ndt t = false then t else mark := by
  unfold binarySpec valid whereFunctor
  by_cases h1 : ndc c <;> by_cases h2 : truth c <;> by_cases h3 : ndt t <;> simp [h1, h2, h3, guard, failure]

/-- The result does not depend on the partitioning, on the order of completion, and on the initial contents of memory. -/
theorem binary_partitioning_independent (P : Policies2 α β γ) (f : α → β → γ) (garbage garbage' : Nat → γ)
    {x x' : PArr α} {y y' : PArr β} {v : Arr α} {w : Arr β}
    (hx : Represents x v) (hy : Represents y w) (hg : y.grid = x.grid)
    (hx' : Represents x' v) (hy' : Represents y' w) (hg' : y'.grid = x'.grid)
    (hs : x'.grid.a0 = x.grid.a0 ∧ x'.grid.a1 = x.grid.a1)
    {order order' : List Nat} (ho : IsOrder (x.grid.n0 * x.grid.n1) order)
    (ho' : IsOrder (x'.grid.n0 * x'.grid.n1) order') :
    ∃ r r', binaryArray P f garbage order x y = .ok r ∧ binaryArray P f garbage' order' x' y' = .ok r' ∧
      ∃ u, Represents r u ∧ Represents r' u ∧
        ∀ u', Represents r' u' → ∀ i j, i < x.grid.a0 → j < x.grid.a1 → u' i j = u i j := by
  obtain ⟨r, h1, hr, h2⟩ := binary_spec P f garbage hx hy hg ho
  obtain ⟨r', h1', hr', h2'⟩ := binary_spec P f garbage' hx' hy' hg' ho'
  refine ⟨r, r', h1, h1', _, h2, h2', fun u' hu' i j hi hj => ?_⟩
  exact hu'.unique h2' (by rw [hr', hs.1]; exact hi) (by rw [hr', hs.2]; exact hj)

/-- Arrays with different shapes or numbers of partitions are refused. -/
theorem array2_throws (op : List α → List β → M (List γ)) (order : List Nat) (x : PArr α) (y : PArr β)
    (h : x.grid.a0 ≠ y.grid.a0 ∨ x.grid.a1 ≠ y.grid.a1 ∨ x.grid.n0 ≠ y.grid.n0 ∨ x.grid.n1 ≠ y.grid.n1) :
    array2 op order x y = .error .thrown := by
  have : verifyCompatible x y = .error .thrown := by
    unfold verifyCompatible
    by_cases h1 : (x.grid.a0, x.grid.a1) = (y.grid.a0, y.grid.a1)
    · by_cases h2 : (x.grid.n0, x.grid.n1) = (y.grid.n0, y.grid.n1)
      · simp only [Prod.mk.injEq] at h1 h2; omega
      · simp [h1, h2]
    · simp [h1]
  simp only [array2, this]; rfl

/-- Arrays whose partitions have different shapes are not always refused: the check does not compare the shapes of the
partitions. Here an array of 1 × 8 cells with partitions of 3 and 5 cells is combined with one with partitions of
4 and 4 cells: the operation accesses memory outside of a partition. -/
theorem binary_misaligned : ∃ (x y : PArr Nat) (v w : Arr Nat), Represents x v ∧ Represents y w ∧
    verifyCompatible x y = .ok () ∧
    binaryArray (⟨fun _ => false, fun _ => false, fun _ _ => true, fun _ _ _ => true, 0⟩ : Policies2 Nat Nat Nat)
      (fun a b => a + b) (fun _ => 0) [0, 1] x y = .error .outOfBounds :=
  ⟨store ⟨1, 8, 1, 3⟩ (fun _ j => j), store ⟨1, 8, 1, 4⟩ (fun _ j => j), _, _,
    store_represents ⟨by decide, by decide, by decide, by decide⟩ _,
    store_represents ⟨by decide, by decide, by decide, by decide⟩ _, rfl, rfl⟩

/-! ### Examples: the hypotheses are met -/

example : ∃ (x y : PArr Nat), Represents x (fun i j => 10 * i + j) ∧ Represents y (fun i j => i * j) ∧
    y.grid = x.grid ∧ x.grid.n0 * x.grid.n1 = 6 ∧ IsOrder (x.grid.n0 * x.grid.n1) [4, 1, 0, 5, 3, 2] :=
  ⟨store ⟨5, 7, 2, 2⟩ _, store ⟨5, 7, 2, 2⟩ _, store_represents ⟨by decide, by decide, by decide, by decide⟩ _,
    store_represents ⟨by decide, by decide, by decide, by decide⟩ _, rfl, rfl, by unfold IsOrder; decide⟩

end Lue.LocalOp

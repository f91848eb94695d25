import Verif.Partitioned.Basic
import Mathlib.Data.List.Perm.Basic

/-!
Storage of partitioned arrays and the sequential / asynchronous control flow shared by the models of the operations.
-/
namespace Lue

/-- Ways in which an operation can fail: an exception is thrown, memory outside of a buffer is accessed, or a loop does
not end within a given number of iterations. -/
inductive Err where
  | thrown
  | outOfBounds
  | diverged
  deriving DecidableEq, Repr

abbrev M := Except Err

/-- `data[i]`: reading an element of a buffer. -/
def rd {α : Type} (data : List α) (i : Nat) : M α :=
  match data[i]? with
  | some x => .ok x
  | none => .error .outOfBounds

/-- `data[i] = v`: writing an element of a buffer. -/
def wr {α : Type} (data : List α) (i : Nat) (v : α) : M (List α) :=
  if i < data.length then .ok (data.set i v) else .error .outOfBounds

/-- `for (Index i = 0; i < n; ++i) body`. -/
def forLoop {σ : Type} (n : Nat) (body : Nat → σ → M σ) (s : σ) : M σ :=
  (List.range n).foldlM (fun s i => body i s) s

/-- `while (cond) body`, given up after `fuel` iterations. Theorems prove that this does not happen. -/
def whileLoop {σ : Type} : Nat → (σ → Bool) → (σ → M σ) → σ → M σ
  | 0, _, _, _ => .error .diverged
  | fuel + 1, cond, body, s => if cond s then do whileLoop fuel cond body (← body s) else .ok s

/-- Storage of a new partition whose elements are not initialised: `garbage` tells what happens to be there. -/
def uninitialised {α : Type} (n : Nat) (garbage : Nat → α) : List α := (List.range n).map garbage

/-- A partitioned array: the grid and, per partition in row-major order, its elements in row-major order.
`source/framework/partitioned_array/include/lue/framework/partitioned_array_decl.hpp` (shape, partitions). -/
structure PArr (α : Type) where
  grid : Grid
  parts : List (List α)

/-- A partition and an element of it, given its indices. -/
def PArr.elem? {α : Type} (x : PArr α) (k0 k1 l0 l1 : Nat) : Option α :=
  (x.parts[k0 * x.grid.n1 + k1]?).bind fun p => p[l0 * x.grid.cols k1 + l1]?

/-- Partitioned array `x` stores array `v`. -/
structure Represents {α : Type} (x : PArr α) (v : Arr α) : Prop where
  ok : x.grid.Ok
  nr_parts : x.parts.length = x.grid.n0 * x.grid.n1
  part_size : ∀ k0 k1 p, k0 < x.grid.n0 → k1 < x.grid.n1 → x.parts[k0 * x.grid.n1 + k1]? = some p →
    p.length = x.grid.rows k0 * x.grid.cols k1
  elem : ∀ i j k0 k1 l0 l1, IsCell x.grid i j k0 k1 l0 l1 → x.elem? k0 k1 l0 l1 = some (v i j)

/-- `detail/verify_compatible.hpp:19-39`: only the shapes of the arrays and the numbers of partitions are compared. -/
def verifyCompatible {α β : Type} (x : PArr α) (y : PArr β) : M Unit :=
  if (x.grid.a0, x.grid.a1) ≠ (y.grid.a0, y.grid.a1) then .error .thrown
  else if (x.grid.n0, x.grid.n1) ≠ (y.grid.n0, y.grid.n1) then .error .thrown
  else .ok ()

/-- The asynchronous evaluation of the partitions: for each partition a task is spawned, whose result ends up in the
slot of the partition in the collection of output partitions (`output_partitions[partition_idx] = hpx::async(...)`).
`order` is the order in which the tasks complete: it is decided by the runtime system. The output is available once all
slots have been filled. -/
def runTasks {π : Type} (n : Nat) (task : Nat → M π) (order : List Nat) : M (List π) := do
  let slots ← order.foldlM (fun (slots : List (Option π)) k => do
    let r ← task k
    wr slots k (some r)) (List.replicate n none)
  slots.mapM fun
    | some r => .ok r
    | none => .error .outOfBounds

/-- Orders of completion of `n` tasks. -/
def IsOrder (n : Nat) (order : List Nat) : Prop := order.Perm (List.range n)

/-! ### Lemmas -/

theorem rd_ok {α : Type} {data : List α} {i : Nat} {x : α} (h : data[i]? = some x) : rd data i = .ok x := by
  simp [rd, h]

theorem wr_ok {α : Type} {data : List α} {i : Nat} (v : α) (h : i < data.length) : wr data i v = .ok (data.set i v) := by
  simp [wr, h]

theorem M.bind_ok {α β : Type} (x : α) (f : α → M β) : (Except.ok x >>= f) = f x := rfl

/-- A loop writing element `i` in iteration `i`. -/
theorem forLoop_write {γ : Type} {n : Nat} (val : Nat → γ) (body : Nat → List γ → M (List γ))
    (h : ∀ i < n, ∀ out : List γ, out.length = n → body i out = .ok (out.set i (val i)))
    (out0 : List γ) (hl : out0.length = n) : forLoop n body out0 = .ok ((List.range n).map val) := by
  have key : ∀ k ≤ n, ∃ out : List γ, forLoop k body out0 = .ok out ∧ out.length = n ∧
      ∀ i < k, out[i]? = some (val i) := by
    intro k
    induction k with
    | zero => intro _; exact ⟨out0, rfl, hl, by simp⟩
    | succ k ih =>
      intro hk
      obtain ⟨out, he, hlen, hv⟩ := ih (by omega)
      refine ⟨out.set k (val k), ?_, by simp [hlen], ?_⟩
      · unfold forLoop at he ⊢
        rw [List.range_succ, List.foldlM_append, he]
        simp only [M.bind_ok, List.foldlM_cons, List.foldlM_nil]
        rw [h k (by omega) out hlen]; rfl
      · intro i hi
        by_cases hik : i = k
        · subst hik; rw [List.getElem?_set_self (by omega)]
        · rw [List.getElem?_set_ne (by omega)]; exact hv i (by omega)
  obtain ⟨out, he, hlen, hv⟩ := key n (Nat.le_refl n)
  rw [he]
  congr 1
  apply List.ext_getElem?
  intro i
  by_cases hi : i < n
  · rw [hv i hi]; simp [hi]
  · rw [List.getElem?_eq_none (by omega), List.getElem?_eq_none (by simp; omega)]

theorem mapM_some {π : Type} (l : List π) : (l.map some).mapM (fun | some r => (Except.ok r : M π) | none => .error .outOfBounds)
    = .ok l := by
  induction l with
  | nil => rfl
  | cons a l ih => simp only [List.map_cons, List.mapM_cons, ih]; rfl

/-- Whatever the order of completion, slot `k` holds the result of task `k`. -/
theorem runTasks_ok {π : Type} {n : Nat} {task : Nat → M π} {order : List Nat} (ho : IsOrder n order)
    {r : Nat → π} (ht : ∀ k < n, task k = .ok (r k)) : runTasks n task order = .ok ((List.range n).map r) := by
  have key : ∀ (l : List Nat) (s : List (Option π)), (∀ k ∈ l, k < n) → s.length = n →
      ∃ s', l.foldlM (fun (slots : List (Option π)) k => do
        let r ← task k
        wr slots k (some r)) s = .ok s' ∧ s'.length = n ∧
        ∀ k < n, s'[k]? = if k ∈ l then some (some (r k)) else s[k]? := by
    intro l
    induction l with
    | nil => intro s _ hs; exact ⟨s, rfl, hs, by simp⟩
    | cons a l ih =>
      intro s hl hs
      have ha : a < n := hl a (by simp)
      obtain ⟨s', he, hlen, hv⟩ := ih (s.set a (some (r a))) (fun k hk => hl k (by simp [hk])) (by simp [hs])
      refine ⟨s', ?_, hlen, ?_⟩
      · rw [List.foldlM_cons, ht a ha]
        simp only [M.bind_ok]
        rw [wr_ok _ (by omega)]
        exact he
      · intro k hk
        rw [hv k hk]
        by_cases hkl : k ∈ l
        · simp [hkl]
        · by_cases hka : k = a
          · subst hka; simp [hkl, hs, hk]
          · rw [List.getElem?_set_ne (by omega)]; simp [hkl, hka]
  obtain ⟨s', he, hlen, hv⟩ := key order (List.replicate n none)
    (fun k hk => by have := ho.mem_iff.mp hk; simpa using this) (by simp)
  have hs' : s' = ((List.range n).map r).map some := by
    apply List.ext_getElem?
    intro k
    by_cases hk : k < n
    · rw [hv k hk, if_pos (ho.mem_iff.mpr (by simpa using hk))]; simp [hk]
    · rw [List.getElem?_eq_none (by omega), List.getElem?_eq_none (by simp; omega)]
  unfold runTasks
  rw [he, M.bind_ok, hs']
  exact mapM_some _

theorem idx_lt {n0 n1 k0 k1 : Nat} (h0 : k0 < n0) (h1 : k1 < n1) : k0 * n1 + k1 < n0 * n1 :=
  calc k0 * n1 + k1 < k0 * n1 + n1 := by omega
    _ = (k0 + 1) * n1 := by rw [Nat.add_mul, Nat.one_mul]
    _ ≤ n0 * n1 := Nat.mul_le_mul_right _ h0

theorem idx_div {n1 k0 k1 : Nat} (h1 : k1 < n1) : (k0 * n1 + k1) / n1 = k0 := by
  have : 0 < n1 := by omega
  rw [Nat.add_comm, Nat.add_mul_div_right _ _ this, Nat.div_eq_of_lt h1, Nat.zero_add]

theorem idx_mod {n1 k0 k1 : Nat} (h1 : k1 < n1) : (k0 * n1 + k1) % n1 = k1 := by
  rw [Nat.add_comm, Nat.add_mul_mod_self_right, Nat.mod_eq_of_lt h1]

theorem idx_split {n0 n1 e : Nat} (h : e < n0 * n1) : e / n1 < n0 ∧ e % n1 < n1 ∧ e / n1 * n1 + e % n1 = e := by
  have hn : 0 < n1 := by
    rcases Nat.eq_zero_or_pos n1 with h0 | h0
    · subst h0; simp at h
    · exact h0
  exact ⟨Nat.div_lt_of_lt_mul (by rwa [Nat.mul_comm]), Nat.mod_lt _ hn, by rw [Nat.mul_comm]; exact Nat.div_add_mod e n1⟩

/-- The partition of a partitioned array with linear index `k`. -/
theorem Represents.part {α : Type} {x : PArr α} {v : Arr α} (hx : Represents x v) {k0 k1 : Nat}
    (h0 : k0 < x.grid.n0) (h1 : k1 < x.grid.n1) :
    ∃ p, x.parts[k0 * x.grid.n1 + k1]? = some p ∧ p.length = x.grid.rows k0 * x.grid.cols k1 ∧
      ∀ l0 l1, l0 < x.grid.rows k0 → l1 < x.grid.cols k1 →
        p[l0 * x.grid.cols k1 + l1]? = some (v (k0 * x.grid.p0 + l0) (k1 * x.grid.p1 + l1)) := by
  have hk := idx_lt h0 h1
  rw [← hx.nr_parts] at hk
  refine ⟨x.parts[k0 * x.grid.n1 + k1], by simp [hk], hx.part_size k0 k1 _ h0 h1 (by simp [hk]), ?_⟩
  intro l0 l1 hl0 hl1
  have := hx.elem _ _ k0 k1 l0 l1 ⟨h0, h1, hl0, hl1, rfl, rfl⟩
  simpa [PArr.elem?, hk] using this

/-- If each task yields the corresponding partition of an array, the result represents this array, whatever the order
in which the tasks complete. -/
theorem runTasks_represents {γ : Type} {g : Grid} (hg : g.Ok) {order : List Nat} (ho : IsOrder (g.n0 * g.n1) order)
    {task : Nat → M (List γ)} {w : Arr γ}
    (ht : ∀ k0 k1, k0 < g.n0 → k1 < g.n1 → ∃ r, task (k0 * g.n1 + k1) = .ok r ∧ r.length = g.rows k0 * g.cols k1 ∧
      ∀ l0 l1, l0 < g.rows k0 → l1 < g.cols k1 →
        r[l0 * g.cols k1 + l1]? = some (w (k0 * g.p0 + l0) (k1 * g.p1 + l1))) :
    ∃ parts, runTasks (g.n0 * g.n1) task order = .ok parts ∧ Represents ⟨g, parts⟩ w := by
  have ht' : ∀ k < g.n0 * g.n1, ∃ r, task k = .ok r := by
    intro k hk
    obtain ⟨h0, h1, he⟩ := idx_split hk
    obtain ⟨r, hr, _⟩ := ht _ _ h0 h1
    exact ⟨r, by rw [← he]; exact hr⟩
  let r : Nat → List γ := fun k => match task k with | .ok r => r | .error _ => []
  have hr : ∀ k < g.n0 * g.n1, task k = .ok (r k) := by
    intro k hk; obtain ⟨q, hq⟩ := ht' k hk; simp [r, hq]
  refine ⟨_, runTasks_ok ho hr, ⟨hg, by simp, ?_, ?_⟩⟩
  · intro k0 k1 p h0 h1 hp
    obtain ⟨q, hq, hlen, _⟩ := ht k0 k1 h0 h1
    simp only [List.getElem?_map, List.getElem?_range (idx_lt h0 h1), Option.map_some, Option.some.injEq, r, hq] at hp
    rw [← hp]; exact hlen
  · intro i j k0 k1 l0 l1 hc
    obtain ⟨q, hq, _, hv⟩ := ht k0 k1 hc.k0_lt hc.k1_lt
    have hk := idx_lt hc.k0_lt hc.k1_lt
    have e := hv l0 l1 hc.l0_lt hc.l1_lt
    rw [hc.i_eq, hc.j_eq]
    simp only [PArr.elem?, List.getElem?_map, List.getElem?_range hk, Option.map_some, Option.bind_some, r, hq]
    exact e

/-- The values in a represented array are determined. -/
theorem Represents.unique {α : Type} {x : PArr α} {v w : Arr α} (hv : Represents x v) (hw : Represents x w)
    {i j : Nat} (hi : i < x.grid.a0) (hj : j < x.grid.a1) : v i j = w i j := by
  obtain ⟨k0, k1, l0, l1, hc⟩ := exists_isCell hv.ok hi hj
  have h1 := hv.elem _ _ _ _ _ _ hc
  rw [hw.elem _ _ _ _ _ _ hc] at h1
  exact (Option.some.inj h1).symm

theorem verifyCompatible_same {α β : Type} {x : PArr α} {y : PArr β} (h : x.grid = y.grid) :
    verifyCompatible x y = .ok () := by simp [verifyCompatible, h]

/-- The partitions of an array, as stored. -/
def store {α : Type} (g : Grid) (v : Arr α) : PArr α :=
  ⟨g, (List.range (g.n0 * g.n1)).map fun k =>
    (List.range (g.rows (k / g.n1) * g.cols (k % g.n1))).map fun e =>
      v (k / g.n1 * g.p0 + e / g.cols (k % g.n1)) (k % g.n1 * g.p1 + e % g.cols (k % g.n1))⟩

/-- Every array can be represented, given any grid. -/
theorem store_represents {α : Type} {g : Grid} (hg : g.Ok) (v : Arr α) : Represents (store g v) v := by
  refine ⟨hg, by simp [store], ?_, ?_⟩
  · intro k0 k1 p h0 h1 hp
    change k0 < g.n0 at h0
    change k1 < g.n1 at h1
    simp only [store, List.getElem?_map, List.getElem?_range (idx_lt h0 h1), Option.map_some, Option.some.injEq,
      idx_div h1, idx_mod h1] at hp
    rw [← hp]; simp [store]
  · intro i j k0 k1 l0 l1 hc
    have hk := idx_lt hc.k0_lt hc.k1_lt
    have hl := idx_lt hc.l0_lt hc.l1_lt
    have h1 := hc.k1_lt
    have h2 := hc.l1_lt
    have hg' : (store g v).grid = g := rfl
    rw [hg'] at hk hl h1 h2
    rw [hc.i_eq, hc.j_eq]
    simp only [PArr.elem?, store, List.getElem?_map, List.getElem?_range hk, Option.map_some, Option.bind_some,
      idx_div h1, idx_mod h1, List.getElem?_range hl, idx_div h2, idx_mod h2]

end Lue

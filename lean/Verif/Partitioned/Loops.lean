import Verif.Partitioned.Store

/-!
Nested loops over the cells of a partition.
-/
namespace Lue

/-- Two nested loops with a running linear index, writing the element at the running index in each iteration:
`idx = 0; for idx0 for idx1 { out[idx] = val(idx0, idx1); ++idx; }` -/
theorem forLoop2_write {γ : Type} {n0 n1 : Nat} (val : Nat → Nat → γ)
    (body : Nat → Nat → List γ × Nat → M (List γ × Nat))
    (h : ∀ i0 < n0, ∀ i1 < n1, ∀ out : List γ, out.length = n0 * n1 →
      body i0 i1 (out, i0 * n1 + i1) = .ok (out.set (i0 * n1 + i1) (val i0 i1), i0 * n1 + i1 + 1))
    (out0 : List γ) (hl : out0.length = n0 * n1) :
    ∃ out, forLoop n0 (fun i0 s => forLoop n1 (fun i1 s => body i0 i1 s) s) (out0, 0) = .ok (out, n0 * n1) ∧
      out.length = n0 * n1 ∧ ∀ i0 i1, i0 < n0 → i1 < n1 → out[i0 * n1 + i1]? = some (val i0 i1) := by
  have inner : ∀ i0 < n0, ∀ out : List γ, out.length = n0 * n1 → ∀ k ≤ n1, ∃ out',
      forLoop k (fun i1 s => body i0 i1 s) (out, i0 * n1) = .ok (out', i0 * n1 + k) ∧ out'.length = n0 * n1 ∧
      (∀ e, e < i0 * n1 → out'[e]? = out[e]?) ∧ ∀ i1 < k, out'[i0 * n1 + i1]? = some (val i0 i1) := by
    intro i0 h0 out hlen k
    induction k with
    | zero => intro _; exact ⟨out, rfl, hlen, by simp, by simp⟩
    | succ k ih =>
      intro hk
      obtain ⟨out', h1, h2, h3, h4⟩ := ih (by omega)
      have hlt := idx_lt h0 (show k < n1 by omega)
      refine ⟨out'.set (i0 * n1 + k) (val i0 k), ?_, by simp [h2], ?_, ?_⟩
      · unfold forLoop at h1 ⊢
        rw [List.range_succ, List.foldlM_append, h1]
        simp only [M.bind_ok, List.foldlM_cons, List.foldlM_nil]
        rw [h i0 h0 k (by omega) out' h2]; rfl
      · intro e he
        rw [List.getElem?_set_ne (by omega)]; exact h3 e he
      · intro i1 hi1
        by_cases hik : i1 = k
        · subst hik; rw [List.getElem?_set_self (by omega)]
        · rw [List.getElem?_set_ne (by omega)]; exact h4 i1 (by omega)
  have outer : ∀ k ≤ n0, ∃ out,
      forLoop k (fun i0 s => forLoop n1 (fun i1 s => body i0 i1 s) s) (out0, 0) = .ok (out, k * n1) ∧
      out.length = n0 * n1 ∧ ∀ i0 i1, i0 < k → i1 < n1 → out[i0 * n1 + i1]? = some (val i0 i1) := by
    intro k
    induction k with
    | zero => intro _; exact ⟨out0, by simp [forLoop]; rfl, hl, by omega⟩
    | succ k ih =>
      intro hk
      obtain ⟨out, h1, h2, h3⟩ := ih (by omega)
      obtain ⟨out', h4, h5, h6, h7⟩ := inner k (by omega) out h2 n1 (Nat.le_refl _)
      refine ⟨out', ?_, h5, ?_⟩
      · unfold forLoop at h1 ⊢
        rw [List.range_succ, List.foldlM_append, h1]
        simp only [M.bind_ok, List.foldlM_cons, List.foldlM_nil]
        have : (k + 1) * n1 = k * n1 + n1 := by rw [Nat.add_mul, Nat.one_mul]
        rw [this]
        change ((forLoop n1 (fun i1 s => body k i1 s) (out, k * n1)) >>= pure) = _
        rw [h4]; rfl
      · intro i0 i1 hi0 hi1
        by_cases hik : i0 = k
        · subst hik; exact h7 i1 hi1
        · rw [h6 _ (idx_lt (show i0 < k by omega) hi1)]
          exact h3 i0 i1 (by omega) hi1
  exact outer n0 (Nat.le_refl _)

/-- While loops: an invariant and a decreasing measure. -/
theorem whileLoop_ok {σ : Type} (inv : σ → Prop) (μ : σ → Nat) {cond : σ → Bool} {body : σ → M σ}
    (h : ∀ s, inv s → cond s = true → ∃ s', body s = .ok s' ∧ inv s' ∧ μ s' < μ s) :
    ∀ (fuel : Nat) (s : σ), inv s → μ s < fuel →
      ∃ s', whileLoop fuel cond body s = .ok s' ∧ inv s' ∧ cond s' = false := by
  intro fuel
  induction fuel with
  | zero => intro s _ hf; omega
  | succ fuel ih =>
    intro s hs hf
    by_cases hc : cond s = true
    · obtain ⟨s', h1, h2, h3⟩ := h s hs hc
      obtain ⟨s'', h4, h5⟩ := ih s' h2 (by omega)
      exact ⟨s'', by simp only [whileLoop, hc, if_true, h1, M.bind_ok, h4], h5⟩
    · exact ⟨s, by simp [whileLoop, hc], hs, by simpa using hc⟩

/-- For loops: an invariant. -/
theorem forLoop_inv {σ : Type} (inv : Nat → σ → Prop) {n : Nat} {body : Nat → σ → M σ}
    (h : ∀ i < n, ∀ s, inv i s → ∃ s', body i s = .ok s' ∧ inv (i + 1) s') (s : σ) (h0 : inv 0 s) :
    ∃ s', forLoop n body s = .ok s' ∧ inv n s' := by
  have key : ∀ k ≤ n, ∃ s', forLoop k body s = .ok s' ∧ inv k s' := by
    intro k
    induction k with
    | zero => intro _; exact ⟨s, rfl, h0⟩
    | succ k ih =>
      intro hk
      obtain ⟨s', h1, h2⟩ := ih (by omega)
      obtain ⟨s'', h3, h4⟩ := h k (by omega) s' h2
      refine ⟨s'', ?_, h4⟩
      unfold forLoop at h1 ⊢
      rw [List.range_succ, List.foldlM_append, h1]
      simp only [M.bind_ok, List.foldlM_cons, List.foldlM_nil, h3]; rfl
  exact key n (Nat.le_refl n)

end Lue

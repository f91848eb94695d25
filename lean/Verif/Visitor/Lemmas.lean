import Mathlib.Data.List.Forall2
import Verif.Visitor.Model

namespace Lue.Visitor

/-- All cells of a hyperslab. -/
def cells : List Nat → List Nat → List (List Nat)
  | s :: ss, c :: cs => (List.range c).flatMap fun i => (cells ss cs).map fun x => (s + i) :: x
  | _, _ => [[]]

theorem loop_succ' {σ : Type} (body : σ → σ) (n : Nat) (s : σ) :
    loop body (n + 1) s = body (loop body n s) := by
  induction n generalizing s with
  | zero => rfl
  | succ n ih => rw [loop, ih]; rfl

theorem visit_spec (r : Nat) : ∀ (pre preS preC ss cs : List Nat) (s c : Nat) (log : List (List Nat)),
    pre.length = preS.length → pre.length = preC.length → ss.length = r → cs.length = r →
    visitArrayRank (r + 1) (⟨preS ++ s :: ss, preC ++ c :: cs, pre ++ s :: ss, pre.length⟩, log) =
      (⟨preS ++ s :: ss, preC ++ c :: cs, pre ++ (s + c) :: ss, pre.length⟩,
       log ++ (cells (s :: ss) (c :: cs)).map (pre ++ ·)) := by
  induction r with
  | zero =>
    intro pre preS preC ss cs s c log h1 h2 h3 h4
    have : ss = [] := List.eq_nil_of_length_eq_zero h3
    subst this
    have : cs = [] := List.eq_nil_of_length_eq_zero h4
    subst this
    rw [visitArrayRank]
    have hc : (preC ++ [c]).getD pre.length 0 = c := by simp [h2]
    simp only [hc, visitArrayRank]
    clear hc
    have key : ∀ n, loop (fun (x : Cursor × List (List Nat)) =>
        let c := if 0 + 1 > 1 then x.1.enter else x.1
        let x' := (c, x.2 ++ [c.current])
        let c := if 0 + 1 > 1 then x'.1.leave else x'.1
        (c.inc, x'.2)) n (⟨preS ++ [s], preC ++ [c], pre ++ [s], pre.length⟩, log) =
        (⟨preS ++ [s], preC ++ [c], pre ++ [s + n], pre.length⟩,
         log ++ (cells [s] [n]).map (pre ++ ·)) := by
      intro n
      induction n with
      | zero => simp [loop, cells]
      | succ n ih =>
        rw [loop_succ', ih]
        simp [Cursor.inc, cells, List.range_succ, Nat.add_assoc]
    exact key c
  | succ r ih =>
    intro pre preS preC ss cs s c log h1 h2 h3 h4
    cases ss with
    | nil => simp at h3
    | cons t ss =>
    cases cs with
    | nil => simp at h4
    | cons d cs =>
    rw [visitArrayRank]
    have hc : (preC ++ c :: d :: cs).getD pre.length 0 = c := by simp [h2]
    simp only [hc]
    clear hc
    have key : ∀ n, loop (fun (x : Cursor × List (List Nat)) =>
        let c := if r + 1 + 1 > 1 then x.1.enter else x.1
        let x' := visitArrayRank (r + 1) (c, x.2)
        let c := if r + 1 + 1 > 1 then x'.1.leave else x'.1
        (c.inc, x'.2)) n
          (⟨preS ++ s :: t :: ss, preC ++ c :: d :: cs, pre ++ s :: t :: ss, pre.length⟩, log) =
        (⟨preS ++ s :: t :: ss, preC ++ c :: d :: cs, pre ++ (s + n) :: t :: ss, pre.length⟩,
         log ++ (cells (s :: t :: ss) (n :: d :: cs)).map (pre ++ ·)) := by
      intro n
      induction n with
      | zero => simp [loop, cells]
      | succ n ihn =>
        rw [loop_succ', ihn]
        have := ih (pre ++ [s + n]) (preS ++ [s]) (preC ++ [c]) ss cs t d
          (log ++ (cells (s :: t :: ss) (n :: d :: cs)).map (pre ++ ·))
          (by simp [h1]) (by simp [h2]) (by simpa using h3) (by simpa using h4)
        simp only [List.append_assoc, List.singleton_append, List.length_append, List.length_cons,
          List.length_nil, Nat.zero_add] at this
        have hgt : r + 1 + 1 > 1 := by omega
        simp only [hgt, if_true, Cursor.enter]
        rw [this]
        have e1 : (preS ++ s :: t :: ss).getD (pre.length + 1) 0 = t := by
          rw [h1, show preS ++ s :: t :: ss = (preS ++ [s]) ++ t :: ss by simp]
          simp [List.getD, List.getElem?_append_right]
        simp only [Cursor.leave, Cursor.inc, e1]
        have e2 : (pre ++ (s + n) :: (t + d) :: ss).set (pre.length + 1) t
            = pre ++ (s + n) :: t :: ss := by
          simp [List.set_append]
        rw [e2]
        simp [cells, List.range_succ, List.map_flatMap, List.flatMap_append, List.map_append, Nat.add_assoc, Function.comp_def]
    exact key c

theorem visitArray_eq (b e : List Nat) (h : b.length = e.length) (h0 : b ≠ []) :
    visitArray b e = cells b (List.zipWith (fun e b => e - b) e b) := by
  cases b with
  | nil => exact absurd rfl h0
  | cons s ss =>
  cases e with
  | nil => simp at h
  | cons t ts =>
  simp only [List.length_cons, Nat.add_right_cancel_iff] at h
  have := visit_spec ss.length [] [] [] ss (List.zipWith (fun e b => e - b) ts ss) s (t - s) []
    rfl rfl rfl (by simp [h])
  simp only [List.nil_append, List.length_nil] at this
  simp only [visitArray, Cursor.init, List.zipWith_cons_cons, List.length_cons]
  rw [this]
  simp

theorem mem_cells : ∀ (b e x : List Nat), b.length = e.length →
    (x ∈ cells b (List.zipWith (fun e b => e - b) e b) ↔
      List.Forall₂ (· ≤ ·) b x ∧ List.Forall₂ (· < ·) x e)
  | [], [], x, _ => by
    simp [cells]
  | s :: ss, t :: ts, x, h => by
    simp only [List.length_cons, Nat.add_right_cancel_iff] at h
    simp only [List.zipWith_cons_cons, cells, List.mem_flatMap, List.mem_range, List.mem_map]
    constructor
    · rintro ⟨i, hi, y, hy, rfl⟩
      have := (mem_cells ss ts y h).1 hy
      exact ⟨.cons (Nat.le_add_right _ _) this.1, .cons (show s + i < t by omega) this.2⟩
    · rintro ⟨h1, h2⟩
      cases h1 with
      | @cons _ a _ y hsa h1 =>
      cases h2 with
      | cons hat h2 =>
      have hsa' : s ≤ a := hsa
      have hat' : a < t := hat
      exact ⟨a - s, by omega, y, (mem_cells ss ts y h).2 ⟨h1, h2⟩, by congr 1; omega⟩

theorem cells_sorted : ∀ (b c : List Nat), (cells b c).Pairwise (List.Lex (· < ·))
  | [], _ => by simp [cells]
  | _ :: _, [] => by simp [cells]
  | s :: ss, c :: cs => by
    rw [cells, List.pairwise_flatMap]
    constructor
    · intro i _
      rw [List.pairwise_map]
      exact (cells_sorted ss cs).imp fun h => .cons h
    · refine List.Pairwise.imp ?_ (List.pairwise_lt_range (n := c))
      intro i j hij x hx y hy
      simp only [List.mem_map] at hx hy
      obtain ⟨x', _, rfl⟩ := hx
      obtain ⟨y', _, rfl⟩ := hy
      exact .rel (Nat.add_lt_add_left hij s)

end Lue.Visitor

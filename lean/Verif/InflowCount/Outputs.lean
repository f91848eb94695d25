import Verif.InflowCount.Partition

/-! The output cells of a partition. -/
namespace Lue.InflowCount

open Lue.Routing

/-- The neighbour and the index, for a cell whose downstream cell is in another partition. -/
def leave (n0 n1 : Nat) (i j : Int) (code : Nat) : Option (Dir × Int) :=
  (move code).bind fun o =>
    if i + o.1 < 0 then
      (if j + o.2 < 0 then some (.nw, -1) else if n1 ≤ j + o.2 then some (.ne, -1) else some (.n, j + o.2))
    else if n0 ≤ i + o.1 then
      (if j + o.2 < 0 then some (.sw, -1) else if n1 ≤ j + o.2 then some (.se, -1) else some (.s, j + o.2))
    else if j + o.2 < 0 then some (.w, i + o.1)
    else if n1 ≤ j + o.2 then some (.e, i + o.1)
    else none

section
set_option linter.unusedTactic false
set_option linter.unreachableTactic false
set_option linter.unusedSimpArgs false
variable {n0 n1 : Nat}

macro "outputs_tac" : tactic => `(tactic| (
  intro code
  by_cases hc : code < 10
  · interval_cases code <;>
      simp only [leave, move, List.lookup, northOutputs, southOutputs, westOutputs, eastOutputs, northWestOutputs,
        northEastOutputs, southWestOutputs, southEastOutputs, northWest, north, northEast, west, east, southWest, south,
        southEast, Option.bind_some, Option.bind_none, Nat.reduceBEq] <;>
      first
      | rfl
      | (split_ifs <;> first | omega | rfl | (simp only [Option.some.injEq, Prod.mk.injEq, true_and]; omega))
  · simp only [leave, move_ge code hc, Option.bind_none]
    simp only [List.lookup, northOutputs, southOutputs, westOutputs, eastOutputs, northWestOutputs,
        northEastOutputs, southWestOutputs, southEastOutputs, northWest, north, northEast, west, east, southWest, south,
        southEast]
    simp only [show ∀ k : Nat, k < 10 → (code == k) = false from fun k hk => by simp; omega, Nat.reduceLT]))

theorem northOutputs_ok (h0 : 2 ≤ n0) {j : Int} (h2 : 1 ≤ j) (h3 : j + 1 < n1) :
    ∀ code, (northOutputs 0 j).lookup code = leave n0 n1 0 j code := by outputs_tac
theorem southOutputs_ok (h0 : 2 ≤ n0) {j : Int} (h2 : 1 ≤ j) (h3 : j + 1 < n1) :
    ∀ code, (southOutputs (n0 - 1) j).lookup code = leave n0 n1 (n0 - 1) j code := by outputs_tac
theorem westOutputs_ok (h1 : 2 ≤ n1) {i : Int} (h2 : 1 ≤ i) (h3 : i + 1 < n0) :
    ∀ code, (westOutputs i 0).lookup code = leave n0 n1 i 0 code := by outputs_tac
theorem eastOutputs_ok (h1 : 2 ≤ n1) {i : Int} (h2 : 1 ≤ i) (h3 : i + 1 < n0) :
    ∀ code, (eastOutputs i (n1 - 1)).lookup code = leave n0 n1 i (n1 - 1) code := by outputs_tac
theorem northWestOutputs_ok (h0 : 2 ≤ n0) (h1 : 2 ≤ n1) :
    ∀ code, (northWestOutputs 0 0).lookup code = leave n0 n1 0 0 code := by outputs_tac
theorem northEastOutputs_ok (h0 : 2 ≤ n0) (h1 : 2 ≤ n1) :
    ∀ code, (northEastOutputs 0 (n1 - 1)).lookup code = leave n0 n1 0 (n1 - 1) code := by outputs_tac
theorem southWestOutputs_ok (h0 : 2 ≤ n0) (h1 : 2 ≤ n1) :
    ∀ code, (southWestOutputs (n0 - 1) 0).lookup code = leave n0 n1 (n0 - 1) 0 code := by outputs_tac
theorem southEastOutputs_ok (h0 : 2 ≤ n0) (h1 : 2 ≤ n1) :
    ∀ code, (southEastOutputs (n0 - 1) (n1 - 1)).lookup code = leave n0 n1 (n0 - 1) (n1 - 1) code := by outputs_tac
end

section
variable {n0 n1 : Nat} {isNoData : Nat → Bool} {fd : List Nat} {code : Int × Int → Nat}

/-- The output of a cell. -/
def output (isNoData : Nat → Bool) (n0 n1 : Nat) (code : Int × Int → Nat) (c : Int × Int) : Option Output :=
  if isNoData (code c) then none else (leave n0 n1 c.1 c.2 (code c)).map fun r => ⟨r.1, c, r.2⟩

theorem outputCell_ok (hfd : Holds n0 n1 fd code) {c : Int × Int} (hc : InRange n0 n1 c)
    {chain : List (Nat × Dir × Int)} (hchain : ∀ k, chain.lookup k = leave n0 n1 c.1 c.2 k) (out : List Output) :
    outputCell isNoData n0 n1 fd c.1 c.2 chain out = .ok (out ++ (output isNoData n0 n1 code c).toList) := by
  unfold outputCell
  rw [at2_ok (i := c.1) (j := c.2) hc, M.bind_ok, hfd.rd hc, M.bind_ok]
  by_cases hn : isNoData (code c) = true
  · simp [hn, output]
  · simp only [hn, Bool.not_false, if_true, hchain, output]
    rcases leave n0 n1 c.1 c.2 (code c) with _ | ⟨d, idx⟩
    · simp
    · simp

theorem foldlM_outputs (hfd : Holds n0 n1 fd code) (chain : Int → Int → List (Nat × Dir × Int)) :
    ∀ (l : List (Int × Int)), (∀ c ∈ l, InRange n0 n1 c ∧ ∀ k, (chain c.1 c.2).lookup k = leave n0 n1 c.1 c.2 k) →
      ∀ out, l.foldlM (fun out c => outputCell isNoData n0 n1 fd c.1 c.2 (chain c.1 c.2) out) out =
        .ok (out ++ l.filterMap (output isNoData n0 n1 code)) := by
  intro l
  induction l with
  | nil => intro _ out; simp; rfl
  | cons c l ih =>
    intro hl out
    obtain ⟨hr, hch⟩ := hl c (by simp)
    rw [List.foldlM_cons, outputCell_ok hfd hr hch, M.bind_ok, ih (fun x hx => hl x (by simp [hx]))]
    rw [List.filterMap_cons]
    cases output isNoData n0 n1 code c <;> simp

theorem outPhase (hfd : Holds n0 n1 fd code) (chain : Int → Int → List (Nat × Dir × Int)) {l : List (Int × Int)}
    (hl : ∀ c ∈ l, InRange n0 n1 c ∧ ∀ k, (chain c.1 c.2).lookup k = leave n0 n1 c.1 c.2 k)
    {prog : List Output → M (List Output)}
    (hp : ∀ out, prog out = l.foldlM (fun out c => outputCell isNoData n0 n1 fd c.1 c.2 (chain c.1 c.2) out) out) :
    ∀ out, prog out = .ok (out ++ l.filterMap (output isNoData n0 n1 code)) := fun out => by
  rw [hp, foldlM_outputs hfd chain l hl]

theorem outputs_ok (h0 : 2 ≤ n0) (h1 : 2 ≤ n1) (hfd : Holds n0 n1 fd code) :
    outputs isNoData n0 n1 fd = .ok ((border n0 n1).filterMap (output isNoData n0 n1 code)) := by
  have p1 := outPhase (isNoData := isNoData) hfd northOutputs (l := northCells n1)
    (fun c hc => by
      have := mem_northCells.mp hc
      rw [this.1]
      exact ⟨⟨by omega, by omega, by omega, by omega⟩, northOutputs_ok h0 this.2.1 this.2.2⟩)
    (prog := fun s => forLoop (n1 - 2) (fun j s => outputCell isNoData n0 n1 fd 0 (j + 1) (northOutputs 0 (j + 1)) s) s)
    (fun s => forLoop_foldlM _ _ _ _ (fun i _ s => by rw [foldlM_single]) s)
  have p2 := outPhase (isNoData := isNoData) hfd southOutputs (l := southCells n0 n1)
    (fun c hc => by
      have := mem_southCells.mp hc
      rw [this.1]
      exact ⟨⟨by omega, by omega, by omega, by omega⟩, southOutputs_ok h0 this.2.1 this.2.2⟩)
    (prog := fun s => forLoop (n1 - 2) (fun j s =>
      outputCell isNoData n0 n1 fd (n0 - 1) (j + 1) (southOutputs (n0 - 1) (j + 1)) s) s)
    (fun s => forLoop_foldlM _ _ _ _ (fun i _ s => by rw [foldlM_single]) s)
  have p3 := outPhase (isNoData := isNoData) hfd westOutputs (l := westCells n0)
    (fun c hc => by
      have := mem_westCells.mp hc
      rw [this.2.2]
      exact ⟨⟨by omega, by omega, by omega, by omega⟩, westOutputs_ok h1 this.1 this.2.1⟩)
    (prog := fun s => forLoop (n0 - 2) (fun i s => outputCell isNoData n0 n1 fd (i + 1) 0 (westOutputs (i + 1) 0) s) s)
    (fun s => forLoop_foldlM _ _ _ _ (fun i _ s => by rw [foldlM_single]) s)
  have p4 := outPhase (isNoData := isNoData) hfd eastOutputs (l := eastCells n0 n1)
    (fun c hc => by
      have := mem_eastCells.mp hc
      rw [this.2.2]
      exact ⟨⟨by omega, by omega, by omega, by omega⟩, eastOutputs_ok h1 this.1 this.2.1⟩)
    (prog := fun s => forLoop (n0 - 2) (fun i s =>
      outputCell isNoData n0 n1 fd (i + 1) (n1 - 1) (eastOutputs (i + 1) (n1 - 1)) s) s)
    (fun s => forLoop_foldlM _ _ _ _ (fun i _ s => by rw [foldlM_single]) s)
  have p5 := outputCell_ok (isNoData := isNoData) hfd (c := (0, 0)) ⟨by simp, by simp; omega, by simp, by simp; omega⟩ (northWestOutputs_ok h0 h1)
  have p6 := outputCell_ok (isNoData := isNoData) hfd (c := (0, (n1 : Int) - 1)) ⟨by simp, by simp; omega, by simp; omega, by simp⟩ (northEastOutputs_ok h0 h1)
  have p7 := outputCell_ok (isNoData := isNoData) hfd (c := ((n0 : Int) - 1, (n1 : Int) - 1)) ⟨by simp; omega, by simp, by simp; omega, by simp⟩ (southEastOutputs_ok h0 h1)
  have p8 := outputCell_ok (isNoData := isNoData) hfd (c := ((n0 : Int) - 1, 0)) ⟨by simp; omega, by simp, by simp, by simp; omega⟩ (southWestOutputs_ok h0 h1)
  have last : ∀ out, (do
      let out ← outputCell isNoData n0 n1 fd 0 0 (northWestOutputs 0 0) out
      let out ← outputCell isNoData n0 n1 fd 0 (n1 - 1) (northEastOutputs 0 (n1 - 1)) out
      let out ← outputCell isNoData n0 n1 fd (n0 - 1) (n1 - 1) (southEastOutputs (n0 - 1) (n1 - 1)) out
      outputCell isNoData n0 n1 fd (n0 - 1) 0 (southWestOutputs (n0 - 1) 0) out) =
      .ok (out ++ [((0 : Int), (0 : Int)), (0, (n1 : Int) - 1), ((n0 : Int) - 1, (n1 : Int) - 1), ((n0 : Int) - 1, 0)].filterMap
        (output isNoData n0 n1 code)) := by
    intro out
    simp only at p5 p6 p7 p8
    rw [p5, M.bind_ok, p6, M.bind_ok, p7, M.bind_ok, p8]
    simp only [List.filterMap_cons, List.filterMap_nil]
    cases output isNoData n0 n1 code (0, 0) <;> cases output isNoData n0 n1 code (0, (n1 : Int) - 1) <;>
      cases output isNoData n0 n1 code ((n0 : Int) - 1, (n1 : Int) - 1) <;>
      cases output isNoData n0 n1 code ((n0 : Int) - 1, 0) <;> simp
  have sides : ∀ out, (if n0 > 2 then do
      let s ← forLoop (n0 - 2) (fun i s => outputCell isNoData n0 n1 fd (i + 1) 0 (westOutputs (i + 1) 0) s) out
      let s ← forLoop (n0 - 2) (fun i s => outputCell isNoData n0 n1 fd (i + 1) (n1 - 1) (eastOutputs (i + 1) (n1 - 1)) s) s
      let out ← outputCell isNoData n0 n1 fd 0 0 (northWestOutputs 0 0) s
      let out ← outputCell isNoData n0 n1 fd 0 (n1 - 1) (northEastOutputs 0 (n1 - 1)) out
      let out ← outputCell isNoData n0 n1 fd (n0 - 1) (n1 - 1) (southEastOutputs (n0 - 1) (n1 - 1)) out
      outputCell isNoData n0 n1 fd (n0 - 1) 0 (southWestOutputs (n0 - 1) 0) out
    else do
      let s ← .ok out
      let out ← outputCell isNoData n0 n1 fd 0 0 (northWestOutputs 0 0) s
      let out ← outputCell isNoData n0 n1 fd 0 (n1 - 1) (northEastOutputs 0 (n1 - 1)) out
      let out ← outputCell isNoData n0 n1 fd (n0 - 1) (n1 - 1) (southEastOutputs (n0 - 1) (n1 - 1)) out
      outputCell isNoData n0 n1 fd (n0 - 1) 0 (southWestOutputs (n0 - 1) 0) out) =
      .ok (out ++ (westCells n0).filterMap (output isNoData n0 n1 code) ++ (eastCells n0 n1).filterMap (output isNoData n0 n1 code) ++
        [((0 : Int), (0 : Int)), (0, (n1 : Int) - 1), ((n0 : Int) - 1, (n1 : Int) - 1), ((n0 : Int) - 1, 0)].filterMap
        (output isNoData n0 n1 code)) := by
    intro out
    by_cases h : n0 > 2
    · have := p3 out
      have q := p4 (out ++ (westCells n0).filterMap (output isNoData n0 n1 code))
      rw [if_pos h, this, M.bind_ok, q, M.bind_ok, last]
    · have : n0 - 2 = 0 := by omega
      rw [if_neg h, M.bind_ok, last]
      simp [westCells, eastCells, this]
  have hb : (border n0 n1).filterMap (output isNoData n0 n1 code) =
      (northCells n1).filterMap (output isNoData n0 n1 code) ++ (southCells n0 n1).filterMap (output isNoData n0 n1 code) ++
      (westCells n0).filterMap (output isNoData n0 n1 code) ++ (eastCells n0 n1).filterMap (output isNoData n0 n1 code) ++
        [((0 : Int), (0 : Int)), (0, (n1 : Int) - 1), ((n0 : Int) - 1, (n1 : Int) - 1), ((n0 : Int) - 1, 0)].filterMap
        (output isNoData n0 n1 code) := by
    simp only [border, List.filterMap_append]
  rw [hb]
  unfold outputs
  simp only
  by_cases h : n1 > 2
  · have a := p1 []
    have b := p2 ((northCells n1).filterMap (output isNoData n0 n1 code))
    simp only [List.nil_append] at a b
    rw [if_pos h, a, M.bind_ok, b, M.bind_ok, sides]
  · have : n1 - 2 = 0 := by omega
    rw [if_neg h, M.bind_ok, sides]
    simp [northCells, southCells, this]

end

end Lue.InflowCount

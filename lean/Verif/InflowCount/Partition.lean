import Verif.InflowCount.Lemmas
import Mathlib.Data.List.Nodup

/-! Counting within a partition, and the output cells of a partition. -/
namespace Lue.InflowCount

open Lue.Routing

theorem forLoop_foldlM {σ X : Type} (f : Nat → List X) (step : σ → X → M σ) (body : Nat → σ → M σ) (n : Nat)
    (h : ∀ i < n, ∀ s, body i s = (f i).foldlM step s) (s : σ) :
    forLoop n body s = ((List.range n).flatMap f).foldlM step s := by
  unfold forLoop
  have key : ∀ (l : List Nat), (∀ i ∈ l, i < n) → ∀ s, l.foldlM (fun s i => body i s) s = (l.flatMap f).foldlM step s := by
    intro l
    induction l with
    | nil => intro _ s; rfl
    | cons a l ih =>
      intro hl s
      rw [List.foldlM_cons, List.flatMap_cons, List.foldlM_append, h a (hl a (by simp))]
      congr 1
      funext s'
      exact ih (fun i hi => hl i (by simp [hi])) s'
  exact key _ (fun i hi => by simpa using hi) s

/-- Cells in the interior of a partition. -/
def innerCells (n0 n1 : Nat) : List (Int × Int) :=
  (List.range (n0 - 2)).flatMap fun (i : Nat) => (List.range (n1 - 2)).flatMap fun (j : Nat) => [((i : Int) + 1, (j : Int) + 1)]
def cornerCells (n0 n1 : Nat) : List (Int × Int) := [(0, 0), (0, n1 - 1), (n0 - 1, 0), (n0 - 1, n1 - 1)]
def northCells (n1 : Nat) : List (Int × Int) := (List.range (n1 - 2)).flatMap fun (j : Nat) => [(0, (j : Int) + 1)]
def southCells (n0 n1 : Nat) : List (Int × Int) := (List.range (n1 - 2)).flatMap fun (j : Nat) => [((n0 : Int) - 1, (j : Int) + 1)]
def westCells (n0 : Nat) : List (Int × Int) := (List.range (n0 - 2)).flatMap fun (i : Nat) => [((i : Int) + 1, 0)]
def eastCells (n0 n1 : Nat) : List (Int × Int) := (List.range (n0 - 2)).flatMap fun (i : Nat) => [((i : Int) + 1, (n1 : Int) - 1)]

/-- The cells, in the order in which they are handled. -/
def ordered (n0 n1 : Nat) : List (Int × Int) :=
  innerCells n0 n1 ++ cornerCells n0 n1 ++ northCells n1 ++ southCells n0 n1 ++ westCells n0 ++ eastCells n0 n1

/-- The border cells. -/
def border (n0 n1 : Nat) : List (Int × Int) :=
  northCells n1 ++ southCells n0 n1 ++ westCells n0 ++ eastCells n0 n1 ++
    [(0, 0), (0, (n1 : Int) - 1), ((n0 : Int) - 1, (n1 : Int) - 1), ((n0 : Int) - 1, 0)]

theorem nodup_flatMap_single {X : Type} (n : Nat) (f : Nat → X) (hf : ∀ a < n, ∀ b < n, f a = f b → a = b) :
    ((List.range n).flatMap fun i => [f i]).Nodup := by
  rw [show (fun i => [f i]) = (pure ∘ f) from rfl, List.flatMap_pure_eq_map]
  exact List.Nodup.map_on (fun a ha b hb h => hf a (by simpa using ha) b (by simpa using hb) h) List.nodup_range

section
variable {n0 n1 : Nat}

theorem mem_innerCells {c : Int × Int} : c ∈ innerCells n0 n1 ↔ 1 ≤ c.1 ∧ c.1 + 1 < n0 ∧ 1 ≤ c.2 ∧ c.2 + 1 < n1 := by
  rcases c with ⟨i, j⟩
  simp only [innerCells, List.mem_flatMap, List.mem_range, List.mem_singleton, Prod.mk.injEq]
  constructor
  · rintro ⟨a, ha, b, hb, rfl, rfl⟩; omega
  · rintro ⟨h1, h2, h3, h4⟩
    exact ⟨(i - 1).toNat, by omega, (j - 1).toNat, by omega, by omega, by omega⟩
theorem mem_northCells {c : Int × Int} : c ∈ northCells n1 ↔ c.1 = 0 ∧ 1 ≤ c.2 ∧ c.2 + 1 < n1 := by
  rcases c with ⟨i, j⟩
  simp only [northCells, List.mem_flatMap, List.mem_range, List.mem_singleton, Prod.mk.injEq]
  constructor
  · rintro ⟨b, hb, rfl, rfl⟩; omega
  · rintro ⟨h1, h3, h4⟩
    exact ⟨(j - 1).toNat, by omega, by omega, by omega⟩
theorem mem_southCells {c : Int × Int} : c ∈ southCells n0 n1 ↔ c.1 = n0 - 1 ∧ 1 ≤ c.2 ∧ c.2 + 1 < n1 := by
  rcases c with ⟨i, j⟩
  simp only [southCells, List.mem_flatMap, List.mem_range, List.mem_singleton, Prod.mk.injEq]
  constructor
  · rintro ⟨b, hb, rfl, rfl⟩; omega
  · rintro ⟨h1, h3, h4⟩
    exact ⟨(j - 1).toNat, by omega, by omega, by omega⟩
theorem mem_westCells {c : Int × Int} : c ∈ westCells n0 ↔ 1 ≤ c.1 ∧ c.1 + 1 < n0 ∧ c.2 = 0 := by
  rcases c with ⟨i, j⟩
  simp only [westCells, List.mem_flatMap, List.mem_range, List.mem_singleton, Prod.mk.injEq]
  constructor
  · rintro ⟨b, hb, rfl, rfl⟩; omega
  · rintro ⟨h1, h3, h4⟩
    exact ⟨(i - 1).toNat, by omega, by omega, by omega⟩
theorem mem_eastCells {c : Int × Int} : c ∈ eastCells n0 n1 ↔ 1 ≤ c.1 ∧ c.1 + 1 < n0 ∧ c.2 = n1 - 1 := by
  rcases c with ⟨i, j⟩
  simp only [eastCells, List.mem_flatMap, List.mem_range, List.mem_singleton, Prod.mk.injEq]
  constructor
  · rintro ⟨b, hb, rfl, rfl⟩; omega
  · rintro ⟨h1, h3, h4⟩
    exact ⟨(i - 1).toNat, by omega, by omega, by omega⟩

theorem nodup_innerCells : (innerCells n0 n1).Nodup := by
  unfold innerCells
  rw [List.nodup_flatMap]
  refine ⟨fun i _ => nodup_flatMap_single _ _ (fun a _ b _ h => by simpa using h), ?_⟩
  refine List.Pairwise.imp ?_ (List.nodup_range (n := n0 - 2))
  intro a b hab c hc hc'
  simp only [List.mem_flatMap, List.mem_singleton] at hc hc'
  obtain ⟨_, _, rfl⟩ := hc
  obtain ⟨_, _, h⟩ := hc'
  simp only [Prod.mk.injEq] at h
  omega

theorem nodup_sides : (northCells n1).Nodup ∧ (southCells n0 n1).Nodup ∧ (westCells n0).Nodup ∧
    (eastCells n0 n1).Nodup := by
  refine ⟨?_, ?_, ?_, ?_⟩ <;> exact nodup_flatMap_single _ _ (fun a _ b _ h => by simpa using h)

theorem mem_ordered (h0 : 2 ≤ n0) (h1 : 2 ≤ n1) {c : Int × Int} : c ∈ ordered n0 n1 ↔ InRange n0 n1 c := by
  simp only [ordered, List.mem_append, mem_innerCells, mem_northCells, mem_southCells, mem_westCells, mem_eastCells,
    cornerCells, List.mem_cons, List.not_mem_nil, or_false]
  rcases c with ⟨i, j⟩
  simp only [Prod.mk.injEq]
  omega

theorem nodup_ordered (h0 : 2 ≤ n0) (h1 : 2 ≤ n1) : (ordered n0 n1).Nodup := by
  obtain ⟨a, b, c, d⟩ := nodup_sides (n0 := n0) (n1 := n1)
  have hcorner : (cornerCells n0 n1).Nodup := by simp [cornerCells]; omega
  unfold ordered
  refine List.Nodup.append (List.Nodup.append (List.Nodup.append (List.Nodup.append (List.Nodup.append
    nodup_innerCells hcorner ?_) a ?_) b ?_) c ?_) d ?_ <;>
  · intro x hx hx'
    simp only [List.mem_append, mem_innerCells, mem_northCells, mem_southCells, mem_westCells, mem_eastCells,
      cornerCells, List.mem_cons, List.not_mem_nil, or_false] at hx hx'
    rcases x with ⟨i, j⟩
    simp only [Prod.mk.injEq] at hx hx'
    omega

theorem mem_border (h0 : 2 ≤ n0) (h1 : 2 ≤ n1) {c : Int × Int} :
    c ∈ border n0 n1 ↔ InRange n0 n1 c ∧ (c.1 = 0 ∨ c.1 = n0 - 1 ∨ c.2 = 0 ∨ c.2 = n1 - 1) := by
  simp only [border, List.mem_append, mem_northCells, mem_southCells, mem_westCells, mem_eastCells,
    List.mem_cons, List.not_mem_nil, or_false]
  rcases c with ⟨i, j⟩
  simp only [Prod.mk.injEq]
  omega

theorem nodup_border (h0 : 2 ≤ n0) (h1 : 2 ≤ n1) : (border n0 n1).Nodup := by
  obtain ⟨a, b, c, d⟩ := nodup_sides (n0 := n0) (n1 := n1)
  have hcorner : [((0 : Int), (0 : Int)), (0, (n1 : Int) - 1), ((n0 : Int) - 1, (n1 : Int) - 1), ((n0 : Int) - 1, 0)].Nodup := by
    simp; omega
  unfold border
  refine List.Nodup.append (List.Nodup.append (List.Nodup.append (List.Nodup.append a b ?_) c ?_) d ?_) hcorner ?_ <;>
  · intro x hx hx'
    simp only [List.mem_append, mem_northCells, mem_southCells, mem_westCells, mem_eastCells,
      List.mem_cons, List.not_mem_nil, or_false] at hx hx'
    rcases x with ⟨i, j⟩
    simp only [Prod.mk.injEq] at hx hx'
    omega

/-! ### The counts -/

variable {isNoData : Nat → Bool} {mark : Nat → Nat} {fd : List Nat} {code : Int × Int → Nat}

theorem foldlM_counts (hfd : Holds n0 n1 fd code)
    (hvalid : ∀ c t, InRange n0 n1 c → target isNoData n0 n1 code c = some t → isNoData (code t) = false)
    (chain : Int × Int → List (Nat × Int × Int)) :
    ∀ (l done : List (Int × Int)), (∀ c ∈ l, InRange n0 n1 c ∧ ∀ k, (chain c).lookup k = stay n0 n1 c.1 c.2 k) →
      (done ++ l).Nodup → ∀ s, Holds n0 n1 s (countsAfter isNoData mark n0 n1 code done) →
      ∃ s', l.foldlM (fun s c => countCell isNoData mark n0 n1 fd (chain c) c.1 c.2 s) s = .ok s' ∧
        Holds n0 n1 s' (countsAfter isNoData mark n0 n1 code (done ++ l)) := by
  intro l
  induction l with
  | nil => intro done _ _ s hs; exact ⟨s, rfl, by simpa using hs⟩
  | cons c l ih =>
    intro done hl hnd s hs
    obtain ⟨hr, hch⟩ := hl c (by simp)
    have hmem : c ∉ done := by
      intro hm
      exact (List.nodup_append.mp hnd).2.2 c hm c (by simp) rfl
    obtain ⟨s', h1, h2⟩ := countCell_ok (mark := mark) hfd hvalid (i := c.1) (j := c.2) hr hch (l := done) hmem hs
    obtain ⟨s'', h3, h4⟩ := ih (done ++ [c]) (fun x hx => hl x (by simp [hx])) (by simpa using hnd) s' h2
    refine ⟨s'', ?_, by simpa using h4⟩
    rw [List.foldlM_cons, h1, M.bind_ok, h3]

theorem M.bind_assoc' {α β γ : Type} (x : M α) (f : α → M β) (g : β → M γ) : (x >>= f) >>= g = x >>= fun a => f a >>= g := by
  cases x <;> rfl

theorem foldlM_single {σ X : Type} (step : σ → X → M σ) (x : X) (s : σ) : [x].foldlM step s = step s x := by
  simp only [List.foldlM_cons, List.foldlM_nil]
  cases step s x <;> rfl

/-- A phase: handle a list of cells with the same chain. -/
theorem phase (hfd : Holds n0 n1 fd code)
    (hvalid : ∀ c t, InRange n0 n1 c → target isNoData n0 n1 code c = some t → isNoData (code t) = false)
    (chain : List (Nat × Int × Int)) {l done : List (Int × Int)}
    (hl : ∀ c ∈ l, InRange n0 n1 c ∧ ∀ k, chain.lookup k = stay n0 n1 c.1 c.2 k)
    (hnd : (done ++ l).Nodup) {s : List Nat} (hs : Holds n0 n1 s (countsAfter isNoData mark n0 n1 code done))
    {prog : List Nat → M (List Nat)}
    (hp : ∀ s, prog s = l.foldlM (fun s c => countCell isNoData mark n0 n1 fd chain c.1 c.2 s) s) :
    ∃ s', prog s = .ok s' ∧ Holds n0 n1 s' (countsAfter isNoData mark n0 n1 code (done ++ l)) := by
  obtain ⟨s', h1, h2⟩ := foldlM_counts (mark := mark) hfd hvalid (fun _ => chain) l done hl hnd s hs
  exact ⟨s', by rw [hp, h1], h2⟩

theorem countPartition_ok (h0 : 2 ≤ n0) (h1 : 2 ≤ n1) (hfd : Holds n0 n1 fd code)
    (hvalid : ∀ c t, InRange n0 n1 c → target isNoData n0 n1 code c = some t → isNoData (code t) = false) :
    ∃ s, countPartition isNoData mark n0 n1 fd = .ok s ∧
      Holds n0 n1 s (countsAfter isNoData mark n0 n1 code (ordered n0 n1)) := by
  have hnd := nodup_ordered h0 h1
  have hinit : Holds n0 n1 (List.replicate (n0 * n1) 0) (countsAfter isNoData mark n0 n1 code []) := by
    refine ⟨by simp, fun c hc => ?_⟩
    rw [List.getElem?_replicate, if_pos (lin_lt hc)]
    simp [countsAfter]
  have hnd' : ([] ++ innerCells n0 n1 ++ [((0 : Int), (0 : Int))] ++ [((0 : Int), (n1 : Int) - 1)] ++ [((n0 : Int) - 1, (0 : Int))] ++
      [((n0 : Int) - 1, (n1 : Int) - 1)] ++ northCells n1 ++ southCells n0 n1 ++ westCells n0 ++ eastCells n0 n1) = ordered n0 n1 := by
    simp [ordered, cornerCells]
  rw [← hnd'] at hnd ⊢
  have pre : ∀ {a b : List (Int × Int)}, (a ++ b).Nodup → a.Nodup := fun h => (List.nodup_append.mp h).1
  obtain ⟨s1, p1, q1⟩ := phase (mark := mark) hfd hvalid innerChain (l := innerCells n0 n1) (done := [])
    (fun c hc => by
      have := mem_innerCells.mp hc
      exact ⟨⟨by omega, by omega, by omega, by omega⟩, innerChain_ok this.1 this.2.1 this.2.2.1 this.2.2.2⟩)
    (pre (pre (pre (pre (pre (pre (pre (pre hnd)))))))) hinit
    (prog := fun s => forLoop (n0 - 2) (fun i s => forLoop (n1 - 2) (fun j s =>
      countCell isNoData mark n0 n1 fd innerChain (i + 1) (j + 1) s) s) s)
    (fun s => forLoop_foldlM _ _ _ _ (fun i _ s => forLoop_foldlM _ _ _ _ (fun j _ s => by rw [foldlM_single]) s) s)
  obtain ⟨s2, p2, q2⟩ := phase (mark := mark) hfd hvalid northWestChain (l := [((0 : Int), (0 : Int))])
    (fun c hc => by
      rw [List.mem_singleton] at hc; subst hc
      exact ⟨⟨by simp, by simp; omega, by simp, by simp; omega⟩, northWestChain_ok h0 h1⟩)
    (pre (pre (pre (pre (pre (pre (pre hnd))))))) q1
    (prog := fun s => countCell isNoData mark n0 n1 fd northWestChain 0 0 s) (fun s => by rw [foldlM_single])
  obtain ⟨s3, p3, q3⟩ := phase (mark := mark) hfd hvalid northEastChain (l := [((0 : Int), (n1 : Int) - 1)])
    (fun c hc => by
      rw [List.mem_singleton] at hc; subst hc
      exact ⟨⟨by simp, by simp; omega, by simp; omega, by simp⟩, northEastChain_ok h0 h1⟩)
    (pre (pre (pre (pre (pre (pre hnd)))))) q2
    (prog := fun s => countCell isNoData mark n0 n1 fd northEastChain 0 (n1 - 1) s) (fun s => by rw [foldlM_single])
  obtain ⟨s4, p4, q4⟩ := phase (mark := mark) hfd hvalid southWestChain (l := [((n0 : Int) - 1, (0 : Int))])
    (fun c hc => by
      rw [List.mem_singleton] at hc; subst hc
      exact ⟨⟨by simp; omega, by simp, by simp, by simp; omega⟩, southWestChain_ok h0 h1⟩)
    (pre (pre (pre (pre (pre hnd))))) q3
    (prog := fun s => countCell isNoData mark n0 n1 fd southWestChain (n0 - 1) 0 s) (fun s => by rw [foldlM_single])
  obtain ⟨s5, p5, q5⟩ := phase (mark := mark) hfd hvalid southEastChain (l := [((n0 : Int) - 1, (n1 : Int) - 1)])
    (fun c hc => by
      rw [List.mem_singleton] at hc; subst hc
      exact ⟨⟨by simp; omega, by simp, by simp; omega, by simp⟩, southEastChain_ok h0 h1⟩)
    (pre (pre (pre (pre hnd)))) q4
    (prog := fun s => countCell isNoData mark n0 n1 fd southEastChain (n0 - 1) (n1 - 1) s)
    (fun s => by rw [foldlM_single])
  obtain ⟨s6, p6, q6⟩ := phase (mark := mark) hfd hvalid northChain (l := northCells n1)
    (fun c hc => by
      have := mem_northCells.mp hc
      rw [this.1]
      exact ⟨⟨by omega, by omega, by omega, by omega⟩, northChain_ok h0 this.2.1 this.2.2⟩)
    (pre (pre (pre hnd))) q5
    (prog := fun s => forLoop (n1 - 2) (fun j s => countCell isNoData mark n0 n1 fd northChain 0 (j + 1) s) s)
    (fun s => forLoop_foldlM _ _ _ _ (fun i _ s => by rw [foldlM_single]) s)
  obtain ⟨s7, p7, q7⟩ := phase (mark := mark) hfd hvalid southChain (l := southCells n0 n1)
    (fun c hc => by
      have := mem_southCells.mp hc
      rw [this.1]
      exact ⟨⟨by omega, by omega, by omega, by omega⟩, southChain_ok h0 this.2.1 this.2.2⟩)
    (pre (pre hnd)) q6
    (prog := fun s => forLoop (n1 - 2) (fun j s => countCell isNoData mark n0 n1 fd southChain (n0 - 1) (j + 1) s) s)
    (fun s => forLoop_foldlM _ _ _ _ (fun i _ s => by rw [foldlM_single]) s)
  obtain ⟨s8, p8, q8⟩ := phase (mark := mark) hfd hvalid westChain (l := westCells n0)
    (fun c hc => by
      have := mem_westCells.mp hc
      rw [this.2.2]
      exact ⟨⟨by omega, by omega, by omega, by omega⟩, westChain_ok h1 this.1 this.2.1⟩)
    (pre hnd) q7
    (prog := fun s => forLoop (n0 - 2) (fun i s => countCell isNoData mark n0 n1 fd westChain (i + 1) 0 s) s)
    (fun s => forLoop_foldlM _ _ _ _ (fun i _ s => by rw [foldlM_single]) s)
  obtain ⟨s9, p9, q9⟩ := phase (mark := mark) hfd hvalid eastChain (l := eastCells n0 n1)
    (fun c hc => by
      have := mem_eastCells.mp hc
      rw [this.2.2]
      exact ⟨⟨by omega, by omega, by omega, by omega⟩, eastChain_ok h1 this.1 this.2.1⟩)
    hnd q8
    (prog := fun s => forLoop (n0 - 2) (fun i s => countCell isNoData mark n0 n1 fd eastChain (i + 1) (n1 - 1) s) s)
    (fun s => forLoop_foldlM _ _ _ _ (fun i _ s => by rw [foldlM_single]) s)
  refine ⟨s9, ?_, q9⟩
  unfold countPartition
  simp only at p1 p2 p3 p4 p5 p6 p7 p8 p9 ⊢
  rw [p1, M.bind_ok, p2, M.bind_ok, p3, M.bind_ok, p4, M.bind_ok, p5, M.bind_ok]
  have e2 : (if n0 > 2 then do
      let s ← forLoop (n0 - 2) (fun i s => countCell isNoData mark n0 n1 fd westChain (i + 1) 0 s) s7
      forLoop (n0 - 2) (fun i s => countCell isNoData mark n0 n1 fd eastChain (i + 1) (n1 - 1) s) s
    else .ok s7) = .ok s9 := by
    by_cases h : n0 > 2
    · rw [if_pos h, p8, M.bind_ok, p9]
    · have : n0 - 2 = 0 := by omega
      rw [if_neg h]
      rw [this] at p8 p9
      simp only [forLoop, List.range_zero, List.foldlM_nil] at p8 p9
      cases p8; cases p9; rfl
  by_cases h : n1 > 2
  · rw [if_pos h, p6, M.bind_ok, p7, M.bind_ok, e2]
  · have : n1 - 2 = 0 := by omega
    rw [if_neg h]
    rw [this] at p6 p7
    simp only [forLoop, List.range_zero, List.foldlM_nil] at p6 p7
    cases p6; cases p7
    rw [M.bind_ok, e2]

end

end Lue.InflowCount

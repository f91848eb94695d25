import Mathlib.Data.Set.Card
import Mathlib.Data.Set.Finite.Lemmas
import Mathlib.Logic.Function.Basic
import Mathlib.Order.Defs.Unbundled

/-!
Bookkeeping for the proofs about the accumulating router: what has happened with each cell, without partitions, channels
and buffers.
-/
namespace Lue.Router

/-- What has happened until now. -/
structure Ghost (κ σ : Type) where
  /-- Cells which are solved. -/
  dn : Set κ
  /-- Per cell, the upstream cells whose material has arrived, in the order of arrival. -/
  arr : κ → List κ
  /-- Solved cells whose material has not arrived in the downstream cell (if any) -/
  fl : Set κ
  /-- The state of each cell -/
  val : κ → σ

section
variable {κ σ : Type} [DecidableEq κ]

/-- The network and what happens with the state of a cell. -/
structure Net (κ σ : Type) where
  /-- Material flows from one cell to another. -/
  D : κ → κ → Prop
  /-- The state of a cell before anything happens -/
  init : σ
  /-- The effect of the arrival of material from an upstream cell: its state, the state of the cell. -/
  push : σ → σ → σ
  /-- The effect of solving a cell -/
  fin : κ → σ → σ

/-- The number of upstream cells. -/
noncomputable def Net.up (N : Net κ σ) (c : κ) : Nat := Set.ncard {u | N.D u c}

/-- The state of a cell after the arrival of material. -/
def Net.acc (N : Net κ σ) (val : κ → σ) (us : List κ) : σ := us.foldl (fun s u => N.push (val u) s) N.init

/-- There is at most one downstream cell, and the number of upstream cells is finite. -/
structure Net.Ok (N : Net κ σ) : Prop where
  unique : ∀ u c c', N.D u c → N.D u c' → c = c'
  finite : ∀ c, {u | N.D u c}.Finite

open Classical in
/-- `act` are the cells in partitions for which the computations have started. `exc` are the cells in these which can be
solved right away, but have not been solved yet. -/
structure GInv (N : Net κ σ) (G : Ghost κ σ) (exc act : Set κ) : Prop where
  arr_nodup : ∀ c, (G.arr c).Nodup
  arr_mem : ∀ u c, u ∈ G.arr c → N.D u c ∧ u ∈ G.dn ∧ c ∈ act
  dn_full : ∀ c, c ∈ G.dn → (G.arr c).length = N.up c
  dn_act : ∀ c, c ∈ G.dn → c ∈ act
  dn_acc : ∀ c, c ∈ G.dn → Acc N.D c
  val_eq : ∀ c, G.val c = if c ∈ G.dn then N.fin c (N.acc G.val (G.arr c)) else N.acc G.val (G.arr c)
  fl_dn : ∀ u, u ∈ G.fl → u ∈ G.dn
  fl_arr : ∀ u c, u ∈ G.fl → u ∉ G.arr c
  sent : ∀ u c, u ∈ G.dn → N.D u c → u ∈ G.arr c ∨ u ∈ G.fl
  exc_mem : ∀ c, c ∈ exc → c ∈ act ∧ c ∉ G.dn ∧ (G.arr c).length = N.up c
  full : ∀ c, c ∈ act → (G.arr c).length = N.up c → c ∈ G.dn ∨ c ∈ exc

omit [DecidableEq κ] in
theorem Net.Ok.length_le {N : Net κ σ} (h : N.Ok) {c : κ} {l : List κ} (hn : l.Nodup) (hl : ∀ u ∈ l, N.D u c) :
    l.length ≤ N.up c := by
  classical
  have : l.length = Set.ncard {u | u ∈ l} := by
    rw [← List.toFinset_card_of_nodup hn, ← Set.ncard_coe_finset]
    congr 1; ext u; simp
  rw [this]
  exact Set.ncard_le_ncard (fun u hu => hl u hu) (h.finite c)

omit [DecidableEq κ] in
theorem Net.Ok.length_lt {N : Net κ σ} (h : N.Ok) {c a : κ} {l : List κ} (hn : l.Nodup) (hl : ∀ u ∈ l, N.D u c)
    (ha : N.D a c) (hal : a ∉ l) : l.length < N.up c := by
  have := h.length_le (c := c) (l := a :: l) (List.nodup_cons.2 ⟨hal, hn⟩) (by
    intro u hu
    rcases List.mem_cons.1 hu with rfl | hu
    · exact ha
    · exact hl u hu)
  simpa using this

/-- All upstream cells have arrived, if their number tells so. -/
theorem Net.Ok.mem_of_length {N : Net κ σ} (h : N.Ok) {c : κ} {l : List κ} (hn : l.Nodup) (hl : ∀ u ∈ l, N.D u c)
    (hlen : l.length = N.up c) {u : κ} (hu : N.D u c) : u ∈ l := by
  by_contra hne
  have := h.length_lt hn hl hu hne
  omega

omit [DecidableEq κ] in
theorem acc_congr (N : Net κ σ) {val val' : κ → σ} {us : List κ} (h : ∀ u ∈ us, val u = val' u) :
    N.acc val us = N.acc val' us := by
  unfold Net.acc
  induction us using List.reverseRecOn with
  | nil => rfl
  | append_singleton us u ih =>
    rw [List.foldl_append, List.foldl_append, ih (fun w hw => h w (by simp [hw]))]
    simp [h u (by simp)]

/-- A cell is solved. -/
def Ghost.solve (N : Net κ σ) (G : Ghost κ σ) (a : κ) : Ghost κ σ :=
  { G with dn := insert a G.dn, fl := insert a G.fl, val := Function.update G.val a (N.fin a (G.val a)) }

open Classical in
theorem GInv.solve {N : Net κ σ} (hN : N.Ok) {G : Ghost κ σ} {exc act : Set κ} {a : κ} (h : GInv N G (insert a exc) act)
    (ha : a ∉ exc) : GInv N (G.solve N a) exc act := by
  obtain ⟨hact, hdn, hlen⟩ := h.exc_mem a (by simp)
  have hself : ∀ u c, u ∈ G.arr c → u ≠ a := fun u c hu e => hdn (e ▸ (h.arr_mem u c hu).2.1)
  have hacc : ∀ c, N.acc (G.solve N a).val (G.arr c) = N.acc G.val (G.arr c) := fun c =>
    acc_congr N fun u hu => by simp [Ghost.solve, Function.update_of_ne (hself u c hu)]
  refine ⟨h.arr_nodup, ?_, ?_, ?_, ?_, ?_, ?_, ?_, ?_, ?_, ?_⟩
  · intro u c hu
    obtain ⟨h1, h2, h3⟩ := h.arr_mem u c hu
    exact ⟨h1, Or.inr h2, h3⟩
  · rintro c (rfl | hc)
    · exact hlen
    · exact h.dn_full c hc
  · rintro c (rfl | hc)
    · exact hact
    · exact h.dn_act c hc
  · rintro c (rfl | hc)
    · refine Acc.intro _ fun u hu => h.dn_acc u ?_
      exact (h.arr_mem u _ (hN.mem_of_length (h.arr_nodup _) (fun w hw => (h.arr_mem w _ hw).1) hlen hu)).2.1
    · exact h.dn_acc c hc
  · intro c
    have hd : (c ∈ (G.solve N a).dn) ↔ c = a ∨ c ∈ G.dn := Iff.rfl
    show (G.solve N a).val c = if c ∈ (G.solve N a).dn then N.fin c (N.acc (G.solve N a).val (G.arr c)) else
      N.acc (G.solve N a).val (G.arr c)
    rw [hacc]
    by_cases hca : c = a
    · subst hca
      rw [if_pos (by simp [hd])]
      have := h.val_eq c
      rw [if_neg hdn] at this
      simp [Ghost.solve, this]
    · have hv := h.val_eq c
      have hval : (G.solve N a).val c = G.val c := by simp [Ghost.solve, Function.update_of_ne hca]
      rw [hval, hv]
      by_cases hcd : c ∈ G.dn
      · rw [if_pos hcd, if_pos (hd.2 (Or.inr hcd))]
      · rw [if_neg hcd, if_neg (fun h1 => by rcases hd.1 h1 with h1 | h1 <;> contradiction)]
  · rintro u (rfl | hu)
    · exact Or.inl rfl
    · exact Or.inr (h.fl_dn u hu)
  · rintro u c (rfl | hu) hm
    · exact hself u c hm rfl
    · exact h.fl_arr u c hu hm
  · rintro u c (rfl | hu) hD
    · exact Or.inr (Or.inl rfl)
    · rcases h.sent u c hu hD with h1 | h1
      · exact Or.inl h1
      · exact Or.inr (Or.inr h1)
  · intro c hc
    obtain ⟨h1, h2, h3⟩ := h.exc_mem c (Or.inr hc)
    refine ⟨h1, ?_, h3⟩
    rintro (rfl | h4)
    · exact ha hc
    · exact h2 h4
  · intro c hc hl
    rcases h.full c hc hl with h1 | (rfl | h1)
    · exact Or.inl (Or.inr h1)
    · exact Or.inl (Or.inl rfl)
    · exact Or.inr h1

/-- The material of a cell arrives in the downstream cell. -/
def Ghost.arrive (N : Net κ σ) (G : Ghost κ σ) (a c : κ) : Ghost κ σ :=
  { G with
    arr := Function.update G.arr c (G.arr c ++ [a])
    fl := G.fl \ {a}
    val := Function.update G.val c (N.push (G.val a) (G.val c)) }

theorem GInv.arrive_lt {N : Net κ σ} (hN : N.Ok) {G : Ghost κ σ} {exc act : Set κ} {a c : κ} (h : GInv N G exc act)
    (ha : a ∈ G.fl) (hac : N.D a c) : (G.arr c).length < N.up c :=
  hN.length_lt (h.arr_nodup c) (fun u hu => (h.arr_mem u c hu).1) hac (h.fl_arr a c ha)

open Classical in
theorem GInv.arrive {N : Net κ σ} (hN : N.Ok) {G : Ghost κ σ} {exc act : Set κ} {a c : κ} (h : GInv N G exc act)
    (ha : a ∈ G.fl) (hac : N.D a c) (hc : c ∈ act) :
    c ∉ exc ∧ c ∉ G.dn ∧
    GInv N (G.arrive N a c) (if (G.arr c).length + 1 = N.up c then insert c exc else exc) act := by
  have hlt := h.arrive_lt hN ha hac
  have hexc : c ∉ exc := fun hm => by have := (h.exc_mem c hm).2.2; omega
  have hdn : c ∉ G.dn := fun hm => by have := h.dn_full c hm; omega
  refine ⟨hexc, hdn, ?_⟩
  have hself : ∀ u w, u ∈ G.arr w → u ≠ c := fun u w hu e => hdn (e ▸ (h.arr_mem u w hu).2.1)
  have hane : a ≠ c := fun e => hdn (e ▸ h.fl_dn a ha)
  have harr : ∀ w, w ≠ c → (G.arrive N a c).arr w = G.arr w := fun w hw => by simp [Ghost.arrive, Function.update_of_ne hw]
  have harrc : (G.arrive N a c).arr c = G.arr c ++ [a] := by simp [Ghost.arrive]
  have hval : ∀ w, w ≠ c → (G.arrive N a c).val w = G.val w := fun w hw => by simp [Ghost.arrive, Function.update_of_ne hw]
  have hacc : ∀ w, N.acc (G.arrive N a c).val (G.arr w) = N.acc G.val (G.arr w) := fun w =>
    acc_congr N fun u hu => hval u (hself u w hu)
  refine ⟨?_, ?_, ?_, h.dn_act, h.dn_acc, ?_, ?_, ?_, ?_, ?_, ?_⟩
  · intro w
    by_cases hw : w = c
    · subst hw; rw [harrc]
      exact List.nodup_append.2 ⟨h.arr_nodup w, by simp, by
        intro x hx y hy e
        simp at hy; subst hy; subst e; exact h.fl_arr _ _ ha hx⟩
    · rw [harr w hw]; exact h.arr_nodup w
  · intro u w hu
    by_cases hw : w = c
    · subst hw; rw [harrc] at hu
      rcases List.mem_append.1 hu with hu | hu
      · exact h.arr_mem u w hu
      · simp at hu; subst hu; exact ⟨hac, h.fl_dn u ha, hc⟩
    · rw [harr w hw] at hu; exact h.arr_mem u w hu
  · intro w hw
    have : w ≠ c := fun e => hdn (e ▸ hw)
    rw [harr w this]; exact h.dn_full w hw
  · intro w
    show (G.arrive N a c).val w = if w ∈ G.dn then _ else _
    by_cases hw : w = c
    · subst hw
      rw [if_neg hdn, harrc]
      have hv := h.val_eq w
      rw [if_neg hdn] at hv
      have : N.acc (G.arrive N a w).val (G.arr w ++ [a]) =
          N.push ((G.arrive N a w).val a) (N.acc (G.arrive N a w).val (G.arr w)) := by
        simp [Net.acc]
      rw [this, hacc, hval a hane, ← hv]
      simp [Ghost.arrive]
    · rw [harr w hw, hacc, hval w hw]; exact h.val_eq w
  · intro u hu; exact h.fl_dn u hu.1
  · intro u w hu hm
    by_cases hw : w = c
    · subst hw; rw [harrc] at hm
      rcases List.mem_append.1 hm with hm | hm
      · exact h.fl_arr u w hu.1 hm
      · exact hu.2 (by simpa using hm)
    · rw [harr w hw] at hm; exact h.fl_arr u w hu.1 hm
  · intro u w hu hD
    by_cases hua : u = a
    · subst hua
      left
      have := hN.unique u w c hD hac
      subst this
      rw [harrc]; simp
    · rcases h.sent u w hu hD with h1 | h1
      · left
        by_cases hw : w = c
        · subst hw; rw [harrc]; exact List.mem_append_left _ h1
        · rw [harr w hw]; exact h1
      · right; exact ⟨h1, hua⟩
  · intro w hw
    have key : w ∈ exc → w ∈ act ∧ w ∉ G.dn ∧ ((G.arrive N a c).arr w).length = N.up w := by
      intro hw
      have hwc : w ≠ c := fun e => hexc (e ▸ hw)
      rw [harr w hwc]; exact h.exc_mem w hw
    split_ifs at hw with hl
    · rcases hw with rfl | hw
      · exact ⟨hc, hdn, by rw [harrc]; simpa using hl⟩
      · exact key hw
    · exact key hw
  · intro w hw hl
    by_cases hwc : w = c
    · subst hwc
      rw [harrc] at hl
      right
      rw [if_pos (by simpa using hl)]; exact Or.inl rfl
    · rw [harr w hwc] at hl
      rcases h.full w hw hl with h1 | h1
      · exact Or.inl h1
      · right; split_ifs
        · exact Or.inr h1
        · exact h1

omit [DecidableEq κ] in
/-- The computations start for some more cells. -/
theorem GInv.start {N : Net κ σ} {G : Ghost κ σ} {act : Set κ} (h : GInv N G ∅ act) {new : Set κ} (hnew : ∀ c ∈ new, c ∉ act) :
    GInv N G {c | c ∈ new ∧ N.up c = 0} (act ∪ new) := by
  have harr : ∀ c ∈ new, G.arr c = [] := fun c hc => by
    by_contra hne
    obtain ⟨u, hu⟩ := List.exists_mem_of_ne_nil _ hne
    exact hnew c hc (h.arr_mem u c hu).2.2
  refine ⟨h.arr_nodup, ?_, h.dn_full, fun c hc => Or.inl (h.dn_act c hc), h.dn_acc, h.val_eq, h.fl_dn, h.fl_arr, h.sent,
    ?_, ?_⟩
  · intro u c hu
    obtain ⟨h1, h2, h3⟩ := h.arr_mem u c hu
    exact ⟨h1, h2, Or.inl h3⟩
  · rintro c ⟨hc, hl⟩
    refine ⟨Or.inr hc, fun hd => hnew c hc (h.dn_act c hd), ?_⟩
    rw [harr c hc, hl]; rfl
  · rintro c (hc | hc) hl
    · rcases h.full c hc hl with h1 | h1
      · exact Or.inl h1
      · exact absurd h1 (by simp)
    · right
      rw [harr c hc] at hl
      exact ⟨hc, hl.symm⟩

/-- Nothing can happen anymore. -/
theorem GInv.stuck {N : Net κ σ} (hN : N.Ok) {G : Ghost κ σ} {act : Set κ} (h : GInv N G ∅ act) (hact : ∀ u c, N.D u c → u ∈ act)
    (hfl : ∀ u c, u ∈ G.fl → ¬ N.D u c) {c : κ} (hc : c ∈ act) (hacc : Acc N.D c) : c ∈ G.dn := by
  induction hacc with
  | intro c _ ih =>
    have hmem : ∀ u, N.D u c → u ∈ G.arr c := fun u hu => by
      rcases h.sent u c (ih u hu (hact u c hu)) hu with h1 | h1
      · exact h1
      · exact absurd hu (hfl u c h1)
    have hlen : (G.arr c).length = N.up c := by
      apply Nat.le_antisymm
      · exact hN.length_le (h.arr_nodup c) (fun u hu => (h.arr_mem u c hu).1)
      · have : {u | N.D u c} ⊆ ((G.arr c).toFinset : Set κ) := fun u hu => by simpa using hmem u hu
        calc N.up c ≤ Set.ncard ((G.arr c).toFinset : Set κ) := Set.ncard_le_ncard this (Finset.finite_toSet _)
          _ = (G.arr c).toFinset.card := Set.ncard_coe_finset _
          _ ≤ (G.arr c).length := List.toFinset_card_le _
    rcases h.full c hc hlen with h1 | h1
    · exact h1
    · exact absurd h1 (by simp)

/-! ### Solutions -/

omit [DecidableEq κ] in
/-- States of cells which agree with the network: the state of a cell is the result of the arrival of the material of all
upstream cells, once and in some order, after which the cell is solved. -/
def IsSolutionAt (N : Net κ σ) (val : κ → σ) (c : κ) : Prop :=
  ∃ us : List κ, us.Nodup ∧ (∀ u, u ∈ us ↔ N.D u c) ∧ val c = N.fin c (N.acc val us)

theorem GInv.isSolutionAt {N : Net κ σ} (hN : N.Ok) {G : Ghost κ σ} {exc act : Set κ} (h : GInv N G exc act) {c : κ}
    (hc : c ∈ G.dn) : IsSolutionAt N G.val c := by
  refine ⟨G.arr c, h.arr_nodup c, fun u => ⟨fun hu => (h.arr_mem u c hu).1, fun hu => ?_⟩, ?_⟩
  · exact hN.mem_of_length (h.arr_nodup c) (fun w hw => (h.arr_mem w c hw).1) (h.dn_full c hc) hu
  · have := h.val_eq c
    rwa [if_pos hc] at this

omit [DecidableEq κ] in
/-- If the order of arrival does not matter, there is only one solution. -/
theorem IsSolutionAt.unique {N : Net κ σ} (hcomm : ∀ x y s, N.push x (N.push y s) = N.push y (N.push x s)) {v v' : κ → σ} {c : κ}
    (hacc : Acc N.D c) (h : ∀ u, Relation.ReflTransGen N.D u c → IsSolutionAt N v u)
    (h' : ∀ u, Relation.ReflTransGen N.D u c → IsSolutionAt N v' u) : v c = v' c := by
  classical
  induction hacc with
  | intro c _ ih =>
    obtain ⟨us, hn, hm, hv⟩ := h c .refl
    obtain ⟨us', hn', hm', hv'⟩ := h' c .refl
    have hp : us.Perm us' := (List.perm_ext_iff_of_nodup hn hn').2 fun u => by rw [hm, hm']
    have hval : ∀ u ∈ us', v u = v' u := fun u hu => by
      have hu' := (hm' u).1 hu
      exact ih u hu' (fun w hw => h w (hw.tail hu')) (fun w hw => h' w (hw.tail hu'))
    rw [hv, hv', ← acc_congr N hval]
    congr 1
    unfold Net.acc
    exact hp.foldl_eq' (fun x _ y _ s => hcomm _ _ s) _

end

end Lue.Router

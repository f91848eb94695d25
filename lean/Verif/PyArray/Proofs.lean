import Verif.PyArray.Spec
import Verif.DataModel.Proofs
import Mathlib.Data.List.Sort

namespace Lue.PyArray

open Lue.DataModel Lue.LueIO Lue.Index

/-! ### A dimension -/

/-- An arithmetic progression: what HDF5 selects in a dimension -/
def progression (start stride count : Nat) : List Nat := (List.range count).map fun i => start + stride * i

theorem progression_sorted (start stride count : Nat) (h : 0 < stride) :
    (progression start stride count).Pairwise (· < ·) := by
  unfold progression
  rw [List.pairwise_map]
  refine List.pairwise_lt_range.imp ?_
  intro a b hab
  have := Nat.mul_lt_mul_of_pos_left hab h
  omega

theorem mem_progression (start stride count : Nat) (x : Nat) :
    x ∈ progression start stride count ↔ ∃ i < count, start + stride * i = x := by
  simp [progression]

theorem eq_of_sorted {l l' : List Nat} (h : l.Pairwise (· < ·)) (h' : l'.Pairwise (· < ·)) (hm : ∀ x, x ∈ l ↔ x ∈ l') :
    l = l' := by
  have hp : l.Perm l' := (List.perm_ext_iff_of_nodup (h.imp Nat.ne_of_lt) (h'.imp Nat.ne_of_lt)).mpr hm
  exact hp.eq_of_pairwise (fun a b _ _ hab hba => absurd hab (Nat.lt_asymm hba)) h h'

/-- Number of positions picked by a slice -/
def sliceCount (lo up step : Nat) : Nat := if lo < up then (up - lo - 1) / step + 1 else 0

theorem filter_eq_progression (n lo up step : Nat) (hs : 0 < step) (hu : up ≤ n) :
    ((List.range n).filter fun i => lo ≤ i ∧ i < up ∧ (i - lo) % step = 0)
      = progression lo step (sliceCount lo up step) := by
  refine eq_of_sorted (List.pairwise_lt_range.filter _) (progression_sorted _ _ _ hs) ?_
  intro x
  rw [mem_progression, List.mem_filter, List.mem_range]
  simp only [decide_eq_true_eq]
  unfold sliceCount
  constructor
  · rintro ⟨h1, h2, h3, h4⟩
    rw [if_pos (by omega)]
    refine ⟨(x - lo) / step, ?_, ?_⟩
    · have : (x - lo) / step ≤ (up - lo - 1) / step := Nat.div_le_div_right (by omega)
      omega
    · have := Nat.div_add_mod (x - lo) step
      omega
  · rintro ⟨i, hi, rfl⟩
    split at hi
    · have h1 : step * i ≤ step * ((up - lo - 1) / step) := Nat.mul_le_mul_left _ (by omega)
      have h2 := Nat.mul_div_le (up - lo - 1) step
      refine ⟨by omega, by omega, by omega, ?_⟩
      rw [Nat.add_sub_cancel_left, Nat.mul_mod_right]
    · omega

theorem clip_le (n : Nat) (x : Int) : clip n x ≤ n := by
  unfold clip
  split
  · omega
  · exact Nat.min_le_right _ _

theorem adjustIndex_eq (n : Nat) (step x : Int) (h : 0 < step) : adjustIndex n step x = (clip n x : Nat) := by
  unfold adjustIndex clip
  have hn : ¬ step < 0 := by omega
  simp only [hn, if_false]
  split
  · split <;> omega
  · split <;> omega

theorem lower_le (s : Slice) (n : Nat) : s.lower n ≤ n := by
  unfold Slice.lower
  cases s.start with
  | none => simp
  | some x => exact clip_le n x

theorem upper_le (s : Slice) (n : Nat) : s.upper n ≤ n := by
  unfold Slice.upper
  cases s.stop with
  | none => simp
  | some x => exact clip_le n x

theorem sliceCompute_eq (s : Slice) (n : Nat) (h : 0 < s.step.getD 1) :
    sliceCompute s n = .ok ((s.lower n : Int), (s.by : Int), sliceCount (s.lower n) (s.upper n) s.by) := by
  have hn : ¬ s.step.getD 1 < 0 := by omega
  have h0 : ¬ s.step.getD 1 = 0 := by omega
  have hstart : sliceStart s n (s.step.getD 1) = (s.lower n : Int) := by
    unfold sliceStart Slice.lower
    cases s.start with
    | none => simp [hn]
    | some x => simp [adjustIndex_eq n _ x h]
  have hstop : sliceStop s n (s.step.getD 1) = (s.upper n : Int) := by
    unfold sliceStop Slice.upper
    cases s.stop with
    | none => simp [hn]
    | some x => simp [adjustIndex_eq n _ x h]
  have hby : s.step.getD 1 = (s.by : Int) := by unfold Slice.by; omega
  unfold sliceCompute
  simp only [h0, if_false, hstart, hstop]
  simp only [hn, if_false]
  rw [hby]
  congr 3
  unfold sliceCount
  by_cases hl : s.lower n < s.upper n
  · rw [if_pos (by omega), if_pos hl]
    have : ((s.upper n : Int) - s.lower n - 1) = ((s.upper n - s.lower n - 1 : Nat) : Int) := by omega
    rw [this]
    norm_cast
  · rw [if_neg (by omega), if_neg hl]; rfl

theorem picked_slice (s : Slice) (n : Nat) (h : 0 < s.step.getD 1) :
    picked n (.slice s) = progression (s.lower n) s.by (sliceCount (s.lower n) (s.upper n) s.by) :=
  filter_eq_progression n _ _ _ (by unfold Slice.by; omega) (upper_le s n)

/-! ### Selecting -/

/-- Start, stride and count for an index -/
def dimOf (n : Nat) : PyIndex → Nat × Nat × Nat
  | .int i => (if i < 0 then (n + i).toNat else i.toNat, 1, 1)
  | .slice s => (s.lower n, s.by, sliceCount (s.lower n) (s.upper n) s.by)
  | .other => (0, 0, 0)

theorem picked_eq (n : Nat) (i : PyIndex) (hv : i.Valid n) (hf : i.Forward) :
    picked n i = progression (dimOf n i).1 (dimOf n i).2.1 (dimOf n i).2.2 := by
  cases i with
  | int i => simp [picked, dimOf, progression]
  | slice s =>
    have h1 : s.step.getD 1 ≠ 0 := hv
    have h2 : 0 ≤ s.step.getD 1 ∧ _ := hf
    exact picked_slice s n (by omega)
  | other => exact hv.elim

/-- The hyperslab for a list of indices, one per dimension -/
def slabOf (shape : List Nat) (indices : List PyIndex) : Hyperslab :=
  let l := List.zipWith dimOf shape indices
  ⟨l.map (·.1), l.map (·.2.1), l.map (·.2.2)⟩

theorem combinations_length : ∀ l, (combinations l).length = nrElements (l.map List.length)
  | [] => by simp [combinations, nrElements]
  | a :: l => by
    rw [combinations, List.map_cons, nrElements_cons, List.length_flatMap]
    simp [combinations_length l]

theorem combinations_getElem? (a : List Nat) (l : List (List Nat)) (k : Nat)
    (hk : k < a.length * nrElements (l.map List.length)) :
    (combinations (a :: l))[k]? = (a[k / nrElements (l.map List.length)]?).bind fun i =>
      ((combinations l)[k % nrElements (l.map List.length)]?).map fun c => i :: c := by
  have hp : 0 < nrElements (l.map List.length) := by
    rcases Nat.eq_zero_or_pos (nrElements (l.map List.length)) with h | h
    · simp [h] at hk
    · exact h
  rw [combinations, List.flatMap_def, flatten_getElem? hp _ (by
    intro x hx
    obtain ⟨i, _, rfl⟩ := List.mem_map.mp hx
    rw [List.length_map, combinations_length])]
  rw [List.getElem?_map]
  cases a[k / nrElements (l.map List.length)]? <;> simp

theorem coord_combinations : ∀ (dims : List (Nat × Nat × Nat)) (k : Nat), k < nrElements (dims.map (·.2.2)) →
    (combinations (dims.map fun d => progression d.1 d.2.1 d.2.2))[k]?
      = some ((⟨dims.map (·.1), dims.map (·.2.1), dims.map (·.2.2)⟩ : Hyperslab).coord k)
  | [], k, hk => by
    have : k = 0 := by simpa [nrElements] using hk
    subst this
    simp [combinations, Hyperslab.coord]
  | d :: dims, k, hk => by
    have hl : (dims.map fun d => progression d.1 d.2.1 d.2.2).map List.length = dims.map (·.2.2) := by
      simp [progression, Function.comp_def]
    rw [List.map_cons, nrElements_cons] at hk
    have hp : 0 < nrElements (dims.map (·.2.2)) := by
      rcases Nat.eq_zero_or_pos (nrElements (dims.map (·.2.2))) with h | h
      · simp [h] at hk
      · exact h
    rw [List.map_cons, combinations_getElem? _ _ _ (by rw [hl]; simpa [progression] using hk), hl]
    have h1 : k / nrElements (dims.map (·.2.2)) < d.2.2 := Nat.div_lt_of_lt_mul (by rwa [Nat.mul_comm] at hk)
    rw [coord_combinations dims _ (Nat.mod_lt _ hp)]
    simp only [progression, List.getElem?_map, List.getElem?_range h1, Option.map_some, Option.bind_some,
      Hyperslab.coord, List.map_cons]
    rw [linearIdxToIdxs_cons]
    simp only [List.zipWith_cons_cons]
    rw [linear_mod k]
    try rw [Nat.mod_eq_of_lt h1]

theorem set_middle {α : Type} (a b : List α) (x y : α) : (a ++ x :: b).set a.length y = a ++ y :: b := by
  induction a with
  | nil => rfl
  | cons z a ih => simp [ih]

theorem wr_middle {α : Type} (a b : List α) (x y : α) {n : Nat} (h : a.length = n) :
    wr (a ++ x :: b) n y = .ok (a ++ y :: b) := by
  subst h
  rw [wr_ok _ (by simp), set_middle]

/-- The shape of the result, in the dimensions for which there are indices -/
def shapeOf (shape : List Nat) (indices : List PyIndex) : List Nat :=
  ((shape.zip indices).filter fun x => x.2 matches .slice _).map fun x => (dimOf x.1 x.2).2.2

/-- What is selected after handling the first indices, `s1` are the extents of the array in these dimensions, `s2` in the
other dimensions -/
def stateOf (s1 s2 : List Nat) (indices : List PyIndex) : Selection where
  hyperslab := ⟨(List.zipWith dimOf s1 indices).map (·.1) ++ List.replicate s2.length 0,
    (List.zipWith dimOf s1 indices).map (·.2.1) ++ List.replicate s2.length 1,
    (List.zipWith dimOf s1 indices).map (·.2.2) ++ s2⟩
  sliceShape := shapeOf s1 indices ++ s2
  nrErased := s1.length - (shapeOf s1 indices).length

theorem shapeOf_length_le (s1 : List Nat) (indices : List PyIndex) : (shapeOf s1 indices).length ≤ s1.length := by
  unfold shapeOf
  rw [List.length_map]
  refine (List.length_filter_le _ _).trans ?_
  rw [List.length_zip]; omega

theorem setDimension_stateOf {s1 s2 : List Nat} {indices : List PyIndex} {n : Nat} {index : PyIndex}
    (hl : s1.length = indices.length) :
    setDimension (stateOf s1 (n :: s2) indices).hyperslab indices.length (dimOf n index).1 (dimOf n index).2.1
      (dimOf n index).2.2 = .ok (stateOf (s1 ++ [n]) s2 (indices ++ [index])).hyperslab := by
  have hz : (List.zipWith dimOf s1 indices).length = indices.length := by simp [hl]
  unfold setDimension stateOf
  simp only [List.length_cons, List.replicate_succ]
  rw [wr_middle _ _ _ _ (by simp [hl]), M.bind_ok, wr_middle _ _ _ _ (by simp [hl]), M.bind_ok,
    wr_middle _ _ _ _ (by simp [hl]), M.bind_ok]
  simp [List.zipWith_append hl]

theorem toSize_nonneg {x : Int} (h : 0 ≤ x) (h' : x < 18446744073709551616) : toSize x = x.toNat := by
  unfold toSize
  rw [Int.emod_eq_of_lt h h']

theorem updateByIndex_ok {s1 s2 : List Nat} {indices : List PyIndex} {n : Nat} {i : Int}
    (hl : s1.length = indices.length) (hn : n ≤ 9223372036854775808) (hv : (PyIndex.int i).Valid n) :
    updateByIndex indices.length i (s1 ++ n :: s2) (stateOf s1 (n :: s2) indices)
      = .ok (stateOf (s1 ++ [n]) s2 (indices ++ [.int i])) := by
  have hv' : -(n : Int) ≤ i ∧ i < n := hv
  have hle := shapeOf_length_le s1 indices
  have hi : toSize (if i < 0 then (n : Int) + i else i) = (dimOf n (.int i)).1 := by
    unfold dimOf
    simp only
    split
    · rw [toSize_nonneg (by omega) (by omega)]
    · rw [toSize_nonneg (by omega) (by omega)]
  have hlt : ¬ (dimOf n (.int i)).1 ≥ n := by
    unfold dimOf; simp only; split <;> omega
  have hs : shapeOf (s1 ++ [n]) (indices ++ [.int i]) = shapeOf s1 indices := by
    simp [shapeOf, List.zip_append hl]
  have hp : indices.length - (stateOf s1 (n :: s2) indices).nrErased = (shapeOf s1 indices).length := by
    simp only [stateOf]; omega
  unfold updateByIndex
  rw [rd_ok (x := n) (by rw [← hl]; simp), M.bind_ok]
  simp only [hi, hlt, if_false]
  rw [show (1 : Nat) = (dimOf n (.int i)).2.1 from rfl]
  have h2 := setDimension_stateOf (s2 := s2) (n := n) (index := .int i) hl
  rw [show (dimOf n (.int i)).2.2 = (dimOf n (.int i)).2.1 from rfl] at h2
  rw [h2, M.bind_ok, hp]
  rw [show (stateOf s1 (n :: s2) indices).sliceShape = shapeOf s1 indices ++ n :: s2 from rfl]
  rw [wr_middle _ _ _ _ rfl, M.bind_ok]
  congr 1
  unfold stateOf
  simp only [hs, List.length_append, List.length_singleton]
  congr 1
  · rw [List.eraseIdx_append_of_length_le (Nat.le_refl _)]; simp
  · show s1.length - (shapeOf s1 indices).length + 1 = s1.length + 1 - (shapeOf s1 indices).length
    omega

theorem updateByIndex_error {s1 s2 : List Nat} {n d : Nat} {i : Int} {s : Selection}
    (hl : s1.length = d) (hn : n ≤ 9223372036854775808) (hf : (PyIndex.int i).Forward)
    (hv : ¬ (PyIndex.int i).Valid n) :
    updateByIndex d i (s1 ++ n :: s2) s = .error .thrown := by
  have hv' : ¬ (-(n : Int) ≤ i ∧ i < n) := hv
  have hf' : -9223372036854775808 ≤ i ∧ i < 9223372036854775808 := hf
  unfold updateByIndex
  rw [rd_ok (x := n) (by rw [← hl]; simp), M.bind_ok]
  have : toSize (if i < 0 then (n : Int) + i else i) ≥ n := by
    unfold toSize
    split
    · rw [show ((n : Int) + i) % 18446744073709551616 = n + i + 18446744073709551616 by
        rw [← Int.add_emod_right, Int.emod_eq_of_lt (by omega) (by omega)]]
      omega
    · rw [Int.emod_eq_of_lt (by omega) (by omega)]; omega
  simp only [this, if_true]

theorem updateBySlice_ok {s1 s2 : List Nat} {indices : List PyIndex} {n : Nat} {s : Slice}
    (hl : s1.length = indices.length) (hn : n ≤ 9223372036854775808) (hf : (PyIndex.slice s).Forward)
    (hv : (PyIndex.slice s).Valid n) :
    updateBySlice indices.length s (s1 ++ n :: s2) (stateOf s1 (n :: s2) indices)
      = .ok (stateOf (s1 ++ [n]) s2 (indices ++ [.slice s])) := by
  have hv' : s.step.getD 1 ≠ 0 := hv
  have hf' : 0 ≤ s.step.getD 1 ∧ s.step.getD 1 < 9223372036854775808 := hf
  have hle := shapeOf_length_le s1 indices
  have hp : indices.length - (stateOf s1 (n :: s2) indices).nrErased = (shapeOf s1 indices).length := by
    simp only [stateOf]; omega
  have hs : shapeOf (s1 ++ [n]) (indices ++ [.slice s]) = shapeOf s1 indices ++ [(dimOf n (.slice s)).2.2] := by
    simp [shapeOf, List.zip_append hl]
  have hlow := lower_le s n
  have hby : s.by < 9223372036854775808 := by unfold Slice.by; omega
  unfold updateBySlice
  rw [rd_ok (x := n) (by rw [← hl]; simp), M.bind_ok, sliceCompute_eq s n (by omega), M.bind_ok]
  simp only
  rw [toSize_nonneg (by omega) (by omega), toSize_nonneg (by omega) (by omega), Int.toNat_natCast, Int.toNat_natCast]
  have h2 := setDimension_stateOf (s2 := s2) (n := n) (index := .slice s) hl
  rw [show s.lower n = (dimOf n (.slice s)).1 from rfl, show s.by = (dimOf n (.slice s)).2.1 from rfl]
  rw [show sliceCount (dimOf n (.slice s)).1 (s.upper n) (dimOf n (.slice s)).2.1 = (dimOf n (.slice s)).2.2 from rfl]
  rw [h2, M.bind_ok, hp]
  rw [show (stateOf s1 (n :: s2) indices).sliceShape = shapeOf s1 indices ++ n :: s2 from rfl]
  rw [wr_middle _ _ _ _ rfl, M.bind_ok]
  congr 1
  unfold stateOf
  simp only [hs, List.length_append, List.length_singleton]
  congr 1
  · simp
  · show s1.length - (shapeOf s1 indices).length = s1.length + 1 - ((shapeOf s1 indices).length + 1)
    omega

theorem updateBySlice_error {s1 s2 : List Nat} {n d : Nat} {s : Slice} {sel : Selection} (hl : s1.length = d)
    (hv : ¬ (PyIndex.slice s).Valid n) : updateBySlice d s (s1 ++ n :: s2) sel = .error .thrown := by
  have hv' : s.step.getD 1 = 0 := Classical.not_not.mp hv
  unfold updateBySlice
  rw [rd_ok (x := n) (by rw [← hl]; simp), M.bind_ok]
  unfold sliceCompute
  simp only [hv', if_true]
  rfl

/-- What happens for an index: the body of the loop in `createHyperslab` -/
def update (shape : List Nat) (d : Nat) (index : PyIndex) (s : Selection) : M Selection :=
  match index with
  | .int index => updateByIndex d index shape s
  | .slice slice => updateBySlice d slice shape s
  | .other => .error .thrown

theorem update_ok {s1 s2 : List Nat} {indices : List PyIndex} {n : Nat} {i : PyIndex}
    (hl : s1.length = indices.length) (hn : n ≤ 9223372036854775808) (hf : i.Forward) (hv : i.Valid n) :
    update (s1 ++ n :: s2) indices.length i (stateOf s1 (n :: s2) indices)
      = .ok (stateOf (s1 ++ [n]) s2 (indices ++ [i])) := by
  cases i with
  | int i => exact updateByIndex_ok hl hn hv
  | slice s => exact updateBySlice_ok hl hn hf hv
  | other => exact hv.elim

theorem update_error {s1 s2 : List Nat} {n d : Nat} {i : PyIndex} {s : Selection} (hl : s1.length = d)
    (hn : n ≤ 9223372036854775808) (hf : i.Forward) (hv : ¬ i.Valid n) :
    update (s1 ++ n :: s2) d i s = .error .thrown := by
  cases i with
  | int i => exact updateByIndex_error hl hn hf hv
  | slice s => exact updateBySlice_error hl hv
  | other => rfl

theorem createHyperslab_eq (shape : List Nat) (indices : List PyIndex) : createHyperslab shape indices =
    if indices.length > shape.length then .error .thrown else
    forLoop indices.length (fun i s => do
      let index ← rd indices i
      update shape i index s) (selectAll shape) := rfl

theorem forLoop_error {σ : Type} {body : Nat → σ → M σ} {n k : Nat} {s0 s : σ} {e : Err} (hk : k < n)
    (h : forLoop k body s0 = .ok s) (he : body k s = .error e) : forLoop n body s0 = .error e := by
  induction n with
  | zero => omega
  | succ n ih =>
    have hs : forLoop (n + 1) body s0 = forLoop n body s0 >>= body n := by
      simp [forLoop, List.range_succ]
    rw [hs]
    rcases Nat.lt_succ_iff_lt_or_eq.mp hk with h' | rfl
    · rw [ih h']; rfl
    · rw [h, M.bind_ok, he]

theorem split_at {α : Type} (l : List α) (i : Nat) (h : i < l.length) : l = l.take i ++ l[i] :: l.drop (i + 1) := by
  rw [← List.drop_eq_getElem_cons h, List.take_append_drop]

theorem body_ok {shape : List Nat} {indices : List PyIndex} (hle : indices.length ≤ shape.length)
    (hs : ∀ n ∈ shape, n ≤ 9223372036854775808) {i : Nat} (hi : i < indices.length) (hf : indices[i].Forward)
    (hv : indices[i].Valid (shape.getD i 0)) :
    update shape i indices[i] (stateOf (shape.take i) (shape.drop i) (indices.take i))
      = .ok (stateOf (shape.take (i + 1)) (shape.drop (i + 1)) (indices.take (i + 1))) := by
  have hi' : i < shape.length := by omega
  have hg : shape.getD i 0 = shape[i] := by simp [hi']
  rw [hg] at hv
  have := update_ok (s1 := shape.take i) (s2 := shape.drop (i + 1)) (indices := indices.take i) (n := shape[i])
    (i := indices[i]) (by simp; omega) (hs _ (List.getElem_mem hi')) hf hv
  rw [← split_at shape i hi', ← List.drop_eq_getElem_cons hi', List.length_take, Nat.min_eq_left (by omega)] at this
  rw [this, List.take_succ_eq_append_getElem hi', List.take_succ_eq_append_getElem hi]

theorem body_error {shape : List Nat} {indices : List PyIndex} (hle : indices.length ≤ shape.length)
    (hs : ∀ n ∈ shape, n ≤ 9223372036854775808) {i : Nat} (hi : i < indices.length) (hf : indices[i].Forward)
    (hv : ¬ indices[i].Valid (shape.getD i 0)) (s : Selection) :
    update shape i indices[i] s = .error .thrown := by
  have hi' : i < shape.length := by omega
  have hg : shape.getD i 0 = shape[i] := by simp [hi']
  rw [hg] at hv
  have := update_error (s1 := shape.take i) (s2 := shape.drop (i + 1)) (n := shape[i]) (d := i)
    (i := indices[i]) (s := s) (by simp; omega) (hs _ (List.getElem_mem hi')) hf hv
  rwa [← split_at shape i hi'] at this

theorem loop_ok {shape : List Nat} {indices : List PyIndex} (hle : indices.length ≤ shape.length)
    (hs : ∀ n ∈ shape, n ≤ 9223372036854775808) (hf : ∀ i ∈ indices, i.Forward) (k : Nat) (hk : k ≤ indices.length)
    (hv : ∀ i < k, (indices.getD i .other).Valid (shape.getD i 0)) :
    forLoop k (fun i s => do
      let index ← rd indices i
      update shape i index s) (selectAll shape)
      = .ok (stateOf (shape.take k) (shape.drop k) (indices.take k)) := by
  obtain ⟨s', h1, h2⟩ := forLoop_inv (n := k) (fun i s => s = stateOf (shape.take i) (shape.drop i) (indices.take i))
    (body := fun i s => do
      let index ← rd indices i
      update shape i index s) (by
      rintro i hi s rfl
      have hi' : i < indices.length := by omega
      refine ⟨_, ?_, rfl⟩
      rw [rd_ok (x := indices[i]) (by simp [hi']), M.bind_ok]
      have := hv i hi
      rw [show indices.getD i .other = indices[i] by simp [hi']] at this
      exact body_ok hle hs hi' (hf _ (List.getElem_mem hi')) this) (selectAll shape)
    (by simp [selectAll, stateOf, shapeOf, Hyperslab.ofShape])
  rw [h1, h2]

theorem createHyperslab_ok {shape : List Nat} {indices : List PyIndex} (hs : ∀ n ∈ shape, n ≤ 9223372036854775808)
    (hf : ∀ i ∈ indices, i.Forward) (hv : Valid shape indices) :
    createHyperslab shape indices
      = .ok (stateOf (shape.take indices.length) (shape.drop indices.length) indices) := by
  rw [createHyperslab_eq, if_neg (by have := hv.1; omega), loop_ok hv.1 hs hf _ (Nat.le_refl _) hv.2, List.take_length]

theorem createHyperslab_error {shape : List Nat} {indices : List PyIndex} (hs : ∀ n ∈ shape, n ≤ 9223372036854775808)
    (hf : ∀ i ∈ indices, i.Forward) (hv : ¬ Valid shape indices) :
    createHyperslab shape indices = .error .thrown := by
  rw [createHyperslab_eq]
  by_cases hle : indices.length > shape.length
  · rw [if_pos hle]
  · rw [if_neg hle]
    have hle' : indices.length ≤ shape.length := by omega
    have hex : ∃ k, k < indices.length ∧ ¬ (indices.getD k .other).Valid (shape.getD k 0) := by
      by_contra hne
      push Not at hne
      exact hv ⟨hle', hne⟩
    obtain ⟨k, hk, hkv, hmin⟩ : ∃ k, k < indices.length ∧ ¬ (indices.getD k .other).Valid (shape.getD k 0) ∧
        ∀ i < k, (indices.getD i .other).Valid (shape.getD i 0) := by
      classical
      obtain ⟨hk, hkv⟩ := Nat.find_spec hex
      refine ⟨_, hk, hkv, ?_⟩
      intro i hi
      have := Nat.find_min hex hi
      by_contra hne
      exact this ⟨by omega, hne⟩
    refine forLoop_error hk (loop_ok hle' hs hf _ (Nat.le_of_lt hk) hmin) ?_
    rw [rd_ok (x := indices[k]) (by simp [hk]), M.bind_ok]
    rw [show indices.getD k .other = indices[k] by simp [hk]] at hkv
    exact body_error hle' hs hk (hf _ (List.getElem_mem hk)) hkv _

theorem select_eq {shape : List Nat} (hne : shape ≠ []) {key : Key} : select shape key = createHyperslab shape key.toIndices := by
  have hl : ¬ 1 > shape.length := by
    cases shape with
    | nil => exact absurd rfl hne
    | cons a l => simp
  cases key with
  | int i =>
    rw [createHyperslab_eq, Key.toIndices, List.length_singleton, if_neg hl]
    show updateByIndex 0 i shape (selectAll shape) = _
    simp only [forLoop, List.range_succ, List.range_zero, List.nil_append, List.foldlM_cons, List.foldlM_nil]
    rw [rd_ok (x := .int i) (by simp), M.bind_ok]
    simp [update]
  | slice s =>
    rw [createHyperslab_eq, Key.toIndices, List.length_singleton, if_neg hl]
    show updateBySlice 0 s shape (selectAll shape) = _
    simp only [forLoop, List.range_succ, List.range_zero, List.nil_append, List.foldlM_cons, List.foldlM_nil]
    rw [rd_ok (x := .slice s) (by simp), M.bind_ok]
    simp [update]
  | indices l => rfl
  | other =>
    rw [createHyperslab_eq, Key.toIndices, List.length_singleton, if_neg hl]
    rfl

/-! ### The selected elements -/

theorem dimOf_all (n : Nat) : dimOf n (.slice .all) = (0, 1, n) := by
  have h : sliceCount 0 n 1 = n := by
    unfold sliceCount
    split
    · rw [Nat.div_one]; omega
    · omega
  simp [dimOf, Slice.all, Slice.lower, Slice.upper, Slice.by, h]

/-- Start, stride and count in all dimensions -/
def dims (shape : List Nat) (indices : List PyIndex) : List (Nat × Nat × Nat) :=
  List.zipWith dimOf shape (complete shape indices)

theorem dims_eq {shape : List Nat} {indices : List PyIndex} (hle : indices.length ≤ shape.length) :
    dims shape indices = List.zipWith dimOf (shape.take indices.length) indices
      ++ (shape.drop indices.length).map fun n => (0, 1, n) := by
  unfold dims complete
  conv => lhs; rw [← List.take_append_drop indices.length shape]
  rw [List.zipWith_append (by simp; omega)]
  congr 1
  have : ∀ (l : List Nat) (k : Nat), l.length = k →
      List.zipWith dimOf l (List.replicate k (.slice .all)) = l.map fun n => (0, 1, n) := by
    intro l
    induction l with
    | nil => intro k hk; subst hk; rfl
    | cons a l ih => intro k hk; subst hk; simp [List.replicate_succ, dimOf_all, ih]
  exact this _ _ (by simp)

theorem stateOf_hyperslab {shape : List Nat} {indices : List PyIndex} (hle : indices.length ≤ shape.length) :
    (stateOf (shape.take indices.length) (shape.drop indices.length) indices).hyperslab
      = ⟨(dims shape indices).map (·.1), (dims shape indices).map (·.2.1), (dims shape indices).map (·.2.2)⟩ := by
  rw [dims_eq hle]
  simp [stateOf, Function.comp_def, List.map_const', List.length_drop]

theorem forall_zip {α β : Type} {P : α × β → Prop} {l : List α} {l' : List β}
    (h : ∀ i (h1 : i < l.length) (h2 : i < l'.length), P (l[i], l'[i])) : ∀ x ∈ l.zip l', P x := by
  intro x hx
  obtain ⟨i, hi, rfl⟩ := List.mem_iff_getElem.mp hx
  rw [List.length_zip] at hi
  rw [List.getElem_zip]
  exact h i (by omega) (by omega)

theorem complete_length {shape : List Nat} {indices : List PyIndex} (hle : indices.length ≤ shape.length) :
    (complete shape indices).length = shape.length := by
  simp [complete]; omega

theorem complete_valid {shape : List Nat} {indices : List PyIndex} (hf : ∀ i ∈ indices, i.Forward)
    (hv : Valid shape indices) : ∀ x ∈ shape.zip (complete shape indices), x.2.Valid x.1 ∧ x.2.Forward := by
  apply forall_zip
  intro i h1 h2
  simp only [complete]
  by_cases hi : i < indices.length
  · rw [List.getElem_append_left hi]
    refine ⟨?_, hf _ (List.getElem_mem hi)⟩
    have := hv.2 i hi
    simpa [h1, hi] using this
  · rw [List.getElem_append_right (by omega), List.getElem_replicate]
    simp [PyIndex.Valid, PyIndex.Forward, Slice.all]

theorem map_zip_picked {shape : List Nat} {indices : List PyIndex} :
    List.zipWith picked shape indices = (shape.zip indices).map fun x => picked x.1 x.2 := by
  rw [List.zip, List.map_zipWith]

theorem map_zip_dimOf {shape : List Nat} {indices : List PyIndex} :
    List.zipWith dimOf shape indices = (shape.zip indices).map fun x => dimOf x.1 x.2 := by
  rw [List.zip, List.map_zipWith]

theorem picked_dims {shape : List Nat} {indices : List PyIndex} (hf : ∀ i ∈ indices, i.Forward)
    (hv : Valid shape indices) : List.zipWith picked shape (complete shape indices)
      = (dims shape indices).map fun d => progression d.1 d.2.1 d.2.2 := by
  rw [dims, map_zip_picked, map_zip_dimOf, List.map_map]
  refine List.map_congr_left ?_
  intro x hx
  obtain ⟨h1, h2⟩ := complete_valid hf hv x hx
  exact picked_eq _ _ h1 h2

theorem progression_length (a b c : Nat) : (progression a b c).length = c := by simp [progression]

theorem stateOf_sliceShape {shape : List Nat} {indices : List PyIndex} (hf : ∀ i ∈ indices, i.Forward)
    (hv : Valid shape indices) :
    (stateOf (shape.take indices.length) (shape.drop indices.length) indices).sliceShape
      = selectedShape shape indices := by
  have hle := hv.1
  have h1 : selectedShape shape indices = shapeOf shape (complete shape indices) := by
    unfold selectedShape shapeOf
    refine List.map_congr_left ?_
    intro x hx
    obtain ⟨h1, h2⟩ := complete_valid hf hv x (List.mem_of_mem_filter hx)
    rw [picked_eq _ _ h1 h2, progression_length]
  rw [h1]
  unfold complete shapeOf
  conv => rhs; rw [← List.take_append_drop indices.length shape]
  rw [List.zip_append (by simp; omega), List.filter_append, List.map_append]
  show shapeOf _ _ ++ _ = _
  unfold shapeOf
  congr 1
  have : ∀ (l : List Nat) (k : Nat), l.length = k →
      ((l.zip (List.replicate k (PyIndex.slice .all))).filter fun x => x.2 matches .slice _).map
        (fun x => (dimOf x.1 x.2).2.2) = l := by
    intro l
    induction l with
    | nil => intro k hk; subst hk; rfl
    | cons a l ih =>
      intro k hk
      subst hk
      rw [List.length_cons, List.replicate_succ, List.zip_cons_cons, List.filter_cons_of_pos (by rfl), List.map_cons,
        ih _ rfl, dimOf_all]
  rw [this _ _ (by simp)]

theorem nrElements_append (a b : List Nat) : nrElements (a ++ b) = nrElements a * nrElements b := by
  induction a with
  | nil => simp [nrElements]
  | cons x a ih => rw [List.cons_append, nrElements_cons, nrElements_cons, ih, Nat.mul_assoc]

theorem nrElements_selected {shape : List Nat} {indices : List PyIndex} (hf : ∀ i ∈ indices, i.Forward)
    (hv : Valid shape indices) : nrElements ((dims shape indices).map (·.2.2)) = (selected shape indices).length := by
  unfold selected
  rw [combinations_length, picked_dims hf hv, List.map_map]
  congr 1
  exact List.map_congr_left fun d _ => (progression_length _ _ _).symm

theorem nrElements_selectedShape {shape : List Nat} {indices : List PyIndex} (hf : ∀ i ∈ indices, i.Forward)
    (hv : Valid shape indices) : nrElements (selectedShape shape indices) = (selected shape indices).length := by
  unfold selected selectedShape
  rw [combinations_length, map_zip_picked]
  have : ∀ l : List (Nat × PyIndex), (∀ x ∈ l, x.2.Valid x.1) →
      nrElements ((l.filter fun x => x.2 matches .slice _).map fun x => (picked x.1 x.2).length)
        = nrElements ((l.map fun x => picked x.1 x.2).map List.length) := by
    intro l
    induction l with
    | nil => intro _; rfl
    | cons x l ih =>
      intro h
      have ih := ih fun y hy => h y (List.mem_cons_of_mem _ hy)
      have hx := h x List.mem_cons_self
      obtain ⟨n, i⟩ := x
      cases i with
      | int i =>
        rw [List.filter_cons_of_neg (by simp), ih, List.map_cons, List.map_cons, nrElements_cons]
        simp [picked]
      | slice s =>
        rw [List.filter_cons_of_pos (by rfl), List.map_cons, nrElements_cons, ih, List.map_cons, List.map_cons,
          nrElements_cons]
      | other => exact hx.elim
  exact this _ fun x hx => (complete_valid hf hv x hx).1

/-- The hyperslab used for valid indices -/
def slab (shape : List Nat) (indices : List PyIndex) : Hyperslab :=
  ⟨(dims shape indices).map (·.1), (dims shape indices).map (·.2.1), (dims shape indices).map (·.2.2)⟩

theorem select_ok {shape : List Nat} (hne : shape ≠ []) {key : Key} (hs : ∀ n ∈ shape, n ≤ 9223372036854775808)
    (hf : ∀ i ∈ key.toIndices, i.Forward) (hv : Valid shape key.toIndices) :
    ∃ e, select shape key = .ok ⟨slab shape key.toIndices, selectedShape shape key.toIndices, e⟩ := by
  refine ⟨(stateOf (shape.take key.toIndices.length) (shape.drop key.toIndices.length) key.toIndices).nrErased, ?_⟩
  rw [select_eq hne, createHyperslab_ok hs hf hv]
  congr 1
  rw [slab, ← stateOf_hyperslab hv.1, ← stateOf_sliceShape hf hv]

theorem select_error {shape : List Nat} (hne : shape ≠ []) {key : Key} (hs : ∀ n ∈ shape, n ≤ 9223372036854775808)
    (hf : ∀ i ∈ key.toIndices, i.Forward) (hv : ¬ Valid shape key.toIndices) :
    select shape key = .error .thrown := by
  rw [select_eq hne, createHyperslab_error hs hf hv]

theorem dimOf_props (n : Nat) (i : PyIndex) (hv : i.Valid n) (hf : i.Forward) :
    0 < (dimOf n i).2.1 ∧ (dimOf n i).2.1 < 9223372036854775808 ∧
    (0 < (dimOf n i).2.2 → (dimOf n i).1 + (dimOf n i).2.1 * ((dimOf n i).2.2 - 1) < n) := by
  cases i with
  | int i =>
    have hv' : -(n : Int) ≤ i ∧ i < n := hv
    simp only [dimOf]
    refine ⟨by omega, by omega, fun _ => ?_⟩
    split <;> omega
  | slice s =>
    have h1 : s.step.getD 1 ≠ 0 := hv
    have h2 : 0 ≤ s.step.getD 1 ∧ s.step.getD 1 < 9223372036854775808 := hf
    have h3 := upper_le s n
    simp only [dimOf]
    refine ⟨by unfold Slice.by; omega, by unfold Slice.by; omega, ?_⟩
    unfold sliceCount
    split
    · intro _
      rw [Nat.add_sub_cancel]
      have := Nat.mul_div_le (s.upper n - s.lower n - 1) s.by
      omega
    · intro h; omega
  | other => exact hv.elim

theorem dims_length {shape : List Nat} {indices : List PyIndex} (hle : indices.length ≤ shape.length) :
    (dims shape indices).length = shape.length := by
  rw [dims, List.length_zipWith, complete_length hle, Nat.min_self]

theorem dims_props {shape : List Nat} {indices : List PyIndex} (hf : ∀ i ∈ indices, i.Forward)
    (hv : Valid shape indices) {d : Nat} (hd : d < shape.length) :
    ∃ x, (dims shape indices)[d]? = some x ∧ 0 < x.2.1 ∧ x.2.1 < 9223372036854775808 ∧
      (0 < x.2.2 → x.1 + x.2.1 * (x.2.2 - 1) < shape.getD d 0) := by
  have hc := complete_length hv.1
  have hm : (shape[d], (complete shape indices)[d]'(by omega)) ∈ shape.zip (complete shape indices) := by
    rw [List.mem_iff_getElem]
    exact ⟨d, by rw [List.length_zip]; omega, by rw [List.getElem_zip]⟩
  obtain ⟨h1, h2⟩ := complete_valid hf hv _ hm
  refine ⟨_, ?_, dimOf_props _ _ h1 h2 |>.1, dimOf_props _ _ h1 h2 |>.2.1, ?_⟩
  · rw [dims, List.getElem?_zipWith, List.getElem?_eq_getElem hd, List.getElem?_eq_getElem (by omega)]
  · rw [show shape.getD d 0 = shape[d] by simp [hd]]
    exact (dimOf_props _ _ h1 h2).2.2

theorem slab_valid {shape : List Nat} {indices : List PyIndex} (hf : ∀ i ∈ indices, i.Forward)
    (hv : Valid shape indices) : selectionValid (slab shape indices) shape = true := by
  unfold selectionValid
  have hl := dims_length hv.1
  simp only [slab, List.length_map, hl, beq_self_eq_true, Bool.true_and, Bool.or_eq_true]
  by_cases h0 : (List.map (fun x => x.2.2) (dims shape indices)).any (· == 0) = true
  · exact .inl h0
  · right
    simp only [Hyperslab.fits, List.length_map, hl, beq_self_eq_true, Bool.true_and, List.all_eq_true, List.mem_range,
      decide_eq_true_eq]
    intro d hd
    obtain ⟨x, h1, _, _, h2⟩ := dims_props hf hv hd
    simp only [List.getD_eq_getElem?_getD, List.getElem?_map, h1, Option.map_some, Option.getD_some]
    rw [← List.getD_eq_getElem?_getD]
    apply h2
    rcases Nat.eq_zero_or_pos x.2.2 with h | h
    · exfalso
      apply h0
      rw [List.any_map, List.any_eq_true]
      exact ⟨x, List.mem_of_getElem? h1, by simp [h]⟩
    · exact h

theorem slab_not_wrapped {shape : List Nat} {indices : List PyIndex} (hf : ∀ i ∈ indices, i.Forward)
    (hv : Valid shape indices) : wrapped (slab shape indices) = false := by
  unfold wrapped slab
  rw [List.any_eq_false]
  intro x hx
  obtain ⟨y, hy, rfl⟩ := List.mem_map.mp hx
  obtain ⟨d, hd⟩ := List.mem_iff_getElem?.mp hy
  obtain ⟨h, _⟩ := List.getElem?_eq_some_iff.mp hd
  rw [dims_length hv.1] at h
  obtain ⟨z, h1, _, h2, _⟩ := dims_props hf hv h
  rw [h1] at hd
  cases hd
  simp; omega

theorem slab_coord {shape : List Nat} {indices : List PyIndex} (hf : ∀ i ∈ indices, i.Forward)
    (hv : Valid shape indices) {k : Nat} (hk : k < (selected shape indices).length) :
    (selected shape indices)[k]? = some ((slab shape indices).coord k) := by
  unfold selected
  rw [picked_dims hf hv]
  exact coord_combinations _ k (by rwa [nrElements_selected hf hv])

theorem slab_count {shape : List Nat} {indices : List PyIndex} (hf : ∀ i ∈ indices, i.Forward)
    (hv : Valid shape indices) : nrElements (slab shape indices).count = (selected shape indices).length :=
  nrElements_selected hf hv

theorem combinations_nodup : ∀ l : List (List Nat), (∀ x ∈ l, x.Nodup) → (combinations l).Nodup
  | [], _ => by simp [combinations]
  | a :: l, h => by
    rw [combinations, List.nodup_flatMap]
    refine ⟨fun i _ => (combinations_nodup l fun x hx => h x (by simp [hx])).map fun _ _ h => by simpa using h, ?_⟩
    refine (h a List.mem_cons_self).imp ?_
    intro i j hij
    simp only [Function.onFun]
    intro x hx hy
    obtain ⟨c, _, rfl⟩ := List.mem_map.mp hx
    obtain ⟨c', _, he⟩ := List.mem_map.mp hy
    simp only [List.cons.injEq] at he
    exact hij he.1.symm

theorem picked_nodup (n : Nat) (i : PyIndex) : (picked n i).Nodup := by
  cases i with
  | int i => simp [picked]
  | slice s => exact List.nodup_range.filter _
  | other => simp [picked]

theorem selected_nodup (shape : List Nat) (indices : List PyIndex) : (selected shape indices).Nodup := by
  apply combinations_nodup
  rw [map_zip_picked]
  intro x hx
  obtain ⟨y, _, rfl⟩ := List.mem_map.mp hx
  exact picked_nodup _ _

theorem slab_coord_inj {shape : List Nat} {indices : List PyIndex} (hf : ∀ i ∈ indices, i.Forward)
    (hv : Valid shape indices) (k : Nat) (hk : k < nrElements (slab shape indices).count) (k' : Nat)
    (hk' : k' < nrElements (slab shape indices).count) (h : (slab shape indices).coord k = (slab shape indices).coord k') :
    k = k' := by
  rw [slab_count hf hv] at hk hk'
  have h1 := slab_coord hf hv hk
  have h2 := slab_coord hf hv hk'
  rw [h, ← h2] at h1
  exact (List.getElem?_inj hk (selected_nodup _ _)).mp h1

/-- Writing to the selected elements -/
theorem write_slab {α : Type} {d : Dataset α} {indices : List PyIndex} (hf : ∀ i ∈ indices, i.Forward)
    (hv : Valid d.shape indices) {values : List α} (hl : values.length = (selected d.shape indices).length) :
    ∃ d', writeHyperslab d (slab d.shape indices) values = .ok d' ∧ Assigned d d' (selected d.shape indices) values := by
  obtain ⟨d', h1, h2, h3, h4, h5⟩ := writeHyperslab_ok (slab_valid hf hv) (buffer := values)
    (by rw [slab_count hf hv, hl]) (slab_coord_inj hf hv)
  refine ⟨d', h1, h2, h3, hl, ?_, ?_⟩
  · intro k hk
    have := slab_coord hf hv hk
    rw [List.getElem?_eq_getElem hk, Option.some.injEq] at this
    rw [this]
    exact h4 k (by rwa [slab_count hf hv])
  · intro c hc
    refine h5 c fun k hk he => hc ?_
    rw [slab_count hf hv] at hk
    rw [he]
    exact List.mem_of_getElem? (slab_coord hf hv hk)

end Lue.PyArray

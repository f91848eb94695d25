import Verif.Wire.DataProofs

/-!
# C72: What is sent to another process arrives unchanged

Unless noted otherwise, objects can be read into any object of the right type, and whatever follows in the archive is left for what is read next.
-/
namespace Lue.Wire
open Lue.Memory Lue.Memory.Spec Lue.Index

/-! ## Partition data -/

/-- C72: Partition data that is sent to another process is the same at the other side: it has the same shape and the same elements. This
is the case whatever has been done with partition data in both processes before (`ops` and `more`). Partition data that already is at the
other side is not changed, and none of it shares elements with the new data: whatever is done next (`next`) has the effects it must have. -/
theorem data_arrives {E : Type} {c : Codec E} {V : E → Prop} (hc : Exact c V) (zero : E) {rank : Nat} (hrank : 0 < rank)
    {ops more : List (HOp E)} {S R : SState E} (hS : SState.run rank zero ops {} = some S) (hR : SState.run rank zero more {} = some R)
    {h a g : Nat} {sh : List Nat} (hh : S.handle h = some (sh, a)) (hg : R.handle g = none)
    (hV : ∀ e ∈ (S.content a).elems, V e) (hsh : ∀ n ∈ sh, Fits n) (hp : Fits sh.prod) :
    ∃ s r b, Shared.run zero ops {} = .ok s ∧ Shared.run zero more {} = .ok r ∧ save c s h = .ok b ∧
      ∀ rest, ∃ (r' : Shared E) (R' : SState E), load c zero rank r g (b ++ rest) = .ok (r', rest) ∧
        HSees r' g sh (S.content a) ∧
        (∀ g' sh' c', R.handle g' = some (sh', c') → HSees r' g' sh' (R.content c') ∧ R'.handle g' = some (sh', c') ∧
          R'.content c' = R.content c') ∧
        (∃ c', R'.handle g = some (sh, c') ∧ (R'.content c').elems = (S.content a).elems ∧ R'.OnlyRef g c') ∧
        ∀ next R'', R'.run rank zero next = some R'' →
          ∃ r'', r'.run zero next = .ok r'' ∧ ∀ g' sh' c', R''.handle g' = some (sh', c') → HSees r'' g' sh' (R''.content c') := by
  obtain ⟨s, e1, e2⟩ := hrun_prep hrank zero ops (prep_empty rank) hS
  obtain ⟨r, e3, e4⟩ := hrun_prep hrank zero more (prep_empty rank) hR
  obtain ⟨e5, e6⟩ := save_ok c e2 hh
  obtain ⟨x, o, _, hr⟩ := e2.hsome h sh a hh
  refine ⟨s, r, _, e1, e3, e5, fun rest => ?_⟩
  obtain ⟨r', v, h1, h2, h3, h4⟩ := load_ok hc zero hrank e4 hg hr.rank hsh hp e6 hV rest
  have hold : ∀ g' sh' c', R.handle g' = some (sh', c') → g' ≠ g ∧ c' ≠ R.next := by
    intro g' sh' c' hg'
    refine ⟨?_, ?_⟩
    · rintro rfl; rw [hg] at hg'; cases hg'
    · obtain ⟨_, _, _, hb⟩ := e4.hsome g' sh' c' hg'
      exact Nat.ne_of_lt hb.bound
  refine ⟨r', { handle := Function.update R.handle g (some (sh, R.next)), content := Function.update R.content R.next v, next := R.next + 1 },
    h1, ?_, ?_, ?_, ?_⟩
  · have := h4.sees (g := g) (c := R.next) (sh := sh) (Function.update_self _ _ _)
    simp only [Function.update_self] at this
    refine ⟨this.shape, this.size, e2.sees hh |>.nr, ?_, ?_⟩
    · intro i hi
      rw [← h2]
      exact this.read i hi
    · intro idxs hi
      rw [← h2]
      exact this.readAt idxs hi
  · intro g' sh' c' hg'
    obtain ⟨n1, n2⟩ := hold g' sh' c' hg'
    have q1 : Function.update R.handle g (some (sh, R.next)) g' = some (sh', c') := by rw [Function.update_of_ne n1]; exact hg'
    have q2 : Function.update R.content R.next v c' = R.content c' := Function.update_of_ne n2 _ _
    refine ⟨?_, q1, q2⟩
    have := h4.sees q1
    simp only [q2] at this
    exact this
  · refine ⟨R.next, Function.update_self _ _ _, ?_, ?_⟩
    · simp only [Function.update_self]; exact h2
    · intro g' sh' c' hne hg'
      simp only [Function.update_of_ne hne] at hg'
      exact (hold g' sh' c' hg').2
  · intro next R'' hn
    obtain ⟨r'', q1, q2⟩ := hrun_prep hrank zero next h4 hn
    exact ⟨r'', q1, fun g' sh' c' hg' => q2.sees hg'⟩

/-- C72: Sending partition data doesn't change it: writing it to an archive only reads. What is written for data of rank 2 is its shape, the number
of elements and the elements, as in the results of tasks that contain such data (`dataValue`). -/
theorem data_written {n : Nat} {s : Shared (Word n)} {S : SState (Word n)} (hs : PRep 2 s S) {h a nr nc : Nat}
    (hh : S.handle h = some ([nr, nc], a)) :
    save (word n) s h = .ok ((dataValue n).put ⟨(nr, nc), (S.content a).elems⟩) := by
  obtain ⟨h1, h2⟩ := save_ok (word n) hs hh
  rw [h1, ← h2]
  simp [dataValue, members, member, fixed, pair, vector]

/-! ## Arrays and kernels -/

theorem take_overwrite {E : Type} {v : Val E} {es : List E} (h : es.length = v.nr) : (overwrite v es).elems = es := by
  unfold overwrite Val.elems
  simp [← h]

/-- C72: An array that is sent to another process is the same at the other side. It can be read into any array `d` of the same rank whose number of
elements corresponds with its shape. -/
theorem array_arrives {E : Type} {c : Codec E} {V : E → Prop} (hc : Exact c V) (zero : E) {rank : Nat} {x d : Val E}
    (hl : x.shape.length = rank) (hx : x.nr = x.shape.prod) (hb : x.nr ≤ x.buf.length) (hf : ∀ n ∈ x.shape, Fits n)
    (hV : ∀ e ∈ x.elems, V e) (hd : d.nr = d.shape.prod) (rest : Bytes) :
    ∃ y, (array c zero rank).get d ((array c zero rank).put x ++ rest) = some (y, rest) ∧
      y.shape = x.shape ∧ y.nr = x.nr ∧ y.elems = x.elems ∧ y.nr ≤ y.buf.length := by
  have hnr : (d.reshape zero x.shape).nr = x.nr := by
    unfold Val.reshape
    split
    · rename_i h; rw [hd, h, hx]
    · split <;> exact hx.symm
  have hsh : (d.reshape zero x.shape).shape = x.shape := by
    unfold Val.reshape
    split
    · rename_i h; exact h
    · split <;> rfl
  have hlen : x.elems.length = x.nr := by unfold Val.elems; rw [List.length_take]; omega
  refine ⟨overwrite (d.reshape zero x.shape) x.elems, ?_, hsh, hnr, take_overwrite (by rw [hnr, hlen]), ?_⟩
  · unfold array
    simp only []
    rw [List.append_assoc, get_shape hl hf, Option.bind_some]
    simp only []
    rw [hnr]
    have := getMany_exact hc zero x.elems rest hV (fun _ _ => trivial)
    rw [hlen] at this
    rw [show x.buf.take x.nr = x.elems from rfl, this]
    rfl
  · show (d.reshape zero x.shape).nr ≤ (x.elems ++ (d.reshape zero x.shape).buf.drop (d.reshape zero x.shape).nr).length
    rw [hnr, List.length_append, hlen]
    omega

/-- A kernel: an array with the same odd extent, which corresponds with the radius, in each dimension (`A/kernel.hpp:92-103`) -/
structure KernelOk {E : Type} (r : Nat) (k : Kernel E) : Prop where
  rank : k.weights.shape.length = r
  pos : 0 < r
  extent : ∀ n ∈ k.weights.shape, n = 2 * k.radius + 1
  nr : k.weights.nr = k.weights.shape.prod
  buf : k.weights.nr ≤ k.weights.buf.length

/-- C72: A kernel that is sent to another process is the same at the other side: it has the same shape, radius, and weights. -/
theorem kernel_arrives {E : Type} {c : Codec E} {V : E → Prop} (hc : Exact c V) (zero : E) {rank : Nat} {x d : Kernel E}
    (hk : KernelOk rank x) (hf : Fits (2 * x.radius + 1)) (hV : ∀ e ∈ x.weights.elems, V e) (rest : Bytes) :
    ∃ y, (kernel c zero rank).get d ((kernel c zero rank).put x ++ rest) = some (y, rest) ∧
      y.radius = x.radius ∧ y.weights.shape = x.weights.shape ∧ y.weights.elems = x.weights.elems ∧ KernelOk rank y := by
  have hz := prod_replicate_zero hk.pos
  obtain ⟨y, h1, h2, h3, h4, h5⟩ := array_arrives hc zero (d := Spec.empty rank) hk.rank hk.nr hk.buf
    (fun n hn => by rw [hk.extent n hn]; exact hf) hV (by show 0 = (List.replicate rank 0).prod; rw [hz]) rest
  have hr : (Kernel.ofArray zero y).radius = x.radius := by
    have hpos := hk.pos
    have hrank := hk.rank
    show (y.shape.headD 0 - 1) / 2 = _
    rw [h2]
    cases hs : x.weights.shape with
    | nil => rw [hs] at hrank; simp at hrank; omega
    | cons n l =>
      have := hk.extent n (by rw [hs]; simp)
      rw [this]
      simp
  have hsh : (Kernel.ofArray zero y).weights.shape = x.weights.shape := h2
  have hel : (Kernel.ofArray zero y).weights.elems = x.weights.elems := by
    show (y.elems ++ List.replicate (y.shape.prod - y.nr) zero).take y.shape.prod = _
    rw [h2, h3, hk.nr, Nat.sub_self, List.replicate_zero, List.append_nil, h4, List.take_of_length_le]
    unfold Val.elems
    rw [List.length_take, hk.nr]
    omega
  refine ⟨Kernel.ofArray zero y, ?_, hr, hsh, hel, ?_⟩
  · unfold kernel
    simp only []
    rw [h1]
    rfl
  · refine ⟨by rw [hsh]; exact hk.rank, hk.pos, by rw [hsh, hr]; exact hk.extent, rfl, ?_⟩
    show y.shape.prod ≤ (y.elems ++ List.replicate (y.shape.prod - y.nr) zero).length
    rw [h2, h3, hk.nr, Nat.sub_self, List.replicate_zero, List.append_nil, h4]
    unfold Val.elems
    rw [List.length_take, hk.nr]
    have := hk.buf
    rw [hk.nr] at this
    omega

/-! ## Policies -/

/-- Policies of the same type, which can have different values -/
def NoDataPolicy.Same : NoDataPolicy → NoDataPolicy → Prop
  | .none, .none => True
  | .nan, .nan => True
  | .value n _, .value m _ => n = m
  | _, _ => False

/-- Policies of the same type -/
def HaloPolicy.Same : HaloPolicy → HaloPolicy → Prop
  | .flowDirection, .flowDirection => True
  | .constant n _, .constant m _ => n = m
  | _, _ => False

/-- Policies of the same type -/
def InputPolicy.Same : InputPolicy → InputPolicy → Prop
  | .local p, .local q => p.noData.Same q.noData
  | .spatial p, .spatial q => p.noData.Same q.noData ∧ p.halo.Same q.halo
  | _, _ => False

/-- Policies of the same type -/
structure Policies.Same {D : Type} (p q : Policies D) : Prop where
  outputs : List.Forall₂ (fun x y : OutputPolicies => x.noData.Same y.noData) p.outputs q.outputs
  inputs : List.Forall₂ InputPolicy.Same p.inputs q.inputs

theorem exact_noDataPolicy : Exact noDataPolicy Any NoDataPolicy.Same := by
  intro x d ha hi rest
  cases x <;> cases d <;> simp only [NoDataPolicy.Same] at hi
  · rfl
  · rfl
  · subst hi
    rename_i n v w
    show ((word n).get w ((word n).put v ++ rest)).map _ = _
    rw [exact_word n v w trivial trivial]
    rfl

theorem exact_haloPolicy : Exact haloPolicy Any HaloPolicy.Same := by
  intro x d ha hi rest
  cases x <;> cases d <;> simp only [HaloPolicy.Same] at hi
  · rfl
  · subst hi
    rename_i n v w
    show ((word n).get w ((word n).put v ++ rest)).map _ = _
    rw [exact_word n v w trivial trivial]
    rfl

theorem exact_inputPolicies : Exact inputPolicies Any (fun x d => x.noData.Same d.noData) := by
  intro x d _ hi rest
  unfold inputPolicies
  rw [members_step (get_member exact_noDataPolicy x d trivial hi)]
  rfl

theorem exact_spatialInputPolicies :
    Exact spatialInputPolicies Any (fun x d => x.noData.Same d.noData ∧ x.halo.Same d.halo) := by
  intro x d _ hi rest
  unfold spatialInputPolicies
  rw [members_step (get_member exact_inputPolicies x d trivial hi.1),
    members_step (get_member exact_haloPolicy x { d with toInputPolicies := x.toInputPolicies } trivial hi.2)]
  rfl

theorem exact_inputPolicy : Exact inputPolicy Any InputPolicy.Same := by
  intro x d ha hi rest
  cases x <;> cases d <;> simp only [InputPolicy.Same] at hi
  · rename_i p q
    show (inputPolicies.get q (inputPolicies.put p ++ rest)).map _ = _
    rw [exact_inputPolicies p q trivial hi]
    rfl
  · rename_i p q
    show (spatialInputPolicies.get q (spatialInputPolicies.put p ++ rest)).map _ = _
    rw [exact_spatialInputPolicies p q trivial hi]
    rfl

theorem exact_outputPolicies : Exact outputPolicies Any (fun x d => x.noData.Same d.noData) := by
  intro x d _ hi rest
  unfold outputPolicies
  rw [members_step (get_member exact_noDataPolicy x d trivial hi)]
  rfl

/-- C72: Policies that are sent to another process have the same values at the other side, except for the domain policy: that is the one of the
object that is read into. -/
theorem policies_arrive {D : Type} {x d : Policies D} (h : x.Same d) (rest : Bytes) :
    policies.get d (policies.put x ++ rest) = some ({ x with domain := d.domain }, rest) := by
  unfold policies
  rw [members_step (get_member (exact_fixed exact_outputPolicies) x d (fun _ _ => trivial) h.outputs),
    members_step (get_member (exact_fixed exact_inputPolicy) x { d with outputs := x.outputs } (fun _ _ => trivial) h.inputs)]
  rfl

/-- C72: Policies whose domain policy doesn't have a state, as is the case for all domain policies of the library, are the same at the other
side. -/
theorem policies_arrive_unchanged {D : Type} [Subsingleton D] {x d : Policies D} (h : x.Same d) (rest : Bytes) :
    policies.get d (policies.put x ++ rest) = some (x, rest) := by
  rw [policies_arrive h, Subsingleton.elim d.domain x.domain]

/-! ## Functors, scalars, material -/

/-- C72: The parameters of the functors of operations, scalars, and material that is sent between partitions are the same at the other side. -/
theorem parameters_arrive (n : Nat) :
    Exact (closeTo n) Any ∧ Exact (downstreamDistance n) Any ∧ Exact partialAccu Any ∧ Exact (scalar n) Any ∧ Exact (material n) Any ∧
      Exact cellCounter Any := by
  refine ⟨?_, ?_, ?_, ?_, ?_, ?_⟩
  · intro x d _ _ rest
    unfold closeTo
    rw [members_step (get_member (exact_word n) x d trivial trivial),
      members_step (get_member (exact_word n) x { d with relative := x.relative } trivial trivial)]
    rfl
  · intro x d _ _ rest
    unfold downstreamDistance
    rw [members_step (get_member (exact_word n) x d trivial trivial),
      members_step (get_member (exact_word n) x { d with cellSize := x.cellSize } trivial trivial)]
    rfl
  · intro x d _ _ rest
    unfold partialAccu
    rw [members_step (get_member (exact_word 8) x d trivial trivial)]
    rfl
  · intro x d _ _ rest
    unfold scalar
    rw [members_step (get_member (exact_word n) x d trivial trivial)]
    rfl
  · intro x d _ _ rest
    unfold material
    rw [members_step (get_member (exact_word 8) x d trivial trivial),
      members_step (get_member (exact_word n) x { d with cellIdx := x.cellIdx } trivial trivial)]
    rfl
  · intro x d _ _ rest
    unfold cellCounter
    rw [members_step (get_member (exact_word 8) x d trivial trivial),
      members_step (get_member (exact_word 8) x { d with visited := x.visited } trivial trivial)]
    rfl

/-- C72: The unique values a functor has found are the same at the other side. -/
theorem countUnique_arrives (n : Nat) : Exact (countUnique n) fun x => x.values.Nodup ∧ Fits x.values.length := by
  intro x d h _ rest
  unfold countUnique
  rw [members_step (get_member (exact_set (exact_word n) _) x d ⟨h.1, h.2, fun _ _ => ⟨trivial, trivial⟩⟩ trivial)]
  rfl

/-! ## Results per zone -/

/-- A map: no key occurs more than once. -/
def IsMap {K V : Type} [DecidableEq K] (m : AMap K V) : Prop := AMap.Ok m ∧ Fits m.length

/-- C72: Results per zone that are computed for a partition are the same in the process where these are combined: the minimum, maximum and sum
per zone, ... -/
theorem zonalValue_arrives (z n : Nat) : Exact (zonalValue z n) fun x => IsMap x.byZone := by
  intro x d h _ rest
  unfold zonalValue
  rw [members_step (get_member (exact_map (exact_word z) (exact_word n) _ _) x d
    ⟨h.1, h.2, fun _ _ => ⟨⟨trivial, trivial⟩, trivial, trivial⟩⟩ trivial)]
  rfl

/-- C72: ... the sum and number of values per zone, ... -/
theorem zonalMean_arrives (z n : Nat) : Exact (zonalMean z n) fun x => IsMap x.byZone := by
  intro x d h _ rest
  unfold zonalMean
  rw [members_step (get_member (exact_map (exact_word z) (exact_pair (exact_word n) (exact_word 8)) _ _) x d
    ⟨h.1, h.2, fun _ _ => ⟨⟨trivial, trivial, trivial⟩, trivial, trivial, trivial⟩⟩ trivial)]
  rfl

/-- C72: ... the set of values per zone ... -/
theorem zonalDiversity_arrives (z n : Nat) :
    Exact (zonalDiversity z n) fun x => IsMap x.byZone ∧ ∀ e ∈ x.byZone, e.2.Nodup ∧ Fits e.2.length := by
  intro x d h _ rest
  unfold zonalDiversity
  rw [members_step (get_member (exact_map (exact_word z) (exact_set (exact_word n) _) _ _) x d
    ⟨h.1.1, h.1.2, fun e he => ⟨⟨trivial, (h.2 e he).1, (h.2 e he).2, fun _ _ => ⟨trivial, trivial⟩⟩, trivial, trivial⟩⟩ trivial)]
  rfl

/-- C72: ... and the number of occurrences of values per zone. -/
theorem zonalMajority_arrives (z n : Nat) :
    Exact (zonalMajority z n) fun x => IsMap x.byZone ∧ ∀ e ∈ x.byZone, IsMap e.2 := by
  intro x d h _ rest
  unfold zonalMajority
  rw [members_step (get_member (exact_map (exact_word z) (exact_map (exact_word n) (exact_word 8) _ _) _ _) x d
    ⟨h.1.1, h.1.2, fun e he => ⟨⟨trivial, (h.2 e he).1, (h.2 e he).2, fun _ _ => ⟨⟨trivial, trivial⟩, trivial, trivial⟩⟩,
      trivial, trivial⟩⟩ trivial)]
  rfl

/-! ## Routing -/

theorem forall₂_true {A : Type} {l m : List A} (h : l.length = m.length) : List.Forall₂ (fun _ _ => True) l m := by
  induction l generalizing m with
  | nil => cases m with
    | nil => exact .nil
    | cons => simp at h
  | cons a l ih => cases m with
    | nil => simp at h
    | cons b m => exact .cons trivial (ih (by simpa using h))

/-- C72: A communicator that is sent to another process knows its own location and the channels to and from its neighbours: each channel is in the
place it had. -/
theorem communicator_arrives : Exact communicator Any fun x d =>
    d.shape.length = x.shape.length ∧ d.idxs.length = x.idxs.length ∧ d.send.length = x.send.length ∧
      d.receive.length = x.receive.length := by
  intro x d _ hi rest
  obtain ⟨h1, h2, h3, h4⟩ := hi
  unfold communicator
  rw [members_step (get_member (exact_fixed (exact_word 8)) x d (fun _ _ => trivial) (forall₂_true h1.symm)),
    members_step (get_member (exact_fixed (exact_word 8)) x { d with shape := x.shape } (fun _ _ => trivial) (forall₂_true h2.symm)),
    members_step (get_member (exact_word 8) x { d with shape := x.shape, idxs := x.idxs } trivial trivial),
    members_step (get_member (exact_fixed (exact_word 16)) x { d with shape := x.shape, idxs := x.idxs, idx := x.idx }
      (fun _ _ => trivial) (forall₂_true h3.symm)),
    members_step (get_member (exact_fixed (exact_word 16)) x
      { d with shape := x.shape, idxs := x.idxs, idx := x.idx, send := x.send } (fun _ _ => trivial) (forall₂_true h4.symm))]
  rfl

/-- C72: The inflow and outflow cells of a partition are the same at the other side. -/
theorem partitionIO_arrives (n : Nat) : Exact (partitionIO n) fun x => Fits x.inputs.length ∧ IsMap x.offsets ∧ IsMap x.values := by
  intro x d h _ rest
  obtain ⟨h1, h2, h3⟩ := h
  unfold partitionIO
  have p8 := exact_pair (exact_word 8) (exact_word 8)
  rw [members_step (get_member p8 x d ⟨trivial, trivial⟩ ⟨trivial, trivial⟩),
    members_step (get_member (exact_vector p8 _) x { d with shape := x.shape } ⟨h1, fun _ _ => ⟨⟨trivial, trivial⟩, trivial, trivial⟩⟩
      trivial),
    members_step (get_member (exact_map p8 (exact_pair (exact_word 1) (exact_word 1)) _ _) x { d with shape := x.shape, inputs := x.inputs }
      ⟨h2.1, h2.2, fun _ _ => ⟨⟨⟨trivial, trivial⟩, trivial, trivial⟩, ⟨trivial, trivial⟩, trivial, trivial⟩⟩ trivial),
    members_step (get_member (exact_map p8 (exact_word n) _ _) x { d with shape := x.shape, inputs := x.inputs, offsets := x.offsets }
      ⟨h3.1, h3.2, fun _ _ => ⟨⟨⟨trivial, trivial⟩, trivial⟩, ⟨trivial, trivial⟩, trivial⟩⟩ trivial)]
  rfl

/-- C72: A fragment of a route has the same cells, in the same order, and continues in the same fragment, if it isn't the last one. -/
theorem fragment_arrives : Exact fragment fun x => Fits x.idxs.length := by
  intro x d h _ rest
  have hv := exact_vector (exact_word 8) (zero 8) x.idxs [] ⟨h, fun _ _ => ⟨trivial, trivial⟩⟩ trivial
  obtain ⟨idxs, next⟩ := x
  cases next with
  | none =>
    unfold fragment
    simp only []
    rw [List.append_assoc, hv, Option.bind_some]
    simp only []
    rw [exact_boolean true false trivial trivial]
    rfl
  | some l =>
    unfold fragment
    simp only []
    rw [List.append_assoc, hv, Option.bind_some]
    simp only []
    rw [List.append_assoc, exact_boolean false false trivial trivial, Option.bind_some]
    simp only []
    rw [exact_word 16 l _ trivial trivial]
    rfl

/-- C72: What has been accumulated along a route is the same at the other side. -/
theorem accumulator_arrives (z n : Nat) : Exact (accumulator z n) fun x => IsMap x.values := by
  intro x d h _ rest
  unfold accumulator
  rw [members_step (get_member (exact_map (exact_word z) (exact_word n) _ _) x d
    ⟨h.1, h.2, fun _ _ => ⟨⟨trivial, trivial⟩, trivial, trivial⟩⟩ trivial)]
  rfl

/-- C72: The state of integrating along a route is the same at the other side. -/
theorem integrate_arrives (z n : Nat) : Exact (integrate z n) fun x => IsMap x.accumulator.values := by
  intro x d h _ rest
  unfold integrate
  rw [members_step (get_member (parameters_arrive 0).2.2.2.2.2 x d trivial trivial),
    members_step (get_member (accumulator_arrives z n) x { d with counter := x.counter } h trivial)]
  rfl

/-- C72: The state of allocating along a route is the same at the other side: what is produced and what the demands are, per crop and zone, and which
demands are met. -/
theorem allocate_arrives (z n : Nat) : Exact (allocate z n) fun x =>
    (IsMap x.demand ∧ ∀ e ∈ x.demand, Fits e.2.length) ∧ (IsMap x.production ∧ ∀ e ∈ x.production, Fits e.2.length) ∧
      IsMap x.demandMet ∧ ∀ e ∈ x.demandMet, Fits e.2.length := by
  intro x d h _ rest
  obtain ⟨⟨h1, h2⟩, ⟨h3, h4⟩, h5, h6⟩ := h
  unfold allocate
  have hm := exact_map (exact_word z) (exact_vector (exact_word n) (zero n)) (zero z) []
  have hb := exact_map (exact_word z) (exact_vector exact_boolean false) (zero z) []
  rw [members_step (get_member hm x d
      ⟨h1.1, h1.2, fun e he => ⟨⟨trivial, h2 e he, fun _ _ => ⟨trivial, trivial⟩⟩, trivial, trivial⟩⟩ trivial),
    members_step (get_member hm x { d with demand := x.demand }
      ⟨h3.1, h3.2, fun e he => ⟨⟨trivial, h4 e he, fun _ _ => ⟨trivial, trivial⟩⟩, trivial, trivial⟩⟩ trivial),
    members_step (get_member hb x { d with demand := x.demand, production := x.production }
      ⟨h5.1, h5.2, fun e he => ⟨⟨trivial, h6 e he, fun _ _ => ⟨trivial, trivial⟩⟩, trivial, trivial⟩⟩ trivial)]
  rfl

/-! ## Clumps -/

/-- The sizes can be represented. -/
def DataValue.Fits {n : Nat} (x : DataValue n) : Prop := Wire.Fits x.shape.1 ∧ Wire.Fits x.shape.2 ∧ Wire.Fits x.elems.length

theorem exact_dataValue (n : Nat) : Exact (dataValue n) DataValue.Fits := by
  intro x d h _ rest
  unfold dataValue
  rw [members_step (get_member (exact_pair exact_count exact_count) x d ⟨h.1, h.2.1⟩ ⟨trivial, trivial⟩),
    members_step (get_member (exact_vector (exact_word n) _) x { d with shape := x.shape } ⟨h.2.2, fun _ _ => ⟨trivial, trivial⟩⟩ trivial)]
  rfl

/-- C72: The result of clumping a partition is the same at the other side: the zones and clumps along each of the sides of the partition, and the
table with the clumps to merge. -/
theorem clumpResult_arrives (n : Nat) : Exact (clumpResult n)
    (fun x => (∀ l ∈ x.zoneSides, ∀ v ∈ l, DataValue.Fits v) ∧ (∀ l ∈ x.clumpSides, ∀ v ∈ l, DataValue.Fits v) ∧ IsMap x.lut)
    fun x d => List.Forall₂ (fun a b : List (DataValue n) => List.Forall₂ (fun _ _ => True) a b) x.zoneSides d.zoneSides ∧
      List.Forall₂ (fun a b : List (DataValue n) => List.Forall₂ (fun _ _ => True) a b) x.clumpSides d.clumpSides := by
  intro x d h hi rest
  obtain ⟨h1, h2, h3⟩ := h
  unfold clumpResult
  have hf := exact_fixed (exact_fixed (exact_dataValue n))
  rw [members_step (get_member (exact_word 16) x d trivial trivial),
    members_step (get_member hf x { d with partition := x.partition } h1 hi.1),
    members_step (get_member hf x { d with partition := x.partition, zoneSides := x.zoneSides } h2 hi.2),
    members_step (get_member (exact_map (exact_word n) (exact_word n) _ _) x
      { d with partition := x.partition, zoneSides := x.zoneSides, clumpSides := x.clumpSides }
      ⟨h3.1, h3.2, fun _ _ => ⟨⟨trivial, trivial⟩, trivial, trivial⟩⟩ trivial)]
  rfl

/-! ## Messages -/

/-- C72: Objects that are sent one after the other, as the arguments of a task are, arrive one after the other, each of them unchanged. -/
theorem message_arrives {A B : Type} {a : Codec A} {b : Codec B} {VA : A → Prop} {VB : B → Prop} {IA : A → A → Prop} {IB : B → B → Prop}
    (ha : Exact a VA IA) (hb : Exact b VB IB) {x dx : A} {y dy : B} (hx : VA x) (hix : IA x dx) (hy : VB y) (hiy : IB y dy)
    (rest : Bytes) :
    (a.get dx (a.put x ++ (b.put y ++ rest))).bind (fun r => (b.get dy r.2).map fun q => (r.1, q.1, q.2)) = some (x, y, rest) := by
  rw [ha x dx hx hix, Option.bind_some, hb y dy hy hiy]
  rfl

end Lue.Wire

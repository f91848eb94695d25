import Verif.Wire.Codec

namespace Lue.Wire

theorem getNat_putNat (n : Nat) : ∀ (x : Nat) (rest : Bytes), getNat n (putNat n x ++ rest) = some (x % 256 ^ n, rest) := by
  induction n with
  | zero => intro x rest; simp [getNat, putNat, Nat.mod_one]
  | succ n ih =>
    intro x rest
    show (getNat n (putNat n (x / 256) ++ rest)).map _ = _
    rw [ih, Option.map_some]
    congr 2
    show x % 256 + 256 * (x / 256 % 256 ^ n) = x % 256 ^ (n + 1)
    rw [Nat.pow_succ, Nat.mul_comm (256 ^ n) 256, Nat.mod_mul]

theorem exact_word (n : Nat) : Exact (word n) Any := by
  intro x d _ _ rest
  show (getNat n (putNat n x.val ++ rest)).map _ = _
  rw [getNat_putNat, Option.map_some, Nat.mod_eq_of_lt x.isLt]
  congr 2
  exact Fin.ext (Nat.mod_eq_of_lt x.isLt)

theorem exact_count : Exact count Fits := by
  intro x d hx _ rest
  show getNat 8 (putNat 8 x ++ rest) = _
  rw [getNat_putNat, Nat.mod_eq_of_lt (show x < 256 ^ 8 from Nat.lt_trans hx (by decide))]

theorem exact_boolean : Exact boolean Any := by
  intro x d _ _ rest
  unfold boolean
  simp only [getNat_putNat]
  cases x <;> rfl

theorem get_member {T M : Type} {c : Codec M} {V : M → Prop} {I : M → M → Prop} (h : Exact c V I) {value : T → M} {assign : T → M → T}
    (x d : T) (hv : V (value x)) (hi : I (value x) (value d)) (rest : Bytes) :
    (member c value assign).get d ((member c value assign).put x ++ rest) = some (assign d (value x), rest) := by
  show ((c.get _ (c.put _ ++ rest)).map _) = _
  rw [h _ _ hv hi]
  rfl

theorem members_put_cons {T : Type} (m : Codec T) (ms : List (Codec T)) (x : T) :
    (members (m :: ms)).put x = m.put x ++ (members ms).put x := rfl

/-- Reading members, if the first one is read as expected -/
theorem members_step {T : Type} {m : Codec T} {ms : List (Codec T)} {x d d' : T} {rest : Bytes}
    (h : ∀ rest, m.get d (m.put x ++ rest) = some (d', rest)) :
    (members (m :: ms)).get d ((members (m :: ms)).put x ++ rest) = (members ms).get d' ((members ms).put x ++ rest) := by
  show (m.get d ((m.put x ++ _) ++ rest)).bind _ = _
  rw [List.append_assoc, h]
  rfl

theorem members_done {T : Type} (x d : T) (rest : Bytes) : (members []).get d ((members []).put x ++ rest) = some (d, rest) := rfl

theorem getMany_exact {T : Type} {c : Codec T} {V : T → Prop} {I : T → T → Prop} (h : Exact c V I) (d : T) (l : List T) (rest : Bytes)
    (hv : ∀ x ∈ l, V x) (hi : ∀ x ∈ l, I x d) : getMany c d l.length (l.flatMap c.put ++ rest) = some (l, rest) := by
  induction l with
  | nil => rfl
  | cons x l ih =>
    rw [List.length_cons, List.flatMap_cons, List.append_assoc]
    unfold getMany
    rw [h x d (hv x (by simp)) (hi x (by simp)), Option.bind_some,
      ih (fun y hy => hv y (by simp [hy])) (fun y hy => hi y (by simp [hy]))]
    rfl

theorem exact_fixed {T : Type} {c : Codec T} {V : T → Prop} {I : T → T → Prop} (h : Exact c V I) :
    Exact (fixed c) (fun l => ∀ x ∈ l, V x) (fun l ds => List.Forall₂ I l ds) := by
  intro l ds hv hi rest
  show getEach c ds (l.flatMap c.put ++ rest) = _
  induction hi with
  | nil => rfl
  | @cons x d l ds hx _ ih =>
    rw [List.flatMap_cons, List.append_assoc]
    unfold getEach
    rw [h x d (hv x (by simp)) hx, Option.bind_some, ih (fun y hy => hv y (by simp [hy]))]
    rfl

theorem exact_vector {T : Type} {c : Codec T} {V : T → Prop} {I : T → T → Prop} (h : Exact c V I) (d : T) :
    Exact (vector c d) (fun l => Fits l.length ∧ ∀ x ∈ l, V x ∧ I x d) := by
  intro l _ hv _ rest
  unfold vector
  simp only []
  rw [List.append_assoc, exact_count _ _ hv.1 trivial, Option.bind_some]
  exact getMany_exact h d l rest (fun x hx => (hv.2 x hx).1) fun x hx => (hv.2 x hx).2

theorem exact_pair {A B : Type} {a : Codec A} {b : Codec B} {VA : A → Prop} {IA : A → A → Prop} {VB : B → Prop} {IB : B → B → Prop}
    (ha : Exact a VA IA) (hb : Exact b VB IB) :
    Exact (pair a b) (fun x => VA x.1 ∧ VB x.2) (fun x d => IA x.1 d.1 ∧ IB x.2 d.2) := by
  intro x d hv hi rest
  unfold pair
  rw [members_step (get_member ha x d hv.1 hi.1), members_step (get_member hb x (x.1, d.2) hv.2 hi.2)]
  rfl

theorem get_none_of_not_mem {K V : Type} [DecidableEq K] {m : AMap K V} {k : K} (h : k ∉ m.map Prod.fst) : m.get k = none := by
  unfold AMap.get
  rw [Option.map_eq_none_iff, List.find?_eq_none]
  intro e he
  simp only [decide_eq_true_eq]
  rintro rfl
  exact h (List.mem_map_of_mem he)

theorem insertAll_ok {K V : Type} [DecidableEq K] (l : List (K × V)) : ∀ m : AMap K V, AMap.Ok (m ++ l) → insertAll m l = m ++ l := by
  induction l with
  | nil => intro m _; simp [insertAll]
  | cons e l ih =>
    intro m h
    have hn : e.1 ∉ m.map Prod.fst := by
      unfold AMap.Ok at h
      rw [List.map_append, List.nodup_append] at h
      intro hm
      exact h.2.2 _ hm _ (by simp) rfl
    show insertAll (if (m.get e.1).isSome then m else m ++ [e]) l = _
    rw [get_none_of_not_mem hn]
    show insertAll (m ++ [e]) l = _
    rw [ih _ (by rwa [List.append_assoc]), List.append_assoc]
    rfl

theorem exact_map {K V : Type} [DecidableEq K] {k : Codec K} {v : Codec V} {VK : K → Prop} {VV : V → Prop}
    {IK : K → K → Prop} {IV : V → V → Prop} (hk : Exact k VK IK) (hv : Exact v VV IV) (dk : K) (dv : V) :
    Exact (map k v dk dv) fun m => AMap.Ok m ∧ Fits m.length ∧ ∀ e ∈ m, (VK e.1 ∧ VV e.2) ∧ (IK e.1 dk ∧ IV e.2 dv) := by
  intro m _ h _ rest
  unfold map
  simp only []
  rw [List.append_assoc, exact_count _ _ h.2.1 trivial, Option.bind_some]
  simp only []
  rw [getMany_exact (exact_pair hk hv) (dk, dv) m rest (fun x hx => (h.2.2 x hx).1) fun x hx => (h.2.2 x hx).2, Option.map_some,
    insertAll_ok _ _ (by simpa using h.1)]
  rfl

theorem insertElements_ok {K : Type} [DecidableEq K] (l : List K) : ∀ m : List K, (m ++ l).Nodup → l.foldl insertElement m = m ++ l := by
  induction l with
  | nil => intro m _; simp
  | cons e l ih =>
    intro m h
    have hn : e ∉ m := by
      rw [List.nodup_append] at h
      intro hm
      exact h.2.2 _ hm _ (by simp) rfl
    show l.foldl insertElement (insertElement m e) = _
    unfold insertElement
    rw [if_neg hn]
    have := ih (m ++ [e]) (by rwa [List.append_assoc])
    unfold insertElement at this
    rw [this, List.append_assoc]
    rfl

theorem exact_set {K : Type} [DecidableEq K] {k : Codec K} {VK : K → Prop} {IK : K → K → Prop} (hk : Exact k VK IK) (dk : K) :
    Exact (set k dk) fun m => m.Nodup ∧ Fits m.length ∧ ∀ e ∈ m, VK e ∧ IK e dk := by
  intro m _ h _ rest
  unfold set
  simp only []
  rw [List.append_assoc, exact_count _ _ h.2.1 trivial, Option.bind_some]
  simp only []
  rw [getMany_exact hk dk m rest (fun x hx => (h.2.2 x hx).1) fun x hx => (h.2.2 x hx).2, Option.map_some,
    insertElements_ok _ _ (by simpa using h.1)]
  rfl

end Lue.Wire

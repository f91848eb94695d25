import Verif.FieldApi.Spec
import Verif.PyOps.Properties

/-!
# C62: the API of fields
-/
namespace Lue.FieldApi

open Lue.LocalOp Lue.PyOps

variable {V : Type}

/-! ### Overload resolution -/

theorem resolve1 (op : Op1) (k : Kind) (t : Ty) :
    resolve (overloads1 op) [(k, t)] =
      if defined1 op t then .ok t else .error (.unsupported [(k, t)]) := by
  cases op <;> cases k <;> cases t <;> rfl

theorem deduce2 (cpt : Ty → Bool) (k k' l l' : Kind) (t t' : Ty) :
    Overload.deduce ⟨[⟨k, none⟩, ⟨k', none⟩], cpt⟩ [(l, t), (l', t')] =
      if k = l ∧ k' = l' ∧ t = t' ∧ cpt t = true then some t else none := by
  show (if _ then _ else _) = _
  simp only [List.length_cons, List.zip_cons_cons, List.zip_nil_left, List.all_cons, List.all_nil, Param.accepts,
    Bool.and_true, Bool.and_eq_true, decide_eq_true_eq, true_and]
  by_cases h : k = l ∧ k' = l' ∧ t = t' ∧ cpt t = true
  · rw [if_pos h, if_pos ⟨rfl, ⟨⟨h.1, trivial⟩, h.2.1, h.2.2.1.symm⟩, h.2.2.2⟩]
  · rw [if_neg h, if_neg (fun hc => h ⟨hc.2.1.1.1, hc.2.1.2.1, hc.2.1.2.2.symm, hc.2.2⟩)]

theorem resolve_all2 (cpt : Ty → Bool) (l l' : Kind) (t t' : Ty) :
    resolve (kinds.flatMap fun k => kinds.map fun k' => ⟨[⟨k, none⟩, ⟨k', none⟩], cpt⟩) [(l, t), (l', t')] =
      if t = t' ∧ cpt t = true then .ok t else .error (.unsupported [(l, t), (l', t')]) := by
  unfold resolve kinds
  simp only [List.flatMap_cons, List.flatMap_nil, List.map_cons, List.map_nil, List.cons_append, List.nil_append,
    List.append_nil, List.filterMap_cons, List.filterMap_nil, deduce2]
  by_cases h : t = t' ∧ cpt t = true
  · rw [if_pos h]
    cases l <;> cases l' <;>
      simp only [reduceCtorEq, true_and, false_and, and_false, if_false, if_pos h]
  · rw [if_neg h]
    cases l <;> cases l' <;>
      simp only [reduceCtorEq, true_and, false_and, and_false, if_false, if_neg h]

theorem concept2 (op : Op2) (t : Ty) : op.concept_ t = true ↔ defined2 op t := by
  cases op <;> cases t <;> decide

theorem resolve2 (op : Op2) (h : op ≠ .where2) (h' : op ≠ .atan2) (k k' : Kind) (t t' : Ty) :
    resolve (overloads2 op) [(k, t), (k', t')] =
      if t = t' ∧ defined2 op t then .ok t else .error (.unsupported [(k, t), (k', t')]) := by
  have e : overloads2 op = kinds.flatMap fun k => kinds.map fun k' => ⟨[⟨k, none⟩, ⟨k', none⟩], op.concept_⟩ := by
    cases op <;> first | exact absurd rfl h | exact absurd rfl h' | rfl
  rw [e, resolve_all2]
  by_cases hd : t = t' ∧ defined2 op t
  · rw [if_pos hd, if_pos ⟨hd.1, (concept2 op t).mpr hd.2⟩]
  · rw [if_neg hd, if_neg (fun hc => hd ⟨hc.1, (concept2 op t).mp hc.2⟩)]

theorem resolve_atan2 (k k' : Kind) (t t' : Ty) :
    resolve (overloads2 .atan2) [(k, t), (k', t')] =
      if k = .array ∧ k' = .array ∧ t = t' ∧ t.floating = true then .ok t
      else .error (.unsupported [(k, t), (k', t')]) := by
  cases k <;> cases k' <;> cases t <;> cases t' <;> rfl

theorem resolve_where2 (k k' : Kind) (t t' : Ty) :
    resolve (overloads2 .where2) [(k, t), (k', t')] =
      if k = .array ∧ t = .uint8 then .ok t' else .error (.unsupported [(k, t), (k', t')]) := by
  cases k <;> cases k' <;> cases t <;> cases t' <;> rfl

set_option maxHeartbeats 4000000 in
theorem resolve3 (k k' k'' : Kind) (t t' t'' : Ty) :
    resolve overloads3 [(k, t), (k', t'), (k'', t'')] =
      if k = .array ∧ t = .uint8 ∧ t' = t'' then .ok t' else .error (.unsupported [(k, t), (k', t'), (k'', t'')]) := by
  by_cases hk : k = .array ∧ t = .uint8
  · obtain ⟨rfl, rfl⟩ := hk
    cases k' <;> cases k'' <;> cases t' <;> cases t'' <;> rfl
  · rw [if_neg (fun h => hk ⟨h.1, h.2.1⟩)]
    have : ∀ o ∈ overloads3, o.deduce [(k, t), (k', t'), (k'', t'')] = none := by
      intro o ho
      unfold overloads3 at ho
      simp only [List.mem_flatMap, List.mem_map] at ho
      obtain ⟨a, _, b, _, rfl⟩ := ho
      unfold Overload.deduce candidate candidate
      simp only [Option.isNone_some, Option.isNone_none, if_true, if_false, Bool.false_eq_true]
      rw [if_neg]
      rintro ⟨_, h, _⟩
      simp only [List.zip_cons_cons, List.all_cons, Bool.and_eq_true, Param.accepts, decide_eq_true_eq] at h
      exact hk ⟨h.1.1.symm, h.1.2⟩
    unfold resolve
    have h0 : overloads3.filterMap (fun o => o.deduce [(k, t), (k', t'), (k'', t'')]) = [] := by
      rw [List.filterMap_eq_nil_iff]
      exact this
    rw [h0]

/-- C62: for none of the combinations of arguments, the choice of the overload is ambiguous. -/
theorem never_ambiguous (op1 : Op1) (op2 : Op2) (a b c : Kind × Ty) :
    resolve (overloads1 op1) [a] ≠ .error .ambiguous ∧ resolve (overloads2 op2) [a, b] ≠ .error .ambiguous ∧
      resolve overloads3 [a, b, c] ≠ .error .ambiguous := by
  obtain ⟨k, t⟩ := a
  obtain ⟨k', t'⟩ := b
  obtain ⟨k'', t''⟩ := c
  refine ⟨?_, ?_, ?_⟩
  · rw [resolve1]; split <;> simp
  · by_cases h : op2 = .where2
    · subst h; rw [resolve_where2]; split <;> simp
    · by_cases h' : op2 = .atan2
      · subst h'; rw [resolve_atan2]; split <;> simp
      · rw [resolve2 op2 h h']; split <;> simp
  · rw [resolve3]; split <;> simp

/-! ### Calls -/

theorem Denotes.type {g : Grid} {x : Fld V} {d : Den V} (h : Denotes g x d) :
    ∃ k, x.type = (k, d.ty) ∧ (k = .array ↔ d.rank = .array) := by
  cases h with
  | literal t v => exact ⟨.literal, rfl, by simp⟩
  | scalar t v => exact ⟨.scalar, rfl, by simp⟩
  | array t a u hg hr => exact ⟨.array, rfl, by simp⟩

theorem Denotes.arg {g : Grid} {x : Fld V} {d : Den V} (h : Denotes g x d) : ArgMeans g x.arg d.rank d.value := by
  cases h with
  | literal t v => exact .value v
  | scalar t v => exact .value v
  | array t a u hg hr => exact .array a u hg hr

theorem denotes_toField {g : Grid} {x : Arg V} {k : PyOps.Rank} {u : Nat → Nat → V} (h : ArgMeans g x k u) (t : Ty) :
    Denotes g (toField t x) ⟨k, t, u⟩ := by
  cases h with
  | value v => exact .scalar t v
  | array a u hg hr => exact .array t a u hg hr

theorem call1_ok (lib : Lib V) (op : Op1) (t : Ty) {g : Grid} {order : List Nat} (ho : IsOrder (g.n0 * g.n1) order)
    (garbage : Nat → V) {x : Arg V} {k : PyOps.Rank} {u : Nat → Nat → V} (hx : ArgMeans g x k u) :
    ∃ r, call1 lib op t order garbage x = .ok r ∧ ArgMeans g r k fun i j => lib.element1 op t (u i j) := by
  cases hx with
  | value v =>
    refine ⟨_, rfl, ?_⟩
    rw [scalar_spec]
    exact .value _
  | array a u hg hr =>
    obtain ⟨r, h1, h2, h3⟩ := unary_spec (lib.policies1 op t) (lib.functor1 op t) garbage hr (by rw [hg]; exact ho)
    refine ⟨.array r, ?_, .array r _ (by rw [h2, hg]) h3⟩
    simp only [call1, h1, M.bind_ok]

theorem call2_ok (lib : Lib V) (op : Op2) (t : Ty) {g : Grid} {order : List Nat} (ho : IsOrder (g.n0 * g.n1) order)
    (garbage : Nat → V) {x y : Arg V} {k k' : PyOps.Rank} {u u' : Nat → Nat → V} (hx : ArgMeans g x k u)
    (hy : ArgMeans g y k' u') :
    ∃ r, call2 lib op t order garbage x y = .ok r ∧
      ArgMeans g r (k.max k') fun i j =>
        (binarySpec (lib.pol2 op t) (lib.fun2 op t) (u i j) (u' i j)).getD (lib.pol2 op t).mark := by
  cases hx with
  | value v =>
    cases hy with
    | value w =>
      refine ⟨_, rfl, ?_⟩
      rw [scalar2_spec]
      exact .value _
    | array a u' hg hr =>
      obtain ⟨r, h1, h2, h3⟩ := binarySA_spec (lib.pol2 op t) (lib.fun2 op t) garbage v hr (by rw [hg]; exact ho)
      refine ⟨.array r, ?_, .array r _ (by rw [h2, hg]) h3⟩
      simp only [call2, h1, M.bind_ok]
  | array b u hg hr =>
    cases hy with
    | value w =>
      obtain ⟨r, h1, h2, h3⟩ := binaryAS_spec (lib.pol2 op t) (lib.fun2 op t) garbage hr w (by rw [hg]; exact ho)
      refine ⟨.array r, ?_, .array r _ (by rw [h2, hg]) h3⟩
      simp only [call2, h1, M.bind_ok]
    | array a u' hg' hr' =>
      obtain ⟨r, h1, h2, h3⟩ := binary_spec (lib.pol2 op t) (lib.fun2 op t) garbage hr hr' (by rw [hg, hg'])
        (by rw [hg]; exact ho)
      refine ⟨.array r, ?_, .array r _ (by rw [h2, hg]) h3⟩
      simp only [call2, h1, M.bind_ok]

theorem whereSpec_eq (lib : Lib V) (t : Ty) (c x y : V) :
    (whereSpec (lib.wherePolicies3 t).indp1 (lib.wherePolicies3 t).indp2 (lib.wherePolicies3 t).indp3 lib.truth c x y).getD
      (lib.wherePolicies3 t).mark = lib.select3 t c x y := by
  unfold whereSpec Lib.select3 Lib.wherePolicies3 booleanElement valid
  by_cases h1 : lib.noData .uint8 c <;> by_cases h2 : lib.truth c <;> by_cases h3 : lib.noData t x <;>
    by_cases h4 : lib.noData t y <;> simp [h1, h2, h3, h4]

theorem call3_ok (lib : Lib V) (t : Ty) {g : Grid} {order : List Nat} (ho : IsOrder (g.n0 * g.n1) order)
    (garbage : Nat → V) {c x y : Arg V} {k k' : PyOps.Rank} {w u u' : Nat → Nat → V} (hc : ArgMeans g c .array w)
    (hx : ArgMeans g x k u) (hy : ArgMeans g y k' u') :
    ∃ r, call3 lib t order garbage c x y = .ok r ∧
      ArgMeans g r .array fun i j => lib.select3 t (w i j) (u i j) (u' i j) := by
  have key : ∀ {a : PArr V} {v : Nat → Nat → V}, Represents a v → ∀ {v' : Nat → Nat → V}, v = v' → Represents a v' :=
    fun h _ e => e ▸ h
  cases hc with
  | array c w hg hr =>
    subst hg
    cases hx with
    | value v =>
      cases hy with
      | value v' =>
        obtain ⟨r, h1, h2, h3⟩ := array1_spec (wherePartitionASS_elementWise (lib.wherePolicies3 t) (fun _ _ _ => rfl) rfl
          lib.truth garbage v v') hr ho
        exact ⟨.array r, by simp only [call3, h1, M.bind_ok],
          .array r _ h2 (key h3 (funext fun i => funext fun j => whereSpec_eq lib t _ _ _))⟩
      | array a u' hg' hr' =>
        obtain ⟨r, h1, h2, h3⟩ := array2_spec (wherePartitionASA_elementWise (lib.wherePolicies3 t) (fun _ _ _ => rfl) rfl
          lib.truth garbage v) hr hr' hg' ho
        exact ⟨.array r, by simp only [call3, h1, M.bind_ok],
          .array r _ h2 (key h3 (funext fun i => funext fun j => whereSpec_eq lib t _ _ _))⟩
    | array b u hg hr' =>
      cases hy with
      | value v' =>
        obtain ⟨r, h1, h2, h3⟩ := array2_spec (wherePartitionAAS_elementWise (lib.wherePolicies3 t) (fun _ _ _ => rfl)
          lib.truth garbage v') hr hr' hg ho
        exact ⟨.array r, by simp only [call3, h1, M.bind_ok],
          .array r _ h2 (key h3 (funext fun i => funext fun j => whereSpec_eq lib t _ _ _))⟩
      | array a u' hg' hr'' =>
        obtain ⟨r, h1, h2, h3⟩ := array3_spec (wherePartition_elementWise (lib.wherePolicies3 t) (fun _ _ _ => rfl)
          lib.truth garbage) hr hr' hr'' hg hg' ho
        exact ⟨.array r, by simp only [call3, h1, M.bind_ok],
          .array r _ h2 (key h3 (funext fun i => funext fun j => whereSpec_eq lib t _ _ _))⟩

/-! ### Operations -/

theorem out1 (op : Op1) (t : Ty) : op.out t = if boolean1 op then .uint8 else t := by
  cases op <;> rfl

theorem out2 (op : Op2) (t : Ty) : op.out t = if boolean2 op then .uint8 else t := by
  cases op <;> rfl

/-- C62: a unary operation that is defined for the elements of a field -/
theorem api1_correct (lib : Lib V) {g : Grid} (s : Sched V) (ho : IsOrder (g.n0 * g.n1) s.order) (op : Op1) {x : Fld V}
    {d r : Den V} (hx : Denotes g x d) (hd : denote1 lib op d = some r) :
    ∃ f, api1 lib s op x = .ok f ∧ Denotes g f r := by
  unfold denote1 at hd
  split at hd
  case isFalse => simp at hd
  case isTrue h =>
    have := Option.some.inj hd
    subst this
    obtain ⟨k, hk, _⟩ := hx.type
    obtain ⟨y, h1, h2⟩ := call1_ok lib op d.ty ho s.garbage hx.arg
    refine ⟨toField (op.out d.ty) y, ?_, ?_⟩
    · unfold api1
      rw [hk, resolve1, if_pos h]
      show (passed (call1 lib op d.ty s.order s.garbage x.arg) >>= _) = _
      rw [h1]
      rfl
    · rw [← out1]
      exact denotes_toField h2 _

/-- C62: a unary operation that is not defined for the elements of a field throws an exception -/
theorem api1_unsupported (lib : Lib V) {g : Grid} (s : Sched V) (op : Op1) {x : Fld V} {d : Den V} (hx : Denotes g x d)
    (hd : denote1 lib op d = none) : api1 lib s op x = .error (.unsupported [x.type]) := by
  unfold denote1 at hd
  split at hd
  case isTrue => simp at hd
  case isFalse h =>
    obtain ⟨k, hk, _⟩ := hx.type
    unfold api1
    rw [hk, resolve1, if_neg h]
    rfl

/-- C62: a binary operation that is defined for the elements of fields -/
theorem api2_correct (lib : Lib V) {g : Grid} (s : Sched V) (ho : IsOrder (g.n0 * g.n1) s.order) (op : Op2) {x y : Fld V}
    {d1 d2 r : Den V} (hx : Denotes g x d1) (hy : Denotes g y d2) (hd : denote2 lib op d1 d2 = some r) :
    ∃ f, api2 lib s op x y = .ok f ∧ Denotes g f r := by
  obtain ⟨k, hk, hk2⟩ := hx.type
  obtain ⟨k', hk', hk2'⟩ := hy.type
  unfold denote2 at hd
  by_cases hw : op = .where2
  · subst hw
    rw [if_pos rfl] at hd
    split at hd
    case isFalse => simp at hd
    case isTrue h =>
      have := Option.some.inj hd
      subst this
      obtain ⟨z, h1, h2⟩ := call2_ok lib .where2 d2.ty ho s.garbage hx.arg hy.arg
      refine ⟨toField d2.ty z, ?_, ?_⟩
      · unfold api2
        rw [hk, hk', resolve_where2, if_pos ⟨hk2.mpr h.1, h.2⟩]
        show (passed (call2 lib .where2 d2.ty s.order s.garbage x.arg y.arg) >>= _) = _
        rw [h1]
        rfl
      · have e : d1.rank.max d2.rank = .array := by rw [h.1]; cases d2.rank <;> rfl
        have e2 : (fun i j => lib.select2 d2.ty (d1.value i j) (d2.value i j)) = fun i j =>
            (binarySpec (lib.pol2 .where2 d2.ty) (lib.fun2 .where2 d2.ty) (d1.value i j) (d2.value i j)).getD
              (lib.pol2 .where2 d2.ty).mark := by
          funext i j
          exact (where2_spec (lib.noData .uint8) (lib.noData d2.ty) lib.truth (lib.mark d2.ty) _ _).symm
        rw [← e, e2]
        exact denotes_toField h2 _
  · rw [if_neg hw] at hd
    split at hd
    case isFalse => simp at hd
    case isTrue h =>
      have := Option.some.inj hd
      subst this
      obtain ⟨z, h1, h2⟩ := call2_ok lib op d1.ty ho s.garbage hx.arg hy.arg
      have hp : lib.pol2 op d1.ty = lib.policies2 op d1.ty := by
        cases op <;> first | exact absurd rfl hw | rfl
      have hf : lib.fun2 op d1.ty = lib.functor2 op d1.ty := by
        cases op <;> first | exact absurd rfl hw | rfl
      rw [hp, hf] at h2
      refine ⟨toField (op.out d1.ty) z, ?_, ?_⟩
      · have hr : resolve (overloads2 op) [x.type, y.type] = .ok d1.ty := by
          rw [hk, hk']
          by_cases ha : op = .atan2
          · subst ha
            rw [resolve_atan2, if_pos]
            have := h.2.2 rfl
            exact ⟨hk2.mpr this.1, hk2'.mpr this.2, h.1, h.2.1.2 (by decide)⟩
          · rw [resolve2 op hw ha, if_pos ⟨h.1, h.2.1⟩]
        unfold api2
        rw [hr]
        show (passed (call2 lib op d1.ty s.order s.garbage x.arg y.arg) >>= _) = _
        rw [h1]
        rfl
      · rw [← out2]
        exact denotes_toField h2 _

/-- C62: a binary operation that is not defined for the fields passed in throws an exception. Nothing is converted. -/
theorem api2_unsupported (lib : Lib V) {g : Grid} (s : Sched V) (op : Op2) {x y : Fld V} {d1 d2 : Den V}
    (hx : Denotes g x d1) (hy : Denotes g y d2) (hd : denote2 lib op d1 d2 = none) :
    api2 lib s op x y = .error (.unsupported [x.type, y.type]) := by
  obtain ⟨k, hk, hk2⟩ := hx.type
  obtain ⟨k', hk', hk2'⟩ := hy.type
  have hr : resolve (overloads2 op) [x.type, y.type] = .error (.unsupported [x.type, y.type]) := by
    rw [hk, hk']
    unfold denote2 at hd
    by_cases hw : op = .where2
    · subst hw
      rw [if_pos rfl] at hd
      split at hd
      case isTrue => simp at hd
      case isFalse h => rw [resolve_where2, if_neg (fun hc => h ⟨hk2.mp hc.1, hc.2⟩)]
    · rw [if_neg hw] at hd
      split at hd
      case isTrue => simp at hd
      case isFalse h =>
        by_cases ha : op = .atan2
        · subst ha
          rw [resolve_atan2, if_neg]
          rintro ⟨ha, hb, hc, he⟩
          exact h ⟨hc, ⟨fun h => absurd h (by decide), fun _ => he⟩, fun _ => ⟨hk2.mp ha, hk2'.mp hb⟩⟩
        · rw [resolve2 op hw ha, if_neg (fun hc => h ⟨hc.1, hc.2, fun h => absurd h ha⟩)]
  unfold api2
  rw [hr]
  rfl

/-- C62: selection -/
theorem api3_correct (lib : Lib V) {g : Grid} (s : Sched V) (ho : IsOrder (g.n0 * g.n1) s.order) {c x y : Fld V}
    {d1 d2 d3 r : Den V} (hc : Denotes g c d1) (hx : Denotes g x d2) (hy : Denotes g y d3)
    (hd : denote3 lib d1 d2 d3 = some r) : ∃ f, api3 lib s c x y = .ok f ∧ Denotes g f r := by
  obtain ⟨k, hk, hk2⟩ := hc.type
  obtain ⟨k', hk', _⟩ := hx.type
  obtain ⟨k'', hk'', _⟩ := hy.type
  unfold denote3 at hd
  split at hd
  case isFalse => simp at hd
  case isTrue h =>
    have := Option.some.inj hd
    subst this
    have hca := hc.arg
    rw [h.1] at hca
    obtain ⟨z, h1, h2⟩ := call3_ok lib d2.ty ho s.garbage hca hx.arg hy.arg
    refine ⟨toField d2.ty z, ?_, denotes_toField h2 _⟩
    unfold api3
    rw [hk, hk', hk'', resolve3, if_pos ⟨hk2.mpr h.1, h.2⟩]
    show (passed (call3 lib d2.ty s.order s.garbage c.arg x.arg y.arg) >>= _) = _
    rw [h1]
    rfl

/-- C62: a selection that is not defined throws an exception -/
theorem api3_unsupported (lib : Lib V) {g : Grid} (s : Sched V) {c x y : Fld V} {d1 d2 d3 : Den V} (hc : Denotes g c d1)
    (hx : Denotes g x d2) (hy : Denotes g y d3) (hd : denote3 lib d1 d2 d3 = none) :
    api3 lib s c x y = .error (.unsupported [c.type, x.type, y.type]) := by
  obtain ⟨k, hk, hk2⟩ := hc.type
  obtain ⟨k', hk', _⟩ := hx.type
  obtain ⟨k'', hk'', _⟩ := hy.type
  unfold denote3 at hd
  split at hd
  case isTrue => simp at hd
  case isFalse h =>
    unfold api3
    rw [hk, hk', hk'', resolve3, if_neg (fun hc => h ⟨hk2.mp hc.1, hc.2⟩)]
    rfl

/-! ### Expressions -/

theorem oper2_eq (o : Oper2) : o.op = operation2 o := by cases o <;> rfl

theorem oper1_eq (o : Oper1) : o.op = operation1 o := by cases o <;> rfl

/-- What is known about the result of an expression that stands for `o`. -/
def Result (g : Grid) (r : Except ApiErr (Fld V)) : Option (Den V) → Prop
  | some d => ∃ f, r = .ok f ∧ Denotes g f d
  | none => ∃ types, r = .error (.unsupported types)

theorem result1 (lib : Lib V) {g : Grid} (s : Sched V) (ho : IsOrder (g.n0 * g.n1) s.order) (op : Op1)
    {r : Except ApiErr (Fld V)} {o : Option (Den V)} (h : Result g r o) :
    Result g (r >>= api1 lib s op) (o.bind (denote1 lib op)) := by
  cases o with
  | none => obtain ⟨ts, rfl⟩ := h; exact ⟨ts, rfl⟩
  | some d =>
    obtain ⟨f, rfl, hf⟩ := h
    show Result g (api1 lib s op f) (denote1 lib op d)
    cases hd : denote1 lib op d with
    | none => exact ⟨_, api1_unsupported lib s op hf hd⟩
    | some q => exact api1_correct lib s ho op hf hd

theorem result2 (lib : Lib V) {g : Grid} (s : Sched V) (ho : IsOrder (g.n0 * g.n1) s.order) (op : Op2)
    {r1 r2 : Except ApiErr (Fld V)} {o1 o2 : Option (Den V)} (h1 : Result g r1 o1) (h2 : Result g r2 o2) :
    Result g (r1 >>= fun x => r2 >>= fun y => api2 lib s op x y)
      (o1.bind fun d1 => o2.bind fun d2 => denote2 lib op d1 d2) := by
  cases o1 with
  | none => obtain ⟨ts, rfl⟩ := h1; exact ⟨ts, rfl⟩
  | some d1 =>
    obtain ⟨f1, rfl, hf1⟩ := h1
    cases o2 with
    | none => obtain ⟨ts, rfl⟩ := h2; exact ⟨ts, rfl⟩
    | some d2 =>
      obtain ⟨f2, rfl, hf2⟩ := h2
      show Result g (api2 lib s op f1 f2) (denote2 lib op d1 d2)
      cases hd : denote2 lib op d1 d2 with
      | none => exact ⟨_, api2_unsupported lib s op hf1 hf2 hd⟩
      | some q => exact api2_correct lib s ho op hf1 hf2 hd

/-- C62: every expression with fields, of which the arrays have the same partitioning, evaluates to what it stands for: the
value in each cell of the expression evaluated for the values in that cell. If one of the operations is not defined
for its arguments, an exception is thrown. This is the case for all orders in which the tasks of the operations complete. -/
theorem eval_correct {lib : Lib V} {g : Grid} {e : Expr V} {o : Option (Den V)} (h : Means lib g e o) :
    ∀ (s : List Nat → Sched V), (∀ p, IsOrder (g.n0 * g.n1) (s p).order) → Result g (eval lib s e) o := by
  induction h with
  | field h => intro s _; exact ⟨_, rfl, h⟩
  | call1 h ih =>
    intro s ho
    exact result1 lib (s []) (ho []) _ (ih (fun p => s (0 :: p)) fun p => ho _)
  | call2 h1 h2 ih1 ih2 =>
    intro s ho
    exact result2 lib (s []) (ho []) _ (ih1 (fun p => s (0 :: p)) fun p => ho _) (ih2 (fun p => s (1 :: p)) fun p => ho _)
  | oper1 h ih =>
    intro s ho
    rw [← oper1_eq]
    exact result1 lib (s []) (ho []) _ (ih (fun p => s (0 :: p)) fun p => ho _)
  | oper2 h1 h2 ih1 ih2 =>
    intro s ho
    rw [← oper2_eq]
    exact result2 lib (s []) (ho []) _ (ih1 (fun p => s (0 :: p)) fun p => ho _) (ih2 (fun p => s (1 :: p)) fun p => ho _)
  | @call3 e1 e2 e3 o1 o2 o3 h1 h2 h3 ih1 ih2 ih3 =>
    intro s ho
    have i1 := ih1 (fun p => s (0 :: p)) fun p => ho _
    have i2 := ih2 (fun p => s (1 :: p)) fun p => ho _
    have i3 := ih3 (fun p => s (2 :: p)) fun p => ho _
    have he : eval lib s (.call3 e1 e2 e3) = (eval lib (fun p => s (0 :: p)) e1 >>= fun c =>
        eval lib (fun p => s (1 :: p)) e2 >>= fun x => eval lib (fun p => s (2 :: p)) e3 >>= fun y =>
        api3 lib (s []) c x y) := rfl
    rw [he]
    cases o1 with
    | none => obtain ⟨ts, e⟩ := i1; exact ⟨ts, by rw [e]; rfl⟩
    | some d1 =>
      obtain ⟨f1, e1, hf1⟩ := i1
      cases o2 with
      | none => obtain ⟨ts, e⟩ := i2; exact ⟨ts, by rw [e1, e]; rfl⟩
      | some d2 =>
        obtain ⟨f2, e2, hf2⟩ := i2
        cases o3 with
        | none => obtain ⟨ts, e⟩ := i3; exact ⟨ts, by rw [e1, e2, e]; rfl⟩
        | some d3 =>
          obtain ⟨f3, e3, hf3⟩ := i3
          rw [e1, e2, e3]
          show Result g (api3 lib (s []) f1 f2 f3) (denote3 lib d1 d2 d3)
          cases hd : denote3 lib d1 d2 d3 with
          | none => exact ⟨_, api3_unsupported lib (s []) hf1 hf2 hf3 hd⟩
          | some q => exact api3_correct lib (s []) (ho []) hf1 hf2 hf3 hd

/-- The fields in an expression have a meaning. -/
def Expr.WellFormed (g : Grid) : Expr V → Prop
  | .field x => ∃ d, Denotes g x d
  | .call1 _ e | .oper1 _ e => e.WellFormed g
  | .call2 _ e1 e2 | .oper2 _ e1 e2 => e1.WellFormed g ∧ e2.WellFormed g
  | .call3 e1 e2 e3 => e1.WellFormed g ∧ e2.WellFormed g ∧ e3.WellFormed g

/-- C62: all such expressions have a meaning, so `eval_correct` is about all of them. -/
theorem means_total (lib : Lib V) (g : Grid) : ∀ (e : Expr V), e.WellFormed g → ∃ o, Means lib g e o
  | .field _, ⟨_, h⟩ => ⟨_, .field h⟩
  | .call1 _ e, h => let ⟨_, m⟩ := means_total lib g e h; ⟨_, .call1 m⟩
  | .oper1 _ e, h => let ⟨_, m⟩ := means_total lib g e h; ⟨_, .oper1 m⟩
  | .call2 _ e1 e2, ⟨h1, h2⟩ =>
    let ⟨_, m1⟩ := means_total lib g e1 h1
    let ⟨_, m2⟩ := means_total lib g e2 h2
    ⟨_, .call2 m1 m2⟩
  | .oper2 _ e1 e2, ⟨h1, h2⟩ =>
    let ⟨_, m1⟩ := means_total lib g e1 h1
    let ⟨_, m2⟩ := means_total lib g e2 h2
    ⟨_, .oper2 m1 m2⟩
  | .call3 e1 e2 e3, ⟨h1, h2, h3⟩ =>
    let ⟨_, m1⟩ := means_total lib g e1 h1
    let ⟨_, m2⟩ := means_total lib g e2 h2
    let ⟨_, m3⟩ := means_total lib g e3 h3
    ⟨_, .call3 m1 m2 m3⟩

/-! ### C -/

/-- The heap contains the fields that handles refer to, each with an instance of its own, and nothing else. -/
structure Holds (h : Heap V) (σ : Nat → Option (Fld V)) (inst : Nat → Nat) : Prop where
  handle : ∀ a f, σ a = some f → h.mem a = some (.handle (inst a)) ∧ h.mem (inst a) = some (.inst f)
  only : ∀ a c, h.mem a = some c → σ a ≠ none ∨ ∃ b, σ b ≠ none ∧ inst b = a
  inj : ∀ a b, σ a ≠ none → σ b ≠ none → inst a = inst b → a = b
  bound : ∀ a c, h.mem a = some c → a < h.next

theorem Holds.deref {h : Heap V} {σ : Nat → Option (Fld V)} {inst : Nat → Nat} (H : Holds h σ inst) (a : Nat) (f : Fld V) :
    h.deref (some a) = .ok f ↔ σ a = some f := by
  constructor
  · intro hd
    unfold Heap.deref at hd
    cases hm : h.mem a with
    | none => simp [hm] at hd
    | some c =>
      cases c with
      | inst f' => simp [hm] at hd
      | handle i =>
        cases hs : σ a with
        | some f' =>
          obtain ⟨h1, h2⟩ := H.handle a f' hs
          rw [h1] at hm
          have : inst a = i := by simpa using hm
          subst this
          simp only [h1, h2] at hd
          rw [Except.ok.inj hd]
        | none =>
          rcases H.only a _ hm with h1 | ⟨b, h1, h2⟩
          · exact absurd hs h1
          · cases hb : σ b with
            | none => exact absurd hb h1
            | some f' =>
              obtain ⟨_, h3⟩ := H.handle b f' hb
              rw [h2, hm] at h3
              simp at h3
  · intro hs
    obtain ⟨h1, h2⟩ := H.handle a f hs
    unfold Heap.deref
    simp only [h1, h2]

theorem Holds.newField {h : Heap V} {σ : Nat → Option (Fld V)} {inst : Nat → Nat} (H : Holds h σ inst) (f : Fld V) :
    Holds (h.newField f).1 (fun a => if a = h.next + 1 then some f else σ a)
      (fun a => if a = h.next + 1 then h.next else inst a) := by
  have hs : ∀ a, σ a ≠ none → a < h.next ∧ inst a < h.next := by
    intro a ha
    cases hb : σ a with
    | none => exact absurd hb ha
    | some f' =>
      obtain ⟨h1, h2⟩ := H.handle a f' hb
      exact ⟨H.bound _ _ h1, H.bound _ _ h2⟩
  have hm : ∀ a, (h.newField f).1.mem a = if a = h.next + 1 then some (.handle h.next) else if a = h.next then some (.inst f)
      else h.mem a := fun a => rfl
  constructor
  · intro a f' ha
    by_cases e : a = h.next + 1
    · rw [if_pos e] at ha
      have := Option.some.inj ha
      subst this
      rw [if_pos e, hm, if_pos e, hm, if_neg (by omega), if_pos rfl]
      exact ⟨rfl, rfl⟩
    · rw [if_neg e] at ha
      have hb := hs a (by rw [ha]; simp)
      rw [if_neg e, hm, hm, if_neg e, if_neg (by omega), if_neg (by omega), if_neg (by omega)]
      exact H.handle a f' ha
  · intro a c ha
    rw [hm] at ha
    by_cases e : a = h.next + 1
    · exact .inl (by rw [if_pos e]; simp)
    · rw [if_neg e] at ha
      by_cases e' : a = h.next
      · exact .inr ⟨h.next + 1, by simp, by rw [if_pos rfl, e']⟩
      · rw [if_neg e'] at ha
        rcases H.only a c ha with h1 | ⟨b, h1, h2⟩
        · exact .inl (by rw [if_neg e]; exact h1)
        · have hb := hs b h1
          exact .inr ⟨b, by rw [if_neg (by omega)]; exact h1, by rw [if_neg (by omega)]; exact h2⟩
  · intro a b ha hb hab
    by_cases e : a = h.next + 1
    · by_cases e' : b = h.next + 1
      · rw [e, e']
      · rw [if_neg e'] at hb
        have := hs b hb
        rw [if_pos e, if_neg e'] at hab
        omega
    · rw [if_neg e] at ha
      have := hs a ha
      by_cases e' : b = h.next + 1
      · rw [if_neg e, if_pos e'] at hab
        omega
      · rw [if_neg e'] at hb
        rw [if_neg e, if_neg e'] at hab
        exact H.inj a b ha hb hab
  · intro a c ha
    show a < h.next + 1 + 1
    rw [hm] at ha
    by_cases e : a = h.next + 1
    · omega
    · rw [if_neg e] at ha
      by_cases e' : a = h.next
      · omega
      · rw [if_neg e'] at ha
        have := H.bound a c ha
        omega

theorem Holds.destruct {h h' : Heap V} {σ : Nat → Option (Fld V)} {inst : Nat → Nat} (H : Holds h σ inst) {a : Nat}
    (hd : h.destruct (some a) = .ok h') : Holds h' (fun b => if b = a then none else σ b) inst := by
  unfold Heap.destruct at hd
  cases hm : h.mem a with
  | none => simp [hm] at hd
  | some c =>
    cases c with
    | inst f' => simp [hm] at hd
    | handle i =>
      simp only [hm] at hd
      cases hi : h.mem i with
      | none => simp [hi] at hd
      | some c =>
        cases c with
        | handle _ => simp [hi] at hd
        | inst f =>
          simp only [hi] at hd
          have := Except.ok.inj hd
          subst this
          have hs : σ a = some f := (H.deref a f).mp (by unfold Heap.deref; simp only [hm, hi])
          have hia : inst a = i := by
            have := (H.handle a f hs).1
            rw [hm] at this
            simpa using this.symm
          have hmem : ∀ b, ((h.free i).free a).mem b = if b = a then none else if b = i then none else h.mem b := fun b => rfl
          constructor
          · intro b f' hb
            by_cases e : b = a
            · rw [if_pos e] at hb; simp at hb
            · rw [if_neg e] at hb
              obtain ⟨h1, h2⟩ := H.handle b f' hb
              have e1 : b ≠ i := by rintro rfl; rw [hi] at h1; simp at h1
              have e2 : inst b ≠ a := by intro e2; rw [e2, hm] at h2; simp at h2
              have e3 : inst b ≠ i := fun e3 => e (H.inj b a (by rw [hb]; simp) (by rw [hs]; simp) (by rw [e3, hia]))
              rw [hmem, hmem, if_neg e, if_neg e1, if_neg e2, if_neg e3]
              exact ⟨h1, h2⟩
          · intro b c hb
            rw [hmem] at hb
            by_cases e : b = a
            · rw [if_pos e] at hb; simp at hb
            · rw [if_neg e] at hb
              by_cases e' : b = i
              · rw [if_pos e'] at hb; simp at hb
              · rw [if_neg e'] at hb
                rcases H.only b c hb with h1 | ⟨d, h1, h2⟩
                · exact .inl (by rw [if_neg e]; exact h1)
                · refine .inr ⟨d, ?_, h2⟩
                  rw [if_neg]
                  · exact h1
                  · rintro rfl
                    exact e' (by rw [← h2, hia])
          · intro b d hb hd' hbd
            have e1 : b ≠ a := by intro e; rw [if_pos e] at hb; exact hb rfl
            have e2 : d ≠ a := by intro e; rw [if_pos e] at hd'; exact hd' rfl
            rw [if_neg e1] at hb
            rw [if_neg e2] at hd'
            exact H.inj b d hb hd' hbd
          · intro b c hb
            rw [hmem] at hb
            show b < h.next
            by_cases e : b = a
            · rw [if_pos e] at hb; simp at hb
            · rw [if_neg e] at hb
              by_cases e' : b = i
              · rw [if_pos e'] at hb; simp at hb
              · rw [if_neg e'] at hb
                exact H.bound b c hb

theorem bind_eq_ok {α β ε : Type} {x : Except ε α} {f : α → Except ε β} {y : β} (h : (x >>= f) = .ok y) :
    ∃ a, x = .ok a ∧ f a = .ok y := by
  cases x with
  | error e => cases h
  | ok a => exact ⟨a, rfl, h⟩

/-- What a call does with the heap: it adds a field, it removes one, or it does nothing. -/
theorem ccall_heap {lib : Lib V} {s : Sched V} {h h' : Heap V} {c : CCall} {r : Option Nat}
    (hc : ccall lib s h c = .ok (h', r)) :
    (∃ f, h' = (h.newField f).1 ∧ r = some (h.next + 1) ∧ ∀ p, c ≠ .destruct p) ∨
    (∃ a, c = .destruct (some a) ∧ h.destruct (some a) = .ok h' ∧ r = none) ∨
    (c = .destruct none ∧ h' = h ∧ r = none) := by
  cases c with
  | call1 op p =>
    obtain ⟨x, _, hc⟩ := bind_eq_ok hc
    obtain ⟨f, _, hc⟩ := bind_eq_ok hc
    have := Except.ok.inj hc
    refine .inl ⟨f, (congrArg Prod.fst this).symm, (congrArg Prod.snd this).symm, by simp⟩
  | call2 op p q =>
    obtain ⟨x, _, hc⟩ := bind_eq_ok hc
    obtain ⟨y, _, hc⟩ := bind_eq_ok hc
    obtain ⟨f, _, hc⟩ := bind_eq_ok hc
    have := Except.ok.inj hc
    refine .inl ⟨f, (congrArg Prod.fst this).symm, (congrArg Prod.snd this).symm, by simp⟩
  | where_ p q t =>
    obtain ⟨f, _, hc⟩ := bind_eq_ok hc
    have := Except.ok.inj hc
    refine .inl ⟨f, (congrArg Prod.fst this).symm, (congrArg Prod.snd this).symm, by simp⟩
  | destruct p =>
    obtain ⟨h1, hd, hc⟩ := bind_eq_ok hc
    have := Except.ok.inj hc
    have e1 : h1 = h' := congrArg Prod.fst this
    have e2 : none = r := congrArg Prod.snd this
    subst e1 e2
    cases p with
    | none => exact .inr (.inr ⟨rfl, (Except.ok.inj hd).symm, rfl⟩)
    | some a => exact .inr (.inl ⟨a, rfl, hd, rfl⟩)

theorem Reach.holds {lib : Lib V} {h : Heap V} (hr : Reach lib h) : ∃ σ inst, Holds h σ inst := by
  induction hr with
  | start n => exact ⟨fun _ => none, fun _ => 0, by simp, by simp, by simp, by simp⟩
  | obtain_ _ f ih => obtain ⟨σ, inst, H⟩ := ih; exact ⟨_, _, H.newField f⟩
  | call _ s c r hc ih =>
    obtain ⟨σ, inst, H⟩ := ih
    rcases ccall_heap hc with ⟨f, rfl, _⟩ | ⟨a, rfl, hd, _⟩ | ⟨rfl, rfl, _⟩
    · exact ⟨_, _, H.newField f⟩
    · exact ⟨_, _, H.destruct hd⟩
    · exact ⟨_, _, H⟩

/-- C62: a call of an operation on fields returns a handle, not in use before, to the result of the operation. -/
theorem ccall_result {lib : Lib V} {h : Heap V} (hr : Reach lib h) (s : Sched V) (op1 : Op1) (op2 : Op2) {a b c : Nat}
    {x y z f : Fld V} (ha : h.deref (some a) = .ok x) (hb : h.deref (some b) = .ok y) (hc : h.deref (some c) = .ok z) :
    (api1 lib s op1 x = .ok f → ∃ h' n, ccall lib s h (.call1 op1 (some a)) = .ok (h', some n) ∧
      h'.deref (some n) = .ok f ∧ h.mem n = none) ∧
    (api2 lib s op2 x y = .ok f → ∃ h' n, ccall lib s h (.call2 op2 (some a) (some b)) = .ok (h', some n) ∧
      h'.deref (some n) = .ok f ∧ h.mem n = none) ∧
    (api2 lib s .where2 x y = .ok f → ∃ h' n, ccall lib s h (.where_ (some a) (some b) none) = .ok (h', some n) ∧
      h'.deref (some n) = .ok f ∧ h.mem n = none) ∧
    (api3 lib s x y z = .ok f → ∃ h' n, ccall lib s h (.where_ (some a) (some b) (some c)) = .ok (h', some n) ∧
      h'.deref (some n) = .ok f ∧ h.mem n = none) := by
  obtain ⟨σ, inst, H⟩ := hr.holds
  have hnew : ((h.newField f).1.deref (some (h.next + 1)) = .ok f) ∧ h.mem (h.next + 1) = none := by
    constructor
    · exact ((H.newField f).deref _ _).mpr (if_pos rfl)
    · cases hm : h.mem (h.next + 1) with
      | none => rfl
      | some c => have := H.bound _ _ hm; omega
  refine ⟨fun hf => ⟨_, _, ?_, hnew⟩, fun hf => ⟨_, _, ?_, hnew⟩, fun hf => ⟨_, _, ?_, hnew⟩, fun hf => ⟨_, _, ?_, hnew⟩⟩
  · show (h.deref (some a) >>= fun x => rethrown (api1 lib s op1 x) >>= _) = _
    rw [ha]
    show (rethrown (api1 lib s op1 x) >>= _) = _
    rw [hf]
    rfl
  · show (h.deref (some a) >>= fun x => h.deref (some b) >>= fun y => rethrown (api2 lib s op2 x y) >>= _) = _
    rw [ha, hb]
    show (rethrown (api2 lib s op2 x y) >>= _) = _
    rw [hf]
    rfl
  · show ((h.deref (some a) >>= fun x => h.deref (some b) >>= fun y => rethrown (api2 lib s .where2 x y)) >>= _) = _
    rw [ha, hb]
    show (rethrown (api2 lib s .where2 x y) >>= _) = _
    rw [hf]
    rfl
  · show ((h.deref (some a) >>= fun x => h.deref (some b) >>= fun y => h.deref (some c) >>= fun z =>
      rethrown (api3 lib s x y z)) >>= _) = _
    rw [ha, hb, hc]
    show (rethrown (api3 lib s x y z) >>= _) = _
    rw [hf]
    rfl

/-- C62: the field a handle refers to is not affected by calls, until the handle is destructed. This includes the calls
with the field as argument, and the destruction of fields it has been computed from. -/
theorem handle_stable {lib : Lib V} {h h' : Heap V} {cs : List CCall} (hs : Steps lib h cs h') (hr : Reach lib h) {a : Nat}
    {f : Fld V} (ha : h.deref (some a) = .ok f) (hcs : CCall.destruct (some a) ∉ cs) : h'.deref (some a) = .ok f := by
  induction hs with
  | nil h => exact ha
  | @cons h h1 h2 s c cs r hc _ ih =>
    refine ih (.call hr s c r hc) ?_ (fun h => hcs (List.mem_cons_of_mem _ h))
    obtain ⟨σ, inst, H⟩ := hr.holds
    have hσ := (H.deref a f).mp ha
    rcases ccall_heap hc with ⟨f', rfl, _⟩ | ⟨b, rfl, hd, _⟩ | ⟨rfl, rfl, _⟩
    · refine ((H.newField f').deref a f).mpr ?_
      have := H.bound _ _ (H.handle a f hσ).1
      rw [if_neg (by omega)]
      exact hσ
    · refine ((H.destruct hd).deref a f).mpr ?_
      rw [if_neg]
      · exact hσ
      · rintro rfl
        exact hcs List.mem_cons_self
    · exact ha

/-- C62: destructing a field is possible for all handles that refer to a field, and the handle does not refer to it
afterwards. -/
theorem destruct_ok {lib : Lib V} {h : Heap V} (hr : Reach lib h) (s : Sched V) {a : Nat} {f : Fld V}
    (ha : h.deref (some a) = .ok f) :
    ∃ h', ccall lib s h (.destruct (some a)) = .ok (h', none) ∧ ∀ f', h'.deref (some a) ≠ .ok f' := by
  obtain ⟨σ, inst, H⟩ := hr.holds
  obtain ⟨h1, h2⟩ := H.handle a f ((H.deref a f).mp ha)
  have hd : h.destruct (some a) = .ok ((h.free (inst a)).free a) := by
    unfold Heap.destruct
    simp only [h1, h2]
  refine ⟨(h.free (inst a)).free a, ?_, fun f' hf => ?_⟩
  · show (h.destruct (some a) >>= _) = _
    rw [hd]
    rfl
  · have := ((H.destruct hd).deref a f').mp hf
    rw [if_pos rfl] at this
    simp at this

/-- C62: no memory leaks: once all fields have been destructed, nothing is left on the heap. -/
theorem no_leak {lib : Lib V} {h : Heap V} (hr : Reach lib h) (hd : ∀ a f, h.deref (some a) ≠ .ok f) :
    ∀ a, h.mem a = none := by
  obtain ⟨σ, inst, H⟩ := hr.holds
  have hσ : ∀ a, σ a = none := by
    intro a
    cases hs : σ a with
    | none => rfl
    | some f => exact absurd ((H.deref a f).mpr hs) (hd a f)
  intro a
  cases hm : h.mem a with
  | none => rfl
  | some c =>
    rcases H.only a c hm with h1 | ⟨b, h1, _⟩
    · exact absurd (hσ a) h1
    · exact absurd (hσ b) h1

/-! ### A concrete case -/

/-- Elements are integral numbers, no-data is 255. -/
def exLib : Lib Int where
  policies1 op _ := ⟨fun x => x == 255, fun _ => true, fun _ _ => true, if op = .valid then 0 else 255⟩
  functor1 op _ x :=
    match op with
    | .negate => -x
    | .logicalNot => if x = 0 then 1 else 0
    | .valid => 1
    | _ => x
  policies2 _ _ := ⟨fun x => x == 255, fun x => x == 255, fun _ _ => true, fun _ _ _ => true, 255⟩
  functor2 op _ x y :=
    match op with
    | .add => x + y
    | .lessThan => if x < y then 1 else 0
    | _ => x
  noData _ x := x == 255
  mark _ := 255
  truth x := x != 0

def exSched : Sched Int := ⟨[1, 0], fun _ => -7⟩

/-- What a result looks like, for comparing. -/
def shown : Except ApiErr (Fld Int) → Option (Kind × Ty × List (List Int))
  | .ok (.array t a) => some (.array, t, a.parts)
  | .ok (.scalar t v) => some (.scalar, t, [[v]])
  | .ok (.literal t v) => some (.literal, t, [[v]])
  | .error _ => none

/-- `where(a < 3, a + a, -a)` for an array of two partitions, with no-data in the last cell -/
def exExpr : Expr Int :=
  let a : Expr Int := .field (.array .int32 (exArray [[1, 2], [3, 255]]))
  .call3 (.oper2 .lt a (.field (.literal .int32 3))) (.oper2 .plus a a) (.oper1 .minus a)

example : shown (eval exLib (fun _ => exSched) exExpr) = some (.array, .int32, [[2, 4], [-3, 255]]) := by decide

/-- The element types differ: a literal is not converted. -/
example : eval exLib (fun _ => exSched) (.oper2 .plus (.field (.array .float32 (exArray [[1, 2], [3, 4]])))
    (.field (.literal .float64 3))) = .error (.unsupported [(.array, .float32), (.literal, .float64)]) := rfl

/-- The result of two literals is a scalar. -/
example : shown (eval exLib (fun _ => exSched) (.oper2 .plus (.field (.literal .int32 2)) (.field (.literal .int32 3)))) =
    some (.scalar, .int32, [[5]]) := by decide

example (a : PArr Int) (u : Nat → Nat → Int) (h : Represents a u) (s : List Nat → Sched Int)
    (ho : ∀ p, IsOrder (a.grid.n0 * a.grid.n1) (s p).order) :
    ∃ f, eval exLib s (.oper1 .bang (.oper2 .lt (.field (.array .int32 a)) (.field (.literal .int32 3)))) = .ok f ∧
      Denotes a.grid f ⟨.array, .uint8, fun i j => exLib.element1 .logicalNot .uint8
        (exLib.element2 .lessThan .int32 (u i j) 3)⟩ := by
  have := eval_correct (lib := exLib)
    (.oper1 (o := .bang) (.oper2 (o := .lt) (.field (.array .int32 a u rfl h)) (.field (.literal .int32 3)))) s ho
  exact this

/-- A C program: a field is obtained, added to itself, and both fields are destructed. -/
example : ∃ h1 h2 h3 : Heap Int,
    ccall exLib exSched ((⟨fun _ => none, 0⟩ : Heap Int).newField (.scalar .int32 4)).1 (.call2 .add (some 1) (some 1)) =
      .ok (h1, some 3) ∧
    ccall exLib exSched h1 (.destruct (some 1)) = .ok (h2, none) ∧
    shown (match h2.deref (some 3) with | .ok f => .ok f | .error _ => .error .failed) = some (.scalar, .int32, [[8]]) ∧
    ccall exLib exSched h2 (.destruct (some 3)) = .ok (h3, none) ∧ ∀ a, a < 10 → h3.mem a = none :=
  ⟨_, _, _, rfl, rfl, by decide, rfl, by decide⟩

/-- Using a handle after it has been destructed is undefined. -/
example : ccall exLib exSched (⟨fun _ => none, 0⟩ : Heap Int) (.call1 .negate (some 1)) = .error .undefined := rfl

end Lue.FieldApi

import Verif.LueCalls.Spec

/-!
# The dependencies of calls
-/
namespace Lue.LueCalls

/-- The number of calls of a kind, before call `c` -/
def rank (calls : List Call) (w : Bool) (c : Nat) : Nat := ((calls.take c).filter fun x => x.write == w).length

/-- Call `d` is the last one of its kind, before call `c`. -/
def Latest (calls : List Call) (w : Bool) (c d : Nat) : Prop :=
  d < c ∧ Kind calls d w ∧ ∀ e, d < e → e < c → ¬ Kind calls e w

theorem rank_zero (calls : List Call) (w : Bool) : rank calls w 0 = 0 := by simp [rank]

theorem rank_succ {calls : List Call} {c : Nat} {call : Call} (h : calls[c]? = some call) (w : Bool) :
    rank calls w (c + 1) = rank calls w c + if call.write = w then 1 else 0 := by
  unfold rank
  rw [List.take_succ, h]
  simp only [Option.toList_some, List.filter_append, List.length_append]
  by_cases hw : call.write = w <;> simp [hw]

theorem rank_succ_kind {calls : List Call} {c : Nat} {w : Bool} (h : Kind calls c w) :
    rank calls w (c + 1) = rank calls w c + 1 := by
  obtain ⟨call, hc, hw⟩ := h
  rw [rank_succ hc, if_pos hw]

theorem rank_mono (calls : List Call) (w : Bool) {c d : Nat} (h : c ≤ d) : rank calls w c ≤ rank calls w d := by
  unfold rank
  exact List.Sublist.length_le (List.Sublist.filter _ (List.take_sublist_take_left h))

theorem rank_lt {calls : List Call} {w : Bool} {c d : Nat} (h : Kind calls c w) (hd : c < d) :
    rank calls w c < rank calls w d := by
  have := rank_mono calls w (c := c + 1) (d := d) hd
  have := rank_succ_kind h
  omega

theorem rank_inj {calls : List Call} {w : Bool} {c d : Nat} (hc : Kind calls c w) (hd : Kind calls d w)
    (h : rank calls w c = rank calls w d) : c = d := by
  rcases Nat.lt_trichotomy c d with h1 | h1 | h1
  · have := rank_lt hc h1; omega
  · exact h1
  · have := rank_lt hd h1; omega

theorem exists_rank {calls : List Call} {w : Bool} : ∀ {c k : Nat}, c ≤ calls.length → k < rank calls w c →
    ∃ d, d < c ∧ Kind calls d w ∧ rank calls w d = k
  | 0, k, _, h => by rw [rank_zero] at h; omega
  | c + 1, k, hl, h => by
    have hc : calls[c]? = some calls[c] := List.getElem?_eq_getElem (by omega)
    by_cases hk : k < rank calls w c
    · obtain ⟨d, h1, h2, h3⟩ := exists_rank (c := c) (by omega) hk
      exact ⟨d, by omega, h2, h3⟩
    · rw [rank_succ hc] at h
      by_cases hw : calls[c].write = w
      · rw [if_pos hw] at h
        exact ⟨c, by omega, ⟨_, hc, hw⟩, by omega⟩
      · rw [if_neg hw] at h; omega

theorem Kind.lt {calls : List Call} {c : Nat} {w : Bool} (h : Kind calls c w) : c < calls.length := by
  obtain ⟨call, hc, _⟩ := h
  exact (List.getElem?_eq_some_iff.mp hc).1

theorem latest_iff {calls : List Call} {w : Bool} {c d : Nat} (hl : c ≤ calls.length) :
    Latest calls w c d ↔ d < c ∧ Kind calls d w ∧ rank calls w d + 1 = rank calls w c := by
  constructor
  · rintro ⟨h1, h2, h3⟩
    refine ⟨h1, h2, ?_⟩
    by_contra hne
    have hlt := rank_lt h2 h1
    obtain ⟨e, he1, he2, he3⟩ := exists_rank (w := w) hl (k := rank calls w d + 1) (by omega)
    refine h3 e ?_ he1 he2
    by_contra hle
    have := rank_mono calls w (c := e) (d := d) (by omega)
    omega
  · rintro ⟨h1, h2, h3⟩
    refine ⟨h1, h2, fun e he1 he2 he3 => ?_⟩
    have := rank_lt h2 he1
    have := rank_lt he3 he2
    omega

/-- What the counts and futures in the root locality contain, after `n` calls. -/
structure RootOk (calls : List Call) (n : Nat) (r : Root) : Prop where
  cntTo : r.toCount = rank calls true n
  cntFrom : r.fromCount = rank calls false n
  toGet : ∀ k d, 0 < k → (r.toFinished.get k = some d ↔ d < n ∧ Kind calls d true ∧ rank calls true d + 1 = k)
  fromGet : ∀ k d, 0 < k → (r.fromFinished.get k = some d ↔ d < n ∧ Kind calls d false ∧ rank calls false d + 1 = k)

theorem rootOk_init (calls : List Call) : RootOk calls 0 Root.init :=
  ⟨by simp [Root.init, rank_zero], by simp [Root.init, rank_zero], by simp [Root.init, AMap.get_nil],
    by simp [Root.init, AMap.get_nil]⟩

/-- What a call determines. -/
structure InfoOk (threadSafe : Bool) (calls : List Call) (c : Nat) (call : Call) (info : Info) : Prop where
  order : info.order = rank calls call.write c + 1
  other : info.other = rank calls (!call.write) c
  deps : ∀ d, d ∈ info.deps ↔ Latest calls true c d ∨ ((call.write = true ∨ threadSafe = false) ∧ Latest calls false c d)

theorem callFinished_ok {calls : List Call} {n : Nat} {w : Bool} {m : AMap Nat Nat} (hn : n ≤ calls.length)
    (hm : ∀ k d, 0 < k → (m.get k = some d ↔ d < n ∧ Kind calls d w ∧ rank calls w d + 1 = k)) :
    ∃ l, callFinished m (rank calls w n) = some l ∧ ∀ d, d ∈ l ↔ Latest calls w n d := by
  unfold callFinished
  by_cases h0 : rank calls w n > 0
  · rw [if_pos h0]
    obtain ⟨d, hd1, hd2, hd3⟩ := exists_rank (w := w) hn (k := rank calls w n - 1) (by omega)
    have hg := (hm (rank calls w n) d h0).mpr ⟨hd1, hd2, by omega⟩
    refine ⟨[d], by rw [hg]; rfl, fun e => ?_⟩
    rw [latest_iff hn]
    simp only [List.mem_singleton]
    constructor
    · rintro rfl; exact ⟨hd1, hd2, by omega⟩
    · rintro ⟨he1, he2, he3⟩
      exact rank_inj he2 hd2 (by omega)
  · rw [if_neg h0]
    refine ⟨[], rfl, fun e => ?_⟩
    rw [latest_iff hn]
    simp; intro _ _; omega

theorem get_put_ok {calls : List Call} {n : Nat} {w : Bool} {m : AMap Nat Nat} (hk : Kind calls n w)
    (hm : ∀ k d, 0 < k → (m.get k = some d ↔ d < n ∧ Kind calls d w ∧ rank calls w d + 1 = k)) (k d : Nat) (h : 0 < k) :
    (m.put (rank calls w n + 1) n).get k = some d ↔ d < n + 1 ∧ Kind calls d w ∧ rank calls w d + 1 = k := by
  rw [AMap.get_put]
  by_cases he : rank calls w n + 1 = k
  · rw [if_pos he]
    simp only [Option.some.injEq]
    constructor
    · rintro rfl; exact ⟨by omega, hk, he⟩
    · rintro ⟨_, h2, h3⟩
      exact rank_inj hk h2 (by omega)
  · rw [if_neg he, hm k d h]
    constructor
    · rintro ⟨h1, h2, h3⟩; exact ⟨by omega, h2, h3⟩
    · rintro ⟨h1, h2, h3⟩
      refine ⟨?_, h2, h3⟩
      by_contra hnot
      have : d = n := by omega
      subst this; exact he h3

theorem get_keep_ok {calls : List Call} {n : Nat} {w : Bool} {m : AMap Nat Nat} (hk : ¬ Kind calls n w)
    (hm : ∀ k d, 0 < k → (m.get k = some d ↔ d < n ∧ Kind calls d w ∧ rank calls w d + 1 = k)) (k d : Nat) (h : 0 < k) :
    m.get k = some d ↔ d < n + 1 ∧ Kind calls d w ∧ rank calls w d + 1 = k := by
  rw [hm k d h]
  constructor
  · rintro ⟨h1, h2, h3⟩; exact ⟨by omega, h2, h3⟩
  · rintro ⟨h1, h2, h3⟩
    refine ⟨?_, h2, h3⟩
    by_contra hnot
    have : d = n := by omega
    subst this; exact hk h2

theorem register_ok {threadSafe : Bool} {calls : List Call} {n : Nat} {r : Root} {call : Call} (h : RootOk calls n r)
    (hc : calls[n]? = some call) :
    ∃ info r', register threadSafe r n call = some (info, r') ∧ InfoOk threadSafe calls n call info ∧ RootOk calls (n + 1) r' := by
  have hn : n ≤ calls.length := by have := (List.getElem?_eq_some_iff.mp hc).1; omega
  obtain ⟨lt, hlt, hlt'⟩ := callFinished_ok hn h.toGet
  obtain ⟨lf, hlf, hlf'⟩ := callFinished_ok hn h.fromGet
  cases hw : call.write with
  | true =>
    refine ⟨⟨lt ++ lf, rank calls true n + 1, rank calls false n⟩,
      { r with toCount := rank calls true n + 1, toFinished := r.toFinished.put (rank calls true n + 1) n }, ?_, ?_, ?_⟩
    · simp [register, registerTo, hw, h.cntTo, h.cntFrom, hlt, hlf]
    · refine ⟨by simp [hw], by simp [hw], fun d => ?_⟩
      simp [hw, hlt', hlf']
    · have hk : Kind calls n true := ⟨_, hc, hw⟩
      refine ⟨(rank_succ_kind hk).symm, ?_, get_put_ok hk h.toGet, get_keep_ok ?_ h.fromGet⟩
      · show r.fromCount = _
        rw [h.cntFrom, rank_succ hc]; simp [hw]
      · rintro ⟨call', h1, h2⟩
        rw [hc] at h1; cases h1; rw [hw] at h2; cases h2
  | false =>
    refine ⟨⟨(if threadSafe then [] else lf) ++ lt, rank calls false n + 1, rank calls true n⟩,
      { r with fromCount := rank calls false n + 1, fromFinished := r.fromFinished.put (rank calls false n + 1) n }, ?_, ?_, ?_⟩
    · cases threadSafe <;> simp [register, registerFrom, hw, h.cntTo, h.cntFrom, hlt, hlf]
    · refine ⟨by simp [hw], by simp [hw], fun d => ?_⟩
      cases threadSafe <;> simp [hw, hlt', hlf', or_comm]
    · have hk : Kind calls n false := ⟨_, hc, hw⟩
      refine ⟨?_, (rank_succ_kind hk).symm, get_keep_ok ?_ h.toGet, get_put_ok hk h.fromGet⟩
      · show r.toCount = _
        rw [h.cntTo, rank_succ hc]; simp [hw]
      · rintro ⟨call', h1, h2⟩
        rw [hc] at h1; cases h1; rw [hw] at h2; cases h2

theorem registerAll_from {threadSafe : Bool} {calls : List Call} : ∀ (cs : List Call) (n : Nat) (r : Root), RootOk calls n r →
    cs = calls.drop n → n ≤ calls.length → ∃ infos, registerAll threadSafe r n cs = some infos ∧ infos.length = cs.length ∧
      ∀ i call, cs[i]? = some call → ∃ info, infos[i]? = some info ∧ InfoOk threadSafe calls (n + i) call info
  | [], n, r, _, _, _ => ⟨[], rfl, rfl, by simp⟩
  | c :: cs, n, r, h, he, hn => by
    have hlt : n < calls.length := by
      by_contra hnot
      rw [List.drop_eq_nil_of_le (by omega)] at he; cases he
    have hc : calls[n]? = some c := by
      have := congrArg (fun l => l[0]?) he
      simpa using this.symm
    obtain ⟨info, r', h1, h2, h3⟩ := register_ok (threadSafe := threadSafe) h hc
    have htail : cs = calls.drop (n + 1) := by
      rw [List.drop_eq_getElem_cons hlt] at he
      exact (List.cons.inj he).2
    obtain ⟨infos, h4, h5, h6⟩ := registerAll_from cs (n + 1) r' h3 htail (by omega)
    refine ⟨info :: infos, by rw [registerAll, h1]; simp only [Option.bind_eq_bind, Option.bind_some]; rw [h4]; rfl, by simp [h5], ?_⟩
    intro i call hi
    cases i with
    | zero => simp at hi; subst hi; exact ⟨info, by simp, by simpa using h2⟩
    | succ i =>
      obtain ⟨info', h7, h8⟩ := h6 i call (by simpa using hi)
      exact ⟨info', by simpa using h7, by rwa [show n + (i + 1) = n + 1 + i by omega]⟩

/-- The calls never fail, and determine the right dependencies. -/
theorem registerAll_ok (threadSafe : Bool) (calls : List Call) : ∃ infos, registerAll threadSafe Root.init 0 calls = some infos ∧
    infos.length = calls.length ∧
      ∀ c call, calls[c]? = some call → ∃ info, infos[c]? = some info ∧ InfoOk threadSafe calls c call info := by
  obtain ⟨infos, h1, h2, h3⟩ := registerAll_from (threadSafe := threadSafe) calls 0 Root.init (rootOk_init calls) rfl (by omega)
  exact ⟨infos, h1, h2, fun c call h => by simpa using h3 c call h⟩

end Lue.LueCalls

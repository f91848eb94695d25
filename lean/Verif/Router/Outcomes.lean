import Verif.Router.Properties

/-! What follows from the fact that something succeeded, for all accumulators. -/
namespace Lue.Router

open Lue.Routing Lue.InflowCount

variable {σ μ : Type}

theorem obind {α β : Type} {x : M α} {f : α → M β} {b : β} (h : x >>= f = .ok b) : ∃ a, x = .ok a ∧ f a = .ok b := by
  cases x with
  | error e => cases h
  | ok a => exact ⟨a, rfl, h⟩

theorem ocheck {P : Prop} [Decidable P] {u : Unit} (h : check (decide P) = .ok u) : P := by
  by_contra hP
  simp [check, hP] at h

theorem ord {α : Type} {l : List α} {i : Nat} {a : α} (h : rd l i = .ok a) : l[i]? = some a := by
  unfold rd at h
  cases hl : l[i]? with
  | none => rw [hl] at h; cases h
  | some b => rw [hl] at h; rw [Except.ok.inj h]

theorem owr {α : Type} {l l' : List α} {i : Nat} {a : α} (h : wr l i a = .ok l') : i < l.length ∧ l' = l.set i a := by
  unfold wr at h
  split at h
  · exact ⟨by assumption, (Except.ok.inj h).symm⟩
  · cases h

theorem oat2 {n0 n1 e : Nat} {c : Int × Int} (h : at2 n0 n1 c.1 c.2 = .ok e) : InRange n0 n1 c ∧ e = lin n1 c := by
  unfold at2 at h
  split at h
  · rename_i hr
    exact ⟨hr, (Except.ok.inj h).symm⟩
  · cases h

theorem ohook {f : σ → σ} {e : Nat} {p p' : PState σ μ} (h : hookAt f e p = .ok p') :
    ∃ s, p.data[e]? = some s ∧ p' = { p with data := p.data.set e (f s) } := by
  unfold hookAt at h
  obtain ⟨s, h1, h⟩ := obind h
  obtain ⟨l, h2, h⟩ := obind h
  obtain ⟨_, rfl⟩ := owr h2
  exact ⟨s, ord h1, (Except.ok.inj h).symm⟩

theorem ostop {F : CellAccumulator σ μ} {x : Ctx} {c o : Int × Int} {p p' : PState σ μ}
    (h : stopAtOutput F x c o p = .ok p') :
    ∃ s, p.data[lin x.n1 c]? = some s ∧ p'.data = p.data.set (lin x.n1 c) (F.stopOutput s) ∧ p'.counts = p.counts ∧
      p'.started = p.started ∧ ∀ d m, m ∈ p'.chan d → m ∈ p.chan d ∨ m.2 = F.outflow (F.stopOutput s) := by
  unfold stopAtOutput at h
  obtain ⟨e, h1, h⟩ := obind h
  obtain ⟨q, h2, h⟩ := obind h
  obtain ⟨_, rfl⟩ := oat2 h1
  obtain ⟨s, h3, rfl⟩ := ohook h2
  obtain ⟨⟨d, idx⟩, h4, h⟩ := obind h
  dsimp only at h
  obtain ⟨_, _, h⟩ := obind h
  refine ⟨s, h3, ?_⟩
  split at h
  · obtain ⟨e', h5, h⟩ := obind h
    obtain ⟨_, rfl⟩ := oat2 h5
    obtain ⟨st, h6, h⟩ := obind h
    split at h
    · cases h
    · have hst : st = F.stopOutput s := by
        have hs := ord h6
        rw [List.getElem?_set_self ((List.getElem?_eq_some_iff.1 h3).1)] at hs
        exact (Option.some.inj hs).symm
      subst hst
      have hch : ∀ d' m, m ∈ Function.update p.chan d (p.chan d ++ [(idx, F.outflow (F.stopOutput s))]) d' →
          m ∈ p.chan d' ∨ m.2 = F.outflow (F.stopOutput s) := by
        intro d' m hm
        by_cases hd : d' = d
        · subst hd
          rw [Function.update_self, List.mem_append, List.mem_singleton] at hm
          rcases hm with hm | hm
          · exact Or.inl hm
          · exact Or.inr (by rw [hm])
        · rw [Function.update_of_ne hd] at hm
          exact Or.inl hm
      split at h
      · obtain rfl := Except.ok.inj h
        exact ⟨rfl, rfl, rfl, hch⟩
      · obtain rfl := Except.ok.inj h
        exact ⟨rfl, rfl, rfl, hch⟩
  · obtain rfl := Except.ok.inj h
    exact ⟨rfl, rfl, rfl, fun _ _ hm => Or.inl hm⟩

/-- The downstream cell -/
def step (c o : Int × Int) : Int × Int := (c.1 + o.1, c.2 + o.2)

theorem oaccumulateCell {F : CellAccumulator σ μ} {x : Ctx} {c : Int × Int} {p p' : PState σ μ} {next : Option (Int × Int)}
    (h : accumulateCell F x c p = .ok (p', next)) :
    InRange x.n0 x.n1 c ∧ ∃ s0 s1 code, p.counts[lin x.n1 c]? = some 0 ∧ p.data[lin x.n1 c]? = some s0 ∧
      F.enterCell (x.k0 * x.m1 + x.k1) (lin x.n1 c) s0 = .ok s1 ∧ x.fd[lin x.n1 c]? = some code ∧ p'.started = p.started ∧
      ((move code = none ∧ next = none ∧ p'.data = p.data.set (lin x.n1 c) (F.stopSink s1) ∧ p'.counts = p.counts ∧
          p'.chan = p.chan) ∨
        (∃ o, move code = some o ∧ ¬ InRange x.n0 x.n1 (step c o) ∧ next = none ∧
          p'.data = p.data.set (lin x.n1 c) (F.stopOutput s1) ∧ p'.counts = p.counts ∧
          ∀ d m, m ∈ p'.chan d → m ∈ p.chan d ∨ m.2 = F.outflow (F.stopOutput s1)) ∨
        (∃ o s2 n, move code = some o ∧ InRange x.n0 x.n1 (step c o) ∧ lin x.n1 (step c o) ≠ lin x.n1 c ∧
          p.data[lin x.n1 (step c o)]? = some s2 ∧ p.counts[lin x.n1 (step c o)]? = some (n + 1) ∧ p'.chan = p.chan ∧
          p'.counts = p.counts.set (lin x.n1 (step c o)) n ∧
          ((n = 0 ∧ next = some (step c o) ∧
              p'.data = (p.data.set (lin x.n1 c) s1).set (lin x.n1 (step c o)) (F.leaveCell s1 s2)) ∨
            (0 < n ∧ next = none ∧
              p'.data = (p.data.set (lin x.n1 c) s1).set (lin x.n1 (step c o)) (F.stopConfluence (F.leaveCell s1 s2)))))) := by
  unfold accumulateCell at h
  obtain ⟨e, h1, h⟩ := obind h
  obtain ⟨hc, rfl⟩ := oat2 h1
  obtain ⟨count, h2, h⟩ := obind h
  obtain ⟨_, h3, h⟩ := obind h
  have h3 := ocheck h3
  have h2 := ord h2
  rw [h3] at h2
  obtain ⟨s0, h4, h⟩ := obind h
  obtain ⟨s1, h5, h⟩ := obind h
  obtain ⟨data, h6, h⟩ := obind h
  obtain ⟨hlen, rfl⟩ := owr h6
  obtain ⟨code, h7, h⟩ := obind h
  refine ⟨hc, s0, s1, code, h2, ord h4, h5, ord h7, ?_⟩
  have hself : ∀ (a : σ), (p.data.set (lin x.n1 c) a)[lin x.n1 c]? = some a := fun a => List.getElem?_set_self hlen
  cases hm : move code with
  | none =>
    rw [downstreamCell_none hm] at h
    dsimp only at h
    rw [if_pos ⟨rfl, rfl⟩] at h
    obtain ⟨q, h8, h⟩ := obind h
    obtain ⟨s, h9, rfl⟩ := ohook h8
    dsimp only at h9
    rw [hself] at h9
    obtain rfl := Option.some.inj h9
    obtain ⟨rfl, rfl⟩ := Prod.mk.inj (Except.ok.inj h)
    exact ⟨rfl, Or.inl ⟨rfl, rfl, by simp [List.set_set], rfl, rfl⟩⟩
  | some o =>
    have hb : ¬ (o.1 = 0 ∧ o.2 = 0) := fun hz => (move_bound hm).2.2.2.2 (Prod.ext hz.1 hz.2)
    rw [downstreamCell_some hm hc] at h
    dsimp only at h
    rw [if_neg hb] at h
    by_cases hr : InRange x.n0 x.n1 (step c o)
    · have hr' : InRange x.n0 x.n1 (c.1 + o.1, c.2 + o.2) := hr
      rw [if_neg (by simp [hr'])] at h
      have hne : lin x.n1 (step c o) ≠ lin x.n1 c := by
        intro he
        have := lin_inj hr hc he
        have e1 := congrArg Prod.fst this
        have e2 := congrArg Prod.snd this
        simp only [step] at e1 e2
        exact hb ⟨by omega, by omega⟩
      obtain ⟨e', h8, h⟩ := obind h
      obtain ⟨_, he'⟩ := oat2 (c := step c o) h8
      subst he'
      obtain ⟨a1, h9, h⟩ := obind h
      have h9 := ord h9
      rw [hself] at h9
      obtain rfl := Option.some.inj h9
      obtain ⟨s2, h10, h⟩ := obind h
      have h10 := ord h10
      rw [List.getElem?_set_ne (Ne.symm hne)] at h10
      obtain ⟨data2, h11, h⟩ := obind h
      obtain ⟨hlen2, rfl⟩ := owr h11
      obtain ⟨n, h12, h⟩ := obind h
      have h12 := ord h12
      obtain ⟨_, h13, h⟩ := obind h
      have h13 := ocheck h13
      obtain ⟨n, rfl⟩ : ∃ m, n = m + 1 := ⟨n - 1, by omega⟩
      obtain ⟨counts2, h14, h⟩ := obind h
      obtain ⟨hlen3, rfl⟩ := owr h14
      rw [Nat.add_sub_cancel] at h
      split at h
      · rename_i hn
        obtain ⟨q, h15, h⟩ := obind h
        obtain ⟨s3, h16, rfl⟩ := ohook h15
        dsimp only at h16
        rw [List.getElem?_set_self hlen2] at h16
        obtain rfl := Option.some.inj h16
        obtain ⟨rfl, rfl⟩ := Prod.mk.inj (Except.ok.inj h)
        exact ⟨rfl, Or.inr (Or.inr ⟨o, s2, n, rfl, hr, hne, h10, h12, rfl, rfl, Or.inr ⟨hn, rfl, by simp [List.set_set]⟩⟩)⟩
      · rename_i hn
        obtain ⟨rfl, rfl⟩ := Prod.mk.inj (Except.ok.inj h)
        exact ⟨rfl, Or.inr (Or.inr ⟨o, s2, n, rfl, hr, hne, h10, h12, rfl, rfl, Or.inl ⟨by omega, rfl, rfl⟩⟩)⟩
    · have hr' : ¬ InRange x.n0 x.n1 (c.1 + o.1, c.2 + o.2) := hr
      rw [if_pos (by simp [hr'])] at h
      obtain ⟨q, h8, h⟩ := obind h
      obtain ⟨rfl, rfl⟩ := Prod.mk.inj (Except.ok.inj h)
      obtain ⟨s, h9, h10, h11, h12, h13⟩ := ostop h8
      dsimp only at h9 h10 h11 h12 h13
      rw [hself] at h9
      obtain rfl := Option.some.inj h9
      exact ⟨h12, Or.inr (Or.inl ⟨o, rfl, hr, rfl, by rw [h10, List.set_set], h11, h13⟩)⟩

end Lue.Router

import Verif.MassBalance.Step

/-!
C77: material which is routed, split and rounded is neither created nor lost, apart from a rounding error which is limited,
whatever the partitioning and the schedule.
-/
namespace Lue.MassBalance

open Lue.FloatOps Lue.Accu Lue.Routing Lue.InflowCount Lue.Router Lue.Rounding Relation

variable {L : Lib} {u η : ℝ} {ok : Fl → Prop} {within : Fl → Fl → Bool} {split : Fl → Fl → Fl × Fl} {rule : Rule}
variable {isNoDataFd : Nat → Bool} {fd : PArr Nat} {v : Arr Nat} {inflow parameter : Arg (Option Fl)}
variable {f q : Arr (Option Fl)} {outflow remainder : PArr (Option Fl)}

/-- `splitEnterInter`, for a floating point type -/
noncomputable def enterInter (L : Lib) : Option Fl → Option Fl × Option Fl → Option Fl × Option Fl :=
  @splitEnterInter Fl ⟨add L⟩

/-- `splitEnterCell`, for a floating point type -/
noncomputable def enterCell (L : Lib) (within : Fl → Fl → Bool) (split : Fl → Fl → Fl × Fl) :
    Option Fl → Option Fl → Option Fl × Option Fl → Option Fl × Option Fl :=
  @splitEnterCell Fl ⟨add L⟩ within split

theorem setup (hfd : FlowDirections isNoDataFd fd v) (hin : inflow.IsValues fd.grid f)
    (hpa : parameter.IsValues fd.grid q) :
    Setup (splitFunctor L within split inflow parameter) isNoDataFd
      (fun c s => enterCell L within split (f c.1 c.2) (q c.1 c.2) s) fd.grid v :=
  @split_setup Fl isNoDataFd fd v ⟨.fin 0⟩ ⟨add L⟩ within split inflow parameter f q hfd hin hpa

/-- What arrives in a cell is added. -/
theorem fold_arrived (hA : Accurate L u η) {val : Cell → Option Fl} {o : Cell → ℝ} :
    ∀ (us : List Cell) (xs : List ℝ) (s : Option Fl), Arrived L xs s →
      (∀ c ∈ us, val c = some (.fin (o c)) ∧ L.Rep (o c)) →
      ∃ t, us.foldl (fun s c => enterInter L (val c) s) (s, some (.fin 0)) = (t, some (.fin 0)) ∧
        Arrived L (xs ++ us.map o) t
  | [], xs, s, h, _ => ⟨s, rfl, by simpa using h⟩
  | c :: us, xs, s, h, hus => by
    obtain ⟨hv, hrep⟩ := hus c (by simp)
    obtain ⟨r, hr, hr'⟩ := h.push hA (Added.one hrep)
    obtain ⟨t, h1, h2⟩ := fold_arrived hA us (xs ++ [o c]) (some r) (.inr ⟨r, rfl, hr'⟩) fun d hd => hus d (by simp [hd])
    refine ⟨t, ?_, by simpa using h2⟩
    rw [List.foldl_cons, hv]
    have e : enterInter L (some (.fin (o c))) (s, some (.fin 0)) = (some r, some (.fin 0)) := by
      rcases h with ⟨_, rfl⟩ | ⟨s, rfl, _⟩
      · have hr : some (FloatOps.add L (.fin 0) (.fin (o c))) = some r := hr
        show (some (FloatOps.add L (.fin 0) (.fin (o c))), some (Fl.fin 0)) = _
        rw [hr]
      · have hr : some (FloatOps.add L s (.fin (o c))) = some r := hr
        show (some (FloatOps.add L s (.fin (o c))), some (Fl.fin 0)) = _
        rw [hr]
    rw [e]
    exact h1

theorem fold_none {val : Cell → Option Fl} : ∀ (us : List Cell) (s : Option Fl × Option Fl),
    (s = (none, none) ∨ (∃ c ∈ us, val c = none) ∧ (s.1 = none → s = (none, none))) →
    us.foldl (fun s c => enterInter L (val c) s) s = (none, none)
  | [], s, h => by
    rcases h with h | ⟨⟨c, hc, _⟩, _⟩
    · exact h
    · simp at hc
  | c :: us, s, h => by
    rw [List.foldl_cons]
    refine fold_none us _ ?_
    rcases h with rfl | ⟨⟨d, hd, he⟩, hs⟩
    · left; rfl
    · rcases s with ⟨s1, s2⟩
      cases s1 with
      | none => left; rw [hs rfl]; rfl
      | some a =>
        cases hv : val c with
        | none => left; rfl
        | some b =>
          rcases List.mem_cons.1 hd with rfl | hd
          · rw [hv] at he; cases he
          · exact .inr ⟨⟨d, hd, he⟩, fun h => by cases h⟩

/-- The equation which holds in a cell -/
theorem solution_eq {w : Arr (Option Fl × Option Fl)} {a0 a1 : Nat} {c : Cell}
    (hs : IsSolutionAt (net (splitFunctor L within split inflow parameter) isNoDataFd
      (fun c s => enterCell L within split (f c.1 c.2) (q c.1 c.2) s) a0 a1 v) (fun c => w c.1 c.2) c) :
    ∃ us : List Cell, us.Nodup ∧ (∀ a, a ∈ us ↔ Drains a0 a1 v a c) ∧
      w c.1 c.2 = if isNoDataFd (v c.1 c.2) = true then (none, none) else
        enterCell L within split (f c.1 c.2) (q c.1 c.2)
          (us.foldl (fun s c => enterInter L (w c.1 c.2).1 s) (some (.fin 0), some (.fin 0))) := by
  obtain ⟨us, hn, hm, hw⟩ := hs
  exact ⟨us, hn, hm, hw⟩

/-- The balances of the catchments of the cells draining into a cell -/
noncomputable def amounts (a0 a1 : Nat) (v : Arr Nat) (x o r : Cell → ℝ) (c : Cell) : Amounts :=
  ⟨(catchment a0 a1 v c).card, o c, (catchmentNumbers a0 a1 v r c).sum, (catchmentNumbers a0 a1 v x c).sum⟩

theorem catchmentNumbers_sum {a0 a1 : Nat} {c : Cell} (hc : c ∈ allCells a0 a1) (hacc : Acc (Drains a0 a1 v) c)
    {us : List Cell} (hn : us.Nodup) (hm : ∀ a, a ∈ us ↔ Drains a0 a1 v a c) (x : Cell → ℝ) :
    (catchmentNumbers a0 a1 v x c).sum = (us.map fun a => (catchmentNumbers a0 a1 v x a).sum).sum + x c := by
  rw [← (catchmentNumbers_perm hc hacc hn hm x).sum_eq, List.sum_append, List.sum_singleton]
  congr 1
  induction us with
  | nil => rfl
  | cons a us ih => 
    clear ih hn hm
    induction a :: us with
    | nil => rfl
    | cons b l ih => rw [List.flatMap_cons, List.sum_append, ih, List.map_cons, List.sum_cons]

theorem catchment_card {a0 a1 : Nat} {c : Cell} (hc : c ∈ allCells a0 a1) (hacc : Acc (Drains a0 a1 v) c)
    {us : List Cell} (hn : us.Nodup) (hm : ∀ a, a ∈ us ↔ Drains a0 a1 v a c) :
    (catchment a0 a1 v c).card = (us.map fun a => (catchment a0 a1 v a).card).sum + 1 := by
  have h := catchmentNumbers_sum hc hacc hn hm fun _ => 1
  have e : ∀ a, (catchmentNumbers a0 a1 v (fun _ => 1) a).sum = ((catchment a0 a1 v a).card : ℝ) := by
    intro a
    unfold catchmentNumbers
    simp
  rw [e] at h
  have e2 : (us.map fun a => (catchmentNumbers a0 a1 v (fun _ => 1) a).sum).sum =
      (((us.map fun a => (catchment a0 a1 v a).card).sum : ℕ) : ℝ) := by
    clear h hn hm
    induction us with
    | nil => simp
    | cons a us ih => rw [List.map_cons, List.sum_cons, ih, e, List.map_cons, List.sum_cons, Nat.cast_add]
  rw [e2] at h
  exact_mod_cast h

theorem catchmentNumbers_nonneg {a0 a1 : Nat} {c : Cell} {x : Cell → ℝ} (h : ∀ d ∈ catchment a0 a1 v c, 0 ≤ x d) :
    0 ≤ (catchmentNumbers a0 a1 v x c).sum := by
  refine List.sum_nonneg ?_
  intro a ha
  obtain ⟨d, hd, rfl⟩ := List.mem_map.1 ha
  exact h d (Finset.mem_toList.1 hd)

/-- A number which is the value of an element -/
noncomputable def num : Option Fl → ℝ
  | some (.fin a) => a
  | _ => 0

/-- A cell of which everything upstream is valid is balanced. -/
theorem balanced (hA : AccurateSplit L u η) (hS : Splits L u ok split rule)
    (hdom : ∀ x p, 0 ≤ x → ok p → within (.fin x) p = true) {w : Arr (Option Fl × Option Fl)} {a0 a1 : Nat} {x : Cell → ℝ}
    {c : Cell} (hc : c ∈ allCells a0 a1) (hacc : Acc (Drains a0 a1 v) c)
    (hs : ∀ d, d ∈ catchment a0 a1 v c → IsSolutionAt (net (splitFunctor L within split inflow parameter) isNoDataFd
      (fun c s => enterCell L within split (f c.1 c.2) (q c.1 c.2) s) a0 a1 v) (fun c => w c.1 c.2) d)
    (hval : ∀ d ∈ catchment a0 a1 v c, ValidCell L ok isNoDataFd v f q x d)
    (hfit : Fits L u (catchmentNumbers a0 a1 v x c)) :
    (∀ d ∈ catchment a0 a1 v c, 0 ≤ num (w d.1 d.2).2) ∧
      w c.1 c.2 = (some (.fin (num (w c.1 c.2).1)), some (.fin (num (w c.1 c.2).2))) ∧ L.Rep (num (w c.1 c.2).1) ∧
      Balanced L u rule a0 a1 v q x (fun c => num (w c.1 c.2).1) (fun c => num (w c.1 c.2).2) c := by
  classical
  have hu := hA.u_nonneg
  induction hacc with
  | intro c hacc ih =>
    have hacc' : Acc (Drains a0 a1 v) c := Acc.intro c hacc
    set o : Cell → ℝ := fun c => num (w c.1 c.2).1 with ho
    set r : Cell → ℝ := fun c => num (w c.1 c.2).2 with hr
    have hself : c ∈ catchment a0 a1 v c := (mem_catchment hc).2 .refl
    obtain ⟨us, hn, hm, hw⟩ := solution_eq (hs c hself)
    have hsub : ∀ a ∈ us, a ∈ allCells a0 a1 ∧ ∀ d, d ∈ catchment a0 a1 v a → d ∈ catchment a0 a1 v c := by
      intro a ha
      have hD := (hm a).1 ha
      have ha0 : a ∈ allCells a0 a1 := mem_allCells.2 ⟨hD.1, hD.2.1⟩
      exact ⟨ha0, fun d hd => (mem_catchment hc).2 (((mem_catchment ha0).1 hd).tail hD)⟩
    have hx : ∀ d ∈ catchment a0 a1 v c, 0 ≤ x d := fun d hd => (hval d hd).2.2.2.1
    have hcard := catchment_card hc hacc' hn hm
    have hsum := catchmentNumbers_sum hc hacc' hn hm x
    have hfit' : (1 + u) ^ (2 * (catchment a0 a1 v c).card - 1) * (catchmentNumbers a0 a1 v x c).sum ≤ L.big := by
      unfold Fits at hfit
      have : (catchmentNumbers a0 a1 v x c).length = (catchment a0 a1 v c).card := by
        unfold catchmentNumbers; rw [List.length_map, Finset.length_toList]
      rwa [this] at hfit
    have hsub' := hsub
    have hus : ∀ a ∈ us, (∀ d ∈ catchment a0 a1 v a, 0 ≤ r d) ∧ w a.1 a.2 = (some (.fin (o a)), some (.fin (r a))) ∧ L.Rep (o a) ∧
        Balanced L u rule a0 a1 v q x o r a := by
      intro a ha
      obtain ⟨ha0, hsub⟩ := hsub a ha
      refine ih a ((hm a).1 ha) ha0 (fun d hd => hs d (hsub d hd)) (fun d hd => hval d (hsub d hd)) ?_
      unfold Fits
      have : (catchmentNumbers a0 a1 v x a).length = (catchment a0 a1 v a).card := by
        unfold catchmentNumbers; rw [List.length_map, Finset.length_toList]
      rw [this]
      refine le_trans ?_ hfit'
      have h1 : (catchment a0 a1 v a).card ≤ (catchment a0 a1 v c).card := Finset.card_le_card hsub
      refine mul_le_mul (pow_le_pow_right₀ (by linarith) (by omega)) ?_
        (catchmentNumbers_nonneg fun d hd => hx d (hsub d hd)) (by positivity)
      rw [hsum]
      have h2 : (catchmentNumbers a0 a1 v x a).sum ≤ (us.map fun a => (catchmentNumbers a0 a1 v x a).sum).sum := by
        refine List.single_le_sum ?_ _ (List.mem_map.2 ⟨a, ha, rfl⟩)
        intro y hy
        obtain ⟨b, hb, rfl⟩ := List.mem_map.1 hy
        exact catchmentNumbers_nonneg fun d hd => hx d ((hsub' b hb).2 d hd)
      have h3 := hx c hself
      linarith
    -- The amounts upstream
    set l := us.map (amounts a0 a1 v x o r) with hl
    have hlok : ∀ b ∈ l, b.Ok u := by
      intro b hb
      obtain ⟨a, ha, rfl⟩ := List.mem_map.1 hb
      obtain ⟨hr0, _, _, hbal⟩ := hus a ha
      obtain ⟨ha0, hsub⟩ := hsub a ha
      refine ⟨Finset.card_pos.2 ⟨a, (mem_catchment ha0).2 .refl⟩, hbal.o_nonneg, ?_,
        catchmentNumbers_nonneg fun d hd => hx d (hsub d hd), hbal.mass⟩
      exact catchmentNumbers_nonneg hr0
    have eO : totalO l = (us.map o).sum := by
      unfold totalO; rw [hl, List.map_map]; rfl
    have eR : totalR l = (us.map fun a => (catchmentNumbers a0 a1 v r a).sum).sum := by
      unfold totalR; rw [hl, List.map_map]; rfl
    have eX : totalX l = (us.map fun a => (catchmentNumbers a0 a1 v x a).sum).sum := by
      unfold totalX; rw [hl, List.map_map]; rfl
    have eN : totalN l = (us.map fun a => (catchment a0 a1 v a).card).sum := by
      unfold totalN; rw [hl, List.map_map]; rfl
    have elen : l.length = us.length := by rw [hl, List.length_map]
    obtain ⟨hnd, hf, hrep, hpos, p, hq, hok⟩ := hval c hself
    -- What arrives
    obtain ⟨t', hfold, harr⟩ := fold_arrived hA.toAccurate (val := fun c => (w c.1 c.2).1) (o := o) us [] (some (.fin 0))
      (.inl ⟨rfl, rfl⟩) fun a ha => by
        obtain ⟨_, h1, h2, _⟩ := hus a ha
        exact ⟨by rw [h1], h2⟩
    rw [List.nil_append] at harr
    -- The total amount
    obtain ⟨tot, hadd, hcell⟩ : ∃ tot, Added L (us.map o ++ [x c]) tot ∧
        enterCell L within split (f c.1 c.2) (q c.1 c.2) (t', some (.fin 0)) =
          (some (split p tot).1, some (split p tot).2) := by
      have hw' := hdom (x c) p hpos hok
      have key : ∀ s, enterCell L within split (f c.1 c.2) (q c.1 c.2) (some s, some (.fin 0)) =
          (some (split p (FloatOps.add L s (.fin (x c)))).1, some (split p (FloatOps.add L s (.fin (x c)))).2) := by
        intro s
        rw [hf, hq]
        simp only [enterCell, splitEnterCell, hw', Bool.not_true, Bool.false_eq_true, if_false]
        rfl
      rcases harr with ⟨h1, rfl⟩ | ⟨s, rfl, h1⟩
      · refine ⟨_, ?_, key _⟩
        rw [h1, List.nil_append, (Added.one hrep).zero_add hA.toAccurate]
        exact Added.one hrep
      · exact ⟨_, h1.add (Added.one hrep), key _⟩
    have hnonneg : ∀ y ∈ us.map o ++ [x c], 0 ≤ y := by
      intro y hy
      rcases List.mem_append.1 hy with hy | hy
      · obtain ⟨a, ha, rfl⟩ := List.mem_map.1 hy
        exact (hus a ha).2.2.2.o_nonneg
      · rw [List.mem_singleton] at hy; subst hy; exact hpos
    have hS1 : (us.map o ++ [x c]).sum = totalO l + x c := by rw [List.sum_append, List.sum_singleton, eO]
    have hS2 : (us.map o ++ [x c]).length - 1 = l.length := by rw [elen]; simp
    have hfits : Rounding.Fits L u (us.map o ++ [x c]) := by
      unfold Rounding.Fits
      rw [magnitude_of_nonneg hnonneg, hS1, hS2]
      refine balance_fits hu hlok hpos ?_
      rw [eN, eX, ← hcard, ← hsum]
      exact hfit'
    have hsumt := hadd.isSum hA.toAccurate hfits
    obtain ⟨t, rfl, htb⟩ := hsumt
    have ht0 : 0 ≤ t := Added.nonneg hA hadd hnonneg rfl
    have htrep : L.Rep t := hadd.rep rfl
    rw [magnitude_of_nonneg hnonneg, hS1, hS2] at htb
    obtain ⟨o', r', hsp, ho', hr', ho0, hr0, hot, hrt, hbal, hrule⟩ := hS.splits p t hok htrep ht0
    have hwc : w c.1 c.2 = (some (.fin o'), some (.fin r')) := by
      rw [hw, hnd, hfold]
      simp only [Bool.false_eq_true, if_false]
      rw [hcell, hsp]
    have eo : o c = o' := by simp only [ho, hwc]; rfl
    have er : r c = r' := by simp only [hr, hwc]; rfl
    refine ⟨?_, by rw [hwc]; rfl, by show L.Rep (o c); rw [eo]; exact ho', ?_⟩
    · intro d hd
      show 0 ≤ r d
      rw [catchment_eq hc, Finset.mem_insert, Finset.mem_biUnion] at hd
      rcases hd with rfl | ⟨a, ha, hd⟩
      · rw [er]; exact hr0
      · exact (hus a ((hm a).2 (mem_inflowing.1 ha))).1 d hd
    · refine ⟨by show 0 ≤ o c; rw [eo]; exact ho0, by show 0 ≤ r c; rw [er]; exact hr0, ⟨p, t, hq, ?_, ht0, ?_, ?_, ?_⟩, ?_⟩
      · have hperm : (us.map o ++ [x c]).Perm (x c :: ((inflowing a0 a1 v c).toList.map o)) := by
          refine (List.perm_append_singleton _ _).trans (List.Perm.cons _ (List.Perm.map _ ?_))
          refine (List.perm_ext_iff_of_nodup hn (Finset.nodup_toList _)).2 fun a => ?_
          rw [hm, Finset.mem_toList, mem_inflowing]
        exact (isSum_perm hperm).1 (hadd.isSum hA.toAccurate hfits)
      · show o c ≤ t; rw [eo]; exact hot
      · show r c ≤ t; rw [er]; exact hrt
      · show rule p t (o c) (r c); rw [eo, er]; exact hrule
      · have hb := balance_step hu hlok hpos ht0 htb hbal
        show |(o c + (catchmentNumbers a0 a1 v r c).sum) - (catchmentNumbers a0 a1 v x c).sum| ≤ _
        rw [catchmentNumbers_sum hc hacc' hn hm r, hsum, hcard, ← eR, ← eX, ← eN, eo, er]
        exact hb

/-- A cell with an invalid cell in its catchment is no-data. -/
theorem noData {w : Arr (Option Fl × Option Fl)} {a0 a1 : Nat} {c : Cell}
    (hc : c ∈ allCells a0 a1) (hacc : Acc (Drains a0 a1 v) c)
    (hs : ∀ d, d ∈ catchment a0 a1 v c → IsSolutionAt (net (splitFunctor L within split inflow parameter) isNoDataFd
      (fun c s => enterCell L within split (f c.1 c.2) (q c.1 c.2) s) a0 a1 v) (fun c => w c.1 c.2) d)
    (hval : ∃ d ∈ catchment a0 a1 v c, Invalid₂ isNoDataFd within v f q d) : w c.1 c.2 = (none, none) := by
  classical
  induction hacc with
  | intro c hacc ih =>
    obtain ⟨us, hn, hm, hw⟩ := solution_eq (hs c ((mem_catchment hc).2 .refl))
    -- Both results are no-data, or none of them
    have hboth : ∀ (val : Cell → Option Fl) (us : List Cell) (s : Option Fl × Option Fl), (s.1 = none → s = (none, none)) →
        ((us.foldl (fun s c => enterInter L (val c) s) s).1 = none →
          us.foldl (fun s c => enterInter L (val c) s) s = (none, none)) := by
      intro val us
      induction us with
      | nil => exact fun s h => h
      | cons a us ih =>
        intro s hs
        rw [List.foldl_cons]
        refine ih _ ?_
        rcases s with ⟨s1, s2⟩
        cases s1 with
        | none => intro _; rw [hs rfl]; rfl
        | some b =>
          cases hv : val a with
          | none => intro _; rfl
          | some e => intro h; exact absurd h (by simp [enterInter, splitEnterInter])
    obtain ⟨d, hd, hinv⟩ := hval
    rw [catchment_eq hc, Finset.mem_insert, Finset.mem_biUnion] at hd
    rcases hd with rfl | ⟨a, ha, hda⟩
    · rw [hw]
      rcases hinv with h | h
      · rw [if_pos h]
      · split
        · rfl
        · have hb := hboth (fun c => (w c.1 c.2).1) us (some (.fin 0), some (.fin 0)) (fun h => by cases h)
          revert hb
          generalize us.foldl (fun s c => enterInter L ((fun c : Cell => (w c.1 c.2).1) c) s)
            (some (Fl.fin 0), some (Fl.fin 0)) = s
          rcases s with ⟨s1, s2⟩
          intro hb
          cases s1 with
          | none => rw [hb rfl]; rfl
          | some b =>
            cases hfd : f d.1 d.2 with
            | none => rfl
            | some y =>
              cases hqd : q d.1 d.2 with
              | none => rfl
              | some p =>
                have h := h y p hfd hqd
                simp [enterCell, splitEnterCell, h]
    · have hD := mem_inflowing.1 ha
      have ha0 : a ∈ allCells a0 a1 := mem_allCells.2 ⟨hD.1, hD.2.1⟩
      have hsub : ∀ d, d ∈ catchment a0 a1 v a → d ∈ catchment a0 a1 v c := fun d hd =>
        (mem_catchment hc).2 (((mem_catchment ha0).1 hd).tail hD)
      have hnone := ih a hD ha0 (fun d hd => hs d (hsub d hd)) ⟨d, hda, hinv⟩
      rw [hw, fold_none (val := fun c => (w c.1 c.2).1) us _ (.inr ⟨⟨a, (hm a).2 hD, by rw [hnone]⟩, fun h => by cases h⟩)]
      split <;> rfl

theorem unusable_invalid {bad : Domain} (hbad : ∀ x p, bad x p → within x p = false) {c : Cell}
    (h : Unusable isNoDataFd bad v f q c) : Invalid₂ isNoDataFd within v f q c := by
  rcases h with h | h | h | ⟨x, p, hx, hp, h⟩
  · exact .inl h
  · exact .inr fun a p ha _ => by rw [h] at ha; cases ha
  · exact .inr fun a p _ hp => by rw [h] at hp; cases hp
  · refine .inr fun a b ha hb => ?_
    rw [hx] at ha
    rw [hp] at hb
    obtain rfl := Option.some.inj ha
    obtain rfl := Option.some.inj hb
    exact hbad _ _ h

theorem correct (hA : AccurateSplit L u η) (hS : Splits L u ok split rule)
    (hdom : ∀ x p, 0 ≤ x → ok p → within (.fin x) p = true) {bad : Domain} (hbad : ∀ x p, bad x p → within x p = false)
    (hfd : FlowDirections isNoDataFd fd v) (hin : inflow.IsValues fd.grid f) (hpa : parameter.IsValues fd.grid q)
    (hy : Yields L within split isNoDataFd fd inflow parameter outflow remainder) :
    Correct L u ok bad rule isNoDataFd fd.grid v f q outflow remainder := by
  obtain ⟨_, _, y, hy, rfl, rfl⟩ := hy
  obtain ⟨hg, w, hw, h1, _⟩ := routed_result hfd.represents (setup (L := L) hfd hin hpa) hy
  refine ⟨hg, hg, _, _, Represents.map hw _, Represents.map hw _, fun i j hi hj hcyc => ?_⟩
  have hc : (i, j) ∈ allCells fd.grid.a0 fd.grid.a1 := mem_allCells.2 ⟨hi, hj⟩
  have hacc := acc_iff.2 hcyc
  have hs : ∀ d, d ∈ catchment fd.grid.a0 fd.grid.a1 v (i, j) → IsSolutionAt (net (splitFunctor L within split inflow parameter)
      isNoDataFd (fun c s => enterCell L within split (f c.1 c.2) (q c.1 c.2) s) fd.grid.a0 fd.grid.a1 v)
      (fun c => w c.1 c.2) d := by
    intro d hd
    have hd := (mem_catchment hc).1 hd
    have hd0 := mem_allCells.1 (mem_allCells_of_upstream hc hd)
    exact h1 d.1 d.2 hd0.1 hd0.2 (acc_iff.1 (acc_upstream hacc hd))
  refine ⟨fun ⟨d, hd, h⟩ => ?_, fun x hx hfit => ?_⟩
  · have := noData hc hacc hs ⟨d, hd, unusable_invalid hbad h⟩
    simp only at this
    rw [this]
    exact ⟨rfl, rfl⟩
  · refine ⟨fun c => num (w c.1 c.2).1, fun c => num (w c.1 c.2).2, fun d hd => ?_⟩
    have hr := (mem_catchment hc).1 hd
    have hd0 := mem_allCells_of_upstream hc hr
    have hsub : ∀ e ∈ catchment fd.grid.a0 fd.grid.a1 v d, e ∈ catchment fd.grid.a0 fd.grid.a1 v (i, j) := fun e he =>
      (mem_catchment hc).2 (((mem_catchment hd0).1 he).trans hr)
    have hu := hA.u_nonneg
    have hfit' : Fits L u (catchmentNumbers fd.grid.a0 fd.grid.a1 v x d) := by
      unfold Fits at hfit ⊢
      refine le_trans ?_ hfit
      have hsubl : (catchmentNumbers fd.grid.a0 fd.grid.a1 v x d).Subperm (catchmentNumbers fd.grid.a0 fd.grid.a1 v x (i, j)) := by
        unfold catchmentNumbers
        obtain ⟨l', h1, h2⟩ : ((catchment fd.grid.a0 fd.grid.a1 v d).toList).Subperm
            (catchment fd.grid.a0 fd.grid.a1 v (i, j)).toList :=
          (Finset.nodup_toList _).subperm fun e he => Finset.mem_toList.2 (hsub e (Finset.mem_toList.1 he))
        exact ⟨l'.map x, h1.map x, h2.map x⟩
      have hnn : ∀ y ∈ catchmentNumbers fd.grid.a0 fd.grid.a1 v x (i, j), 0 ≤ y := by
        intro y hy
        obtain ⟨e, he, rfl⟩ := List.mem_map.1 hy
        exact (hx e (Finset.mem_toList.1 he)).2.2.2.1
      obtain ⟨l', hl1, hl2⟩ := hsubl
      have hlen : (catchmentNumbers fd.grid.a0 fd.grid.a1 v x d).length ≤
          (catchmentNumbers fd.grid.a0 fd.grid.a1 v x (i, j)).length := by
        rw [← hl1.length_eq]; exact hl2.length_le
      have hle : (catchmentNumbers fd.grid.a0 fd.grid.a1 v x d).sum ≤ (catchmentNumbers fd.grid.a0 fd.grid.a1 v x (i, j)).sum := by
        rw [← hl1.sum_eq]
        exact List.Sublist.sum_le_sum hl2 hnn
      refine mul_le_mul (pow_le_pow_right₀ (by linarith) (by omega)) hle
        (catchmentNumbers_nonneg fun e he => (hx e (hsub e he)).2.2.2.1) (by positivity)
    obtain ⟨_, h2, _, h3⟩ := balanced hA hS hdom hd0 (acc_upstream hacc hr) (fun e he => hs e (hsub e he))
      (fun e he => hx e (hsub e he)) hfit'
    exact ⟨by rw [h2], by rw [h2], h3⟩

theorem amounts_domain (x : ℝ) (p : Fl) (hx : 0 ≤ x) (hp : IsAmount L p) : withinAmounts (.fin x) p = true := by
  rcases hp with rfl | ⟨a, rfl, _, ha⟩
  · simp [withinAmounts, geq, hx]
  · simp [withinAmounts, geq, hx, ha]

theorem fraction_domain (x : ℝ) (p : Fl) (hx : 0 ≤ x) (hp : IsFraction L p) : withinFraction (.fin x) p = true := by
  obtain ⟨a, rfl, _, ha, ha1⟩ := hp
  simp [withinFraction, geq, leq, hx, ha, ha1]

theorem negative_geq {x : Fl} (h : Negative x) : geq x 0 = false := by
  rcases h with rfl | ⟨r, rfl, hr⟩
  · rfl
  · simp [geq, hr]

theorem amounts_bad (x p : Fl) (h : negativeAmounts x p) : withinAmounts x p = false := by
  unfold withinAmounts
  rcases h with h | h <;> simp [negative_geq h]

theorem fraction_bad (x p : Fl) (h : badFractions x p) : withinFraction x p = false := by
  unfold withinFraction
  rcases h with h | h | rfl | ⟨r, rfl, hr⟩
  · simp [negative_geq h]
  · simp [negative_geq h]
  · simp [leq]
  · simp [leq, hr]

/-- C77: `accu_threshold` -/
theorem threshold_correct (hA : AccurateSplit L u η) (hfd : FlowDirections isNoDataFd fd v)
    (hin : inflow.IsValues fd.grid f) (hpa : parameter.IsValues fd.grid q)
    (hy : ThresholdYields L isNoDataFd fd inflow parameter outflow remainder) :
    Correct L u (IsAmount L) negativeAmounts (thresholdRule u) isNoDataFd fd.grid v f q outflow remainder :=
  correct hA (threshold_splits hA) amounts_domain amounts_bad hfd hin hpa hy

/-- C77: `accu_fraction` -/
theorem fraction_correct (hA : AccurateSplit L u η) (hfd : FlowDirections isNoDataFd fd v)
    (hin : inflow.IsValues fd.grid f) (hpa : parameter.IsValues fd.grid q)
    (hy : FractionYields L isNoDataFd fd inflow parameter outflow remainder) :
    Correct L u (IsFraction L) badFractions (fractionRule u η) isNoDataFd fd.grid v f q outflow remainder :=
  correct hA (fraction_splits hA) fraction_domain fraction_bad hfd hin hpa hy

/-- C77: `accu_capacity` -/
theorem capacity_correct (hA : AccurateSplit L u η) (hfd : FlowDirections isNoDataFd fd v)
    (hin : inflow.IsValues fd.grid f) (hpa : parameter.IsValues fd.grid q)
    (hy : CapacityYields L isNoDataFd fd inflow parameter outflow remainder) :
    Correct L u (IsAmount L) negativeAmounts (capacityRule u) isNoDataFd fd.grid v f q outflow remainder :=
  correct hA (capacity_splits hA) amounts_domain amounts_bad hfd hin hpa hy

/-- C77: `accu_trigger` -/
theorem trigger_correct (hA : AccurateSplit L u η) (hfd : FlowDirections isNoDataFd fd v)
    (hin : inflow.IsValues fd.grid f) (hpa : parameter.IsValues fd.grid q)
    (hy : TriggerYields L isNoDataFd fd inflow parameter outflow remainder) :
    Correct L u (IsAmount L) negativeAmounts triggerRule isNoDataFd fd.grid v f q outflow remainder :=
  correct hA (trigger_splits hA) amounts_domain amounts_bad hfd hin hpa hy

/-- C77: there is an outcome if and only if no cycle crosses a border between partitions. -/
theorem yields_iff (hfd : FlowDirections isNoDataFd fd v) (hin : inflow.IsValues fd.grid f)
    (hpa : parameter.IsValues fd.grid q) :
    (∃ outflow remainder, Yields L within split isNoDataFd fd inflow parameter outflow remainder) ↔
      ¬ CycleCrossesBorder fd v := by
  rw [← routed_iff hfd.represents (setup (L := L) (within := within) (split := split) hfd hin hpa)]
  exact ⟨fun ⟨_, _, _, _, y, hy, _, _⟩ => ⟨y, hy⟩, fun ⟨y, hy⟩ => ⟨_, _, hin.compatible, hpa.compatible, y, hy, rfl, rfl⟩⟩

end Lue.MassBalance

import Verif.Calculate.Paths
import Verif.DataModel.Proofs

/-!
# Names of variables are unique, and the translated expression has the value of the original expression
-/
namespace Lue.Calculate

variable {κ γ V : Type}

/-! ### Dictionaries -/

theorem suffixed_inj {b : Str} {i j : Nat} (h : suffixed b i = suffixed b j) : i = j := by
  unfold suffixed at h
  exact DataModel.name_inj (by simpa using h)

theorem freshIndex_none {b : Str} {used : List Str} :
    ∀ {fuel i : Nat}, freshIndex b used fuel i = none → ∀ j, i ≤ j → j < i + fuel → suffixed b j ∈ used := by
  intro fuel
  induction fuel with
  | zero => intro i _ j h1 h2; omega
  | succ fuel ih =>
    intro i h j h1 h2
    unfold freshIndex at h
    split at h
    · rename_i hm
      by_cases hj : j = i
      · rw [hj]; exact hm
      · exact ih h j (by omega) (by omega)
    · cases h

theorem freshIndex_some {b : Str} {used : List Str} :
    ∀ {fuel i k : Nat}, freshIndex b used fuel i = some k → suffixed b k ∉ used := by
  intro fuel
  induction fuel with
  | zero => intro i k h; cases h
  | succ fuel ih =>
    intro i k h
    unfold freshIndex at h
    split at h
    · exact ih h
    · rename_i hm
      simp only [Option.some.injEq] at h
      rw [← h]; exact hm

/-- C54: the loop looking for a name which is not in use ends -/
theorem freshIndex_ends (b : Str) (used : List Str) : ∃ k, freshIndex b used (used.length + 1) 0 = some k := by
  cases h : freshIndex b used (used.length + 1) 0 with
  | some k => exact ⟨k, rfl⟩
  | none =>
    exfalso
    have hall := freshIndex_none h
    have hsub : ((List.range (used.length + 1)).map (suffixed b)) ⊆ used := by
      intro x hx
      simp only [List.mem_map, List.mem_range] at hx
      obtain ⟨j, hj, rfl⟩ := hx
      exact hall j (by omega) (by omega)
    have hnd : ((List.range (used.length + 1)).map (suffixed b)).Nodup :=
      List.Nodup.map (fun _ _ h => suffixed_inj h) List.nodup_range
    have := (hnd.subperm hsub).length_le
    simp at this

/-- A dictionary with different names for the pathnames -/
structure GoodDict (ps : List Str) (d : Dict) : Prop where
  keys : d.map (·.1) = ps
  values : (d.map (·.2)).Nodup
  named : ∀ pv ∈ d, ∃ i, pv.2 = suffixed (variableName pv.1) i

theorem nameAll_ok (ps : List Str) : ∀ (qs : List Str) (d : Dict), GoodDict qs d →
    ∃ d', nameAll ps d = some d' ∧ GoodDict (qs ++ ps) d' := by
  induction ps with
  | nil => intro qs d h; exact ⟨d, rfl, by simpa using h⟩
  | cons p ps ih =>
    intro qs d h
    obtain ⟨k, hk⟩ := freshIndex_ends (variableName p) (d.map (·.2))
    rw [List.length_map] at hk
    obtain ⟨d', e1, e2⟩ := ih (qs ++ [p]) (d ++ [(p, suffixed (variableName p) k)]) (by
      refine ⟨by simp [h.keys], ?_, ?_⟩
      · rw [List.map_append]
        refine List.Nodup.append h.values (by simp) ?_
        intro x hx hx'
        simp only [List.map_cons, List.map_nil, List.mem_singleton] at hx'
        rw [hx'] at hx
        exact freshIndex_some hk hx
      · intro pv hpv
        rcases List.mem_append.mp hpv with hpv | hpv
        · exact h.named pv hpv
        · simp only [List.mem_singleton] at hpv
          rw [hpv]; exact ⟨k, rfl⟩)
    refine ⟨d', ?_, by simpa using e2⟩
    unfold nameAll
    rw [hk]
    exact e1

/-- C54: each path gets a name of its own -/
theorem variableNames_ok (ps : List Str) : ∃ d, variableNames ps = some d ∧ GoodDict ps d := by
  obtain ⟨d, e1, e2⟩ := nameAll_ok ps [] [] ⟨rfl, by simp, by simp⟩
  exact ⟨d, e1, by simpa using e2⟩

theorem lookup_mem {d : Dict} {p v : Str} (hn : (d.map (·.1)).Nodup) (h : (p, v) ∈ d) : d.lookup p = some v := by
  induction d with
  | nil => cases h
  | cons pv d ih =>
    obtain ⟨q, u⟩ := pv
    simp only [List.map_cons, List.nodup_cons] at hn
    rcases List.mem_cons.mp h with h | h
    · simp only [Prod.mk.injEq] at h
      rw [h.1, h.2]; simp [List.lookup]
    · have hpq : p ≠ q := by
        intro hpq; rw [hpq] at h; exact hn.1 (List.mem_map.mpr ⟨(q, v), h, rfl⟩)
      rw [List.lookup_cons]
      simp only [show (p == q) = false from by simpa using hpq]
      exact ih hn.2 h

theorem mem_of_lookup {d : Dict} {p v : Str} (h : d.lookup p = some v) : (p, v) ∈ d := by
  induction d with
  | nil => cases h
  | cons pv d ih =>
    obtain ⟨q, u⟩ := pv
    rw [List.lookup_cons] at h
    cases hpq : p == q with
    | true =>
      rw [hpq] at h
      simp only [Option.some.injEq] at h
      have : p = q := by simpa using hpq
      rw [this, h]; simp
    | false =>
      rw [hpq] at h
      exact List.mem_cons_of_mem _ (ih h)

theorem GoodDict.lookup {ps : List Str} {d : Dict} (h : GoodDict ps d) {p : Str} (hp : p ∈ ps) :
    ∃ v, d.lookup p = some v := by
  rw [← h.keys] at hp
  clear h
  induction d with
  | nil => cases hp
  | cons pv d ih =>
    obtain ⟨q, u⟩ := pv
    rw [List.lookup_cons]
    cases hpq : p == q with
    | true => exact ⟨u, rfl⟩
    | false =>
      simp only [List.map_cons, List.mem_cons] at hp
      rcases hp with rfl | hp
      · simp at hpq
      · exact ih hp

/-- Different paths have different names -/
theorem GoodDict.inj {ps : List Str} {d : Dict} (h : GoodDict ps d) {p q v : Str} (hp : (p, v) ∈ d) (hq : (q, v) ∈ d) :
    p = q := by
  have hv := h.values
  clear h
  induction d with
  | nil => cases hp
  | cons pv d ih =>
    simp only [List.map_cons, List.nodup_cons] at hv
    rcases List.mem_cons.mp hp with hp | hp <;> rcases List.mem_cons.mp hq with hq | hq
    · rw [← hq] at hp; exact (Prod.mk.inj hp).1
    · exact absurd (List.mem_map.mpr ⟨_, hq, by rw [← hp]⟩) hv.1
    · exact absurd (List.mem_map.mpr ⟨_, hp, by rw [← hq]⟩) hv.1
    · exact ih hp hq hv.2

/-! ### Names -/

theorem splitOn_nil_of_not_mem {c : Char} {t : Str} (h : c ∉ t) : splitOn c t = [t] := by
  induction t with
  | nil => rfl
  | cons x xs ih =>
    simp only [List.mem_cons, not_or] at h
    unfold splitOn
    rw [if_neg (Ne.symm h.1), ih h.2]

theorem splitOn_append {c : Char} {a t : Str} (h : c ∉ a) : splitOn c (a ++ c :: t) = a :: splitOn c t := by
  induction a with
  | nil => simp [splitOn]
  | cons x xs ih =>
    simp only [List.mem_cons, not_or] at h
    rw [List.cons_append]
    conv_lhs => unfold splitOn
    rw [if_neg (Ne.symm h.1), ih h.2]

/-- Every name of a type of elements is a plain name -/
theorem elementTypes_eq :
    elementTypes = ["uint8", "uint32", "uint64", "int32", "int64", "float32", "float64"].map String.toList := rfl

theorem not_numberSuffix_of_no_underscore {x : Str} (h : '_' ∉ x) : ¬NumberSuffix x := by
  rintro ⟨n, ds, rfl, -, -⟩
  exact h (by simp)

theorem elementTypes_underscore : ∀ x ∈ elementTypes, '_' ∉ x ∧ '.' ∉ x := by decide

theorem not_elementType {x : Str} (h : NumberSuffix x) : x ∉ elementTypes := fun hm =>
  not_numberSuffix_of_no_underscore (elementTypes_underscore x hm).1 h

/-- The local names are names with a number as suffix -/
def Locals (env : Str → Option V) : Prop := ∀ x v, env x = some v → NumberSuffix x

theorem lookup_global (w : World κ γ V) {env : Str → Option V} (h : Locals env) {x : Str} (hx : ¬NumberSuffix x) :
    lookup w env x = if x = "lfr".toList then some w.lfr else if x = "np".toList then some w.np else none := by
  unfold lookup
  cases he : env x with
  | none => rfl
  | some v => exact absurd (h x v he) hx

theorem resolve_plain (w : World κ γ V) (env : Str → Option V) {x : Str} (hx : '.' ∉ x) :
    resolve w env x = lookup w env x := by
  unfold resolve
  rw [splitOn_nil_of_not_mem hx]
  rfl

theorem resolve_np (w : World κ γ V) {env : Str → Option V} (h : Locals env) {x : Str} (hx : '.' ∉ x) :
    resolve w env ("np.".toList ++ x) = w.attr w.np x := by
  unfold resolve
  rw [show "np.".toList ++ x = "np".toList ++ '.' :: x from rfl, splitOn_append (by decide),
    splitOn_nil_of_not_mem hx]
  show attrs w ((lookup w env "np".toList).bind fun v => w.attr v x) [] = _
  rw [lookup_global w h (not_numberSuffix_of_no_underscore (by decide)), if_neg (by decide), if_pos rfl]
  rfl

theorem resolve_lfr (w : World κ γ V) {env : Str → Option V} (h : Locals env) {x : Str} (hx : '.' ∉ x) :
    resolve w env ("lfr.".toList ++ x) = w.attr w.lfr x := by
  unfold resolve
  rw [show "lfr.".toList ++ x = "lfr".toList ++ '.' :: x from rfl, splitOn_append (by decide),
    splitOn_nil_of_not_mem hx]
  show attrs w ((lookup w env "lfr".toList).bind fun v => w.attr v x) [] = _
  rw [lookup_global w h (not_numberSuffix_of_no_underscore (by decide)), if_pos rfl]
  rfl

theorem resolve_lfr_np (w : World κ γ V) {env : Str → Option V} (h : Locals env) {x : Str} (hx : '.' ∉ x) :
    resolve w env ("lfr.".toList ++ ("np.".toList ++ x)) =
      (w.attr w.lfr "np".toList).bind (fun m => w.attr m x) := by
  unfold resolve
  rw [show "lfr.".toList ++ ("np.".toList ++ x) = "lfr".toList ++ '.' :: ("np".toList ++ '.' :: x) from rfl,
    splitOn_append (by decide), splitOn_append (by decide), splitOn_nil_of_not_mem hx]
  show attrs w (((lookup w env "lfr".toList).bind fun v => w.attr v "np".toList).bind fun v => w.attr v x) [] = _
  rw [lookup_global w h (not_numberSuffix_of_no_underscore (by decide)), if_pos rfl]
  rfl

theorem name_correct (w : World κ γ V) {env : Str → Option V} (h : Locals env) {x : Str} (hx : '.' ∉ x)
    (hs : ¬NumberSuffix x) : resolve w env (qualifyName x) = denoteName w x := by
  unfold qualifyName denoteName
  rw [← elementTypes_eq]
  split
  · exact resolve_np w h hx
  · rw [resolve_plain w env hx, lookup_global w h hs]

theorem function_correct (w : World κ γ V) {env : Str → Option V} (h : Locals env) {f : Str} (hf : '.' ∉ f) :
    resolve w env ("lfr.".toList ++ qualifyName f) = denoteFunction w f := by
  unfold qualifyName denoteFunction
  rw [← elementTypes_eq]
  split
  · exact resolve_lfr_np w h hf
  · exact resolve_lfr w h hf

/-! ### Expressions -/

/-- What is needed to evaluate the translated expression -/
structure EvalReady (w : World κ γ V) (env : Str → Option V) (d : Dict) (f : Str → Str) (raster : Str → V)
    (strs nms cls : List Str) : Prop where
  locals : Locals env
  strings : ∀ s ∈ strs, ∃ v, d.lookup (f s) = some v ∧ '.' ∉ v ∧ NumberSuffix v ∧ env v = some (raster s)
  names : ∀ x ∈ nms, '.' ∉ x ∧ ¬NumberSuffix x
  callees : ∀ x ∈ cls, '.' ∉ x

theorem EvalReady.mono {w : World κ γ V} {env : Str → Option V} {d : Dict} {f : Str → Str} {raster : Str → V}
    {s1 n1 c1 s2 n2 c2 : List Str} (h : EvalReady w env d f raster s1 n1 c1) (hs : s2 ⊆ s1) (hn : n2 ⊆ n1)
    (hc : c2 ⊆ c1) : EvalReady w env d f raster s2 n2 c2 :=
  ⟨h.locals, fun s hm => h.strings s (hs hm), fun x hm => h.names x (hn hm), fun x hm => h.callees x (hc hm)⟩

mutual
/-- C54: the translated expression has the value of the original expression -/
theorem expr_correct (w : World κ γ V) (env : Str → Option V) (d : Dict) (f : Str → Str) (raster : Str → V) :
    ∀ (e : Expr κ γ), Supported e → EvalReady w env d f raster (strings e) (names e) (callees e) →
      ∃ e', qualify (replace d (mapStrings f e)) = some e' ∧ eval w env e' = denote w raster e
  | .str s, _, h => by
    obtain ⟨v, h1, h2, h3, h4⟩ := h.strings s (by simp [strings])
    refine ⟨.name v, ?_, ?_⟩
    · simp only [mapStrings, replace, replaceString, h1, qualify, qualifyName, if_neg (not_elementType h3)]
    · simp only [eval, denote, resolve_plain w env h2, lookup, h4]
  | .const c, _, _ => ⟨.const c, rfl, rfl⟩
  | .name x, _, h => by
    obtain ⟨h1, h2⟩ := h.names x (by simp [names])
    exact ⟨.name (qualifyName x), rfl, name_correct w h.locals h1 h2⟩
  | .call g how args, hsup, h => by
    obtain ⟨args', e1, e2⟩ := exprs_correct w env d f raster args (by simpa [Supported] using hsup)
      (h.mono (by simp [strings]) (by simp [names]) (by simp [callees]))
    refine ⟨.call ("lfr.".toList ++ qualifyName g) how args', ?_, ?_⟩
    · simp only [mapStrings, replace, qualify, e1, Option.map_some]
    · simp only [eval, denote, e2, function_correct w h.locals (h.callees g (by simp [callees]))]
  | .callOther g how args, hsup, _ => by simp [Supported] at hsup
  | .other kind args, hsup, h => by
    obtain ⟨args', e1, e2⟩ := exprs_correct w env d f raster args (by simpa [Supported] using hsup)
      (h.mono (by simp [strings]) (by simp [names]) (by simp [callees]))
    refine ⟨.other kind args', ?_, ?_⟩
    · simp only [mapStrings, replace, qualify, e1, Option.map_some]
    · simp only [eval, denote, e2]
theorem exprs_correct (w : World κ γ V) (env : Str → Option V) (d : Dict) (f : Str → Str) (raster : Str → V) :
    ∀ (es : List (Expr κ γ)), SupportedL es → EvalReady w env d f raster (stringsL es) (namesL es) (calleesL es) →
      ∃ es', qualifyL (replaceL d (mapStringsL f es)) = some es' ∧ evalL w env es' = denoteL w raster es
  | [], _, _ => ⟨[], rfl, rfl⟩
  | e :: es, hsup, h => by
    simp only [SupportedL] at hsup
    obtain ⟨e', a1, a2⟩ := expr_correct w env d f raster e hsup.1
      (h.mono (by simp [stringsL]) (by simp [namesL]) (by simp [calleesL]))
    obtain ⟨es', b1, b2⟩ := exprs_correct w env d f raster es hsup.2
      (h.mono (by simp [stringsL]) (by simp [namesL]) (by simp [calleesL]))
    refine ⟨e' :: es', ?_, ?_⟩
    · simp only [mapStringsL, replaceL, qualifyL, a1, b1, Option.bind_some, Option.map_some]
    · simp only [evalL, denoteL, a2, b2]
end

mutual
/-- Expressions which are not supported are not translated -/
theorem qualify_none (d : Dict) (f : Str → Str) :
    ∀ (e : Expr κ γ), ¬Supported e → qualify (replace d (mapStrings f e)) = none
  | .str _, h => by simp [Supported] at h
  | .const _, h => by simp [Supported] at h
  | .name _, h => by simp [Supported] at h
  | .call _ _ args, h => by
    simp only [mapStrings, replace, qualify, qualifyL_none d f args (by simpa [Supported] using h), Option.map_none]
  | .callOther _ _ _, _ => by simp only [mapStrings, replace, qualify]
  | .other _ args, h => by
    simp only [mapStrings, replace, qualify, qualifyL_none d f args (by simpa [Supported] using h), Option.map_none]
theorem qualifyL_none (d : Dict) (f : Str → Str) :
    ∀ (es : List (Expr κ γ)), ¬SupportedL es → qualifyL (replaceL d (mapStringsL f es)) = none
  | [], h => by simp [SupportedL] at h
  | e :: es, h => by
    simp only [SupportedL, not_and_or] at h
    simp only [mapStringsL, replaceL, qualifyL]
    rcases h with h | h
    · rw [qualify_none d f e h]; rfl
    · rw [qualifyL_none d f es h]
      cases qualify (replace d (mapStrings f e)) <;> rfl
end

mutual
/-- Expressions which are supported are translated -/
theorem qualify_some (d : Dict) (f : Str → Str) :
    ∀ (e : Expr κ γ), Supported e → ∃ e', qualify (replace d (mapStrings f e)) = some e'
  | .str s, _ => by
    simp only [mapStrings, replace, replaceString]
    cases d.lookup (f s) <;> exact ⟨_, rfl⟩
  | .const c, _ => ⟨_, rfl⟩
  | .name x, _ => ⟨_, rfl⟩
  | .call _ _ args, h => by
    obtain ⟨args', h'⟩ := qualifyL_some d f args (by simpa [Supported] using h)
    simp only [mapStrings, replace, qualify, h', Option.map_some]; exact ⟨_, rfl⟩
  | .callOther _ _ _, h => by simp [Supported] at h
  | .other _ args, h => by
    obtain ⟨args', h'⟩ := qualifyL_some d f args (by simpa [Supported] using h)
    simp only [mapStrings, replace, qualify, h', Option.map_some]; exact ⟨_, rfl⟩
theorem qualifyL_some (d : Dict) (f : Str → Str) :
    ∀ (es : List (Expr κ γ)), SupportedL es → ∃ es', qualifyL (replaceL d (mapStringsL f es)) = some es'
  | [], _ => ⟨_, rfl⟩
  | e :: es, h => by
    simp only [SupportedL] at h
    obtain ⟨e', h1⟩ := qualify_some d f e h.1
    obtain ⟨es', h2⟩ := qualifyL_some d f es h.2
    simp only [mapStringsL, replaceL, qualifyL, h1, h2, Option.bind_some, Option.map_some]; exact ⟨_, rfl⟩
end

mutual
/-- The strings of the normalized expression -/
theorem strings_map (f : Str → Str) : ∀ (e : Expr κ γ), strings (mapStrings f e) = (strings e).map f
  | .str s => by simp [strings, mapStrings]
  | .const _ => by simp [strings, mapStrings]
  | .name _ => by simp [strings, mapStrings]
  | .call _ _ args => by simp only [strings, mapStrings, stringsL_map f args]
  | .callOther g _ args => by simp only [strings, mapStrings, strings_map f g, stringsL_map f args, List.map_append]
  | .other _ args => by simp only [strings, mapStrings, stringsL_map f args]
theorem stringsL_map (f : Str → Str) : ∀ (es : List (Expr κ γ)), stringsL (mapStringsL f es) = (stringsL es).map f
  | [] => rfl
  | e :: es => by simp only [stringsL, mapStringsL, strings_map f e, stringsL_map f es, List.map_append]
end

end Lue.Calculate

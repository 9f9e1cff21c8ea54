import Verif.Spec.SimilarDistributions
import Verif.Props.FitEverything
import Mathlib.Tactic.NormNum

/-! # C98: `similar_distributions` -/

namespace Reliability.Props

open Reliability Reliability.Fitters Reliability.Fitters.Dist Reliability.Similar Reliability.Spec List

theorem objectOf_kind {fitted : Dist → Fitted} {s : Bool} {d : Dist} {o : DistObj} (h : objectOf fitted s d = some o) :
    kindOf o = d ∧ (d ≠ Exponential_2P → paramsOf o = fittedParams (fitted d) d) ∧
      (d = Exponential_2P → paramsOf o = [(fitted Exponential_1P).p1, (fitted Exponential_2P).g]) := by
  cases d <;> simp only [objectOf] at h
  case Weibull_3P | Gamma_3P | Lognormal_3P | Exponential_2P | Loglogistic_3P =>
    split at h
    · rename_i hg
      cases h
      simp [kindOf, paramsOf, fittedParams, hg.2]
    · cases h
  all_goals cases h
  all_goals simp [kindOf, paramsOf, fittedParams]

theorem objectOf_isSome (fitted : Dist → Fitted) (s : Bool) (d : Dist) :
    (∃ o, objectOf fitted s d = some o) ↔ d ∉ [Weibull_Mixture, Weibull_CR, Weibull_DS] ∧
      (d ∈ shiftedKinds → s = true ∧ (fitted d).g ≠ 0) := by
  cases d <;> simp [objectOf, shiftedKinds]

theorem filterMap_kind (fitted : Dist → Fitted) (s : Bool) (l : List Dist) :
    (l.filterMap (objectOf fitted s)).map kindOf = l.filter fun d => (objectOf fitted s d).isSome := by
  induction l with
  | nil => rfl
  | cons d l ih =>
    rw [filterMap_cons, filter_cons]
    cases h : objectOf fitted s d with
    | none => simpa using ih
    | some o => simp [ih, (objectOf_kind h).1]

/-- The steps of an accepted call. -/
theorem similar_ok {argsort : List ℝ → List Nat} {fit : List ℝ → Dist → Row} {fitted : List ℝ → Dist → Fitted}
    {name2 : Option Dist} {quantile : ℝ → ℝ} {shifted : Bool} {number : NumArg} {out : SimilarOut}
    (h : similarDistributions argsort fit fitted name2 quantile shifted number = .ok out) :
    ∃ name res, name2 = some name ∧ 175 ≤ (samples quantile).length ∧
      fitEverything argsort (fit (samples quantile)) (samples quantile).length (samples quantile)
        (if shifted = false then .list shiftedNames else .none) (some "BIC") = .ok res ∧
      out.results = ((res.results.map Row.dist).erase name).filterMap (objectOf (fitted (samples quantile)) shifted) ∧
      out.results.head? = some out.most_similar := by
  unfold similarDistributions at h
  dsimp only at h
  rw [show ((Np.linspace (1 / 1000) (999 / 1000) 698).map quantile).filter (fun x => decide (0 < x)) = samples quantile
    from rfl] at h
  cases name2 with
  | none => cases h
  | some name =>
    cases number with
    | other => cases h
    | int n =>
      simp only at h
      split at h
      · cases h
      split at h
      · cases h
      rename_i hl
      split at h
      · cases h
      rename_i res hres
      split at h
      · cases h
      · rename_i o os ho
        cases h
        exact ⟨name, res, rfl, not_lt.1 hl, hres, ho.symm, rfl⟩

theorem leftOut_none {xs : List ℝ} (hl : 175 ≤ xs.length) (d : Dist) :
    LeftOut xs.length xs .none d ↔ d = Beta_2P ∧ ∃ x ∈ xs, 1 ≤ x := by
  unfold LeftOut
  simp only [listed, not_mem_nil, false_and, exists_false, false_or]
  constructor
  · rintro (⟨h, -⟩ | h)
    · omega
    · exact h
  · exact .inr

theorem shiftedNames_spec (d : Dist) : (∃ s, Item.str s ∈ shiftedNames ∧ up s ∈ aliases d) ↔ d ∈ shiftedKinds := by
  constructor
  · rintro ⟨s, hs, h⟩
    rw [← resolve_iff] at h
    have : ∀ s ∈ ["Weibull_3P", "Lognormal_3P", "Exponential_2P", "Gamma_3P", "Loglogistic_3P"],
        ∀ d, resolve s = some d → d ∈ shiftedKinds := by
      have h0 : ∀ s ∈ ["Weibull_3P", "Lognormal_3P", "Exponential_2P", "Gamma_3P", "Loglogistic_3P"],
        (resolve s).all (fun d => decide (d ∈ shiftedKinds)) = true := by decide +kernel
      intro s hs d hd
      have := h0 s hs
      rw [hd] at this
      simpa using this
    unfold shiftedNames at hs
    obtain ⟨t, ht, he⟩ := mem_map.1 hs
    cases he
    exact this _ ht _ h
  · intro h
    have : ∀ d ∈ shiftedKinds, ∃ s ∈ ["Weibull_3P", "Lognormal_3P", "Exponential_2P", "Gamma_3P", "Loglogistic_3P"],
        resolve s = some d := by decide +kernel
    obtain ⟨s, hs, hr⟩ := this d h
    exact ⟨s, mem_map.2 ⟨s, hs, rfl⟩, (resolve_iff s d).1 hr⟩

theorem leftOut_shifted {xs : List ℝ} (hl : 175 ≤ xs.length) (d : Dist) :
    LeftOut xs.length xs (.list shiftedNames) d ↔ d ∈ shiftedKinds ∨ (d = Beta_2P ∧ ∃ x ∈ xs, 1 ≤ x) := by
  unfold LeftOut
  rw [show listed (.list shiftedNames) = shiftedNames from rfl, shiftedNames_spec]
  constructor
  · rintro (h | ⟨h, -⟩ | h)
    · exact .inl h
    · omega
    · exact .inr h
  · rintro (h | h)
    · exact .inl h
    · exact .inr (.inr h)

/-- **C98.** The results are ranked by BIC (of the fits to the positive samples), best first; each family (with its number of
parameters) occurs at most once; exactly the families other than the input's own occur, location-shifted ones only if asked
for and really shifted, Beta only if all samples are below 1; every object carries the parameters of its own fit — except
Exponential_2P, see the finding. -/
theorem C98_ranking {argsort : List ℝ → List Nat} (ha : IsArgsort argsort) {fit : List ℝ → Dist → Row}
    {fitted : List ℝ → Dist → Fitted} {name : Dist} {quantile : ℝ → ℝ} {shifted : Bool} {number : NumArg} {out : SimilarOut}
    (h : similarDistributions argsort fit fitted (some name) quantile shifted number = .ok out) :
    out.results.head? = some out.most_similar ∧
    (out.results.map kindOf).Nodup ∧
    out.results.Pairwise (fun a b => (fit (samples quantile) (kindOf a)).BIC ≤ (fit (samples quantile) (kindOf b)).BIC) ∧
    (∀ d, d ∈ out.results.map kindOf ↔ d ∉ [Weibull_Mixture, Weibull_CR, Weibull_DS] ∧ d ≠ name ∧
      (d ∈ shiftedKinds → shifted = true ∧ (fitted (samples quantile) d).g ≠ 0) ∧
      (d = Beta_2P → ∀ x ∈ samples quantile, x < 1)) ∧
    (∀ o ∈ out.results, kindOf o ≠ Exponential_2P →
      paramsOf o = fittedParams (fitted (samples quantile) (kindOf o)) (kindOf o)) := by
  obtain ⟨nm, res, hn, hl, hfe, hres, hhead⟩ := similar_ok h
  cases hn
  obtain ⟨hnd, hmem, hrow, -⟩ := C44_contents ha hfe
  obtain ⟨best, -, -, -, hbic, -⟩ := C44_sorted ha hfe
  have hpw := (hbic (by decide +kernel)).1
  have hmapk : out.results.map kindOf =
      ((res.results.map Row.dist).erase name).filter
        (fun d => (objectOf (fitted (samples quantile)) shifted d).isSome) := by
    rw [hres, filterMap_kind]
  refine ⟨hhead, ?_, ?_, ?_, ?_⟩
  · rw [hmapk]
    exact (hnd.erase _).filter _
  · have h1 : (res.results.map Row.dist).Pairwise fun a b =>
        (fit (samples quantile) a).BIC ≤ (fit (samples quantile) b).BIC := by
      rw [pairwise_map]
      refine hpw.imp_of_mem fun {a b} ha hb hab => ?_
      rw [hrow a ha, hrow b hb] at hab
      exact hab
    have h2 : (out.results.map kindOf).Pairwise fun a b =>
        (fit (samples quantile) a).BIC ≤ (fit (samples quantile) b).BIC := by
      rw [hmapk]
      exact (h1.sublist (erase_sublist)).sublist (filter_sublist)
    rwa [pairwise_map] at h2
  · intro d
    rw [hmapk, mem_filter, hnd.mem_erase_iff, hmem, Option.isSome_iff_exists, objectOf_isSome]
    have hb : (¬ ∃ x ∈ samples quantile, 1 ≤ x) ↔ ∀ x ∈ samples quantile, x < 1 := by push Not; rfl
    cases shifted with
    | true =>
      rw [if_neg (by simp), leftOut_none hl]
      rw [← hb]
      generalize (∃ x ∈ samples quantile, 1 ≤ x) = P
      generalize (fitted (samples quantile) d).g = g
      generalize shiftedKinds = K
      generalize [Weibull_Mixture, Weibull_CR, Weibull_DS] = M
      clear * -
      tauto
    | false =>
      rw [if_pos rfl, leftOut_shifted hl, ← hb]
      simp only [Bool.false_eq_true, false_and]
      generalize (∃ x ∈ samples quantile, 1 ≤ x) = P
      generalize shiftedKinds = K
      generalize [Weibull_Mixture, Weibull_CR, Weibull_DS] = M
      clear * -
      tauto
  · intro o ho hne
    rw [hres, mem_filterMap] at ho
    obtain ⟨d, -, hd⟩ := ho
    obtain ⟨hk, hp, -⟩ := objectOf_kind hd
    rw [hk] at hne ⊢
    exact hp hne

/-- Finding: the Exponential_2P in the results has the rate found by the Exponential_1P fitter, not its own. -/
theorem C98_exponential_finding {argsort : List ℝ → List Nat} {fit : List ℝ → Dist → Row}
    {fitted : List ℝ → Dist → Fitted} {name : Option Dist} {quantile : ℝ → ℝ} {shifted : Bool} {number : NumArg}
    {out : SimilarOut} (h : similarDistributions argsort fit fitted name quantile shifted number = .ok out) :
    ∀ o ∈ out.results, kindOf o = Exponential_2P →
      paramsOf o = [(fitted (samples quantile) Exponential_1P).p1, (fitted (samples quantile) Exponential_2P).g] := by
  obtain ⟨nm, res, -, -, -, hres, -⟩ := similar_ok h
  intro o ho hk
  rw [hres, mem_filterMap] at ho
  obtain ⟨d, -, hd⟩ := ho
  obtain ⟨hk', -, hp⟩ := objectOf_kind hd
  exact hp (hk'.symm.trans hk)

theorem linspace_split : Np.linspace (1 / 1000 : ℝ) (999 / 1000) 698 =
    ((range 698).take 523 ++ (range 698).drop 523).map
      fun i : ℕ => (1 / 1000 : ℝ) + (i : ℝ) * ((999 / 1000 - 1 / 1000) / ((698 - 1 : ℕ) : ℝ)) := by
  rw [take_append_drop]
  rfl

/-- With an increasing quantile function: at least 175 positive samples if the 0.749 quantile is positive, fewer if the 0.75
quantile is not. -/
theorem samples_length {quantile : ℝ → ℝ} (hq : ∀ p q, 0 < p → p ≤ q → q < 1 → quantile p ≤ quantile q) :
    (0 < quantile (749 / 1000) → 175 ≤ (samples quantile).length) ∧
    (quantile (3 / 4) ≤ 0 → (samples quantile).length < 175) := by
  have hmem : ∀ i ∈ (range 698).drop 523, 523 ≤ i ∧ i < 698 := by
    intro i hi
    rw [show (range 698).drop 523 = range' 523 175 by decide +kernel, mem_range'_1] at hi
    omega
  have hmem' : ∀ i ∈ (range 698).take 523, i ≤ 522 := by
    intro i hi
    rw [take_range, mem_range] at hi
    omega
  constructor
  · intro h
    unfold samples
    rw [linspace_split, map_append, map_append, filter_append, length_append]
    have : ∀ x ∈ ((range 698).drop 523).map (fun i : ℕ => (1 / 1000 : ℝ) + (i : ℝ) * ((999 / 1000 - 1 / 1000) / ((698 - 1 : ℕ) : ℝ)))
        |>.map quantile, decide (0 < x) = true := by
      intro x hx
      rw [map_map, mem_map] at hx
      obtain ⟨i, hi, rfl⟩ := hx
      obtain ⟨h1, h2⟩ := hmem i hi
      have h1' : (523 : ℝ) ≤ i := by exact_mod_cast h1
      have h2' : (i : ℝ) ≤ 697 := by exact_mod_cast Nat.le_of_lt_succ h2
      rw [decide_eq_true_eq]
      refine h.trans_le (hq _ _ (by norm_num) ?_ ?_)
      · norm_num; linarith
      · norm_num; linarith
    rw [(filter_eq_self).2 this]
    simp
  · intro h
    unfold samples
    rw [show Np.linspace (1 / 1000 : ℝ) (999 / 1000) 698 =
      ((range 698).take 524 ++ (range 698).drop 524).map
      fun i : ℕ => (1 / 1000 : ℝ) + (i : ℝ) * ((999 / 1000 - 1 / 1000) / ((698 - 1 : ℕ) : ℝ)) by rw [take_append_drop]; rfl]
    rw [map_append, map_append, filter_append, length_append]
    have : ((((range 698).take 524).map (fun i : ℕ => (1 / 1000 : ℝ) + (i : ℝ) * ((999 / 1000 - 1 / 1000) / ((698 - 1 : ℕ) : ℝ)))).map
        quantile).filter (fun x => decide (0 < x)) = [] := by
      rw [filter_eq_nil_iff]
      intro x hx
      rw [map_map, mem_map] at hx
      obtain ⟨i, hi, rfl⟩ := hx
      rw [take_range, mem_range] at hi
      have h1 : (i : ℝ) ≤ 523 := by exact_mod_cast (by omega : i ≤ 523)
      have h0 : (0 : ℝ) ≤ i := Nat.cast_nonneg i
      simp only [decide_eq_true_eq, not_lt]
      refine (hq _ _ ?_ ?_ (by norm_num)).trans h
      · simp only [Function.comp]; positivity
      · norm_num; linarith
    rw [this]
    have h2 := length_filter_le (fun x => decide (0 < x)) ((((range 698).drop 524).map (fun i : ℕ => (1 / 1000 : ℝ) + (i : ℝ) * ((999 / 1000 - 1 / 1000) / ((698 - 1 : ℕ) : ℝ)))).map quantile)
    rw [length_map, length_map, length_drop, length_range] at h2
    simp only [length_nil]
    omega

/-- **C98 (errors).** ValueError for anything that is not one of the eight distributions, for a number that is not an integer of
at least 2, and if 75% of the input are not positive. -/
theorem C98_errors (argsort : List ℝ → List Nat) (fit : List ℝ → Dist → Row)
    (fitted : List ℝ → Dist → Fitted) (name : Option Dist) (quantile : ℝ → ℝ) (shifted : Bool) (number : NumArg)
    (hq : ∀ p q, 0 < p → p ≤ q → q < 1 → quantile p ≤ quantile q)
    (h : name = none ∨ number = .other ∨ (∃ n, number = .int n ∧ n < 2) ∨ quantile (3 / 4) ≤ 0) :
    similarDistributions argsort fit fitted name quantile shifted number = .error .valueError := by
  unfold similarDistributions
  dsimp only
  rw [show ((Np.linspace (1 / 1000) (999 / 1000) 698).map quantile).filter (fun x => decide (0 < x)) = samples quantile
    from rfl]
  cases name with
  | none => rfl
  | some name =>
    cases number with
    | other => rfl
    | int n =>
      simp only
      split
      · rfl
      · rename_i hn
        rw [if_pos]
        rcases h with h | h | ⟨m, h, hm⟩ | h
        · cases h
        · cases h
        · cases h; exact absurd hm hn
        · exact (samples_length hq).2 h

/-- **C98 (success).** Otherwise the call succeeds: a number of at least 2 and a positive 0.749 quantile. -/
theorem C98_succeeds {argsort : List ℝ → List Nat} (ha : IsArgsort argsort) (fit : List ℝ → Dist → Row)
    (fitted : List ℝ → Dist → Fitted) (name : Dist) (quantile : ℝ → ℝ) (shifted : Bool) (n : Int) (hn : 2 ≤ n)
    (hq : ∀ p q, 0 < p → p ≤ q → q < 1 → quantile p ≤ quantile q) (h : 0 < quantile (749 / 1000)) :
    ∃ out, similarDistributions argsort fit fitted (some name) quantile shifted (.int n) = .ok out := by
  have hl := (samples_length hq).1 h
  have hfe : ∃ res, fitEverything argsort (fit (samples quantile)) (samples quantile).length (samples quantile)
      (if shifted = false then .list shiftedNames else .none) (some "BIC") = .ok res := by
    have hx : ∃ ex, excludedDists (samples quantile).length (samples quantile)
        (if shifted = false then .list shiftedNames else .none) = .ok ex := by
      have hw : ∃ l, workingExclude (samples quantile).length (if shifted = false then .list shiftedNames else .none) =
          .ok l ∧ Item.other ∉ l := by
        have h3 : ¬ (samples quantile).length < 3 := by omega
        cases shifted
        · rw [if_pos rfl]
          exact ⟨shiftedNames, by simp only [workingExclude, h3, if_false], by decide⟩
        · rw [if_neg (by decide)]
          exact ⟨[], by simp only [workingExclude, h3, if_false], by decide⟩
      obtain ⟨l, hw, ho⟩ := hw
      obtain ⟨ds, hds⟩ : ∃ ds, resolveAll l = .ok ds := by
        rcases resolveAll_error (l := l) with h | ⟨h, -⟩
        · exact h
        · exact absurd h ho
      unfold excludedDists
      rw [hw]
      simp only [hds]
      split
      · cases hm : (samples quantile).max? with
        | none =>
          rw [max?_eq_none_iff] at hm
          rw [hm] at hl
          simp at hl
        | some m => exact ⟨_, rfl⟩
      · exact ⟨_, rfl⟩
    obtain ⟨ex, hx⟩ := hx
    have hs : sortRows argsort (some "BIC") (frame (fit (samples quantile)) ex) =
        .ok (sortValues argsort Row.BIC (frame (fit (samples quantile)) ex)) := by
      unfold sortRows effectiveSort
      rw [if_neg (by rintro ⟨h, -⟩; revert h; decide)]
      simp only
      rw [if_pos (by decide +kernel)]
    have hnn : Normal_2P ∉ ex := by
      rw [excludedDists_ok hx]
      cases shifted
      · rw [if_pos rfl, leftOut_shifted hl]; simp [shiftedKinds]
      · rw [if_neg (by decide), leftOut_none hl]; simp
    unfold fitEverything
    rw [hx]
    simp only [hs]
    cases hv : sortValues argsort Row.BIC (frame (fit (samples quantile)) ex) with
    | nil =>
      have hp := sortValues_perm ha Row.BIC (frame (fit (samples quantile)) ex)
      rw [hv] at hp
      have : (frame (fit (samples quantile)) ex) = [] := hp.symm.eq_nil
      unfold frame at this
      rw [map_eq_nil_iff, filter_eq_nil_iff] at this
      exact absurd (by simpa using hnn) (this Normal_2P (fitOrder_all _))
    | cons r rs => exact ⟨_, rfl⟩
  obtain ⟨res, hfe⟩ := hfe
  obtain ⟨hnd, hmem, -, -⟩ := C44_contents ha hfe
  have hd : ∃ d, d ≠ name ∧ d ∈ [Normal_2P, Gumbel_2P] := by
    by_cases hd : Normal_2P = name
    · exact ⟨Gumbel_2P, by rw [← hd]; decide, by simp⟩
    · exact ⟨Normal_2P, hd, by simp⟩
  obtain ⟨d, hdn, hd⟩ := hd
  have hin : d ∈ (res.results.map Row.dist).erase name := by
    rw [hnd.mem_erase_iff, hmem]
    refine ⟨hdn, ?_⟩
    simp only [mem_cons, not_mem_nil, or_false] at hd
    cases shifted
    · rw [if_pos rfl, leftOut_shifted hl]; rcases hd with rfl | rfl <;> simp [shiftedKinds]
    · rw [if_neg (by decide), leftOut_none hl]; rcases hd with rfl | rfl <;> simp
  obtain ⟨o, ho⟩ : ∃ o, objectOf (fitted (samples quantile)) shifted d = some o := by
    rw [objectOf_isSome]
    simp only [mem_cons, not_mem_nil, or_false] at hd
    rcases hd with rfl | rfl <;> simp [shiftedKinds]
  unfold similarDistributions
  dsimp only
  rw [show ((Np.linspace (1 / 1000) (999 / 1000) 698).map quantile).filter (fun x => decide (0 < x)) = samples quantile
    from rfl]
  rw [if_neg (by omega), if_neg (by omega), hfe]
  simp only
  cases hc : ((res.results.map Row.dist).erase name).filterMap (objectOf (fitted (samples quantile)) shifted) with
  | nil =>
    have : o ∈ ((res.results.map Row.dist).erase name).filterMap (objectOf (fitted (samples quantile)) shifted) :=
      mem_filterMap.2 ⟨d, hin, ho⟩
    rw [hc] at this
    cases this
  | cons o os => exact ⟨_, rfl⟩

/-- A uniform input on (0, 10) is accepted, whatever the fitters return. -/
example {argsort : List ℝ → List Nat} (ha : IsArgsort argsort) (fit : List ℝ → Dist → Row)
    (fitted : List ℝ → Dist → Fitted) :
    ∃ out, similarDistributions argsort fit fitted (some Weibull_2P) (fun p => 10 * p) true (.int 3) = .ok out :=
  C98_succeeds ha fit fitted _ _ _ 3 (by norm_num) (fun p q _ h _ => by simpa using h) (by norm_num)

end Reliability.Props

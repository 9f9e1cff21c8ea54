import Verif.Lemmas.Steps

/-!
# C12–C18: KaplanMeier, NelsonAalen, RankAdjustment

`argsort` is pandas' sort; `sqrt` numpy's `**0.5`, of which only positivity is assumed except where
`Real.sqrt` is used; `ppf` is `scipy.stats.norm.ppf`, assumed non-negative on `[1/2, 1]`.
-/

set_option linter.unusedSectionVars false

namespace Reliability.NP

open Reliability List

variable {K : Type _} [Field K] [LinearOrder K] [IsStrictOrderedRing K]

/-- Assumption on `scipy.stats.norm.ppf`: non-negative (possibly `inf`, at 1) on `[1/2,1]`, and
positive on `(1/2,1]`. -/
structure NormalQuantile (ppf : K → Ext K) : Prop where
  nonneg : ∀ p, 1 / 2 ≤ p → p ≤ 1 → Ext.NN (ppf p)
  pos : ∀ p, 1 / 2 < p → p ≤ 1 → Ext.Pos (ppf p)

/-- The assumption is satisfiable. -/
example : NormalQuantile (K := ℚ) fun p => if p = 1 then .pinf else .fin (p - 1 / 2) := by
  constructor
  · intro p h1 h2
    split
    · exact Or.inr rfl
    · exact Or.inl ⟨_, by linarith, rfl⟩
  · intro p h1 h2
    split
    · exact Or.inr rfl
    · exact Or.inl ⟨_, by linarith, rfl⟩

section unfoldings
variable {argsort : List K → List Nat} {sqrt : K → K} {ppf : K → Ext K}
  {failures right_censored : Option (List K)} {CI : K} {plot_type : String}

theorem checkInputs_ok {f : List K} (h : checkInputs failures plot_type CI = .ok f) :
    failures = some f ∧ 0 ≤ CI ∧ CI ≤ 1 ∧ 2 ≤ f.length := by
  unfold checkInputs at h
  split at h
  · simp [valueErr] at h
  · split_ifs at h with h1 h2 h3
    push Not at h2
    obtain rfl : _ = f := by simpa using h
    exact ⟨rfl, h2.1, h2.2, by omega⟩

theorem kaplanMeier_ok {r : Result K}
    (h : kaplanMeier argsort sqrt ppf failures right_censored CI plot_type = .ok r) :
    ∃ f, failures = some f ∧ 0 ≤ CI ∧ CI ≤ 1 ∧ 2 ≤ f.length ∧
      r = (let S := sortedData argsort f (right_censored.getD [])
           let KM := kmLoop (some 1) (S.map Prod.snd)
           assemble S KM (greenwood sqrt (ppf (1 - (1 - CI) / 2)) (S.map Prod.snd) KM)) := by
  unfold kaplanMeier at h
  cases hc : checkInputs failures plot_type CI with
  | error e => rw [hc] at h; cases h
  | ok f =>
    rw [hc] at h
    obtain ⟨h1, h2, h3, h4⟩ := checkInputs_ok hc
    refine ⟨f, h1, h2, h3, h4, ?_⟩
    simp only [← kmLoop_none]
    cases h; rfl

theorem nelsonAalen_ok {exp : K → K} {r : Result K}
    (h : nelsonAalen exp argsort sqrt ppf failures right_censored CI plot_type = .ok r) :
    ∃ f, failures = some f ∧ 0 ≤ CI ∧ CI ≤ 1 ∧ 2 ≤ f.length ∧
      r = (let S := sortedData argsort f (right_censored.getD [])
           let NA := (naCHF 0 (S.map Prod.snd)).map fun H => exp (-H)
           assemble S NA (greenwood sqrt (ppf (1 - (1 - CI) / 2)) (S.map Prod.snd) NA)) := by
  unfold nelsonAalen at h
  cases hc : checkInputs failures plot_type CI with
  | error e => rw [hc] at h; cases h
  | ok f =>
    rw [hc] at h
    obtain ⟨h1, h2, h3, h4⟩ := checkInputs_ok hc
    refine ⟨f, h1, h2, h3, h4, ?_⟩
    cases h; rfl

end unfoldings

theorem gwLoop_length (sqrt : K → K) (z s d : Ext K) (L : List (Bool × K)) :
    (gwLoop sqrt z s d L).length = L.length := by
  induction L generalizing s d with
  | nil => rfl
  | cons p L ih => obtain ⟨c, e⟩ := p; simp [gwLoop, ih]

theorem greenwood_length (sqrt : K → K) (z : Ext K) (c : List Bool) (est : List K)
    (h : est.length = c.length) : (greenwood sqrt z c est).length = c.length := by
  simp [greenwood, gwLoop_length, h]

section KM
variable {argsort : List K → List Nat} {sqrt : K → K} {ppf : K → Ext K}
  {failures right_censored : Option (List K)} {CI : K} {plot_type : String}

/-- **C12 (which inputs are accepted).** `KaplanMeier` succeeds exactly on: failures given, at least
two of them, `0 ≤ CI ≤ 1`, and a valid plot type; otherwise it raises ValueError. -/
theorem C12_accepts :
    (∃ r, kaplanMeier argsort sqrt ppf failures right_censored CI plot_type = .ok r) ∨
    kaplanMeier argsort sqrt ppf failures right_censored CI plot_type = valueErr := by
  unfold kaplanMeier
  cases hc : checkInputs failures plot_type CI with
  | ok f => left; exact ⟨_, rfl⟩
  | error e =>
    right
    unfold checkInputs at hc
    split at hc
    · simp only [valueErr] at hc; cases hc; rfl
    · split_ifs at hc <;> simp only [valueErr] at hc <;> cases hc <;> rfl

theorem C12_accepts_iff :
    (∃ r, kaplanMeier argsort sqrt ppf failures right_censored CI plot_type = .ok r) ↔
    ∃ f, failures = some f ∧ 2 ≤ f.length ∧ 0 ≤ CI ∧ CI ≤ 1 ∧
      plot_type ∈ ["CDF", "SF", "CHF", "cdf", "sf", "chf"] := by
  constructor
  · rintro ⟨r, h⟩
    obtain ⟨f, h1, h2, h3, h4, -⟩ := kaplanMeier_ok h
    refine ⟨f, h1, h4, h2, h3, ?_⟩
    by_contra hp
    unfold kaplanMeier checkInputs at h
    rw [h1] at h
    simp only [if_pos hp] at h
    cases h
  · rintro ⟨f, rfl, h2, h3, h4, h5⟩
    refine ⟨(let S := sortedData argsort f (right_censored.getD [])
             let KM := kmLoop none (S.map Prod.snd)
             assemble S KM (greenwood sqrt (ppf (1 - (1 - CI) / 2)) (S.map Prod.snd) KM)), ?_⟩
    · have : checkInputs (some f) plot_type CI = .ok f := by
        unfold checkInputs
        simp only
        rw [if_neg (not_not_intro h5), if_neg (by push Not; exact ⟨h3, h4⟩), if_neg (by omega)]
      unfold kaplanMeier
      rw [this]; rfl

/-- **C12.** The table lists every observation once in time order, and the KM column lies in `[0,1]`
and never increases. -/
theorem C12_survival_curve (ha : IsArgsort argsort) {r : Result K}
    (h : kaplanMeier argsort sqrt ppf failures right_censored CI plot_type = .ok r) :
    r.data.zip r.censor_codes ~ Spec.tagged (failures.getD []) (right_censored.getD []) ∧
    r.data.Pairwise (· ≤ ·) ∧ r.data.length = r.censor_codes.length ∧
    r.est.length = r.data.length ∧
    r.est.Pairwise (· ≥ ·) ∧ ∀ v ∈ r.est, 0 ≤ v ∧ v ≤ 1 := by
  obtain ⟨f, rfl, -, -, -, rfl⟩ := kaplanMeier_ok h
  have hinv := kmLoop_inv (K := K) 1 zero_le_one
    ((sortedData argsort f (right_censored.getD [])).map Prod.snd)
  refine ⟨?_, ?_, ?_, ?_, hinv.1, hinv.2⟩
  · simp only [assemble]
    rw [zip_map', map_id'']
    · simpa using sortedData_perm ha f (right_censored.getD [])
    · intro x; rfl
  · simp only [assemble]
    rw [pairwise_map]
    exact sortedData_sorted ha _ _
  · simp [assemble]
  · simp [assemble, kmLoop_length]

theorem productLimit_perm {S T : List (K × Bool)} (h : S ~ T) (t : K) :
    Spec.productLimit S t = Spec.productLimit T t := by
  have h1 : Spec.failTimes S = Spec.failTimes T := by
    ext s; rw [mem_failTimes, mem_failTimes, h.mem_iff]
  unfold Spec.productLimit
  rw [h1]
  apply Finset.prod_congr rfl
  intro s _
  unfold Spec.deaths Spec.atRisk
  rw [h.countP_eq, h.countP_eq]

/-- **C13.** If at tied times failures are listed before censorings, the KM value in row `i` is the
product-limit estimate of the user's data at that row's time, provided no failure tied with row `i`
comes later in the table. -/
theorem C13_product_limit (ha : IsArgsort argsort) {r : Result K}
    (h : kaplanMeier argsort sqrt ppf failures right_censored CI plot_type = .ok r)
    (hff : Spec.FailuresFirst (r.data.zip r.censor_codes)) (i : Nat) (t : K)
    (ht : r.data[i]? = some t)
    (hlast : ∀ j, i < j → r.data[j]? = some t → r.censor_codes[j]? = some false) :
    r.est[i]? = some (Spec.productLimit (Spec.tagged (failures.getD []) (right_censored.getD [])) t) := by
  obtain ⟨f, rfl, -, -, -, rfl⟩ := kaplanMeier_ok h
  set S := sortedData argsort f (right_censored.getD []) with hS
  have hz : (S.map Prod.fst).zip (S.map Prod.snd) = S := by
    rw [zip_map', map_id'']; intro x; rfl
  simp only [assemble, hz] at hff ht hlast ⊢
  have hi : i < S.length := by
    by_contra hc
    rw [getElem?_eq_none (by simpa using hc)] at ht
    simp at ht
  have hti : (S[i]).1 = t := by
    rw [getElem?_map, getElem?_eq_getElem hi] at ht
    simpa using ht
  rw [kmLoop_productLimit S (sortedData_sorted ha _ _) hff 1 i hi, one_mul, hti]
  · congr 1
    exact productLimit_perm (sortedData_perm ha f (right_censored.getD [])) t
  · intro j hj q hq hqt
    rw [hti] at hqt
    have h1 : (S.map Prod.fst)[j]? = some t := by rw [getElem?_map, hq]; simp [hqt]
    have h2 := hlast j hj h1
    rw [getElem?_map, hq] at h2
    simpa using h2

theorem stable_failuresFirst (ha : IsStableArgsort argsort) (f rc : List K) :
    Spec.FailuresFirst (sortedData argsort f rc) := by
  unfold Spec.FailuresFirst sortedData sortValues takeRows
  set rows := f.map (fun t => (t, true)) ++ rc.map (fun t => (t, false)) with hrows
  rw [pairwise_filterMap]
  refine (ha.2 (rows.map Prod.fst)).imp ?_
  intro i j hij a hai b hbj hab hb
  have hlt : i < j := by
    apply hij
    rw [getElem?_map, getElem?_map, Option.mem_def.1 hai, Option.mem_def.1 hbj]
    simp [hab]
  have hj : j < f.length := by
    by_contra hc
    have : rows[j]? = (rc.map (fun t => (t, false)))[j - f.length]? := by
      rw [hrows, getElem?_append_right (by simpa using hc)]
      simp
    rw [Option.mem_def.1 hbj, getElem?_map] at this
    obtain ⟨w, _, hw⟩ := Option.map_eq_some_iff.1 this.symm
    rw [← hw] at hb
    simp at hb
  have : rows[i]? = (f.map (fun t => (t, true)))[i]? := by
    rw [hrows, getElem?_append_left (by simp; omega)]
  rw [Option.mem_def.1 hai, getElem?_map] at this
  obtain ⟨w, _, hw⟩ := Option.map_eq_some_iff.1 this.symm
  rw [← hw]

/-- **C13 (stable sort).** With a stable sort the hypothesis "failures first at ties" always holds,
so the KM column is the product-limit estimator for every data set. -/
theorem C13_product_limit_stable (ha : IsStableArgsort argsort) {r : Result K}
    (h : kaplanMeier argsort sqrt ppf failures right_censored CI plot_type = .ok r) (i : Nat) (t : K)
    (ht : r.data[i]? = some t)
    (hlast : ∀ j, i < j → r.data[j]? = some t → r.censor_codes[j]? = some false) :
    r.est[i]? = some (Spec.productLimit (Spec.tagged (failures.getD []) (right_censored.getD [])) t) := by
  apply C13_product_limit ha.1 h _ i t ht hlast
  obtain ⟨f, rfl, -, -, -, rfl⟩ := kaplanMeier_ok h
  simp only [assemble]
  rw [zip_map', map_id'']
  · exact stable_failuresFirst ha f _
  · intro x; rfl

/-- An argsort that lists tied rows in reverse. -/
def revArgsort (keys : List K) : List Nat :=
  (refArgsort keys.reverse).map fun i => keys.length - 1 - i

theorem revArgsort_isArgsort : IsArgsort (revArgsort (K := K)) := by
  intro keys
  obtain ⟨h1, h2⟩ := (refArgsort_isArgsort (K := K)) keys.reverse
  have hmem : ∀ i ∈ refArgsort keys.reverse, i < keys.length := by
    intro i hi
    have := h1.mem_iff.1 hi
    simpa using this
  constructor
  · unfold revArgsort
    refine (h1.map _).trans ?_
    rw [length_reverse]
    have : (List.range keys.length).map (fun i => keys.length - 1 - i) = (List.range keys.length).reverse := by
      apply ext_getElem?
      intro k
      by_cases hk : k < keys.length
      · rw [getElem?_map, getElem?_range hk, getElem?_reverse (by simpa using hk)]
        simp only [length_range, Option.map_some]
        rw [getElem?_range (by omega)]
      · rw [getElem?_eq_none (by simpa using hk), getElem?_eq_none (by simpa using hk)]
    rw [this]
    exact reverse_perm _
  · have : takeRows (revArgsort keys) keys = takeRows (refArgsort keys.reverse) keys.reverse := by
      unfold takeRows revArgsort
      rw [filterMap_map]
      apply filterMap_congr
      intro i hi
      have := hmem i hi
      simp only [Function.comp]
      rw [getElem?_reverse (by simpa using this)]
    rw [this]; exact h2

/-- **C13 (finding).** With a sort that puts a censored item before tied failures — which numpy's
default, unstable, quicksort is free to do — the reported KM is not the product-limit estimate:
failures `[1,1]`, censored `[1]` end at 0 instead of 1/3. -/
theorem C13_unstable_sort_counterexample :
    ∃ (argsort : List ℚ → List Nat) (r : Result ℚ), IsArgsort argsort ∧
      kaplanMeier argsort id (fun _ => .fin 0) (some [1, 1]) (some [1]) (1 / 2) "SF" = .ok r ∧
      r.est[2]? = some 0 ∧ Spec.productLimit (Spec.tagged [1, 1] [1]) (1 : ℚ) = 1 / 3 := by
  obtain ⟨r, hr⟩ := (C12_accepts_iff (argsort := revArgsort) (sqrt := id) (ppf := fun _ => .fin 0)
    (failures := some [(1 : ℚ), 1]) (right_censored := some [1]) (CI := 1 / 2) (plot_type := "SF")).2
    ⟨[1, 1], rfl, by simp, by norm_num, by norm_num, by simp⟩
  refine ⟨revArgsort, r, revArgsort_isArgsort, hr, ?_, ?_⟩
  · obtain ⟨f, hf, -, -, -, rfl⟩ := kaplanMeier_ok hr
    obtain rfl : [(1 : ℚ), 1] = f := by simpa using hf
    have : revArgsort [(1 : ℚ), 1, 1] = [2, 1, 0] := by decide +kernel
    simp [assemble, sortedData, sortValues, this, takeRows, kmLoop, code]
  · decide +kernel

/-- **C14.** With no censored items, KM after the `i`-th of `n` failures is `(n-i)/n`. -/
theorem C14_complete_data (ha : IsArgsort argsort) (hrc : right_censored.getD [] = []) {r : Result K}
    (h : kaplanMeier argsort sqrt ppf failures right_censored CI plot_type = .ok r) :
    r.est = (List.range' 1 r.data.length).map fun i : Nat =>
      ((r.data.length - i : Nat) : K) / (r.data.length : K) := by
  obtain ⟨f, rfl, -, -, -, rfl⟩ := kaplanMeier_ok h
  set S := sortedData argsort f (right_censored.getD []) with hS
  have hp := sortedData_perm ha f (right_censored.getD [])
  have hcs : S.map Prod.snd = replicate S.length true := by
    rw [eq_replicate_iff]
    refine ⟨by simp, ?_⟩
    intro b hb
    obtain ⟨q, hq, rfl⟩ := mem_map.1 hb
    have := hp.mem_iff.1 hq
    simp only [Spec.tagged, hrc, map_nil, append_nil, mem_map] at this
    obtain ⟨t, _, rfl⟩ := this
    rfl
  simp only [assemble, hcs, length_map]
  apply ext_getElem?
  intro i
  by_cases hi : i < S.length
  · rw [kmLoop_complete 1 S.length i hi, getElem?_map, getElem?_range' (by simpa using hi)]
    simp only [Option.map_some, one_mul]
    rw [show S.length - 1 - i = S.length - (1 + i) by omega]
  · rw [getElem?_eq_none (by simpa [kmLoop_length] using hi), getElem?_eq_none (by simpa using hi)]

/-- **C14.** KM is zero in a row exactly when it is the last row and a failure; in particular the
curve reaches 0 iff the last observation is a failure. -/
theorem C14_zero_iff_last_failure (ha : IsArgsort argsort) {r : Result K}
    (h : kaplanMeier argsort sqrt ppf failures right_censored CI plot_type = .ok r) (i : Nat)
    (hi : i < r.data.length) :
    r.est[i]? = some 0 ↔ i + 1 = r.data.length ∧ r.censor_codes[i]? = some true := by
  obtain ⟨f, rfl, -, -, -, rfl⟩ := kaplanMeier_ok h
  set S := sortedData argsort f (right_censored.getD []) with hS
  simp only [assemble, length_map] at hi ⊢
  obtain ⟨v, hv, -, hiff⟩ := kmLoop_zero_iff (K := K) 1 zero_lt_one (S.map Prod.snd) i (by simpa using hi)
  rw [hv]
  rw [getElem?_eq_getElem (by simpa using hi : i < (S.map Prod.snd).length)]
  simp only [Option.some.injEq, length_map] at hiff ⊢
  exact hiff

/-- **C15.** For every accepted confidence level and every row: `0 ≤ lower ≤ KM ≤ upper ≤ 1` (and the
bounds are finite). -/
theorem C15_bounds_bracket (hsq : ∀ x : K, 0 < x → 0 < sqrt x) (hq : NormalQuantile ppf)
    {r : Result K} (h : kaplanMeier argsort sqrt ppf failures right_censored CI plot_type = .ok r)
    (i : Nat) (hi : i < r.data.length) :
    ∃ l e u, r.lower[i]? = some (.fin l) ∧ r.est[i]? = some e ∧ r.upper[i]? = some (.fin u) ∧
      0 ≤ l ∧ l ≤ e ∧ e ≤ u ∧ u ≤ 1 := by
  obtain ⟨f, rfl, h0, h1, -, rfl⟩ := kaplanMeier_ok h
  set S := sortedData argsort f (right_censored.getD []) with hS
  set KM := kmLoop (some (1 : K)) (S.map Prod.snd) with hKM
  have hlen : KM.length = S.length := by rw [hKM, kmLoop_length]; simp
  simp only [assemble, length_map] at hi ⊢
  have hinv := kmLoop_inv (K := K) 1 zero_le_one (S.map Prod.snd)
  have hzl : ((S.map Prod.snd).zip KM).length = S.length := by simp [hlen]
  obtain ⟨l, u, hlu, hh⟩ := gwLoop_bracket sqrt hsq (ppf (1 - (1 - CI) / 2))
    (hq.nonneg _ (by linarith) (by linarith)) ((S.map Prod.snd).zip KM) (.fin 0) (.fin 0)
    (Or.inl ⟨0, le_rfl, rfl⟩) ⟨0, le_rfl, rfl⟩
    (fun p hp => hinv.2 p.2 (of_mem_zip hp).2)
    (Or.inr (by
      intro e he
      rw [getLast?_eq_getElem?, hzl] at he
      have hpos : 0 < S.length := by omega
      obtain ⟨v, hv, -, hiff⟩ := kmLoop_zero_iff (K := K) 1 zero_lt_one (S.map Prod.snd) (S.length - 1)
        (by simp; omega)
      rw [getElem?_zip_eq_some] at he
      simp only at he
      rw [← hKM, he.2] at hv
      obtain rfl : e = v := by simpa using hv
      apply hiff.2
      refine ⟨by simp; omega, ?_⟩
      have := he.1
      rw [getElem?_eq_getElem (by simp; omega)] at this
      simpa using this))
    i (by rw [hzl]; exact hi)
  have hei : KM[i]? = some (((S.map Prod.snd).zip KM)[i]'(by rw [hzl]; exact hi)).2 := by
    rw [getElem_zip]
    simp only
    rw [getElem?_eq_getElem (by omega)]
  refine ⟨l, _, u, ?_, hei, ?_, hh⟩
  · rw [getElem?_map]; unfold greenwood; rw [hlu]; rfl
  · rw [getElem?_map]; unfold greenwood; rw [hlu]; rfl

end KM

theorem kmLoop_constCens (p : K) (cs : List Bool) : ConstCens p (cs.zip (kmLoop (some p) cs)) := by
  induction cs generalizing p with
  | nil => simp [ConstCens]
  | cons c cs ih =>
    rw [kmLoop_cons, zip_cons_cons]
    refine ⟨?_, ih _⟩
    rintro rfl
    rw [factor_false, one_mul]

/-- **C15 (Greenwood's formula).** Over the reals, for a finite normal quantile `z`, the bounds are
`KM ∓ z·KM·√G`, clipped to `[0,1]`, with `G = ∑ 1/(m(m-1))` over the failures so far. -/
theorem C15_greenwood_formula {argsort : List ℝ → List Nat} {ppf : ℝ → Ext ℝ}
    {failures right_censored : Option (List ℝ)} {CI z : ℝ} {plot_type : String}
    (hz : ppf (1 - (1 - CI) / 2) = .fin z) {r : Result ℝ}
    (h : kaplanMeier argsort Real.sqrt ppf failures right_censored CI plot_type = .ok r)
    (i : Nat) (e : ℝ) (he : r.est[i]? = some e) :
    let G := Spec.greenwoodSum (r.data.zip r.censor_codes) i
    r.lower[i]? = some (.fin (max 0 (e - Real.sqrt G * e * z))) ∧
    r.upper[i]? = some (.fin (min 1 (e + Real.sqrt G * e * z))) := by
  obtain ⟨f, rfl, h0, h1, -, rfl⟩ := kaplanMeier_ok h
  set S := sortedData argsort f (right_censored.getD []) with hS
  set KM := kmLoop (some (1 : ℝ)) (S.map Prod.snd) with hKM
  have hlen : KM.length = S.length := by rw [hKM, kmLoop_length]; simp
  have hzz : (S.map Prod.fst).zip (S.map Prod.snd) = S := by
    rw [zip_map', map_id'']; intro x; rfl
  simp only [assemble, hzz] at he ⊢
  have hi : i < S.length := by
    by_contra hc
    rw [getElem?_eq_none (by rw [← hKM]; omega)] at he; simp at he
  have hzl : ((S.map Prod.snd).zip KM).length = S.length := by simp [hlen]
  have hinv := kmLoop_inv (K := ℝ) 1 zero_le_one (S.map Prod.snd)
  have hei : (((S.map Prod.snd).zip KM)[i]'(by rw [hzl]; exact hi)).2 = e := by
    rw [getElem_zip]
    simp only
    rw [← hKM, getElem?_eq_getElem (by omega)] at he
    simpa using he
  have hex := gwLoop_exact z ((S.map Prod.snd).zip KM) 0 1 le_rfl (kmLoop_constCens _ _)
    (fun p hp => (hinv.2 p.2 (of_mem_zip hp).2).1) i (by rw [hzl]; exact hi) (by
      intro hl ht
      rw [hei]
      rw [hzl] at hl
      obtain ⟨v, hv, -, hiff⟩ := kmLoop_zero_iff (K := ℝ) 1 zero_lt_one (S.map Prod.snd) i (by simpa using hi)
      rw [← hKM, he] at hv
      obtain rfl : e = v := by simpa using hv
      apply hiff.2
      refine ⟨by simpa using hl, ?_⟩
      rw [getElem_zip] at ht
      exact ht)
  have hfst : ((S.map Prod.snd).zip KM).map Prod.fst = S.map Prod.snd := by
    rw [map_fst_zip (by simp [hlen])]
  have hacc : (acc (fun m => 1 / (((m + 1 : Nat) : ℝ) * (((m + 1 : Nat) : ℝ) - 1))) 0
      (S.map Prod.snd)).getD i 0 = Spec.greenwoodSum S i := by
    rw [getD_eq_getElem?_getD, acc_spec _ 0 S i hi]
    simp only [Option.getD_some, zero_add]
    unfold Spec.greenwoodSum
    apply Finset.sum_congr rfl
    intro j hj
    have : j < S.length := by
      unfold Spec.failsUpTo at hj
      have := (Finset.mem_range.1 (Finset.mem_filter.1 hj).1)
      omega
    have e1 : S.length - j - 1 + 1 = S.length - j := by omega
    rw [e1]
  rw [hfst] at hex
  simp only [hacc, hei, Real.sqrt_zero, zero_mul] at hex
  have hb : (greenwood Real.sqrt (ppf (1 - (1 - CI) / 2)) (S.map Prod.snd) KM)[i]? =
      some (.fin (max 0 (e - Real.sqrt (Spec.greenwoodSum S i) * e * z)),
        .fin (min 1 (e + Real.sqrt (Spec.greenwoodSum S i) * e * z))) := by
    unfold greenwood
    rw [getElem?_map, hz, hex]
    simp only [Option.map_some, Ext.clipLo, Ext.clipHi, Ext.gt, decide_eq_true_eq]
    congr 2
    · split
      · next hh => rw [max_eq_left hh.le]
      · next hh => rw [max_eq_right (not_lt.1 hh)]
    · split
      · next hh => rw [min_eq_left hh.le]
      · next hh => rw [min_eq_right (not_lt.1 hh)]
  constructor
  · rw [getElem?_map, hb]; rfl
  · rw [getElem?_map, hb]; rfl

/-- **C15.** Greenwood's sum never decreases from row to row. -/
theorem C15_greenwood_sum_monotone (S : List (K × Bool)) (i j : Nat) (hij : i ≤ j) (hj : j < S.length) :
    Spec.greenwoodSum S i ≤ Spec.greenwoodSum S j := by
  unfold Spec.greenwoodSum
  apply Finset.sum_le_sum_of_subset_of_nonneg
  · unfold Spec.failsUpTo
    apply Finset.filter_subset_filter
    intro k hk
    rw [Finset.mem_range] at hk ⊢
    omega
  · intro k hk _
    have hkj : k < S.length := by
      unfold Spec.failsUpTo at hk
      have := (Finset.mem_range.1 (Finset.mem_filter.1 hk).1)
      omega
    have h1 : (1 : K) ≤ ((S.length - k : Nat) : K) := by
      have : 1 ≤ S.length - k := by omega
      exact_mod_cast this
    apply div_nonneg zero_le_one
    apply mul_nonneg <;> linarith

/-- The hypotheses of C12–C15 are met by ordinary data with ties and censoring: the estimator returns
a result, for any sort, square root and quantile. -/
example (argsort : List ℚ → List Nat) (sqrt : ℚ → ℚ) (ppf : ℚ → Ext ℚ) :
    ∃ r, kaplanMeier argsort sqrt ppf (some [3, 5, 5, 9]) (some [5, 12]) (19 / 20) "SF" = .ok r :=
  C12_accepts_iff.2 ⟨_, rfl, by simp, by norm_num, by norm_num, by simp⟩

/-- C13's tie hypothesis holds for the stable reference sort on tied data. -/
example : Spec.FailuresFirst (sortedData (refArgsort (K := ℚ)) [5, 3, 5] [5, 12]) :=
  stable_failuresFirst refArgsort_stable _ _

end Reliability.NP

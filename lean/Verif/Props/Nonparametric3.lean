import Verif.Props.Nonparametric2

/-! # C18: step arrays of the non-parametric estimators -/

set_option linter.unusedSectionVars false

namespace Reliability.NP

open Reliability List

variable {K : Type _} [Field K] [LinearOrder K] [IsStrictOrderedRing K]

/-- What C18 says of one result: all arrays have one length; CDF = 1 - SF; the CDF lower bound is one
minus the SF upper bound and vice versa. -/
structure Aligned (r : Result K) : Prop where
  len_SF : r.SF.length = r.xvals.length
  len_SF_lower : r.SF_lower.length = r.xvals.length
  len_SF_upper : r.SF_upper.length = r.xvals.length
  len_CDF_lower : r.CDF_lower.length = r.xvals.length
  len_CDF_upper : r.CDF_upper.length = r.xvals.length
  CDF_eq : r.CDF = r.SF.map (fun s => 1 - s)
  CDF_lower_eq : r.CDF_lower = r.SF_upper.map (fun s => Ext.sub (.fin 1) s)
  CDF_upper_eq : r.CDF_upper = r.SF_lower.map (fun s => Ext.sub (.fin 1) s)

theorem stepEntries_ne_nil (c0 : Bool) (rows : List (Row K)) (h : rows ≠ []) :
    stepEntries c0 rows ≠ [] := by
  cases rows with
  | nil => exact absurd rfl h
  | cons r rs => cases c0 <;> simp [stepEntries]

theorem assemble_aligned (S : List (K × Bool)) (est : List K) (b : List (Ext K × Ext K))
    (hS : S ≠ []) (he : est.length = S.length) (hb : b.length = S.length) :
    Aligned (assemble S est b) := by
  have hne : stepEntries ((S.map Prod.snd).headD false)
      (((S.map Prod.fst).zip (est.zip b)).map fun p => (⟨p.1, p.2.1, p.2.2.1, p.2.2.2⟩ : Row K)) ≠ [] := by
    apply stepEntries_ne_nil
    intro h
    have := congrArg length h
    simp [he, hb] at this
    exact hS this
  have hlast : ∀ (g : Entry K → Ext K), ((stepEntries ((S.map Prod.snd).headD false)
      (((S.map Prod.fst).zip (est.zip b)).map fun p =>
        (⟨p.1, p.2.1, p.2.2.1, p.2.2.2⟩ : Row K))).map g).getLast?.toList.length = 1 := by
    intro g
    rw [getLast?_eq_some_getLast (by simpa using hne)]
    rfl
  constructor
  · simp [assemble]
  · simp only [assemble, length_append, length_map, length_cons, hlast]
  · simp only [assemble, length_append, length_map, length_cons, hlast]
  · simp only [assemble, length_append, length_map, length_cons, hlast]
  · simp only [assemble, length_append, length_map, length_cons, hlast]
  · rfl
  · rfl
  · rfl

section
variable {argsort : List K → List Nat} {sqrt : K → K} {ppf : K → Ext K}
  {failures right_censored : Option (List K)} {CI : K} {plot_type : String}

theorem sortedData_ne_nil (ha : IsArgsort argsort) {f rc : List K} (hf : 2 ≤ f.length) :
    sortedData argsort f rc ≠ [] := by
  intro h
  have := (sortedData_perm ha f rc).length_eq
  rw [h] at this
  simp [Spec.tagged] at this
  omega

/-- **C18 (Kaplan–Meier).** -/
theorem C18_KM_arrays_aligned (ha : IsArgsort argsort) {r : Result K}
    (h : kaplanMeier argsort sqrt ppf failures right_censored CI plot_type = .ok r) : Aligned r := by
  obtain ⟨f, rfl, -, -, hf, rfl⟩ := kaplanMeier_ok h
  apply assemble_aligned _ _ _ (sortedData_ne_nil ha hf)
  · simp [kmLoop_length]
  · rw [greenwood_length _ _ _ _ (by simp [kmLoop_length])]; simp

/-- **C18 (Nelson–Aalen).** -/
theorem C18_NA_arrays_aligned {exp : K → K} (ha : IsArgsort argsort) {r : Result K}
    (h : nelsonAalen exp argsort sqrt ppf failures right_censored CI plot_type = .ok r) : Aligned r := by
  obtain ⟨f, rfl, -, -, hf, rfl⟩ := nelsonAalen_ok h
  apply assemble_aligned _ _ _ (sortedData_ne_nil ha hf)
  · simp [naCHF_eq, acc_length]
  · rw [greenwood_length _ _ _ _ (by simp [naCHF_eq, acc_length])]; simp

theorem raSteps_length (v : K) (L : List (K × K)) : (raSteps v L).length = 2 * L.length := by
  induction L generalizing v with
  | nil => rfl
  | cons p L ih => obtain ⟨x, y⟩ := p; simp [raSteps, ih]; ring

theorem flatMap_pair_length {α : Type _} (L : List α) : (L.flatMap fun p => [p, p]).length = 2 * L.length := by
  induction L with
  | nil => rfl
  | cons p L ih => rw [flatMap_cons, length_append, ih]; simp; ring

theorem filter_zip_length {α : Type _} (S : List (K × Bool)) (b : List α) (hb : b.length = S.length) :
    (((S.map Prod.snd).zip b).filter (fun p => p.1)).length = (S.filter (fun p => p.2)).length := by
  induction S generalizing b with
  | nil => simp
  | cons p S ih =>
    cases b with
    | nil => simp at hb
    | cons w b =>
      rw [map_cons, zip_cons_cons, filter_cons, filter_cons]
      split <;> simp [ih b (by simpa using hb)]

/-- **C18 (Rank adjustment).** -/
theorem C18_RA_arrays_aligned {a : Option K} (hargs : IsArgsort argsort)
    (ha : 0 ≤ a.getD (3 / 10)) (ha1 : a.getD (3 / 10) ≤ 1) {r : Result K}
    (h : rankAdjustment argsort sqrt ppf failures right_censored a CI plot_type = .ok r) :
    Aligned r := by
  obtain ⟨hlen, -, -, -⟩ := C17_rank_adjustment hargs ha ha1 h
  obtain ⟨f, x, y, RA, rfl, h0, h1, hf2, hpp, hra, rfl⟩ := rankAdjustment_ok h
  set S := sortedData argsort f (right_censored.getD []) with hS
  obtain ⟨hx, hy, -⟩ := ra_values hargs f (right_censored.getD []) hf2 ha ha1 hpp
  simp only [length_map] at hlen
  have hxl : x.length = (S.filter (fun p => p.2)).length := by rw [hx]; simp [hS]
  have hyl : y.length = (S.filter (fun p => p.2)).length := by
    rw [hy]; unfold PP.Spec.positions; rw [length_map, PP.failPositions_length]
  have hgl : (greenwood sqrt (ppf (1 - (1 - CI) / 2)) (S.map Prod.snd) RA).length = S.length := by
    rw [greenwood_length _ _ _ _ (by simp [hlen])]; simp
  have hfl := filter_zip_length S _ hgl
  -- the last censoring code
  obtain ⟨lastc, hlc⟩ : ∃ c, (S.map Prod.snd).getLast? = some c :=
    ⟨_, getLast?_eq_some_getLast (by simpa using sortedData_ne_nil hargs hf2)⟩
  set b := greenwood sqrt (ppf (1 - (1 - CI) / 2)) (S.map Prod.snd) RA with hb
  set down := (Ext.fin (1 : K), Ext.fin (1 : K)) ::
    (((S.map Prod.snd).zip b).filter (fun p => p.1)).map Prod.snd with hdown
  set steps := ((0 : K), (0 : K)) :: raSteps 0 (x.zip y) with hsteps
  have hdl : (down.flatMap fun p => [p, p]).length = 2 * (S.filter (fun p => p.2)).length + 2 := by
    rw [flatMap_pair_length, hdown, length_cons, length_map, hfl]; ring
  have hsl : steps.length = 2 * (S.filter (fun p => p.2)).length + 1 := by
    rw [hsteps, length_cons, raSteps_length, length_zip, hxl, hyl]; simp
  have hL : (if (S.map Prod.snd).getLast? == some true then (down.flatMap fun p => [p, p]).dropLast
        else down.flatMap fun p => [p, p]).length =
      (if (S.map Prod.snd).getLast? == some false then
        steps ++ [((S.map Prod.fst).getLastD 0, (steps.getLastD (0, 0)).2)] else steps).length := by
    rw [hlc]
    cases lastc
    · simp [hdl, hsl]
    · simp [hdl, hsl]
  constructor
  · simp
  · simp only [length_map]; exact hL
  · simp only [length_map]; exact hL
  · simp only [length_map]; exact hL
  · simp only [length_map]; exact hL
  · simp [map_map, Function.comp_def]
  · simp [map_map, Function.comp_def]
  · simp [map_map, Function.comp_def]

/-- **C18 (step arrays bracket the curve).** For KM, with any accepted CI: in the step arrays
`SF_lower ≤ SF ≤ SF_upper` at every index but possibly the last, and also at the last one if the last
observation is censored. -/
theorem C18_KM_step_bounds_partial (hargs : IsArgsort argsort) (hsq : ∀ x : K, 0 < x → 0 < sqrt x)
    (hq : NormalQuantile ppf) {r : Result K}
    (h : kaplanMeier argsort sqrt ppf failures right_censored CI plot_type = .ok r)
    (k : Nat) (hk : k + 1 < r.xvals.length) :
    ∃ l y u, r.SF_lower[k]? = some (.fin l) ∧ r.SF[k]? = some y ∧ r.SF_upper[k]? = some (.fin u) ∧
      l ≤ y ∧ y ≤ u := by
  have hbr := C15_bounds_bracket hsq hq h
  obtain ⟨f, rfl, -, -, hf, rfl⟩ := kaplanMeier_ok h
  set S := sortedData argsort f (right_censored.getD []) with hS
  set KM := kmLoop (some (1 : K)) (S.map Prod.snd) with hKM
  set b := greenwood sqrt (ppf (1 - (1 - CI) / 2)) (S.map Prod.snd) KM with hb
  have hlen : KM.length = S.length := by rw [hKM, kmLoop_length]; simp
  have hblen : b.length = S.length := by
    rw [hb, greenwood_length _ _ _ _ (by simp [hlen])]; simp
  simp only [assemble] at hbr hk ⊢
  simp only [← hKM, ← hb] at hbr hk
  set rows : List (Row K) := ((S.map Prod.fst).zip (KM.zip b)).map
    (fun p => ⟨p.1, p.2.1, p.2.2.1, p.2.2.2⟩) with hrows
  set es := stepEntries ((S.map Prod.snd).headD false) rows with hes
  have hrb : ∀ r ∈ rows, Brackets r.lo r.est r.up := by
    intro r hr
    obtain ⟨p, hp, rfl⟩ := mem_map.1 hr
    obtain ⟨i, hi, hip⟩ := mem_iff_getElem.1 hp
    have hi' : i < S.length := by simp at hi; omega
    obtain ⟨l, e, u, h1, h2, h3, -, h4, h5, -⟩ := hbr i (by simpa using hi')
    rw [getElem?_map, getElem?_eq_getElem (by omega)] at h1 h3
    rw [getElem?_eq_getElem (by omega)] at h2
    simp only [Option.map_some, Option.some.injEq] at h1 h2 h3
    rw [← hip]
    simp only [getElem_zip]
    exact ⟨l, u, h1, h3, by rw [h2]; exact h4, by rw [h2]; exact h5⟩
  have hfirst : (S.map Prod.snd).headD false = false → ∀ r, rows.head? = some r → r.est = 1 := by
    intro hc0 r hr
    cases hSc : S with
    | nil => exact absurd hSc (sortedData_ne_nil hargs hf)
    | cons q T =>
      rw [hSc] at hc0
      simp only [map_cons, headD_cons] at hc0
      have hKMh : KM = 1 :: kmLoop (some 1) (T.map Prod.snd) := by
        rw [hKM, hSc, map_cons, kmLoop_cons, hc0, factor_false, one_mul]
      have hbh : ∃ w bt, b = w :: bt := by
        cases hbb : b with
        | nil => rw [hbb, hSc] at hblen; simp at hblen
        | cons w bt => exact ⟨w, bt, rfl⟩
      obtain ⟨w, bt, hbe⟩ := hbh
      rw [hrows, hSc, hKMh, hbe] at hr
      simp only [map_cons, zip_cons_cons, head?_cons, Option.some.injEq] at hr
      rw [← hr]
  have hkes : k < es.length := by simp at hk; omega
  have he : es[k]? = some es[k] := getElem?_eq_getElem hkes
  have hy : (1 :: es.map Entry.y)[k]? = some ((1 :: es.map Entry.y)[k]'(by simp; omega)) :=
    getElem?_eq_getElem _
  obtain ⟨l, u, hl, hu, h1, h2⟩ := stepEntries_brackets _ rows hrb hfirst k _ he _ hy
  refine ⟨l, _, u, ?_, hy, ?_, h1, h2⟩
  · rw [getElem?_append_left (by simpa using hkes), getElem?_map, he]; simp [hl]
  · rw [getElem?_append_left (by simpa using hkes), getElem?_map, he]; simp [hu]

/-- **C18 (curve shape).** For KM on non-negative times the step curve starts at (0, 1), its xvals
ascend and its SF values never increase. -/
theorem C18_KM_step_curve (hargs : IsArgsort argsort) {r : Result K}
    (h : kaplanMeier argsort sqrt ppf failures right_censored CI plot_type = .ok r)
    (h0 : ∀ t ∈ r.data, 0 ≤ t) :
    r.xvals.head? = some 0 ∧ r.SF.head? = some 1 ∧
    r.xvals.Pairwise (· ≤ ·) ∧ r.SF.Pairwise (· ≥ ·) := by
  obtain ⟨f, rfl, -, -, hf, rfl⟩ := kaplanMeier_ok h
  set S := sortedData argsort f (right_censored.getD []) with hS
  set KM := kmLoop (some (1 : K)) (S.map Prod.snd) with hKM
  set b := greenwood sqrt (ppf (1 - (1 - CI) / 2)) (S.map Prod.snd) KM with hb
  have hlen : KM.length = S.length := by rw [hKM, kmLoop_length]; simp
  have hblen : b.length = S.length := by
    rw [hb, greenwood_length _ _ _ _ (by simp [hlen])]; simp
  have hinv := kmLoop_inv (K := K) 1 zero_le_one (S.map Prod.snd)
  simp only [assemble] at h0 ⊢
  set rows : List (Row K) := ((S.map Prod.fst).zip (KM.zip b)).map
    (fun p => ⟨p.1, p.2.1, p.2.2.1, p.2.2.2⟩) with hrows
  have ht : rows.map Row.t = S.map Prod.fst := by
    rw [hrows, map_map]
    show map Prod.fst _ = _
    rw [map_fst_zip (by simp; omega)]
  have he : rows.map Row.est = KM := by
    rw [hrows, map_map]
    show map (Prod.fst ∘ Prod.snd) _ = _
    rw [← map_map, map_snd_zip (by simp; omega), map_fst_zip (by omega)]
  have hm := stepEntries_mono ((S.map Prod.snd).headD false) rows
    (by
      have : (rows.map Row.t).Pairwise (· ≤ ·) := by
        rw [ht, pairwise_map]; exact sortedData_sorted hargs _ _
      rwa [pairwise_map] at this)
    (fun r hr => h0 r.t (by rw [← ht]; exact mem_map_of_mem hr))
    (by
      have : (rows.map Row.est).Pairwise (· ≥ ·) := by rw [he]; exact hinv.1
      rwa [pairwise_map] at this)
    (fun r hr => (hinv.2 r.est (by rw [← hKM, ← he]; exact mem_map_of_mem hr)).2)
  exact ⟨rfl, rfl, hm.1, hm.2⟩

end

/-- **C18 (finding).** At the last index the repeated lower bound can exceed the curve: failures
`[1, 2]` with normal quantile 1/2 end at `SF = 0` with `SF_lower > 0`. -/
theorem C18_last_lower_bound_counterexample : ∃ (r : Result ℝ) (l : ℝ),
    kaplanMeier refArgsort Real.sqrt (fun _ => .fin (1 / 2)) (some [1, 2]) none (1 / 2) "SF" = .ok r ∧
    r.SF.getLast? = some 0 ∧ r.SF_lower.getLast? = some (.fin l) ∧ 0 < l := by
  have hc : checkInputs (some [(1 : ℝ), 2]) "SF" (1 / 2) = .ok [1, 2] := by
    norm_num [checkInputs]
  have hs : refArgsort [(1 : ℝ), 2] = [0, 1] := by
    simp [refArgsort, zipIdx, insertionSort, orderedInsert]
  have hS : sortedData refArgsort [(1 : ℝ), 2] [] = [(1, true), (2, true)] := by
    simp [sortedData, sortValues, hs, takeRows]
  have hsq : Real.sqrt (1 / 8) < 1 / 2 := by
    rw [show (1 / 2 : ℝ) = Real.sqrt (1 / 4) by
      rw [show (1 / 4 : ℝ) = (1 / 2) ^ 2 by norm_num]; rw [Real.sqrt_sq (by norm_num)]]
    exact Real.sqrt_lt_sqrt (by norm_num) (by norm_num)
  refine ⟨_, 1 / 2 - Real.sqrt (1 / 8) * (1 / 2), by unfold kaplanMeier; rw [hc]; rfl, ?_, ?_, ?_⟩
  · norm_num [hS, assemble, kmLoop, code, greenwood, gwLoop, stepEntries, stepRest]
  · have h8 : ¬ ((1:ℝ) / 2 - Real.sqrt (1 / 8) * (1 / 2) < 0) := by nlinarith
    have e1 : ((2:ℝ)⁻¹ * (1 / 2) ^ 2) = 1 / 8 := by norm_num
    norm_num [hS, assemble, kmLoop, code, greenwood, gwLoop, stepEntries, stepRest, Ext.add, Ext.mul,
      Ext.sub, Ext.neg, Ext.rpowHalf, Ext.divFin, Ext.clipLo, Ext.gt, e1, h8]
    rw [if_neg]
    · congr 1
    · rw [one_div, Real.sqrt_inv] at hsq
      linarith
  · nlinarith

end Reliability.NP

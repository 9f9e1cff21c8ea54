import Verif.Props.FitSpecial
import Verif.Props.FitGlueExamples
import Verif.Spec.Optimizer

/-! # C106-C108: the theorems on the special Weibull fitters, and when they return -/

namespace Reliability.Props

open Reliability Reliability.Distributions Reliability.Combined Reliability.Likelihood Reliability.InputCheck
open Reliability.Fitters (MLEOut OptResult mleOptimization)
open Reliability.FitGlue Reliability.FitSpecial Reliability.Spec Reliability.Spec.InputCheck Reliability.Spec.FitGlue
open Reliability.Spec.FitSpecial
open Reliability.FunctionCI (Jac zOf)

/-! ## C106 -/

/-- **C106 (Fit_Weibull_Mixture).** If the fit returns, its distribution is the mixture with the reported estimates, and
loglik, AICc, BIC (5 parameters) and AD are those of that mixture for the data used. -/
theorem C106_mixture {argsort : List ℝ → List ℕ} (harg : IsArgsort argsort) (J : Jac) (kde : List ℝ → ℝ) (num2 : List ℝ → List ℝ → Option ℝ → Num2)
    (minimize : Minimizer (Fin 5 → ℝ)) (failures : DataArg ℝ) (x : SArgs) (r : SRes (List Dist × List ℝ))
    (h : fitMixture argsort J kde num2 minimize failures x = .ok r) :
    ∃ T C v, UsedData failures x.right_censored T C ∧ r.rows.map Row.point = List.ofFn v ∧
      r.dist = ([weibull (v 0) (v 1) 0, weibull (v 2) (v 3) 0], [v 4, 1 - v 4]) ∧
      (0 < v 0 → 0 < v 1 → 0 < v 2 → 0 < v 3 → 0 ≤ v 4 → v 4 ≤ 1 →
        ReportOf argsort (fun t => v 4 * F (v 0) (v 1) t + (1 - v 4) * F (v 2) (v 3) t) (fun _ p => p)
          (likMixture T C v) T C 5 r.gof) := by
  obtain ⟨T, C, CI, v, h1, -, h3, h4, h5, -⟩ := mixture_run harg h
  refine ⟨T, C, v, h1, ?_, h3, h4⟩
  have := congrArg (List.map Prod.snd) h5
  simpa [Function.comp_def, List.map_ofFn] using this

/-- **C106 (Fit_Weibull_CR).** The same for the competing risks model (4 parameters). -/
theorem C106_CR {argsort : List ℝ → List ℕ} (harg : IsArgsort argsort) (J : Jac) (kde : List ℝ → ℝ) (num2 : List ℝ → List ℝ → Option ℝ → Num2)
    (minimize : Minimizer (Fin 4 → ℝ)) (failures : DataArg ℝ) (x : SArgs) (r : SRes (List Dist))
    (h : fitCR argsort J kde num2 minimize failures x = .ok r) :
    ∃ T C v, UsedData failures x.right_censored T C ∧ r.rows.map Row.point = List.ofFn v ∧
      r.dist = [weibull (v 0) (v 1) 0, weibull (v 2) (v 3) 0] ∧
      (0 < v 0 → 0 < v 1 → 0 < v 2 → 0 < v 3 →
        ReportOf argsort (fun t => 1 - S (v 0) (v 1) t * S (v 2) (v 3) t) (fun _ p => p) (likCR T C v) T C 4 r.gof) := by
  obtain ⟨T, C, CI, v, h1, -, h3, h4, h5, -⟩ := CR_run harg h
  refine ⟨T, C, v, h1, ?_, h3, h4⟩
  have := congrArg (List.map Prod.snd) h5
  simpa [Function.comp_def, List.map_ofFn] using this

/-- **C106 (Fit_Weibull_DSZI).** The same for the model with dead on arrival and immortal items (4 parameters).  The data
include the failures at 0, whose empirical probability is taken to be ZI. -/
theorem C106_DSZI {argsort : List ℝ → List ℕ} (harg : IsArgsort argsort) (J : Jac) (num2 : List ℝ → List ℝ → Option ℝ → Num2)
    (minimize : Minimizer (Fin 4 → ℝ)) (failures : List ℝ) (x : SArgs) (r : SRes DSZI)
    (h : fitDSZI argsort J num2 minimize failures x = .ok r) :
    ∃ zeros T C v, ZeroData failures x.right_censored zeros T C ∧ r.rows.map Row.point = List.ofFn v ∧
      r.dist = ⟨weibull (v 0) (v 1) 0, v 2, v 3⟩ ∧ 0 ≤ v 3 ∧ v 3 ≤ v 2 ∧ v 3 < 1 ∧ 0 < v 2 ∧ v 2 ≤ 1 ∧
      (0 < v 0 → 0 < v 1 → v 3 < v 2 → (0 < v 3 ∨ zeros = 0) →
        ReportOf argsort (cdfDSZI (v 0) (v 1) (v 2) (v 3)) (fun x p => if x = 0 then v 3 else p)
          (likDSZI zeros T C v) failures C 4 r.gof) := by
  obtain ⟨z, T, C, CI, v, h1, -, h3, a, b, c, d, e, h4, h5, -⟩ := DSZI_run harg h
  refine ⟨z, T, C, v, h1, ?_, h3, a, b, c, d, e, h4⟩
  have := congrArg (List.map Prod.snd) h5
  simpa [Function.comp_def, List.map_ofFn] using this

/-- **C106 (Fit_Weibull_DS).** The same for the model with immortal items (3 parameters). -/
theorem C106_DS {argsort : List ℝ → List ℕ} (harg : IsArgsort argsort) (J : Jac) (num2 : List ℝ → List ℝ → Option ℝ → Num2)
    (minimize : Minimizer (Fin 3 → ℝ)) (failures : DataArg ℝ) (x : SArgs) (r : SRes DSZI)
    (h : fitDS argsort J num2 minimize failures x = .ok r) :
    ∃ T C, ∃ v : Fin 3 → ℝ, UsedData failures x.right_censored T C ∧ r.rows.map Row.point = List.ofFn v ∧
      r.dist = ⟨weibull (v 0) (v 1) 0, v 2, 0⟩ ∧ 0 < v 2 ∧ v 2 ≤ 1 ∧
      (0 < v 0 → 0 < v 1 →
        ReportOf argsort (cdfDSZI (v 0) (v 1) (v 2) 0) (fun _ p => p) (likDSZI 0 T C ![v 0, v 1, v 2, 0]) T C 3 r.gof) := by
  obtain ⟨T, C, CI, v, h1, -, h3, a, b, h4, h5, -⟩ := DS_run harg h
  refine ⟨T, C, v, h1, ?_, h3, a, b, h4⟩
  have := congrArg (List.map Prod.snd) h5
  simpa [Function.comp_def, List.map_ofFn] using this

/-- **C106 (Fit_Weibull_ZI).** The same for the model with dead on arrival items (3 parameters). -/
theorem C106_ZI {argsort : List ℝ → List ℕ} (harg : IsArgsort argsort) (J : Jac) (num2 : List ℝ → List ℝ → Option ℝ → Num2)
    (minimize : Minimizer (Fin 3 → ℝ)) (failures : List ℝ) (x : SArgs) (r : SRes DSZI)
    (h : fitZI argsort J num2 minimize failures x = .ok r) :
    ∃ zeros T C, ∃ v : Fin 3 → ℝ, ZeroData failures x.right_censored zeros T C ∧ r.rows.map Row.point = List.ofFn v ∧
      r.dist = ⟨weibull (v 0) (v 1) 0, 1, v 2⟩ ∧ 0 ≤ v 2 ∧ v 2 < 1 ∧
      (0 < v 0 → 0 < v 1 → (0 < v 2 ∨ zeros = 0) →
        ReportOf argsort (cdfDSZI (v 0) (v 1) 1 (v 2)) (fun x p => if x = 0 then v 2 else p)
          (likDSZI zeros T C ![v 0, v 1, 1, v 2]) failures C 3 r.gof) := by
  obtain ⟨z, T, C, CI, v, h1, -, h3, a, b, h4, h5, -⟩ := ZI_run harg h
  refine ⟨z, T, C, v, h1, ?_, h3, a, b, h4⟩
  have := congrArg (List.map Prod.snd) h5
  simpa [Function.comp_def, List.map_ofFn] using this

/-! ## C107 -/

/-- **C107 (Fit_Weibull_Mixture).** The rows: names and estimates, standard errors from the inverse of the observed
information of the mixture, bounds on the log scale and, for the proportion, on the scale of the log odds. -/
theorem C107_mixture {argsort : List ℝ → List ℕ} (harg : IsArgsort argsort) (J : Jac) (kde : List ℝ → ℝ) (num2 : List ℝ → List ℝ → Option ℝ → Num2)
    (minimize : Minimizer (Fin 5 → ℝ)) (failures : DataArg ℝ) (x : SArgs) (r : SRes (List Dist × List ℝ))
    (h : fitMixture argsort J kde num2 minimize failures x = .ok r) :
    ∃ T C CI v, UsedData failures x.right_censored T C ∧ x.CI = .float CI ∧
      r.dist = ([weibull (v 0) (v 1) 0, weibull (v 2) (v 3) 0], [v 4, 1 - v 4]) ∧
      SRows ![ "Alpha 1", "Beta 1", "Alpha 2", "Beta 2", "Proportion 1"] ![none, none, none, none, some none]
        (fun v => 0 < v 0 ∧ 0 < v 1 ∧ 0 < v 2 ∧ 0 < v 3 ∧ 0 < v 4 ∧ v 4 < 1) (likMixture T C) CI v r.rows := by
  obtain ⟨T, C, CI, v, h1, h2, h3, -, h5⟩ := mixture_run harg h
  exact ⟨T, C, CI, v, h1, h2, h3, h5⟩

/-- **C107 (Fit_Weibull_CR).** -/
theorem C107_CR {argsort : List ℝ → List ℕ} (harg : IsArgsort argsort) (J : Jac) (kde : List ℝ → ℝ) (num2 : List ℝ → List ℝ → Option ℝ → Num2)
    (minimize : Minimizer (Fin 4 → ℝ)) (failures : DataArg ℝ) (x : SArgs) (r : SRes (List Dist))
    (h : fitCR argsort J kde num2 minimize failures x = .ok r) :
    ∃ T C CI v, UsedData failures x.right_censored T C ∧ x.CI = .float CI ∧
      r.dist = [weibull (v 0) (v 1) 0, weibull (v 2) (v 3) 0] ∧
      SRows ![ "Alpha 1", "Beta 1", "Alpha 2", "Beta 2"] ![none, none, none, none]
        (fun v => 0 < v 0 ∧ 0 < v 1 ∧ 0 < v 2 ∧ 0 < v 3) (likCR T C) CI v r.rows := by
  obtain ⟨T, C, CI, v, h1, h2, h3, -, h5⟩ := CR_run harg h
  exact ⟨T, C, CI, v, h1, h2, h3, h5⟩

/-- **C107 (Fit_Weibull_DSZI).** An estimate of DS of 1 and one of ZI of 0 are their own bounds. -/
theorem C107_DSZI {argsort : List ℝ → List ℕ} (harg : IsArgsort argsort) (J : Jac) (num2 : List ℝ → List ℝ → Option ℝ → Num2)
    (minimize : Minimizer (Fin 4 → ℝ)) (failures : List ℝ) (x : SArgs) (r : SRes DSZI)
    (h : fitDSZI argsort J num2 minimize failures x = .ok r) :
    ∃ zeros T C CI v, ZeroData failures x.right_censored zeros T C ∧ x.CI = .float CI ∧
      r.dist = ⟨weibull (v 0) (v 1) 0, v 2, v 3⟩ ∧
      SRows ![ "Alpha", "Beta", "DS", "ZI"] ![none, none, some (some 1), some (some 0)]
        (fun v => LegalDSZI zeros C (v 0) (v 1) (v 2) (v 3)) (likDSZI zeros T C) CI v r.rows := by
  obtain ⟨z, T, C, CI, v, h1, h2, h3, -, -, -, -, -, -, h5⟩ := DSZI_run harg h
  exact ⟨z, T, C, CI, v, h1, h2, h3, h5⟩

/-- **C107 (Fit_Weibull_DS).** -/
theorem C107_DS {argsort : List ℝ → List ℕ} (harg : IsArgsort argsort) (J : Jac) (num2 : List ℝ → List ℝ → Option ℝ → Num2)
    (minimize : Minimizer (Fin 3 → ℝ)) (failures : DataArg ℝ) (x : SArgs) (r : SRes DSZI)
    (h : fitDS argsort J num2 minimize failures x = .ok r) :
    ∃ T C CI v, UsedData failures x.right_censored T C ∧ x.CI = .float CI ∧
      r.dist = ⟨weibull (v 0) (v 1) 0, v 2, 0⟩ ∧
      SRows ![ "Alpha", "Beta", "DS"] ![none, none, some (some 1)]
        (fun v => LegalDSZI 0 C (v 0) (v 1) (v 2) 0) (fun v => likDSZI 0 T C ![v 0, v 1, v 2, 0]) CI v r.rows := by
  obtain ⟨T, C, CI, v, h1, h2, h3, -, -, -, h5⟩ := DS_run harg h
  exact ⟨T, C, CI, v, h1, h2, h3, h5⟩

/-- **C107 (Fit_Weibull_ZI).** -/
theorem C107_ZI {argsort : List ℝ → List ℕ} (harg : IsArgsort argsort) (J : Jac) (num2 : List ℝ → List ℝ → Option ℝ → Num2)
    (minimize : Minimizer (Fin 3 → ℝ)) (failures : List ℝ) (x : SArgs) (r : SRes DSZI)
    (h : fitZI argsort J num2 minimize failures x = .ok r) :
    ∃ zeros T C CI v, ZeroData failures x.right_censored zeros T C ∧ x.CI = .float CI ∧
      r.dist = ⟨weibull (v 0) (v 1) 0, 1, v 2⟩ ∧
      SRows ![ "Alpha", "Beta", "ZI"] ![none, none, some (some 0)]
        (fun v => LegalDSZI zeros C (v 0) (v 1) 1 (v 2)) (fun v => likDSZI zeros T C ![v 0, v 1, 1, v 2]) CI v r.rows := by
  obtain ⟨z, T, C, CI, v, h1, h2, h3, -, -, -, h5⟩ := ZI_run harg h
  exact ⟨z, T, C, CI, v, h1, h2, h3, h5⟩

/-! ## C108: when they return -/

theorem means_optArg {a : StrArg} {o : Option String} (h : Means optimizerNames a o) : Means optimizerNames (optArg o) o := by
  rcases h with ⟨-, rfl⟩ | ⟨s, c, sp, -, rfl, hm, -⟩
  · exact .inl ⟨rfl, rfl⟩
  · refine .inr ⟨c, c, sp, rfl, rfl, hm, ?_⟩
    have key : ∀ q ∈ optimizerNames, Fitters.up q.1 ∈ q.2 := by decide +kernel
    exact key _ hm

/-- A group of at least two distinct positive failures is accepted by Fit_Weibull_2P. -/
theorem group_accepts {f : List ℝ} {rc : List ℝ} {o : StrArg} {o' : Option String} {CI : ℝ} (hf : ∀ t ∈ f, 0 < t) (hr : ∀ t ∈ rc, 0 < t)
    (h2 : 2 ≤ f.toFinset.card) (ho : Means optimizerNames o o') (h0 : 0 < CI) (h1 : CI < 1) {a : DataArg ℝ}
    (ha : a = .none ∧ rc = [] ∨ a = .array rc) :
    Accepts "Weibull_2P" (.array f) a (.str "MLE") o (.float CI) .none none none (.str "time")
      ⟨f, rc, CI, some "MLE", o', .none, none, none, some "time"⟩ := by
  have hu : ∀ t : ℝ, 0 < t → Usable "Weibull_2P" t := fun t ht => .inr ⟨ht, fun hb => by simp at hb⟩
  refine ⟨by decide, ⟨f, rc, rfl, ha, ?_, ?_, ?_, ?_⟩, ⟨rfl, h0, h1⟩, ho, ?_, .inl ⟨rfl, rfl⟩, ⟨rfl, by simp⟩,
    ⟨rfl, by simp⟩, ?_, ?_⟩
  · exact fun t ht => .inr ⟨(hf t ht).le, fun hb => by simp at hb⟩
  · exact fun t ht => .inr ⟨(hr t ht).le, fun hb => by simp at hb⟩
  · symm; rw [List.filter_eq_self]; exact fun t ht => decide_eq_true (hu t (hf t ht))
  · symm; rw [List.filter_eq_self]; exact fun t ht => decide_eq_true (hu t (hr t ht))
  · exact .inr ⟨"MLE", "MLE", ["MLE", "ML", "MAXIMUM LIKELIHOOD ESTIMATION", "MAXIMUM LIKELIHOOD", "MAX LIKELIHOOD"], rfl,
      rfl, by simp [methodNames], by decide +kernel⟩
  · exact h2
  · exact .inr ⟨"time", "time", ["T", "TIME"], rfl, rfl, by simp [ciTypeNames], by decide +kernel⟩

theorem group_returns {argsort : List ℝ → List ℕ} (harg : IsArgsort argsort) (J : Jac) (num2 : Option ℝ → Num2)
    (hs2 : ∀ fo ob b n p, ((num2 fo).minimize ob b n p).success = true) (hs21 : ∀ fo ob b n p, ((num2 fo).minimize1 ob b n p).success = true)
    {f : List ℝ} {rc : List ℝ} {o : StrArg} {o' : Option String} {CI : ℝ} (hf : ∀ t ∈ f, 0 < t) (hr : ∀ t ∈ rc, 0 < t)
    (h2 : 2 ≤ f.toFinset.card) (ho : Means optimizerNames o o') (h0 : 0 < CI) (h1 : CI < 1) {a : DataArg ℝ}
    (ha : a = .none ∧ rc = [] ∨ a = .array rc) :
    ∃ r, fitWeibull2P argsort J num2 { failures := .array f, right_censored := a, CI := .float CI, optimizer := o } = .ok r :=
  (C102_mle_returns_partial harg J num2 hs2 hs21 _ _ rfl rfl).1 (group_accepts hf hr h2 ho h0 h1 ha)

theorem ad_exists {x y : List ℝ} (h : x.length = y.length) (hne : x ≠ []) : ∃ v, AD.andersonDarling (cdfArg x) y = .ok v := by
  rw [ad_single]
  have hlz : (Np.sort x).length = x.length := by rw [Np.sort, List.length_insertionSort]
  have hle : (Np.sort y).length = y.length := List.length_insertionSort ..
  have hx0 : 0 < x.length := List.length_pos_iff.2 hne
  unfold AD.andersonDarling AD.statistic
  have hE1 : ¬ (0 :: Np.sort y).length = 1 := by simp only [List.length_cons]; omega
  simp only [if_neg hE1]
  rw [if_neg (by simp only [List.length_append, List.length_cons, List.length_nil]; omega),
    if_neg (by simp only [List.length_append, List.length_cons, List.length_nil]; omega)]
  exact ⟨_, rfl⟩

theorem gof_exists {argsort : List ℝ → List ℕ} (harg : IsArgsort argsort) {G : List ℝ → Except Err (List ℝ)}
    {T C : List ℝ} {n k : ℕ} {LL : ℝ} (hne : T ≠ [])
    (hG : ∀ X : List ℝ, X.Perm T → X.Pairwise (· ≤ ·) → ∃ Y, G X = .ok Y ∧ Y.length = X.length) :
    ∃ g, gof argsort G T C n k LL = .ok g := by
  obtain ⟨x, y, e1, e2, e3, e4, -, -⟩ := ls_points harg T C hne
  obtain ⟨Y, h1, h2⟩ := hG x e2 e3
  have hxne : x ≠ [] := by rintro rfl; exact hne (List.Perm.nil_eq e2).symm
  obtain ⟨v, hv⟩ := ad_exists (x := Y) (y := y) (by omega) (by rintro rfl; simp at h2; exact hxne (List.eq_nil_of_length_eq_zero h2.symm))
  refine ⟨⟨2 * LL, loglik LL, AICc n k (2 * LL), BIC n k (2 * LL), v⟩, ?_⟩
  simp only [gof, bind_ok]
  exact ⟨(x, y), e1, _, h1, v, hv, rfl⟩

theorem weibull_checkX {a b : ℝ} {X : List ℝ} (hne : X ≠ []) (h0 : ∀ t ∈ X, 0 ≤ t) : checkX (weibull a b 0).fam X = .ok () := by
  rw [Distributions.checkX_ok]
  exact ⟨hne, fun _ _ => h0, fun h => by simp [weibull, ofScipy] at h⟩

theorem dsziCDF_exists {a b ds zi : ℝ} {X : List ℝ} (hne : X ≠ []) (h0 : ∀ t ∈ X, 0 ≤ t) :
    ∃ Y, dsziCDF ⟨weibull a b 0, ds, zi⟩ X = .ok Y ∧ Y.length = X.length := by
  refine ⟨X.map (fun t => (weibull a b 0).sp.cdf t * (ds - zi) + zi), ?_, by simp⟩
  unfold dsziCDF CDF
  rw [weibull_checkX hne h0]
  simp only [List.map_map]
  rfl


theorem weibull_contribution {a b : ℝ} {X : List ℝ} (hne : X ≠ []) (h0 : ∀ t ∈ X, 0 ≤ t) (neg p : ℝ) :
    (∃ Y, contribution SF neg X (weibull a b 0) = .ok Y) ∧ (∃ Y, contribution HF neg X (weibull a b 0) = .ok Y) ∧
    (∃ Y, weighted CDF X (weibull a b 0, p) = .ok Y) ∧ (∃ Y, weighted PDF X (weibull a b 0, p) = .ok Y) := by
  have ht : twoSided (weibull a b 0) = false := by simp [twoSided, weibull, ofScipy]
  have hfil : X.filter (fun x => decide (0 ≤ x)) = X := by
    rw [List.filter_eq_self]; intro t h; exact decide_eq_true (h0 t h)
  have hc := weibull_checkX (a := a) (b := b) hne h0
  refine ⟨?_, ?_, ?_, ?_⟩
  · simp only [contribution, ht, hfil, SF, hc]; exact ⟨_, rfl⟩
  · simp only [contribution, ht, hfil, HF, hc]; exact ⟨_, rfl⟩
  · simp only [weighted, ht, hfil, CDF, hc]; exact ⟨_, rfl⟩
  · simp only [weighted, ht, hfil, PDF, hc]; exact ⟨_, rfl⟩

theorem checkNeg_nonneg {ds : List Dist} {X : List ℝ} (hne : X ≠ []) (h0 : ∀ t ∈ X, 0 ≤ t) : checkNeg ds X = .ok () := by
  unfold checkNeg
  cases hm : X.min? with
  | none => exact absurd (List.min?_eq_none_iff.1 hm) hne
  | some lo =>
    dsimp only
    rw [if_neg]
    intro h
    exact absurd h.1 (not_lt.2 (h0 lo (List.min?_mem hm)))

theorem mixture_exists {a b c d p q : ℝ} {X : List ℝ} (hne : X ≠ []) (h0 : ∀ t ∈ X, 0 ≤ t) (hX : X.Pairwise (· ≤ ·)) :
    ∃ Y, (mixture [weibull a b 0, weibull c d 0] [p, q] X).map Arrays.cdf = .ok Y ∧ Y.length = X.length := by
  obtain ⟨-, -, ⟨y1, e1⟩, y2, e2⟩ := weibull_contribution (a := a) (b := b) hne h0 0 p
  obtain ⟨-, -, ⟨y3, e3⟩, y4, e4⟩ := weibull_contribution (a := c) (b := d) hne h0 0 q
  have : ∃ A, mixture [weibull a b 0, weibull c d 0] [p, q] X = .ok A := by
    simp only [mixture, checkNeg_nonneg hne h0, List.zip_cons_cons, List.zip_nil_right, collect, e1, e2, e3, e4]
    exact ⟨_, rfl⟩
  obtain ⟨A, hA⟩ := this
  refine ⟨A.cdf, by rw [hA]; rfl, ?_⟩
  rw [(Combined.mixture_sorted hX hA).1, List.length_map]

theorem competing_exists {a b c d : ℝ} {X : List ℝ} (hne : X ≠ []) (h0 : ∀ t ∈ X, 0 ≤ t) (hX : X.Pairwise (· ≤ ·)) :
    ∃ Y, (competing [weibull a b 0, weibull c d 0] X).map Arrays.cdf = .ok Y ∧ Y.length = X.length := by
  obtain ⟨⟨y1, e1⟩, -, -, -⟩ := weibull_contribution (a := a) (b := b) hne h0 1 0
  obtain ⟨⟨y2, e2⟩, -, -, -⟩ := weibull_contribution (a := c) (b := d) hne h0 1 0
  obtain ⟨-, ⟨y3, e3⟩, -, -⟩ := weibull_contribution (a := a) (b := b) hne h0 0 0
  obtain ⟨-, ⟨y4, e4⟩, -, -⟩ := weibull_contribution (a := c) (b := d) hne h0 0 0
  have : ∃ A, competing [weibull a b 0, weibull c d 0] X = .ok A := by
    simp only [competing, checkNeg_nonneg hne h0, collect, e1, e2, e3, e4]
    exact ⟨_, rfl⟩
  obtain ⟨A, hA⟩ := this
  refine ⟨A.cdf, by rw [hA]; rfl, ?_⟩
  rw [(Combined.competing_sorted hX hA).2.2.2.1, List.length_map]

/-! ### The split into two groups -/

theorem length_split (line : ℝ) (f : List ℝ) : (below line f).length + (notBelow line f).length = f.length := by
  unfold below notBelow
  rw [← List.countP_eq_length_filter, ← List.countP_eq_length_filter]
  have := List.length_eq_countP_add_countP (l := f) (fun x => decide (x < line))
  rw [this]
  congr 1
  apply List.countP_congr
  intro t _
  simp

theorem count_low {a b c : ℝ} {l : List ℝ} (h : (a :: b :: c :: l).Pairwise (· < ·)) :
    (below ((b + c) / 2) (a :: b :: c :: l)).length = 2 := by
  simp only [List.pairwise_cons, List.mem_cons, forall_eq_or_imp] at h
  obtain ⟨⟨hab, hac, har⟩, ⟨hbc, hbr⟩, hcr, -⟩ := h
  unfold below
  rw [List.filter_cons_of_pos (by simp; linarith), List.filter_cons_of_pos (by simp; linarith),
    List.filter_cons_of_neg (by simp; linarith)]
  have : l.filter (fun x => decide (x < (b + c) / 2)) = [] := by
    rw [List.filter_eq_nil_iff]
    intro t ht
    have := hbr t ht; have := hcr t ht
    simp; linarith
  rw [this]; rfl

theorem count_high {a b c : ℝ} {l : List ℝ} (h : (a :: b :: c :: l).Pairwise (· > ·)) :
    (notBelow ((b + c) / 2) (a :: b :: c :: l)).length = 2 := by
  simp only [List.pairwise_cons, List.mem_cons, forall_eq_or_imp] at h
  obtain ⟨⟨hab, hac, har⟩, ⟨hbc, hbr⟩, hcr, -⟩ := h
  unfold notBelow
  rw [List.filter_cons_of_pos (by simp; linarith), List.filter_cons_of_pos (by simp; linarith),
    List.filter_cons_of_neg (by simp; linarith)]
  have : l.filter (fun x => decide (¬ x < (b + c) / 2)) = [] := by
    rw [List.filter_eq_nil_iff]
    intro t ht
    have := hbr t ht; have := hcr t ht
    simp; linarith
  rw [this]; rfl

theorem midpoint_of {l : List ℝ} (h : 4 ≤ l.length) : ∃ a b c r, l = a :: b :: c :: r ∧ midpoint l[1]? l[2]? = .ok ((b + c) / 2) := by
  match l with
  | a :: b :: c :: r => exact ⟨a, b, c, r, rfl, rfl⟩
  | [] => simp at h
  | [_] => simp at h
  | [_, _] => simp at h

/-- For at least four distinct failures the line is found and at least two failures are on either side. -/
theorem dividingLine_groups {f : List ℝ} (h4 : 4 ≤ f.length) (hd : f.Nodup) (line : ℝ) :
    ∃ l, dividingLine f line = .ok l ∧ 2 ≤ (below l f).length ∧ 2 ≤ (notBelow l f).length := by
  have hs : (Np.sort f).Perm f := List.perm_insertionSort _ _
  have hsort : (Np.sort f).Pairwise (· < ·) := by
    have h1 : (Np.sort f).Pairwise (· ≤ ·) := List.pairwise_insertionSort _ _
    have h2 : (Np.sort f).Nodup := hs.nodup_iff.2 hd
    exact (h1.and h2).imp fun h => lt_of_le_of_ne h.1 h.2
  have hrev : (Np.sort f).reverse.Pairwise (· > ·) := List.pairwise_reverse.2 hsort
  have hsum := length_split line f
  obtain ⟨a, b, c, r, e1, m1⟩ := midpoint_of (l := Np.sort f) (by rw [hs.length_eq]; exact h4)
  obtain ⟨a', b', c', r', e2, m2⟩ := midpoint_of (l := (Np.sort f).reverse) (by rw [List.length_reverse, hs.length_eq]; exact h4)
  rw [e1] at hsort
  rw [e2] at hrev
  have p1 : (below ((b + c) / 2) f).length = 2 := by
    rw [← count_low hsort, ← e1]; exact ((hs.filter _).length_eq).symm
  have p2 : (notBelow ((b' + c') / 2) f).length = 2 := by
    rw [← count_high hrev, ← e2]; exact (((List.reverse_perm _).trans hs).filter _).length_eq.symm
  have q1 := length_split ((b + c) / 2) f
  have q2 := length_split ((b' + c') / 2) f
  have hn1 : (f.filter fun x => decide (x < line)).length = (below line f).length := rfl
  unfold dividingLine
  dsimp only
  rw [hn1]
  by_cases hlo : (below line f).length < 2
  · have hhi : ¬ f.length - (below line f).length < 2 := by omega
    refine ⟨(b + c) / 2, ?_, by omega, by omega⟩
    rw [if_pos hlo, m1]
    simp only [hhi, if_false]
    rfl
  · by_cases hhi : f.length - (below line f).length < 2
    · refine ⟨(b' + c') / 2, ?_, by omega, by omega⟩
      rw [if_neg hlo]
      simp only [hhi, if_true]
      exact m2
    · refine ⟨line, ?_, by omega, by omega⟩
      rw [if_neg hlo]
      simp only [hhi, if_false]
      rfl

/-- **C108 (Fit_Weibull_Mixture, Fit_Weibull_CR).** Accepted input with distinct failures: wherever the kernel density estimate
puts the line, if the optimizers report success the fit returns. -/
theorem C108_two_groups_return {argsort : List ℝ → List ℕ} (harg : IsArgsort argsort) (J : Jac) (kde : List ℝ → ℝ)
    (num2 : List ℝ → List ℝ → Option ℝ → Num2) (m5 : Minimizer (Fin 5 → ℝ)) (m4 : Minimizer (Fin 4 → ℝ))
    (hs2 : ∀ F C fo ob b n p, ((num2 F C fo).minimize ob b n p).success = true) (hs21 : ∀ F C fo ob b n p, ((num2 F C fo).minimize1 ob b n p).success = true)
    (hs5 : ∀ ob b n p, (m5 ob b n p).success = true) (hs4 : ∀ ob b n p, (m4 ob b n p).success = true)
    (failures : DataArg ℝ) (x : SArgs) (inp : Checked ℝ) (hd : inp.failures.Nodup) :
    (Accepts "Weibull_Mixture" failures x.right_censored .none x.optimizer x.CI .none none none .none inp →
      ∃ r, fitMixture argsort J kde num2 m5 failures x = .ok r) ∧
    (Accepts "Weibull_CR" failures x.right_censored .none x.optimizer x.CI .none none none .none inp →
      ∃ r, fitCR argsort J kde num2 m4 failures x = .ok r) := by
  have hgrp : ∀ (l : ℝ), (below l inp.failures).toFinset.card = (below l inp.failures).length ∧
      (notBelow l inp.failures).toFinset.card = (notBelow l inp.failures).length := fun l =>
    ⟨List.toFinset_card_of_nodup (hd.filter _), List.toFinset_card_of_nodup (hd.filter _)⟩
  have h95 : (0 : ℝ) < 0.95 ∧ (0.95 : ℝ) < 1 := by norm_num
  constructor
  · intro h
    obtain ⟨-, p1, p2, ne⟩ := usedData_of_accepts (by decide) (by decide) h
    have h4 : 4 ≤ inp.failures.length := by
      have := h.enough
      rw [List.toFinset_card_of_nodup hd] at this
      exact this
    obtain ⟨l, e1, e2, e3⟩ := dividingLine_groups h4 hd (kde inp.failures)
    have ho := means_optArg h.optimizer_ok
    obtain ⟨r1, hr1⟩ := group_returns harg J (num2 _ _) (hs2 _ _) (hs21 _ _) (f := below l inp.failures) (rc := below l inp.right_censored)
      (fun t ht => p1 t (List.mem_filter.1 ht).1) (fun t ht => p2 t (List.mem_filter.1 ht).1) (by rw [(hgrp l).1]; exact e2) ho
      h95.1 h95.2 (.inr rfl)
    obtain ⟨r2, hr2⟩ := group_returns harg J (num2 _ _) (hs2 _ _) (hs21 _ _) (f := notBelow l inp.failures) (rc := notBelow l inp.right_censored)
      (fun t ht => p1 t (List.mem_filter.1 ht).1) (fun t ht => p2 t (List.mem_filter.1 ht).1) (by rw [(hgrp l).2]; exact e3) ho
      h95.1 h95.2 (.inr rfl)
    obtain ⟨n, y, hy⟩ := mle_success (fun v : Fin 5 → ℝ => |2 * mixture_LL (v 0) (v 1) (v 2) (v 3) (v 4) inp.failures inp.right_censored|)
      ![r1.dist.a, r1.dist.b, r2.dist.a, r2.dist.b, ((below l inp.failures).length + (below l inp.right_censored).length : ℝ) /
        (inp.failures.length + inp.right_censored.length)] h.optimizer_ok (hs5 _ _)
    obtain ⟨V, hV⟩ := orWarn_some (npInv (hessian (fun v : Fin 5 → ℝ =>
      mixture_LL (v 0) (v 1) (v 2) (v 3) (v 4) inp.failures inp.right_censored) y)) n
    obtain ⟨g, hg⟩ := gof_exists harg (C := inp.right_censored) (n := inp.failures.length + inp.right_censored.length) (k := 5)
      (LL := mixture_LL (y 0) (y 1) (y 2) (y 3) (y 4) inp.failures inp.right_censored) ne
      (G := fun X => (mixture [weibull (y 0) (y 1) 0, weibull (y 2) (y 3) 0] [y 4, 1 - y 4] X).map Arrays.cdf)
      (fun X hX hs => mixture_exists (by rintro rfl; exact ne (List.Perm.nil_eq hX).symm)
        (fun t ht => (p1 t (hX.mem_iff.1 ht)).le) hs)
    simp only [fitMixture, ex_bind]
    refine ⟨inp, (C51_ok_iff ..).2 h, l, e1, r1, hr1, r2, hr2, _, hy, [y 4, 1 - y 4], ?_, V, hV, g, hg, _, rfl⟩
    unfold mixtureInit
    dsimp only
    rw [if_neg (by simp), if_neg (by simp)]
  · intro h
    obtain ⟨-, p1, p2, ne⟩ := usedData_of_accepts (by decide) (by decide) h
    have h4 : 4 ≤ inp.failures.length := by
      have := h.enough
      rw [List.toFinset_card_of_nodup hd] at this
      exact this
    obtain ⟨l, e1, e2, e3⟩ := dividingLine_groups h4 hd (kde inp.failures)
    obtain ⟨r1, hr1⟩ := group_returns harg J (num2 _ _) (hs2 _ _) (hs21 _ _) (f := below l inp.failures) (rc := below l inp.right_censored)
      (fun t ht => p1 t (List.mem_filter.1 ht).1) (fun t ht => p2 t (List.mem_filter.1 ht).1) (by rw [(hgrp l).1]; exact e2)
      (.inl ⟨rfl, rfl⟩) h95.1 h95.2 (.inr rfl)
    obtain ⟨r2, hr2⟩ := group_returns harg J (num2 _ _) (hs2 _ _) (hs21 _ _) (f := notBelow l inp.failures) (rc := notBelow l inp.right_censored)
      (fun t ht => p1 t (List.mem_filter.1 ht).1) (fun t ht => p2 t (List.mem_filter.1 ht).1) (by rw [(hgrp l).2]; exact e3)
      (.inl ⟨rfl, rfl⟩) h95.1 h95.2 (.inr rfl)
    obtain ⟨n, y, hy⟩ := mle_success (fun v : Fin 4 → ℝ => |2 * CR_LL (v 0) (v 1) (v 2) (v 3) inp.failures inp.right_censored|)
      ![r1.dist.a, r1.dist.b, r2.dist.a, r2.dist.b] h.optimizer_ok (hs4 _ _)
    obtain ⟨V, hV⟩ := orWarn_some (npInv (hessian (fun v : Fin 4 → ℝ =>
      CR_LL (v 0) (v 1) (v 2) (v 3) inp.failures inp.right_censored) y)) n
    obtain ⟨g, hg⟩ := gof_exists harg (C := inp.right_censored) (n := inp.failures.length + inp.right_censored.length) (k := 4)
      (LL := CR_LL (y 0) (y 1) (y 2) (y 3) inp.failures inp.right_censored) ne
      (G := fun X => (competing [weibull (y 0) (y 1) 0, weibull (y 2) (y 3) 0] X).map Arrays.cdf)
      (fun X hX hs => competing_exists (by rintro rfl; exact ne (List.Perm.nil_eq hX).symm)
        (fun t ht => (p1 t (hX.mem_iff.1 ht)).le) hs)
    simp only [fitCR, ex_bind]
    exact ⟨inp, (C51_ok_iff ..).2 h, l, e1, r1, hr1, r2, hr2, _, hy, V, hV, g, hg, _, rfl⟩

/-- As `mle_success`, with where the estimates come from. -/
theorem mle_success_of {P : Type} {minimize : String → P → OptResult P} (obj : P → ℝ) (g : P) {a : StrArg}
    {o : Option String} (ho : Means optimizerNames a o) (hs : ∀ n p, (minimize n p).success = true) :
    ∃ n x, mleOptimization minimize obj g o = .ok ⟨true, some n, x⟩ ∧ ∃ q, x = (minimize n q).x := by
  obtain ⟨os, stop, h1, h2, h3⟩ := optimizers_accepted ho
  have hq : ∀ n, ∃ q, answer minimize obj g n = minimize n q := by
    intro n
    obtain ⟨k, -, -, -, h, -⟩ := C47_loop_terminates (minimize n) obj g
    exact ⟨_, by unfold answer; rw [h]; rfl⟩
  have hans : ∀ n, (answer minimize obj g n).success = true := by
    intro n
    obtain ⟨q, h⟩ := hq n
    rw [h]; exact hs _ _
  cases o with
  | none =>
    obtain ⟨q, h⟩ := hq "TNC"
    exact ⟨_, _, C47_default_first_success minimize obj g [] _ "TNC" rfl (by simp) (hans _), q, by rw [h]⟩
  | some s =>
    have : stop = false := by
      cases stop with
      | false => rfl
      | true => simp at h3
    subst this
    obtain ⟨n, hn⟩ := List.exists_mem_of_ne_nil _ h2
    obtain ⟨n', -, h, -⟩ := best_of_successes minimize obj g s os h1 ⟨n, hn, hans n⟩
    obtain ⟨q, h'⟩ := hq n'
    exact ⟨_, _, h, q, by rw [h']⟩

theorem maxOf_exists {argsort : List ℝ → List ℕ} (harg : IsArgsort argsort) {T C : List ℝ} (hne : T ≠ []) :
    ∃ xy m, PP.plottingPositions argsort T (some C) none true = .ok xy ∧ maxOf xy.2 = .ok m := by
  obtain ⟨x, y, e1, e2, e3, e4, -, -⟩ := ls_points harg T C hne
  have hy : y ≠ [] := by
    rintro rfl
    have : x = [] := List.eq_nil_of_length_eq_zero e4
    subst this
    exact hne (List.Perm.nil_eq e2).symm
  cases hm : y.max? with
  | none => exact absurd (List.max?_eq_none_iff.1 hm) hy
  | some m => exact ⟨(x, y), m, e1, by simp [maxOf, hm]⟩

theorem gofZI_exists {argsort : List ℝ → List ℕ} (harg : IsArgsort argsort) {a b ds zi : ℝ} {T C : List ℝ} {k : ℕ} {LL : ℝ}
    (hne : T ≠ []) (h0 : ∀ t ∈ T, 0 ≤ t) : ∃ g, gofZI argsort ⟨weibull a b 0, ds, zi⟩ T C k LL = .ok g := by
  obtain ⟨x, y, e1, e2, e3, e4, -, -⟩ := ls_points harg T C hne
  have hxne : x ≠ [] := by rintro rfl; exact hne (List.Perm.nil_eq e2).symm
  obtain ⟨Y, h1, h2⟩ := dsziCDF_exists (a := a) (b := b) (ds := ds) (zi := zi) hxne (fun t ht => h0 t (e2.mem_iff.1 ht))
  obtain ⟨v, hv⟩ := ad_exists (x := Y) (y := List.zipWith (fun x y => if x = 0 then zi else y) x y)
    (by simp; omega) (by rintro rfl; simp at h2; exact hxne (List.eq_nil_of_length_eq_zero h2.symm))
  simp only [gofZI, ex_bind]
  exact ⟨(x, y), e1, _, h1, v, hv, _, rfl⟩

/-- The bounds of the models with proportions. -/
theorem special_bounds {f rc : List ℝ} (h : f ++ rc ≠ []) :
    boundsOf "Weibull_DS" f rc = [(some (1 / 10000), none), (some (1 / 10000), none), (some (1 / 100000), some 1)] ∧
    boundsOf "Weibull_ZI" f rc = [(some (1 / 10000), none), (some (1 / 10000), none), (some 0, some (99999 / 100000))] ∧
    boundsOf "Weibull_DSZI" f rc = [(some (1 / 10000), none), (some (1 / 10000), none), (some (1 / 100000), some 1),
      (some 0, some (99999 / 100000))] := by
  have hg : ∃ g, Fitters.gamma0 f rc = .ok g := by
    unfold Fitters.gamma0
    cases hm : (f ++ rc).min? with
    | none => rw [List.min?_eq_none_iff] at hm; exact absurd hm h
    | some m => exact ⟨_, rfl⟩
  obtain ⟨g, hg⟩ := hg
  simp [boundsOf, Fitters.mleBounds, hg]

theorem respects_DS {m : Minimizer (Fin 3 → ℝ)} (hb : Respects m) {f rc : List ℝ} (h : f ++ rc ≠ []) (ob n p) :
    0 < (m ob (boundsOf "Weibull_DS" f rc) n p).x 2 ∧ (m ob (boundsOf "Weibull_DS" f rc) n p).x 2 ≤ 1 := by
  rw [(special_bounds h).1]
  have := hb ob [(some (1 / 10000), none), (some (1 / 10000), none), (some (1 / 100000), some 1)] n p ⟨![1, 1, 1], ?_⟩ 2 _ (some (1 / 100000)) (some 1) rfl rfl
  · exact ⟨lt_of_lt_of_le (by norm_num) (this.1 _ rfl), this.2 _ rfl⟩
  · intro i c lo hi h1 h2
    match i, h1, h2 with
    | 0, h1, h2 => cases h1; cases h2; constructor <;> intro l e <;> cases e; norm_num
    | 1, h1, h2 => cases h1; cases h2; constructor <;> intro l e <;> cases e; norm_num
    | 2, h1, h2 => cases h1; cases h2; constructor <;> intro l e <;> cases e <;> norm_num

theorem respects_ZI {m : Minimizer (Fin 3 → ℝ)} (hb : Respects m) {f rc : List ℝ} (h : f ++ rc ≠ []) (ob n p) :
    0 ≤ (m ob (boundsOf "Weibull_ZI" f rc) n p).x 2 ∧ (m ob (boundsOf "Weibull_ZI" f rc) n p).x 2 < 1 := by
  rw [(special_bounds h).2.1]
  have := hb ob [(some (1 / 10000), none), (some (1 / 10000), none), (some 0, some (99999 / 100000))] n p ⟨![1, 1, 1 / 2], ?_⟩ 2 _ (some 0) (some (99999 / 100000)) rfl rfl
  · exact ⟨this.1 _ rfl, lt_of_le_of_lt (this.2 _ rfl) (by norm_num)⟩
  · intro i c lo hi h1 h2
    match i, h1, h2 with
    | 0, h1, h2 => cases h1; cases h2; constructor <;> intro l e <;> cases e; norm_num
    | 1, h1, h2 => cases h1; cases h2; constructor <;> intro l e <;> cases e; norm_num
    | 2, h1, h2 => cases h1; cases h2; constructor <;> intro l e <;> cases e <;> norm_num

theorem respects_DSZI {m : Minimizer (Fin 4 → ℝ)} (hb : Respects m) {f rc : List ℝ} (h : f ++ rc ≠ []) (ob n p) :
    0 ≤ (m ob (boundsOf "Weibull_DSZI" f rc) n p).x 3 ∧ (m ob (boundsOf "Weibull_DSZI" f rc) n p).x 3 < 1 ∧
    0 < (m ob (boundsOf "Weibull_DSZI" f rc) n p).x 2 ∧ (m ob (boundsOf "Weibull_DSZI" f rc) n p).x 2 ≤ 1 := by
  rw [(special_bounds h).2.2]
  have key := hb ob [(some (1 / 10000), none), (some (1 / 10000), none), (some (1 / 100000), some 1),
      (some 0, some (99999 / 100000))] n p ⟨![1, 1, 1, 1 / 2], ?_⟩
  · have h2 := key 2 _ (some (1 / 100000)) (some 1) rfl rfl
    have h3 := key 3 _ (some 0) (some (99999 / 100000)) rfl rfl
    exact ⟨h3.1 _ rfl, lt_of_le_of_lt (h3.2 _ rfl) (by norm_num), lt_of_lt_of_le (by norm_num) (h2.1 _ rfl), h2.2 _ rfl⟩
  · intro i c lo hi h1 h2
    match i, h1, h2 with
    | 0, h1, h2 => cases h1; cases h2; constructor <;> intro l e <;> cases e; norm_num
    | 1, h1, h2 => cases h1; cases h2; constructor <;> intro l e <;> cases e; norm_num
    | 2, h1, h2 => cases h1; cases h2; constructor <;> intro l e <;> cases e <;> norm_num
    | 3, h1, h2 => cases h1; cases h2; constructor <;> intro l e <;> cases e <;> norm_num

/-- **C108 (Fit_Weibull_DS).** Accepted input: if the optimizers report success and answer within the bounds they are given
(0 < DS ≤ 1), the fit returns. -/
theorem C108_DS_returns {argsort : List ℝ → List ℕ} (harg : IsArgsort argsort) (J : Jac) (num2 : List ℝ → List ℝ → Option ℝ → Num2)
    (m3 : Minimizer (Fin 3 → ℝ))
    (hs2 : ∀ F C fo ob b n p, ((num2 F C fo).minimize ob b n p).success = true) (hs21 : ∀ F C fo ob b n p, ((num2 F C fo).minimize1 ob b n p).success = true)
    (hs : ∀ ob b n p, (m3 ob b n p).success = true) (hb : Respects m3)
    (failures : DataArg ℝ) (x : SArgs) (inp : Checked ℝ)
    (h : Accepts "Weibull_DS" failures x.right_censored .none x.optimizer x.CI .none none none .none inp) :
    ∃ r, fitDS argsort J num2 m3 failures x = .ok r := by
  have h95 : (0 : ℝ) < 0.95 ∧ (0.95 : ℝ) < 1 := by norm_num
  obtain ⟨-, p1, p2, ne⟩ := usedData_of_accepts (by decide) (by decide) h
  obtain ⟨xy, DS0, e1, e2⟩ := maxOf_exists harg (C := inp.right_censored) ne
  obtain ⟨r1, hr1⟩ := group_returns harg J (num2 _ _) (hs2 _ _) (hs21 _ _) (f := inp.failures) (rc := []) p1 (by simp) h.enough
    (means_optArg h.optimizer_ok) h95.1 h95.2 (.inl ⟨rfl, rfl⟩)
  obtain ⟨n, y, hy, q, rfl⟩ := mle_success_of (fun v : Fin 3 → ℝ => |2 * DS_LL (v 0) (v 1) (v 2) inp.failures inp.right_censored|)
    ![r1.dist.a, r1.dist.b, DS0] h.optimizer_ok (hs (fun v : Fin 3 → ℝ => DS_LL (v 0) (v 1) (v 2) inp.failures inp.right_censored) (boundsOf "Weibull_DS" inp.failures inp.right_censored))
  obtain ⟨b1, b2⟩ := respects_DS hb (List.append_ne_nil_of_left_ne_nil ne inp.right_censored) (fun v : Fin 3 → ℝ => DS_LL (v 0) (v 1) (v 2) inp.failures inp.right_censored) n q
  generalize (m3 (fun v : Fin 3 → ℝ => DS_LL (v 0) (v 1) (v 2) inp.failures inp.right_censored) (boundsOf "Weibull_DS" inp.failures inp.right_censored) n q).x = y at *
  obtain ⟨V, hV⟩ := orWarn_some (npInv (hessian (fun v : Fin 3 → ℝ =>
      DS_LL (v 0) (v 1) (v 2) inp.failures inp.right_censored) y)) n
  obtain ⟨g, hg⟩ := gof_exists harg (C := inp.right_censored) (n := inp.failures.length + inp.right_censored.length) (k := 3)
      (LL := DS_LL (y 0) (y 1) (y 2) inp.failures inp.right_censored) ne
      (G := dsziCDF ⟨weibull (y 0) (y 1) 0, y 2, 0⟩)
      (fun X hX hs => dsziCDF_exists (by rintro rfl; exact ne (List.Perm.nil_eq hX).symm)
        (fun t ht => (p1 t (hX.mem_iff.1 ht)).le))
  simp only [fitDS, ex_bind]
  refine ⟨inp, (C51_ok_iff ..).2 h, xy, e1, DS0, e2, r1, hr1, _, hy, V, hV, ⟨weibull (y 0) (y 1) 0, y 2, 0⟩, ?_, g, hg, _, rfl⟩
  unfold dsziInit
  dsimp only [Option.getD_some, Option.getD_none]
  rw [if_neg (by simp), if_neg (by linarith), if_neg (by norm_num), if_neg (by rw [not_or]; constructor <;> linarith)]

/-- **C108 (Fit_Weibull_ZI).** The same, with 0 ≤ ZI < 1. -/
theorem C108_ZI_returns {argsort : List ℝ → List ℕ} (harg : IsArgsort argsort) (J : Jac) (num2 : List ℝ → List ℝ → Option ℝ → Num2)
    (m3 : Minimizer (Fin 3 → ℝ))
    (hs2 : ∀ F C fo ob b n p, ((num2 F C fo).minimize ob b n p).success = true) (hs21 : ∀ F C fo ob b n p, ((num2 F C fo).minimize1 ob b n p).success = true)
    (hs : ∀ ob b n p, (m3 ob b n p).success = true) (hb : Respects m3)
    (failures : List ℝ) (x : SArgs) (inp : Checked ℝ)
    (h : Accepts "Weibull_ZI" (.array (failures.filter fun t => decide (t ≠ 0))) x.right_censored .none x.optimizer x.CI .none
      none none .none inp) :
    ∃ r, fitZI argsort J num2 m3 failures x = .ok r := by
  obtain ⟨z, p1, p2, ne, ne'⟩ := zeroData_of_accepts (by decide) (by decide) h
  obtain ⟨r1, hr1⟩ := group_returns harg J (num2 _ _) (hs2 _ _) (hs21 _ _) (f := inp.failures) (rc := inp.right_censored) p1 p2 h.enough
    (means_optArg h.optimizer_ok) h.ci.2.1 h.ci.2.2 (.inr rfl)
  obtain ⟨n, y, hy, q, rfl⟩ := mle_success_of (fun v : Fin 3 → ℝ => |2 * ZI_LL (v 0) (v 1) (v 2)
      (failures.filter fun t => decide (t = 0)) inp.failures inp.right_censored|)
    ![r1.dist.a, r1.dist.b, ((failures.filter fun t => decide (t = 0)).length : ℝ) / (failures.length + inp.right_censored.length)]
    h.optimizer_ok (hs (fun v : Fin 3 → ℝ => ZI_LL (v 0) (v 1) (v 2) (failures.filter fun t => decide (t = 0)) inp.failures inp.right_censored) (boundsOf "Weibull_ZI" failures inp.right_censored))
  obtain ⟨b1, b2⟩ := respects_ZI hb (List.append_ne_nil_of_left_ne_nil ne' inp.right_censored) (fun v : Fin 3 → ℝ => ZI_LL (v 0) (v 1) (v 2) (failures.filter fun t => decide (t = 0)) inp.failures inp.right_censored) n q
  generalize (m3 (fun v : Fin 3 → ℝ => ZI_LL (v 0) (v 1) (v 2) (failures.filter fun t => decide (t = 0)) inp.failures inp.right_censored) (boundsOf "Weibull_ZI" failures inp.right_censored) n q).x = y at *
  obtain ⟨V, hV⟩ := orWarn_some (npInv (hessian (fun v : Fin 3 → ℝ =>
      ZI_LL (v 0) (v 1) (v 2) (failures.filter fun t => decide (t = 0)) inp.failures inp.right_censored) y)) n
  obtain ⟨g, hg⟩ := gofZI_exists harg (a := y 0) (b := y 1) (ds := 1) (zi := y 2) (C := inp.right_censored) (k := 3)
      (LL := ZI_LL (y 0) (y 1) (y 2) (failures.filter fun t => decide (t = 0)) inp.failures inp.right_censored) ne' z.1
  simp only [fitZI, ex_bind]
  refine ⟨inp, (C51_ok_iff ..).2 h, r1, hr1, _, hy, V, hV, ⟨weibull (y 0) (y 1) 0, 1, y 2⟩, ?_, g, hg, _, rfl⟩
  unfold dsziInit
  dsimp only [Option.getD_some, Option.getD_none]
  rw [if_neg (by simp), if_neg (by linarith), if_neg (by rw [not_or]; constructor <;> linarith), if_neg (by norm_num)]

/-- **C108 (Fit_Weibull_DSZI).** The same, when the optimizers moreover answer with ZI ≤ DS. -/
theorem C108_DSZI_returns_partial {argsort : List ℝ → List ℕ} (harg : IsArgsort argsort) (J : Jac) (num2 : List ℝ → List ℝ → Option ℝ → Num2)
    (m4 : Minimizer (Fin 4 → ℝ))
    (hs2 : ∀ F C fo ob b n p, ((num2 F C fo).minimize ob b n p).success = true) (hs21 : ∀ F C fo ob b n p, ((num2 F C fo).minimize1 ob b n p).success = true)
    (hs : ∀ ob b n p, (m4 ob b n p).success = true)
    (hb : Respects m4)
    (hle : ∀ ob b n p, b = [(some (1 / 10000), none), (some (1 / 10000), none), (some (1 / 100000), some 1),
      (some 0, some (99999 / 100000))] → (m4 ob b n p).x 3 ≤ (m4 ob b n p).x 2)
    (failures : List ℝ) (x : SArgs) (inp : Checked ℝ)
    (h : Accepts "Weibull_DSZI" (.array (failures.filter fun t => decide (t ≠ 0))) x.right_censored .none x.optimizer x.CI .none
      none none .none inp) :
    ∃ r, fitDSZI argsort J num2 m4 failures x = .ok r := by
  have h95 : (0 : ℝ) < 0.95 ∧ (0.95 : ℝ) < 1 := by norm_num
  obtain ⟨z, p1, p2, ne, ne'⟩ := zeroData_of_accepts (by decide) (by decide) h
  obtain ⟨xy, DS0, e1, e2⟩ := maxOf_exists harg (C := inp.right_censored) ne'
  obtain ⟨r1, hr1⟩ := group_returns harg J (num2 _ _) (hs2 _ _) (hs21 _ _) (f := inp.failures) (rc := []) p1 (by simp) h.enough
    (means_optArg h.optimizer_ok) h95.1 h95.2 (.inl ⟨rfl, rfl⟩)
  obtain ⟨n, y, hy, q, rfl⟩ := mle_success_of (fun v : Fin 4 → ℝ => |2 * DSZI_LL (v 0) (v 1) (v 2) (v 3)
      (failures.filter fun t => decide (t = 0)) inp.failures inp.right_censored|)
    ![r1.dist.a, r1.dist.b, DS0,
      ((failures.filter fun t => decide (t = 0)).length : ℝ) / (failures.length + inp.right_censored.length)] h.optimizer_ok (hs (fun v : Fin 4 → ℝ => DSZI_LL (v 0) (v 1) (v 2) (v 3) (failures.filter fun t => decide (t = 0)) inp.failures inp.right_censored) (boundsOf "Weibull_DSZI" failures inp.right_censored))
  obtain ⟨b1, b2, b3, b4⟩ := respects_DSZI hb (List.append_ne_nil_of_left_ne_nil ne' inp.right_censored) (fun v : Fin 4 → ℝ => DSZI_LL (v 0) (v 1) (v 2) (v 3) (failures.filter fun t => decide (t = 0)) inp.failures inp.right_censored) n q
  have b5 := hle (fun v : Fin 4 → ℝ => DSZI_LL (v 0) (v 1) (v 2) (v 3) (failures.filter fun t => decide (t = 0)) inp.failures inp.right_censored) (boundsOf "Weibull_DSZI" failures inp.right_censored) n q
      (special_bounds (List.append_ne_nil_of_left_ne_nil ne' inp.right_censored)).2.2
  generalize (m4 (fun v : Fin 4 → ℝ => DSZI_LL (v 0) (v 1) (v 2) (v 3) (failures.filter fun t => decide (t = 0)) inp.failures inp.right_censored) (boundsOf "Weibull_DSZI" failures inp.right_censored) n q).x = y at *
  obtain ⟨V, hV⟩ := orWarn_some (npInv (hessian (fun v : Fin 4 → ℝ =>
      DSZI_LL (v 0) (v 1) (v 2) (v 3) (failures.filter fun t => decide (t = 0)) inp.failures inp.right_censored) y)) n
  obtain ⟨g, hg⟩ := gofZI_exists harg (a := y 0) (b := y 1) (ds := y 2) (zi := y 3) (C := inp.right_censored) (k := 4)
      (LL := DSZI_LL (y 0) (y 1) (y 2) (y 3) (failures.filter fun t => decide (t = 0)) inp.failures inp.right_censored) ne' z.1
  simp only [fitDSZI, ex_bind]
  refine ⟨inp, (C51_ok_iff ..).2 h, xy, e1, DS0, e2, r1, hr1, _, hy, V, hV, ⟨weibull (y 0) (y 1) 0, y 2, y 3⟩, ?_, g, hg, _, rfl⟩
  unfold dsziInit
  dsimp only [Option.getD_some, Option.getD_none]
  rw [if_neg (by simp), if_neg (by linarith), if_neg (by rw [not_or]; constructor <;> linarith),
    if_neg (by rw [not_or]; constructor <;> linarith)]

/-- **C108 (finding).** The bounds handed to the optimizers do not keep ZI below DS: successful optimizers that answer within
the bounds but with ZI > DS make Fit_Weibull_DSZI raise ValueError. -/
theorem C108_DSZI_order_finding {argsort : List ℝ → List ℕ} (harg : IsArgsort argsort) (J : Jac) (num2 : List ℝ → List ℝ → Option ℝ → Num2)
    (m4 : Minimizer (Fin 4 → ℝ))
    (hs2 : ∀ F C fo ob b n p, ((num2 F C fo).minimize ob b n p).success = true) (hs21 : ∀ F C fo ob b n p, ((num2 F C fo).minimize1 ob b n p).success = true)
    (hs : ∀ ob b n p, (m4 ob b n p).success = true) 
    (hlt : ∀ ob b n p, b = [(some (1 / 10000), none), (some (1 / 10000), none), (some (1 / 100000), some 1),
      (some 0, some (99999 / 100000))] → (m4 ob b n p).x 2 < (m4 ob b n p).x 3)
    (failures : List ℝ) (x : SArgs) (inp : Checked ℝ)
    (h : Accepts "Weibull_DSZI" (.array (failures.filter fun t => decide (t ≠ 0))) x.right_censored .none x.optimizer x.CI .none
      none none .none inp) :
    fitDSZI argsort J num2 m4 failures x = .error .valueError := by
  have h95 : (0 : ℝ) < 0.95 ∧ (0.95 : ℝ) < 1 := by norm_num
  obtain ⟨z, p1, p2, ne, ne'⟩ := zeroData_of_accepts (by decide) (by decide) h
  obtain ⟨xy, DS0, e1, e2⟩ := maxOf_exists harg (C := inp.right_censored) ne'
  obtain ⟨r1, hr1⟩ := group_returns harg J (num2 _ _) (hs2 _ _) (hs21 _ _) (f := inp.failures) (rc := []) p1 (by simp) h.enough
    (means_optArg h.optimizer_ok) h95.1 h95.2 (.inl ⟨rfl, rfl⟩)
  obtain ⟨n, y, hy, q, rfl⟩ := mle_success_of (fun v : Fin 4 → ℝ => |2 * DSZI_LL (v 0) (v 1) (v 2) (v 3)
      (failures.filter fun t => decide (t = 0)) inp.failures inp.right_censored|)
    ![r1.dist.a, r1.dist.b, DS0,
      ((failures.filter fun t => decide (t = 0)).length : ℝ) / (failures.length + inp.right_censored.length)] h.optimizer_ok (hs (fun v : Fin 4 → ℝ => DSZI_LL (v 0) (v 1) (v 2) (v 3) (failures.filter fun t => decide (t = 0)) inp.failures inp.right_censored) (boundsOf "Weibull_DSZI" failures inp.right_censored))
  have b5 := hlt (fun v : Fin 4 → ℝ => DSZI_LL (v 0) (v 1) (v 2) (v 3) (failures.filter fun t => decide (t = 0)) inp.failures inp.right_censored) (boundsOf "Weibull_DSZI" failures inp.right_censored) n q
      (special_bounds (List.append_ne_nil_of_left_ne_nil ne' inp.right_censored)).2.2
  generalize (m4 (fun v : Fin 4 → ℝ => DSZI_LL (v 0) (v 1) (v 2) (v 3) (failures.filter fun t => decide (t = 0)) inp.failures inp.right_censored) (boundsOf "Weibull_DSZI" failures inp.right_censored) n q).x = y at *
  obtain ⟨V, hV⟩ := orWarn_some (npInv (hessian (fun v : Fin 4 → ℝ =>
      DSZI_LL (v 0) (v 1) (v 2) (v 3) (failures.filter fun t => decide (t = 0)) inp.failures inp.right_censored) y)) n
  have hi : dsziInit (weibull (y 0) (y 1) 0) (some (y 2)) (some (y 3)) = valueErr := by
    unfold dsziInit
    dsimp only [Option.getD_some]
    rw [if_neg (by simp), if_pos (by linarith)]
  unfold fitDSZI
  dsimp only
  rw [(C51_ok_iff ..).2 h]
  simp only [Bind.bind, Except.bind, e1, e2]
  erw [hr1]
  simp only [hy, hV, hi]

/-- **C108 (finding).** Four distinct failure times are accepted, but with ties the kernel density estimate may put the line
so that one group has a single distinct failure time; Fit_Weibull_2P rejects it and so both fits raise. -/
theorem C108_ties_finding (argsort : List ℝ → List ℕ) (J : Jac) (kde : List ℝ → ℝ) (num2 : List ℝ → List ℝ → Option ℝ → Num2)
    (m5 : Minimizer (Fin 5 → ℝ)) (m4 : Minimizer (Fin 4 → ℝ))
    (failures : DataArg ℝ) (x : SArgs) (T C : List ℝ) (hT : UsedData failures x.right_censored T C)
    (h1 : 2 ≤ (T.filter fun t => decide (t < kde T)).length) (h2 : (T.filter fun t => decide (t < kde T)).length + 2 ≤ T.length)
    (h3 : (T.filter fun t => decide (t < kde T)).toFinset.card < 2) :
    (¬ ∃ r, fitMixture argsort J kde num2 m5 failures x = .ok r) ∧ ¬ ∃ r, fitCR argsort J kde num2 m4 failures x = .ok r := by
  have hline : dividingLine T (kde T) = .ok (kde T) := by
    unfold dividingLine
    dsimp only
    rw [if_neg (by omega)]
    have : ¬ T.length - (T.filter fun t => decide (t < kde T)).length < 2 := by omega
    simp only [Bind.bind, Except.bind, this, if_false]
  have hsame : ∀ {dist : String} {inp : Checked ℝ}, ¬ RealLine dist → dist ≠ "Beta_2P" →
      Accepts dist failures x.right_censored .none x.optimizer x.CI .none none none .none inp → inp.failures = T := by
    intro dist inp h h' hacc
    obtain ⟨⟨F, C', e1, -, e2, -⟩, -⟩ := usedData_of_accepts h h' hacc
    obtain ⟨F', C'', e1', -, e2', -⟩ := hT
    rw [e1] at e1'
    cases e1'
    rw [e2, e2']
  have hfail : ∀ {n2 : Option ℝ → Num2} {rc : DataArg ℝ} {o : StrArg} {r}, fitWeibull2P argsort J n2
      { failures := .array (below (kde T) T), right_censored := rc, optimizer := o } ≠ .ok r := by
    intro n2 rc o r h
    simp only [fitWeibull2P, bind_ok] at h
    obtain ⟨inp, hi, -⟩ := h
    rw [C51_ok_iff] at hi
    have h5 := hi.enough
    obtain ⟨F, C', e1, -, -, -, e2, -⟩ := hi.data
    cases e1
    rw [e2] at h5
    have h6 : ((below (kde T) T).filter (fun x => decide (Usable "Weibull_2P" x))).toFinset.card ≤
        (below (kde T) T).toFinset.card := by
      apply Finset.card_le_card
      intro t ht
      simp only [List.mem_toFinset, List.mem_filter] at ht ⊢
      exact ht.1
    have h7 : required "Weibull_2P" ((none : Option ℝ).isSome || (none : Option ℝ).isSome) = 2 := by decide
    rw [h7] at h5
    have h8 : (below (kde T) T).toFinset.card < 2 := h3
    omega
  constructor
  · rintro ⟨r, h⟩
    simp only [fitMixture, bind_ok] at h
    obtain ⟨inp, hi, line, hl, r1, hr1, -⟩ := h
    rw [C51_ok_iff] at hi
    rw [hsame (by decide) (by decide) hi, hline] at hl
    cases hl
    rw [hsame (by decide) (by decide) hi] at hr1
    exact hfail hr1
  · rintro ⟨r, h⟩
    simp only [fitCR, bind_ok] at h
    obtain ⟨inp, hi, line, hl, r1, hr1, -⟩ := h
    rw [C51_ok_iff] at hi
    rw [hsame (by decide) (by decide) hi, hline] at hl
    cases hl
    rw [hsame (by decide) (by decide) hi] at hr1
    exact hfail hr1

/-! ### The optimizer attribute -/

/-- **C108.** The optimizer reported is None or one of the four. -/
theorem C108_labels (argsort : List ℝ → List ℕ) (J : Jac) (kde : List ℝ → ℝ) (num2 : List ℝ → List ℝ → Option ℝ → Num2)
    (m5 : Minimizer (Fin 5 → ℝ)) (m4 : Minimizer (Fin 4 → ℝ))
    (m3 : Minimizer (Fin 3 → ℝ)) (d : DataArg ℝ) (l : List ℝ) (x : SArgs) (opt : Option String)
    (h : (∃ r, fitMixture argsort J kde num2 m5 d x = .ok r ∧ r.optimizer = opt) ∨
      (∃ r, fitCR argsort J kde num2 m4 d x = .ok r ∧ r.optimizer = opt) ∨
      (∃ r, fitDSZI argsort J num2 m4 l x = .ok r ∧ r.optimizer = opt) ∨
      (∃ r, fitDS argsort J num2 m3 d x = .ok r ∧ r.optimizer = opt) ∨
      (∃ r, fitZI argsort J num2 m3 l x = .ok r ∧ r.optimizer = opt)) :
    opt = none ∨ ∃ n ∈ ["TNC", "L-BFGS-B", "nelder-mead", "powell"], opt = some n := by
  rcases h with ⟨r, h, rfl⟩ | ⟨r, h, rfl⟩ | ⟨r, h, rfl⟩ | ⟨r, h, rfl⟩ | ⟨r, h, rfl⟩
  · simp only [fitMixture, bind_ok] at h
    obtain ⟨_, _, _, _, _, _, _, _, o, ho, _, _, _, _, _, _, e⟩ := h
    cases e; exact mle_optimizer ho
  · simp only [fitCR, bind_ok] at h
    obtain ⟨_, _, _, _, _, _, _, _, o, ho, _, _, _, _, e⟩ := h
    cases e; exact mle_optimizer ho
  · simp only [fitDSZI, bind_ok] at h
    obtain ⟨_, _, _, _, _, _, _, _, o, ho, _, _, _, _, _, _, e⟩ := h
    cases e; exact mle_optimizer ho
  · simp only [fitDS, bind_ok] at h
    obtain ⟨_, _, _, _, _, _, _, _, o, ho, _, _, _, _, _, _, e⟩ := h
    cases e; exact mle_optimizer ho
  · simp only [fitZI, bind_ok] at h
    obtain ⟨_, _, _, _, o, ho, _, _, _, _, _, _, e⟩ := h
    cases e; exact mle_optimizer ho

/-! ## Concrete cases -/

theorem special_accepts (dist : String) (hd : dist ∈ ["Weibull_Mixture", "Weibull_CR", "Weibull_DSZI", "Weibull_DS", "Weibull_ZI"])
    {F : List ℝ} (hF : ∀ t ∈ F, 0 < t) (h4 : 4 ≤ F.toFinset.card) :
    Accepts (K := ℝ) dist (.array F) .none .none .none (.float 0.95) .none none none .none
      ⟨F, [], 0.95, none, none, .none, none, none, none⟩ := by
  have hu : ∀ t ∈ F, Usable dist t := fun t ht => .inr ⟨hF t ht, fun hb => by subst hb; simp at hd⟩
  refine ⟨?_, ⟨F, [], rfl, .inl ⟨rfl, rfl⟩, fun t ht => .inr ⟨(hF t ht).le, fun hb => by subst hb; simp at hd⟩, by simp, ?_, rfl⟩,
    ⟨rfl, by norm_num, by norm_num⟩, .inl ⟨rfl, rfl⟩, .inl ⟨rfl, rfl⟩, .inl ⟨rfl, rfl⟩, ⟨rfl, by simp⟩, ⟨rfl, by simp⟩, ?_,
    .inl ⟨rfl, rfl⟩⟩
  · clear hu; revert hd; revert dist; decide
  · symm; rw [List.filter_eq_self]; exact fun t ht => decide_eq_true (hu t ht)
  · have : ∀ dist ∈ ["Weibull_Mixture", "Weibull_CR", "Weibull_DSZI", "Weibull_DS", "Weibull_ZI"], required dist false ≤ 4 := by decide
    exact (this dist hd).trans h4

/-- Four failures. -/
noncomputable def exFour : List ℝ := [1, 2, 3, 4]

theorem exFour_pos : ∀ t ∈ exFour, 0 < t := by
  intro t ht; simp [exFour] at ht; rcases ht with rfl | rfl | rfl | rfl <;> norm_num

theorem exFour_nodup : exFour.Nodup := by norm_num [exFour]

theorem exFour_card : 4 ≤ exFour.toFinset.card := by
  rw [List.toFinset_card_of_nodup exFour_nodup]; simp [exFour]

/-- The hypotheses of C106, C107 and C108 are met for the mixture and the competing risks model: four failures, a line at 0
(so the line is moved), optimizers that stay at the guess. -/
example {argsort : List ℝ → List ℕ} (harg : IsArgsort argsort) (J : Jac) :
    (∃ r, fitMixture argsort J (fun _ => 0) (fun _ _ => exNum2) (fun _ _ _ p => ⟨true, p⟩) (.array exFour) {} = .ok r) ∧
    (∃ r, fitCR argsort J (fun _ => 0) (fun _ _ => exNum2) (fun _ _ _ p => ⟨true, p⟩) (.array exFour) {} = .ok r) := by
  obtain ⟨h1, h2⟩ := C108_two_groups_return harg J (fun _ => 0) (fun _ _ => exNum2) (fun _ _ _ p => ⟨true, p⟩) (fun _ _ _ p => ⟨true, p⟩)
    (by intros; rfl) (by intros; rfl) (by intros; rfl) (by intros; rfl) (.array exFour) {}
    ⟨exFour, [], 0.95, none, none, .none, none, none, none⟩ exFour_nodup
  exact ⟨h1 (special_accepts _ (by decide) exFour_pos exFour_card), h2 (special_accepts _ (by decide) exFour_pos exFour_card)⟩

open Classical in
/-- An optimizer that answers `v` if that is within the bounds, and otherwise something that is. -/
noncomputable def exBoxMin {k : ℕ} (v : Fin k → ℝ) : Minimizer (Fin k → ℝ) := fun _ b _ _ =>
  ⟨true, if Obeys v b then v else if h : ∃ y, Obeys y b then h.choose else v⟩

theorem exBoxMin_respects {k : ℕ} (v : Fin k → ℝ) : Respects (exBoxMin v) := by
  intro ob b n p h
  unfold exBoxMin
  dsimp only
  by_cases hv : Obeys v b
  · rw [if_pos hv]; exact hv
  · rw [if_neg hv, dif_pos h]; exact h.choose_spec

theorem exBoxMin_eq {k : ℕ} {v : Fin k → ℝ} {b : List (Fitters.Bound ℝ)} (h : Obeys v b) {ob n p} : (exBoxMin v ob b n p).x = v :=
  if_pos h

theorem ex_dszi (u w : ℝ) (h1 : 1 / 100000 ≤ u) (h2 : u ≤ 1) (h3 : 0 ≤ w) (h4 : w ≤ 99999 / 100000) :
    Obeys ![2, 1, u, w] [(some (1 / 10000), none), (some (1 / 10000), none), (some (1 / 100000), some 1),
      (some 0, some (99999 / 100000))] := by
  intro i c lo hi e1 e2
  match i, e1, e2 with
  | 0, e1, e2 => cases e1; cases e2; constructor <;> intro l e <;> cases e; norm_num
  | 1, e1, e2 => cases e1; cases e2; constructor <;> intro l e <;> cases e; norm_num
  | 2, e1, e2 => cases e1; cases e2; constructor <;> intro l e <;> cases e <;> assumption
  | 3, e1, e2 => cases e1; cases e2; constructor <;> intro l e <;> cases e <;> assumption

/-- The models with proportions: a failure at 0 and four others; the optimizers answer with fixed legal parameters. -/
example {argsort : List ℝ → List ℕ} (harg : IsArgsort argsort) (J : Jac) :
    (∃ r, fitDS argsort J (fun _ _ => exNum2) (exBoxMin ![2, 1, 0.5]) (.array exFour) {} = .ok r) ∧
    (∃ r, fitZI argsort J (fun _ _ => exNum2) (exBoxMin ![2, 1, 0.5]) (0 :: exFour) {} = .ok r) ∧
    (∃ r, fitDSZI argsort J (fun _ _ => exNum2) (exBoxMin ![2, 1, 0.5, 0.25]) (0 :: exFour) {} = .ok r) ∧
    fitDSZI argsort J (fun _ _ => exNum2) (exBoxMin ![2, 1, 0.25, 0.5]) (0 :: exFour) {} = .error .valueError := by
  have hfil : (0 :: exFour).filter (fun t => decide (t ≠ 0)) = exFour := by
    rw [List.filter_cons_of_neg (by simp), List.filter_eq_self]
    intro t ht
    simpa using (exFour_pos t ht).ne'
  have hz : ∀ dist ∈ ["Weibull_Mixture", "Weibull_CR", "Weibull_DSZI", "Weibull_DS", "Weibull_ZI"],
      Accepts (K := ℝ) dist (.array ((0 :: exFour).filter fun t => decide (t ≠ 0))) .none .none .none (.float 0.95) .none none
        none .none ⟨exFour, [], 0.95, none, none, .none, none, none, none⟩ := by
    intro dist hd; rw [hfil]; exact special_accepts dist hd exFour_pos exFour_card
  refine ⟨?_, ?_, ?_, ?_⟩
  · exact C108_DS_returns harg J (fun _ _ => exNum2) _ (by intros; rfl) (by intros; rfl) (by intros; rfl)
      (exBoxMin_respects _) _ {} _ (special_accepts _ (by decide) exFour_pos exFour_card)
  · exact C108_ZI_returns harg J (fun _ _ => exNum2) _ (by intros; rfl) (by intros; rfl) (by intros; rfl)
      (exBoxMin_respects _) _ {} _ (hz _ (by decide))
  · exact C108_DSZI_returns_partial harg J (fun _ _ => exNum2) _ (by intros; rfl) (by intros; rfl) (by intros; rfl)
      (exBoxMin_respects _) (fun _ _ _ _ e => by rw [exBoxMin_eq (by rw [e]; exact ex_dszi _ _ (by norm_num) (by norm_num) (by norm_num) (by norm_num))]; simp; norm_num) _ {} _ (hz _ (by decide))
  · exact C108_DSZI_order_finding harg J (fun _ _ => exNum2) _ (by intros; rfl) (by intros; rfl) (by intros; rfl)
      (fun _ _ _ _ e => by rw [exBoxMin_eq (by rw [e]; exact ex_dszi _ _ (by norm_num) (by norm_num) (by norm_num) (by norm_num))]; simp; norm_num) _ {} _ (hz _ (by decide))

/-- The finding on ties: the failures 1, 1, 5, 6, 7 are accepted; with the line at 3 the first group is 1, 1. -/
example (argsort : List ℝ → List ℕ) (J : Jac) :
    (∃ inp, fittersCheck (K := ℝ) "Weibull_Mixture" (.array [1, 1, 5, 6, 7]) .none .none .none (.float 0.95) .none none none .none
      = .ok inp) ∧
    ¬ ∃ r, fitMixture argsort J (fun _ => 3) (fun _ _ => exNum2) (fun _ _ _ p => ⟨true, p⟩) (.array [1, 1, 5, 6, 7]) {} = .ok r := by
  have hpos : ∀ t ∈ ([1, 1, 5, 6, 7] : List ℝ), 0 < t := by
    intro t ht; simp at ht; rcases ht with rfl | rfl | rfl | rfl <;> norm_num
  have hcard : 4 ≤ ([1, 1, 5, 6, 7] : List ℝ).toFinset.card := by
    have : ([1, 1, 5, 6, 7] : List ℝ).toFinset = ([1, 5, 6, 7] : List ℝ).toFinset := by simp
    rw [this, List.toFinset_card_of_nodup (by norm_num)]; simp
  have hf : ([1, 1, 5, 6, 7] : List ℝ).filter (fun t => decide (t < 3)) = [1, 1] := by norm_num [List.filter]
  refine ⟨⟨_, (C51_ok_iff ..).2 (special_accepts _ (by decide) hpos hcard)⟩, ?_⟩
  refine (C108_ties_finding argsort J (fun _ => 3) (fun _ _ => exNum2) (fun _ _ _ p => ⟨true, p⟩) (fun _ _ _ p => ⟨true, p⟩) _ {} [1, 1, 5, 6, 7] []
    ⟨_, [], rfl, .inl ⟨rfl, rfl⟩, ?_, rfl⟩ ?_ ?_ ?_).1
  · symm; rw [List.filter_eq_self]; exact fun t ht => decide_eq_true (hpos t ht)
  · rw [hf]; simp
  · rw [hf]; simp
  · rw [hf]; simp

end Reliability.Props

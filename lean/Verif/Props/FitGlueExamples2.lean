import Verif.Props.FitGlueExamples
import Verif.Props.FitGlueReturns

/-! # Concrete cases for C99, C100, C103-C105 -/

namespace Reliability.Props

open Reliability Reliability.Distributions Reliability.Likelihood Reliability.InputCheck Reliability.FunctionCI
open Reliability.Fitters (MLEOut OptResult)
open Reliability.FitGlue Reliability.Spec Reliability.Spec.InputCheck Reliability.Spec.FitGlue

/-- Estimates with location `c`. -/
noncomputable def exNum3 (c : ℝ) : Num (ℝ × ℝ × ℝ) := ⟨fun _ => (1, 2, c), (1, 2, c), fun _ _ _ _ => ⟨true, (1, 2, c)⟩⟩

/-- Estimates for Beta and Gamma. -/
noncomputable def exNumG : Num (ℝ × ℝ) := ⟨fun _ => (1, 2), (1, 2), fun _ _ _ p => ⟨true, p⟩⟩

theorem ex_three_returns {argsort : List ℝ → List ℕ} (harg : IsArgsort argsort) (J : Jac) (c : ℝ) :
    (∃ r, fitWeibull3P argsort J (exNum3 c) exNum2 exArgs = .ok r) ∧
    (∃ r, fitLognormal3P argsort J (exNum3 c) exNum2 exArgs = .ok r) ∧
    (∃ r, fitLoglogistic3P argsort J (exNum3 c) exNum2 exArgs = .ok r) ∧
    (∃ r, fitGamma3P argsort J (exNum3 c) exNumG exArgs = .ok r) := by
  have h := C102_mle_returns_three_partial harg J exNum2 exNumG (exNum3 c) (by intros; rfl) (by intros; rfl)
    (by intros; rfl) (by intros; rfl) exArgs (exChecked (.str "time")) rfl rfl
  exact ⟨h.1 (ex_accepts _ (by decide) _ (.inr rfl)), h.2.1 (ex_accepts _ (by decide) _ (.inr rfl)),
    h.2.2.1 (ex_accepts _ (by decide) _ (.inr rfl)), h.2.2.2 (ex_accepts _ (by decide) _ (.inr rfl))⟩

/-- A fit that keeps its location. -/
example {argsort : List ℝ → List ℕ} (harg : IsArgsort argsort) (J : Jac) :
    ∃ r f rc CI, fitWeibull3P argsort J (exNum3 0.05) exNum2 exArgs = .ok r ∧ r.dist.gamma = 0.05 ∧
      Rows3 .weibull "Alpha" "Beta" .log f rc CI r.rows r.Cov r.dist := by
  obtain ⟨r, h⟩ := (ex_three_returns harg J 0.05).1
  have hg := (C105_weibull_3P harg J _ _ _ r h).2.2 0.05 (by norm_num) (by intros; rfl) rfl (by intros; rfl)
  obtain ⟨f, rc, CI, -, -, h2⟩ := C100_weibull_3P harg J _ _ _ r h (by rw [hg]; norm_num)
  exact ⟨r, f, rc, CI, h, hg, h2⟩

/-- A fit that falls back to two parameters. -/
example {argsort : List ℝ → List ℕ} (harg : IsArgsort argsort) (J : Jac) :
    ∃ r, fitWeibull3P argsort J (exNum3 0) exNum2 exArgs = .ok r ∧ r.dist.gamma = 0 ∧
      ∃ rows, r.rows = rows ++ [⟨"Gamma", 0, 0, 0, 0⟩] := by
  obtain ⟨r, h⟩ := (ex_three_returns harg J 0).1
  obtain ⟨⟨f, rc, -, h1⟩, h2, -⟩ := C105_weibull_3P harg J _ _ _ r h
  have hg := h2 (fun _ => by norm_num [exNum3]) (by norm_num [exNum3]) (fun _ _ _ _ => by norm_num [exNum3])
  rcases h1 with h1 | ⟨-, r2, -, -, h3, -⟩
  · rw [hg] at h1; norm_num at h1
  · exact ⟨r, h, hg, r2.rows, h3⟩

/-- Estimates for Fit_Exponential_1P. -/
noncomputable def exNum1 : Num ℝ := ⟨fun _ => 1, 1, fun _ _ _ _ => ⟨true, 1⟩⟩

/-- The other fits return. -/
theorem ex_one_two_returns {argsort : List ℝ → List ℕ} (harg : IsArgsort argsort) (J : Jac) :
    (∃ r, fitExponential1P argsort J exNum1 exArgs = .ok r) ∧
    (∃ r, fitExponential2P argsort J exNumG exArgs = .ok r) ∧
    (∃ r, fitBeta2P argsort exNumG exArgs = .ok r) ∧
    (∃ r, fitGamma2P argsort J exNumG exArgs = .ok r) := by
  have h := fun ct hct => C102_mle_returns_one_two_partial harg J exNum1 exNumG (by intros; rfl)
    (by intros; rfl) exArgs (exChecked ct) rfl hct
  exact ⟨(h .none rfl).1 (ex_accepts _ (by decide) _ (.inl rfl)), (h .none rfl).2.1 (ex_accepts _ (by decide) _ (.inl rfl)),
    (h .none rfl).2.2.1 (ex_accepts _ (by decide) _ (.inl rfl)),
    (h (.str "time") rfl).2.2.2 (ex_accepts _ (by decide) _ (.inr rfl))⟩

theorem exp1_estimate {argsort : List ℝ → List ℕ} {J : Jac} {x : Args} {r : FitRes Expo}
    (h : fitExponential1P argsort J exNum1 x = .ok r) : r.dist.Lambda = 1 := by
  simp only [fitExponential1P, bind_ok] at h
  obtain ⟨inp, -, e, he, s, -, q, -, g, -, h⟩ := h
  cases h
  exact estimate_all (p := (· = 1)) (by intros; rfl) rfl (fun g o hg h => mle_all (p := (· = 1)) hg (by intros; rfl) h) he

/-- The hypotheses of C103 and C99 for Exponential_1P are met. -/
example {argsort : List ℝ → List ℕ} (harg : IsArgsort argsort) (J : Jac) :
    ∃ r f w1 w2, fitExponential1P argsort J exNum1 exArgs = .ok r ∧ r.rows = [w1, w2] ∧ w1.SE = 1 / Real.sqrt (List.length f) ∧
      Used "Exponential_1P" exArgs f [0.4] := by
  obtain ⟨r, h⟩ := (ex_one_two_returns harg J).1
  have hL := exp1_estimate h
  obtain ⟨f, rc, CI, z, w1, w2, h1, -, -, h2, -, -, h3, -⟩ := C103_exponential_1P argsort J _ _ r h (by rw [hL]; norm_num)
  refine ⟨r, f, w1, w2, h, h2, by rw [h3, hL], ?_⟩
  obtain ⟨F, C, e1, e2, e3, e4⟩ := h1
  refine ⟨F, C, e1, e2, e3, ?_⟩
  rcases e2 with ⟨e2, -⟩ | e2
  · cases e2
  · cases e2
    symm; rw [List.filter_eq_self]
    intro t ht
    simp at ht; subst ht
    exact decide_eq_true (.inr ⟨by norm_num, by decide⟩)

/-! ### Quantiles -/

theorem quantileTable_returns {J : Jac} {d : Fitted} {CI : ℝ} {l : List ℝ} {t : List (Ext ℝ) × List (Ext ℝ) × List (Ext ℝ)}
    (h : funcCI J d .CDF (some "time") CI (some l) none = .ok (some t)) :
    ∃ q, quantileTable J d CI (.array l) = .ok q := by
  unfold funcCI at h
  unfold quantileTable
  dsimp only
  split at h
  · cases h
  · cases h
  · rename_i lo up he
    dsimp only at h
    split at h
    · cases h
    · rename_i p hp
      have hp' : quantile d.dist l = .ok p := hp
      refine ⟨some (l, lo, p, up), ?_⟩
      rw [hp', he]
      rfl

/-- One failure at 1, shape 1 forced, the median asked for. -/
noncomputable def exQ : Args := { failures := .array [1], force := some 1, quantiles := .array [1/2] }

/-- Constant estimates. -/
noncomputable def exNumC (fo : Option ℝ) : Num2 :=
  ⟨⟨fun _ => (1, fo.getD 1), (1, fo.getD 1), fun _ _ _ p => ⟨true, p⟩⟩, fun _ _ _ _ => ⟨true, 1⟩⟩

/-- This fit returns an exponential distribution with usable standard errors. -/
theorem exQ_returns {argsort : List ℝ → List ℕ} (harg : IsArgsort argsort) (J : Jac) :
    ∃ r sa, fitWeibull2P argsort J exNumC exQ = .ok r ∧ r.dist.fam = .weibull ∧ r.dist.a = 1 ∧ r.dist.b = 1 ∧ r.dist.gamma = 0 ∧
      ErrorsOK r.dist sa 0 0 := by
  have hacc : Accepts "Weibull_2P" exQ.failures exQ.right_censored exQ.method exQ.optimizer
      exQ.CI exQ.quantiles exQ.force none exQ.CI_type
      ⟨[1], [], 0.95, some "MLE", none, .array [1/2], some 1, none, some "time"⟩ := by
    obtain ⟨h1, h2, h3, h4, h5, h6, h7, h8, h9, h10⟩ := ex_forced_accepts "MLE" (.inl rfl)
    exact ⟨h1, h2, h3, h4, h5, .inr (.inr (.inr (.inr ⟨[1/2], by simp, by simp; norm_num, rfl, rfl⟩))), h7, h8, h9, h10⟩
  have hest : ∀ {e : (ℝ × ℝ) × String × Option String}, estimate weibull2.name (LLf2 weibull2 (some 1) [1] []) (exNumC (some 1)).toNum
        (mle2 (fun a b => weibull2.LL a b [1] []) (boundsOf weibull2.name [1] []) (exNumC (some 1)) none (some 1)) (some "MLE")
        (lsMethod (some "MLE")) = .ok e → e.1 = (1, 1) := by
    intro e h
    refine estimate_all (p := (· = ((1, 1) : ℝ × ℝ))) (by intros; rfl) rfl (fun g o hg h => ?_) h
    subst hg
    simp only [mle2, Fitters.mleForced] at h
    split at h
    · cases h
    · rename_i r hr
      cases h
      have := mle_all (p := (· = (1 : ℝ))) rfl (by intros; rfl) hr
      exact Prod.ext this rfl
  have hse : ∀ {n s}, se2 (fun a b => weibull2.LL a b [1] []) 1 1 (some 1) n = .ok s →
      ∃ sa, ErrorsOK (two .weibull 1 1 0 0.95 s) sa 0 0 := by
    intro n s h
    unfold se2 at h
    dsimp only at h
    split at h
    · cases h; exact ⟨_, rfl, rfl, rfl, ⟨_, rfl⟩, by norm_num⟩
    · cases n with
      | none => cases h
      | some n => cases h; exact ⟨0, rfl, rfl, rfl, ⟨_, rfl⟩, by norm_num⟩
  have hp : ParamsOK .weibull 1 1 := ⟨one_pos, fun _ => one_pos⟩
  have hq : ∀ y s n, estimate weibull2.name (LLf2 weibull2 (some 1) [1] []) (exNumC (some 1)).toNum
        (mle2 (fun a b => weibull2.LL a b [1] []) (boundsOf weibull2.name [1] []) (exNumC (some 1)) none (some 1)) (some "MLE")
        (lsMethod (some "MLE")) = .ok (y, "Maximum Likelihood Estimation (MLE)", some n) →
      se2 (fun a b => weibull2.LL a b [1] []) y.1 y.2 (some 1) (some n) = .ok s →
      ∃ q, quantileTable J (.two (two weibull2.cfam y.1 y.2 0 0.95 s)) 0.95 (.array [1/2]) = .ok q := by
    intro y s n h1 h2
    have e1 := hest h1
    simp only at e1
    subst e1
    obtain ⟨sa, he⟩ := hse h2
    obtain ⟨lo, t, up, h, -⟩ := C81_time J (two .weibull 1 1 0 0.95 s) sa 0 0 0.95 .CDF [1/2] (by simp) hp he (by norm_num)
      (by norm_num) (by simp [toReliability]; norm_num)
    exact quantileTable_returns h
  obtain ⟨r, hr, -⟩ := fit2_succeeds (F := weibull2) (by simp [fams2]) harg (J := J) (num := exNumC) (force := some 1)
    (inp := ⟨[1], [], 0.95, some "MLE", none, .array [1/2], some 1, none, some "time"⟩)
    rfl hacc.optimizer_ok hq (by simp) (by simp [weibull2, InSupport]) (by intros; rfl) (by intros; rfl)
  · have hfit : fitWeibull2P argsort J exNumC exQ = .ok r := by
      simp only [fitWeibull2P, bind_ok]
      exact ⟨_, (C51_ok_iff ..).2 hacc, hr⟩
    simp only [fit2, bind_ok] at hr
    obtain ⟨e, h1, s, h2, q, h3, g, h4, h5⟩ := hr
    have e1 := hest h1
    rw [e1] at h2 h5
    obtain ⟨sa, he⟩ := hse h2
    cases h5
    exact ⟨_, sa, hfit, rfl, rfl, rfl, rfl, he⟩

/-- The hypotheses of C104_table are met by a fit with a table. -/
example {argsort : List ℝ → List ℕ} (harg : IsArgsort argsort) (J : Jac) :
    ∃ r t, fitWeibull2P argsort J exNumC exQ = .ok r ∧ r.quantiles = some t ∧
      IsTable (distOf r.dist.fam r.dist.a r.dist.b r.dist.gamma) exQ.quantiles r.quantiles := by
  have hacc : Accepts "Weibull_2P" exQ.failures exQ.right_censored exQ.method exQ.optimizer
      exQ.CI exQ.quantiles exQ.force none exQ.CI_type
      ⟨[1], [], 0.95, some "MLE", none, .array [1/2], some 1, none, some "time"⟩ := by
    obtain ⟨h1, h2, h3, h4, h5, h6, h7, h8, h9, h10⟩ := ex_forced_accepts "MLE" (.inl rfl)
    exact ⟨h1, h2, h3, h4, h5, .inr (.inr (.inr (.inr ⟨[1/2], by simp, by simp; norm_num, rfl, rfl⟩))), h7, h8, h9, h10⟩
  have hest : ∀ {e : (ℝ × ℝ) × String × Option String}, estimate weibull2.name (LLf2 weibull2 (some 1) [1] []) (exNumC (some 1)).toNum
        (mle2 (fun a b => weibull2.LL a b [1] []) (boundsOf weibull2.name [1] []) (exNumC (some 1)) none (some 1)) (some "MLE")
        (lsMethod (some "MLE")) = .ok e → e.1 = (1, 1) := by
    intro e h
    refine estimate_all (p := (· = ((1, 1) : ℝ × ℝ))) (by intros; rfl) rfl (fun g o hg h => ?_) h
    subst hg
    simp only [mle2, Fitters.mleForced] at h
    split at h
    · cases h
    · rename_i r hr
      cases h
      have := mle_all (p := (· = (1 : ℝ))) rfl (by intros; rfl) hr
      exact Prod.ext this rfl
  have hse : ∀ {n s}, se2 (fun a b => weibull2.LL a b [1] []) 1 1 (some 1) n = .ok s →
      ∃ sa, ErrorsOK (two .weibull 1 1 0 0.95 s) sa 0 0 := by
    intro n s h
    unfold se2 at h
    dsimp only at h
    split at h
    · cases h; exact ⟨_, rfl, rfl, rfl, ⟨_, rfl⟩, by norm_num⟩
    · cases n with
      | none => cases h
      | some n => cases h; exact ⟨0, rfl, rfl, rfl, ⟨_, rfl⟩, by norm_num⟩
  have hp : ParamsOK .weibull 1 1 := ⟨one_pos, fun _ => one_pos⟩
  have hq : ∀ y s n, estimate weibull2.name (LLf2 weibull2 (some 1) [1] []) (exNumC (some 1)).toNum
        (mle2 (fun a b => weibull2.LL a b [1] []) (boundsOf weibull2.name [1] []) (exNumC (some 1)) none (some 1)) (some "MLE")
        (lsMethod (some "MLE")) = .ok (y, "Maximum Likelihood Estimation (MLE)", some n) →
      se2 (fun a b => weibull2.LL a b [1] []) y.1 y.2 (some 1) (some n) = .ok s →
      ∃ q, quantileTable J (.two (two weibull2.cfam y.1 y.2 0 0.95 s)) 0.95 (.array [1/2]) = .ok q := by
    intro y s n h1 h2
    have e1 := hest h1
    simp only at e1
    subst e1
    obtain ⟨sa, he⟩ := hse h2
    obtain ⟨lo, t, up, h, -⟩ := C81_time J (two .weibull 1 1 0 0.95 s) sa 0 0 0.95 .CDF [1/2] (by simp) hp he (by norm_num)
      (by norm_num) (by simp [toReliability]; norm_num)
    exact quantileTable_returns h
  obtain ⟨r, hr, -⟩ := fit2_succeeds (F := weibull2) (by simp [fams2]) harg (J := J) (num := exNumC) (force := some 1)
    (inp := ⟨[1], [], 0.95, some "MLE", none, .array [1/2], some 1, none, some "time"⟩)
    rfl hacc.optimizer_ok hq (by simp) (by simp [weibull2, InSupport]) (by intros; rfl) (by intros; rfl)
  · have hfit : fitWeibull2P argsort J exNumC exQ = .ok r := by
      simp only [fitWeibull2P, bind_ok]
      exact ⟨_, (C51_ok_iff ..).2 hacc, hr⟩
    simp only [fit2, bind_ok] at hr
    obtain ⟨e, h1, s, h2, q, h3, g, h4, h5⟩ := hr
    have e1 := hest h1
    rw [e1] at h2 h5
    obtain ⟨sa, he⟩ := hse h2
    cases h5
    have ht := C104_table (argsort := argsort) (J := J) (num := exNumC) (numG := exNumG) (num3 := exNum3 0)
      (by simp) exQ _ hfit sa 0 0 hp he
    obtain ⟨l, -, -, lo, t, up, h, -⟩ := ht.present (by simp [exQ])
    exact ⟨_, _, hfit, h, ht⟩

end Reliability.Props

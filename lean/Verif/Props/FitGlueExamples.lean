import Verif.Props.FitGlue

/-! # Concrete cases for C99-C102 -/

namespace Reliability.Props

open Reliability Reliability.Distributions Reliability.Likelihood Reliability.InputCheck
open Reliability.Fitters (MLEOut OptResult)
open Reliability.FitGlue Reliability.Spec Reliability.Spec.InputCheck Reliability.Spec.FitGlue
open Reliability.FunctionCI (CFam Two Expo Fitted Jac zOf distOf)

theorem filter_all {dist : String} {l : List ℝ} (h : ∀ t ∈ l, 0 < t ∧ t < 1) :
    l.filter (fun t => decide (Usable dist t)) = l := by
  rw [List.filter_eq_self]
  intro t ht
  exact decide_eq_true (.inr ⟨(h t ht).1, fun _ => (h t ht).2⟩)

/-- The checked input of `exArgs`. -/
noncomputable def exChecked (ct : StrArg) : Checked ℝ :=
  ⟨[0.1, 0.2, 0.3], [0.4], 0.95, some "MLE", none, .none, none, none, match ct with | .none => none | _ => some "time"⟩

/-- Three failures and a censored time between 0 and 1, everything else at its default, are accepted by every fitter. -/
theorem ex_accepts (dist : String) (hd : dist ∈ ["Weibull_2P", "Weibull_3P", "Gamma_2P", "Gamma_3P", "Exponential_1P",
    "Exponential_2P", "Gumbel_2P", "Normal_2P", "Lognormal_2P", "Lognormal_3P", "Loglogistic_2P", "Loglogistic_3P",
    "Beta_2P"]) (ct : StrArg) (hct : ct = .none ∨ ct = .str "time") :
    Accepts (K := ℝ) dist (.array [0.1, 0.2, 0.3]) (.array [0.4]) (.str "MLE") .none (.float 0.95) .none none none ct
      (exChecked ct) := by
  have hF : ∀ t ∈ ([0.1, 0.2, 0.3] : List ℝ), 0 < t ∧ t < 1 := by
    intro t ht; simp at ht; rcases ht with rfl | rfl | rfl <;> norm_num
  have hC : ∀ t ∈ ([0.4] : List ℝ), 0 < t ∧ t < 1 := by
    intro t ht; simp at ht; subst ht; norm_num
  refine ⟨?_, ⟨_, _, rfl, .inr rfl, ?_, ?_, (filter_all hF).symm, (filter_all hC).symm⟩, ⟨rfl, by norm_num [exChecked], by norm_num [exChecked]⟩,
    .inl ⟨rfl, rfl⟩, ?_, .inl ⟨rfl, rfl⟩, ⟨rfl, by simp⟩, ⟨rfl, by simp⟩, ?_, ?_⟩
  · revert hd; revert dist; decide
  · exact fun t ht => .inr ⟨(hF t ht).1.le, fun _ => (hF t ht).2.le⟩
  · exact fun t ht => .inr ⟨(hC t ht).1.le, fun _ => (hC t ht).2.le⟩
  · exact .inr ⟨"MLE", "MLE", ["MLE", "ML", "MAXIMUM LIKELIHOOD ESTIMATION", "MAXIMUM LIKELIHOOD", "MAX LIKELIHOOD"], rfl,
      rfl, by simp [methodNames], by decide +kernel⟩
  · have hcard : ([0.1, 0.2, 0.3] : List ℝ).toFinset.card = 3 := by
      rw [List.toFinset_card_of_nodup]
      · rfl
      · norm_num
    simp only [exChecked, hcard]
    have : ∀ dist ∈ ["Weibull_2P", "Weibull_3P", "Gamma_2P", "Gamma_3P", "Exponential_1P",
        "Exponential_2P", "Gumbel_2P", "Normal_2P", "Lognormal_2P", "Lognormal_3P", "Loglogistic_2P", "Loglogistic_3P",
        "Beta_2P"], required dist false ≤ 3 := by decide
    exact this dist hd
  · rcases hct with rfl | rfl
    · exact .inl ⟨rfl, rfl⟩
    · exact .inr ⟨"time", "time", ["T", "TIME"], rfl, rfl, by simp [ciTypeNames], by decide +kernel⟩

/-- Optimizers that always report success and least squares that keeps a forced shape. -/
noncomputable def exNum2 (fo : Option ℝ) : Num2 :=
  ⟨⟨fun _ => (1, fo.getD 2), (1, fo.getD 2), fun _ _ _ p => ⟨true, p⟩⟩, fun _ _ _ p => ⟨true, p⟩⟩

/-- The data of the examples. -/
noncomputable def exArgs : Args := { failures := .array [0.1, 0.2, 0.3], right_censored := .array [0.4] }

/-- The hypotheses of C99, C100 and C102 are met: the fit returns. -/
theorem ex_weibull_returns {argsort : List ℝ → List ℕ} (harg : IsArgsort argsort) (J : Jac) :
    ∃ r, fitWeibull2P argsort J exNum2 exArgs = .ok r :=
  (C102_mle_returns_partial harg J exNum2 (by intros; rfl) (by intros; rfl) exArgs
    (exChecked (.str "time")) rfl rfl).1
    (ex_accepts "Weibull_2P" (by decide) _ (.inr rfl))

example {argsort : List ℝ → List ℕ} (harg : IsArgsort argsort) (J : Jac) :
    ∃ r f rc, fitWeibull2P argsort J exNum2 exArgs = .ok r ∧ Used "Weibull_2P" exArgs f rc ∧
      (0 < r.dist.a → 0 < r.dist.b → Describes argsort (weibull r.dist.a r.dist.b 0) f rc 2 r.gof) := by
  obtain ⟨r, hr⟩ := ex_weibull_returns harg J
  obtain ⟨f, rc, h1, -, -, h2⟩ := C99_weibull_2P harg J exNum2 (by intros; rfl) exArgs r hr
  exact ⟨r, f, rc, hr, h1, h2⟩

example {argsort : List ℝ → List ℕ} (harg : IsArgsort argsort) (J : Jac) :
    (∃ r, fitNormal2P argsort J exNum2 exArgs = .ok r) ∧ (∃ r, fitLognormal2P argsort J exNum2 exArgs = .ok r) ∧
    (∃ r, fitGumbel2P argsort J exNum2 exArgs = .ok r) ∧ (∃ r, fitLoglogistic2P argsort J exNum2 exArgs = .ok r) := by
  refine ⟨?_, ?_, ?_, ?_⟩
  · exact (C102_mle_returns_partial harg J exNum2 (by intros; rfl) (by intros; rfl) exArgs
    (exChecked (.str "time")) rfl rfl).2.1
      (ex_accepts "Normal_2P" (by decide) _ (.inr rfl))
  · exact (C102_mle_returns_partial harg J exNum2 (by intros; rfl) (by intros; rfl) exArgs
    (exChecked (.str "time")) rfl rfl).2.2.1
      (ex_accepts "Lognormal_2P" (by decide) _ (.inr rfl))
  · exact (C102_mle_returns_partial harg J exNum2 (by intros; rfl) (by intros; rfl) exArgs
    (exChecked (.str "time")) rfl rfl).2.2.2.1
      (ex_accepts "Gumbel_2P" (by decide) _ (.inr rfl))
  · exact (C102_mle_returns_partial harg J exNum2 (by intros; rfl) (by intros; rfl) exArgs
    (exChecked (.str "time")) rfl rfl).2.2.2.2
      (ex_accepts "Loglogistic_2P" (by decide) _ (.inr rfl))

/-- One failure at 1 with a forced shape of 1. -/
noncomputable def exForced (m : String) : Args := { failures := .array [1], method := .str m, force := some 1 }

theorem ex_forced_accepts (m : String) (hm : m = "MLE" ∨ m = "RRX") :
    Accepts "Weibull_2P" (exForced m).failures (exForced m).right_censored (exForced m).method (exForced m).optimizer
      (exForced m).CI (exForced m).quantiles (exForced m).force none (exForced m).CI_type
      ⟨[1], [], 0.95, some m, none, .none, some 1, none, some "time"⟩ := by
  refine ⟨by decide, ⟨[1], [], rfl, .inl ⟨rfl, rfl⟩, ?_, by simp, ?_, rfl⟩, ⟨rfl, by norm_num, by norm_num⟩,
    .inl ⟨rfl, rfl⟩, ?_, .inl ⟨rfl, rfl⟩, ⟨rfl, ?_⟩, ⟨rfl, by simp⟩, ?_, ?_⟩
  · intro t ht; simp at ht; subst ht; exact .inr ⟨by norm_num, by decide⟩
  · have : Usable "Weibull_2P" (1 : ℝ) := .inr ⟨by norm_num, by decide⟩
    simp [this]
  · rcases hm with rfl | rfl
    · exact .inr ⟨"MLE", "MLE", ["MLE", "ML", "MAXIMUM LIKELIHOOD ESTIMATION", "MAXIMUM LIKELIHOOD", "MAX LIKELIHOOD"], rfl,
      rfl, by simp [methodNames], by decide +kernel⟩
    · exact .inr ⟨"RRX", "RRX", ["RRX"], rfl, rfl, by simp [methodNames], by decide +kernel⟩
  · intro b hb; cases hb; norm_num
  · simp [exForced, required]
  · exact .inr ⟨"time", "time", ["T", "TIME"], rfl, rfl, by simp [ciTypeNames], by decide +kernel⟩

/-- The hypotheses of C101 are met. -/
example {argsort : List ℝ → List ℕ} (harg : IsArgsort argsort) (J : Jac) :
    ∃ r w, fitWeibull2P argsort J exNum2 (exForced "MLE") = .ok r ∧ r.dist.b = 1 ∧ r.rows = [w, ⟨"Beta", 1, 0, 1, 1⟩] := by
  obtain ⟨r, hr⟩ := (C102_mle_returns_partial harg J exNum2 (by intros; rfl) (by intros; rfl) (exForced "MLE")
    ⟨[1], [], 0.95, some "MLE", none, .none, some 1, none, some "time"⟩ rfl rfl).1 (ex_forced_accepts "MLE" (.inl rfl))
  obtain ⟨-, h1, -, w, h2⟩ := C101_weibull harg J exNum2 (by intros; rfl) _ r hr 1 rfl
  exact ⟨r, w, hr, h1, h2⟩

/-- A least squares answer where the information is singular: shape 1 forced, scale 2, one failure at 1. -/
noncomputable def exNumSing (fo : Option ℝ) : Num2 :=
  ⟨⟨fun _ => (2, fo.getD 1), (2, fo.getD 1), fun _ _ _ p => ⟨true, p⟩⟩, fun _ _ _ p => ⟨true, p⟩⟩

/-- The hypotheses of C102_singular_finding are met: TypeError. -/
example (argsort : List ℝ → List ℕ) (J : Jac) :
    fitWeibull2P argsort J exNumSing (exForced "RRX") = .error .typeError := by
  refine C102_singular_finding argsort J exNumSing (exForced "RRX") _ (ex_forced_accepts "RRX" (.inr rfl)) rfl
    (.inr ⟨1, rfl, ?_⟩)
  have e : ∀ y : ℝ, y ≠ 0 → weibull2P_LL y 1 [1] [] = Real.log y + y⁻¹ := by
    intro y hy
    simp [weibull2P_LL, LL, weibull2P_logf, add_comm]
  have d1 : ∀ y : ℝ, y ≠ 0 → deriv (fun y => weibull2P_LL y 1 [1] []) y = y⁻¹ - (y ^ 2)⁻¹ := by
    intro y hy
    have : (fun y => weibull2P_LL y 1 [1] []) =ᶠ[nhds y] fun y => Real.log y + y⁻¹ := by
      filter_upwards [isOpen_ne.mem_nhds hy] with z hz using e z hz
    rw [this.deriv_eq, deriv_fun_add (Real.differentiableAt_log hy) (differentiableAt_inv hy), Real.deriv_log, deriv_inv]
    ring
  rw [Matrix.det_fin_one]
  simp only [hessian, Matrix.of_apply, exNumSing]
  simp only [Function.update_self, Matrix.cons_val_fin_one]
  have : (fun x : ℝ => deriv (fun y => weibull2P_LL y 1 [1] []) x) =ᶠ[nhds 2] fun x => x⁻¹ - (x ^ 2)⁻¹ := by
    filter_upwards [isOpen_ne.mem_nhds (two_ne_zero (α := ℝ))] with z hz using d1 z hz
  rw [this.deriv_eq]
  have h2 : HasDerivAt (fun x : ℝ => x⁻¹ - (x ^ 2)⁻¹) (-(2 ^ 2)⁻¹ - -(2 * 2) / (2 ^ 2) ^ 2) 2 := by
    apply HasDerivAt.sub (hasDerivAt_inv two_ne_zero)
    have := (hasDerivAt_pow 2 (2 : ℝ)).inv (by norm_num)
    exact this.congr_deriv (by norm_num)
  rw [h2.deriv]
  norm_num

/-- The hypotheses of C102_method_none_finding can be met. -/
example (argsort : List ℝ → List ℕ) (J : Jac) :
    fitWeibull2P argsort J exNum2 { exArgs with method := .none } = valueErr := by
  have h := ex_accepts "Weibull_2P" (by decide) (.str "time") (.inr rfl)
  refine C102_method_none_finding argsort J exNum2 _
    ⟨[0.1, 0.2, 0.3], [0.4], 0.95, none, none, .none, none, none, some "time"⟩ rfl ?_
  obtain ⟨h1, h2, h3, h4, -, h6, h7, h8, h9, h10⟩ := h
  exact ⟨h1, h2, h3, h4, .inl ⟨rfl, rfl⟩, h6, h7, h8, h9, h10⟩

end Reliability.Props

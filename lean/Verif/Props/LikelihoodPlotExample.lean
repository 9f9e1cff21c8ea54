import Mathlib.Probability.Distributions.Gaussian.Real
import Mathlib.Probability.Moments.Variance
import Mathlib.Analysis.Real.Pi.Bounds
import Verif.Props.LikelihoodPlot
import Verif.Props.StressStrength

/-! # C122: a Normal plot that does not show its estimate -/

namespace Reliability.Props.LikelihoodPlot

open Reliability Reliability.InputCheck Reliability.FitGlue Reliability.Likelihood Reliability.LikelihoodPlot
open Reliability.Distributions (normal normStd)
open Reliability.Spec Reliability.Spec.LikelihoodPlot Reliability.Spec.FitGlue
open Reliability.FunctionCI (Jac Two CFam distOf)
open Reliability.Props.Likelihood
open Reliability.Props (bind_ok)
open MeasureTheory ProbabilityTheory

theorem z_upper {z : ℝ} (h : TwoSidedZ 0.95 z) : z ^ 2 ≤ 20 := by
  obtain ⟨hz, h⟩ := h
  rw [← normStd_cdf_gaussian, ← normStd_cdf_gaussian] at h
  have hv := meas_ge_le_variance_div_sq (μ := gaussianReal 0 1) (X := id) (memLp_id_gaussianReal 2) hz
  rw [variance_id_gaussianReal] at hv
  have hm : ∫ x, id x ∂(gaussianReal 0 1) = 0 := by simpa using integral_id_gaussianReal (μ := 0) (v := 1)
  have hd : Disjoint (Set.Iic (-z)) (Set.Ioi z) := by
    rw [Set.disjoint_left]; intro x h1 h2; simp only [Set.mem_Iic, Set.mem_Ioi] at h1 h2; linarith
  have hsub : Set.Iic (-z) ∪ Set.Ioi z ⊆ {ω : ℝ | z ≤ |id ω - ∫ x, id x ∂(gaussianReal 0 1)|} := by
    intro x hx
    rw [Set.mem_setOf_eq, hm]
    simp only [id, sub_zero]
    rcases hx with hx | hx
    · exact le_abs.2 (.inr (by simp only [Set.mem_Iic] at hx; linarith))
    · exact le_abs.2 (.inl (le_of_lt hx))
  have h1 := (measure_mono (μ := gaussianReal 0 1) hsub).trans hv
  rw [measure_union hd measurableSet_Ioi] at h1
  have h2 := ENNReal.toReal_mono ENNReal.ofReal_ne_top h1
  rw [ENNReal.toReal_add (measure_ne_top _ _) (measure_ne_top _ _), ENNReal.toReal_ofReal (by positivity)] at h2
  have h3 : ((gaussianReal 0 1) (Set.Ioi z)).toReal = 1 - ((gaussianReal 0 1) (Set.Iic z)).toReal := by
    rw [← Set.compl_Iic, prob_compl_eq_one_sub measurableSet_Iic, ENNReal.toReal_sub_of_le prob_le_one ENNReal.one_ne_top]
    rfl
  rw [h3] at h2
  have h4 : (0.05 : ℝ) ≤ 1 / z ^ 2 := by
    have : ((1 : NNReal) : ℝ) / z ^ 2 = 1 / z ^ 2 := by norm_num
    rw [← this]
    linarith
  rw [le_div_iff₀ (by positivity)] at h4
  linarith

theorem z_lower {z : ℝ} (h : TwoSidedZ 0.95 z) : 1.1875 ≤ z := by
  obtain ⟨hz, h⟩ := h
  rw [normStd_cdf_erf, normStd_cdf_erf] at h
  have hs2 : 0 < Real.sqrt 2 := by positivity
  have hsp : 0 < Real.sqrt Real.pi := Real.sqrt_pos.2 Real.pi_pos
  have hb : ∀ w, 0 ≤ w → erf w ≤ 2 / Real.sqrt Real.pi * w ∧ -(2 / Real.sqrt Real.pi * w) ≤ erf (-w) := by
    intro w hw
    unfold erf
    have hle : ∀ t : ℝ, Real.exp (-(t ^ 2)) ≤ 1 := fun t => Real.exp_le_one_iff.2 (by nlinarith [sq_nonneg t])
    have hi : ∀ a b : ℝ, IntervalIntegrable (fun t : ℝ => Real.exp (-(t ^ 2))) volume a b := fun a b => by
      apply Continuous.intervalIntegrable; fun_prop
    have c1 : ∫ t in (0:ℝ)..w, Real.exp (-(t ^ 2)) ≤ w := by
      have := intervalIntegral.integral_mono hw (hi 0 w) (intervalIntegrable_const (c := (1:ℝ))) (fun t => hle t)
      simpa using this
    have c2 : -w ≤ ∫ t in (0:ℝ)..(-w), Real.exp (-(t ^ 2)) := by
      rw [intervalIntegral.integral_symm]
      have := intervalIntegral.integral_mono (neg_nonpos.2 hw) (hi (-w) 0) (intervalIntegrable_const (c := (1:ℝ))) (fun t => hle t)
      have e : ∫ t in (-w)..(0:ℝ), (1:ℝ) = w := by simp
      rw [e] at this
      linarith
    have hk : 0 < 2 / Real.sqrt Real.pi := by positivity
    exact ⟨mul_le_mul_of_nonneg_left c1 hk.le, by nlinarith [mul_le_mul_of_nonneg_left c2 hk.le]⟩
  obtain ⟨b1, b2⟩ := hb (z / Real.sqrt 2) (by positivity)
  rw [neg_div] at h
  have h5 : (0.95 : ℝ) ≤ 2 / Real.sqrt Real.pi * (z / Real.sqrt 2) := by linarith
  have h6 : 2 / Real.sqrt Real.pi * (z / Real.sqrt 2) = 2 * z / Real.sqrt (2 * Real.pi) := by
    rw [Real.sqrt_mul (by norm_num)]; field_simp
  rw [h6, le_div_iff₀ (by positivity)] at h5
  have h7 : (2.5 : ℝ) ≤ Real.sqrt (2 * Real.pi) := by
    apply Real.le_sqrt_of_sq_le
    have := Real.pi_gt_d2
    nlinarith
  nlinarith

/-- The data: mean -1, standard deviation 1.3. -/
noncomputable def exData : List ℝ := [-2.3, -2.3, 0.3, 0.3]

/-- The log-likelihood of the data. -/
noncomputable def exLL (v : Fin 2 → ℝ) : ℝ :=
  -(4 * Real.log (v 1) + (4 * (v 0) ^ 2 + 8 * v 0 + 10.76) / (2 * v 1 ^ 2) + 4 * Real.log (Real.sqrt (2 * Real.pi)))

theorem exLL_ok (v : Fin 2 → ℝ) (hv : ParamsOK .normal (v 0) (v 1)) :
    IsLogLik (distOf .normal (v 0) (v 1) 0).sp.pdf (distOf .normal (v 0) (v 1) 0).sp.sf exData [] (exLL v) := by
  have h := C41_normal_2P (v 0) (v 1) hv.1 exData []
  have e : loglik (normal2P_LL (v 0) (v 1) exData []) = exLL v := by
    have hs := hv.1.ne'
    have hpi : Real.sqrt (2 * Real.pi) ≠ 0 := (Real.sqrt_pos.2 (by positivity)).ne'
    simp only [loglik, normal2P_LL, LL, exData, List.map_cons, List.map_nil, List.sum_cons, List.sum_nil, normal2P_logf, Real.log_exp,
      Real.log_mul hs hpi, exLL]
    field_simp
    ring
  rw [← e]
  exact h

theorem exLL_second : secondPartials (fun v => -exLL v) ![-1, 1.3] 0 0 = 4 / 1.69 ∧
    secondPartials (fun v => -exLL v) ![-1, 1.3] 0 1 = 0 ∧
    secondPartials (fun v => -exLL v) ![-1, 1.3] 1 1 = 8 / 1.69 := by
  have dm : ∀ m s : ℝ, s ≠ 0 → deriv (fun y => -exLL ![y, s]) m = 4 * (m + 1) / s ^ 2 := by
    intro m s hs
    have h1 : HasDerivAt (fun y : ℝ => 4 * y ^ 2 + 8 * y + 10.76) (4 * (2 * m) + 8) m := by
      have := (((hasDerivAt_pow 2 m).const_mul 4).add ((hasDerivAt_id m).const_mul 8)).add_const 10.76
      refine (this.congr_deriv ?_)
      norm_num
    have h2 := ((h1.div_const (2 * s ^ 2)).const_add (4 * Real.log s)).add_const (4 * Real.log (Real.sqrt (2 * Real.pi)))
    have e : (fun y => -exLL ![y, s]) = fun y => 4 * Real.log s + (4 * y ^ 2 + 8 * y + 10.76) / (2 * s ^ 2) +
        4 * Real.log (Real.sqrt (2 * Real.pi)) := by
      funext y; simp [exLL]
    rw [e, h2.deriv]
    field_simp
    ring
  have ds : ∀ m s : ℝ, s ≠ 0 → deriv (fun y => -exLL ![m, y]) s = 4 / s - (4 * m ^ 2 + 8 * m + 10.76) / s ^ 3 := by
    intro m s hs
    have h1 : HasDerivAt (fun y : ℝ => 4 * Real.log y) (4 * s⁻¹) s := (Real.hasDerivAt_log hs).const_mul 4
    have h2 : HasDerivAt (fun y : ℝ => 2 * y ^ 2) (2 * (2 * s)) s := by
      refine ((hasDerivAt_pow 2 s).const_mul 2).congr_deriv ?_
      norm_num
    have h3 := (hasDerivAt_const s (4 * m ^ 2 + 8 * m + 10.76)).div h2 (by positivity)
    have h4 := (h1.add h3).add_const (4 * Real.log (Real.sqrt (2 * Real.pi)))
    have e : (fun y => -exLL ![m, y]) = fun y => 4 * Real.log y + (4 * m ^ 2 + 8 * m + 10.76) / (2 * y ^ 2) +
        4 * Real.log (Real.sqrt (2 * Real.pi)) := by
      funext y; simp [exLL]
    rw [e]
    refine h4.deriv.trans ?_
    field_simp
    ring
  have u0 : ∀ x y : ℝ, Function.update (Function.update ![(-1 : ℝ), 1.3] 0 x) 0 y = ![y, 1.3] := by
    intro x y; funext i; fin_cases i <;> simp
  have u1 : ∀ x y : ℝ, Function.update (Function.update ![(-1 : ℝ), 1.3] 0 x) 1 y = ![x, y] := by
    intro x y; funext i; fin_cases i <;> simp
  have u2 : ∀ x y : ℝ, Function.update (Function.update ![(-1 : ℝ), 1.3] 1 x) 1 y = ![-1, y] := by
    intro x y; funext i; fin_cases i <;> simp
  refine ⟨?_, ?_, ?_⟩
  · simp only [secondPartials, Matrix.of_apply, u0, Function.update_self]
    have : (fun x : ℝ => deriv (fun y => -exLL ![y, 1.3]) x) = fun x => 4 * (x + 1) / 1.3 ^ 2 := by
      funext x; exact dm x 1.3 (by norm_num)
    rw [this]
    have h : HasDerivAt (fun x : ℝ => 4 * (x + 1) / 1.3 ^ 2) (4 * 1 / 1.3 ^ 2) (![(-1 : ℝ), 1.3] 0) :=
      (((hasDerivAt_id _).add_const 1).const_mul 4).div_const _
    rw [h.deriv]; norm_num
  · simp only [secondPartials, Matrix.of_apply, u1]
    have e1 : ∀ x : ℝ, Function.update ![(-1 : ℝ), 1.3] 0 x 1 = 1.3 := by intro x; simp
    simp only [e1]
    have : (fun x : ℝ => deriv (fun y => -exLL ![x, y]) 1.3) = fun x => 4 / 1.3 - (4 * x ^ 2 + 8 * x + 10.76) / 1.3 ^ 3 := by
      funext x; exact ds x 1.3 (by norm_num)
    rw [this]
    have h1 : HasDerivAt (fun y : ℝ => 4 * y ^ 2 + 8 * y + 10.76) 0 (-1) := by
      have := (((hasDerivAt_pow 2 (-1 : ℝ)).const_mul 4).add ((hasDerivAt_id (-1 : ℝ)).const_mul 8)).add_const 10.76
      refine (this.congr_deriv ?_)
      norm_num
    have h2 := (h1.div_const (1.3 ^ 3)).const_sub (4 / 1.3)
    have e2 : ![(-1 : ℝ), 1.3] 0 = -1 := rfl
    rw [e2, h2.deriv]; simp
  · simp only [secondPartials, Matrix.of_apply, u2, Function.update_self]
    have e2 : ![(-1 : ℝ), 1.3] 1 = 1.3 := rfl
    rw [e2]
    have : (fun x : ℝ => deriv (fun y => -exLL ![-1, y]) x) =ᶠ[nhds 1.3] fun x => 4 / x - 6.76 / x ^ 3 := by
      filter_upwards [isOpen_ne.mem_nhds (show (1.3 : ℝ) ≠ 0 by norm_num)] with x hx
      rw [ds (-1) x hx]; norm_num
    rw [this.deriv_eq]
    have h1 := (hasDerivAt_const (1.3 : ℝ) (4 : ℝ)).div (hasDerivAt_id (1.3 : ℝ)) (by norm_num)
    have h2 := (hasDerivAt_const (1.3 : ℝ) (6.76 : ℝ)).div (hasDerivAt_pow 3 (1.3 : ℝ)) (by norm_num)
    refine (h1.sub h2).deriv.trans ?_
    norm_num

theorem ex_se {V : Option (Matrix (Fin 2) (Fin 2) ℝ)}
    (h : InverseInformation (fun v : Fin 2 → ℝ => ParamsOK .normal (v 0) (v 1)) (fun v => distOf .normal (v 0) (v 1) 0) exData []
      ![-1, 1.3] V) : stdErr V 0 = 0.65 := by
  have h := h exLL exLL_ok
  obtain ⟨h00, h01, h11⟩ := exLL_second
  cases V with
  | none =>
    refine absurd ?_ h
    refine ⟨_, Matrix.mul_nonsing_inv _ ?_⟩
    rw [Matrix.det_fin_two, h00, h01, h11]
    norm_num
  | some V =>
    have h1 := congrFun (congrFun h 0) 0
    rw [Matrix.mul_apply, Fin.sum_univ_two, h00, h01] at h1
    simp only [Matrix.one_apply_eq, zero_mul, add_zero] at h1
    have h2 : V 0 0 = 0.65 ^ 2 := by linarith
    simp only [stdErr]
    rw [h2, abs_of_pos (by norm_num), Real.sqrt_sq (by norm_num)]

/-- **C122 (finding, example).** Four failures with mean -1 and standard deviation 1.3: if the Normal fit returns these
estimates, no grid point is as small as the estimate of Mu, which is therefore outside of everything that is computed. -/
theorem C122_estimate_off_grid_finding {N : Numerics} (ha : IsArgsort N.argsort) {CI : CIL} {m : StrArg}
    {axes : (ℝ × ℝ) × (ℝ × ℝ)} {p : LPlot}
    (h : likelihoodPlot N "Normal_2P" (.array [-2.3, -2.3, 0.3, 0.3]) .none CI m axes = .ok p) (hp : p.point = (-1, 1.3)) :
    ∀ x ∈ p.xs, -1 < x := by
  obtain ⟨fam, w1, w2, hf, hr, e1, -, e3, e4, -⟩ := run h
  have hf' : family "Normal_2P" = some .normal := by decide +kernel
  rw [hf'] at hf
  cases hf
  simp only [fitRows] at hr
  obtain ⟨r, hr, hrows⟩ := map_rows hr
  have hr' : fitNormal2P N.argsort N.J (unforced N.num2) { failures := .array [-2.3, -2.3, 0.3, 0.3], right_censored := .none, method := m } =
      .ok r := by
    simp only [fitNormal2P, bind_ok] at hr ⊢
    obtain ⟨inp, h1, h2⟩ := hr
    have hfb : inp.force_sigma = none := ((C51_ok_iff ..).1 h1).sigma_ok.1
    refine ⟨inp, h1, ?_⟩
    rw [hfb] at h2 ⊢
    exact h2
  obtain ⟨f, c, ci, hu, hci, h1, ⟨z, hz, -, h2⟩, h3, -⟩ := C100_normal_2P ha N.J (unforced N.num2) (fun _ _ => rfl) _ r hr'
  cases hci
  obtain ⟨V, hV, hSE, -⟩ := h3 rfl
  rw [e3] at hp
  rw [hrows] at h1 h2 hSE
  simp only [Prod.mk.injEq, List.map_cons, List.map_nil, List.cons.injEq, and_true] at h1 hp hSE
  obtain ⟨⟨-, a1⟩, -, a2⟩ := h1
  obtain ⟨b1, b2⟩ := hp
  rw [← a1, ← a2, b1, b2] at hV
  have hfc : f = exData ∧ c = [] := by
    obtain ⟨F₀, C₀, g1, g2, g3, g4⟩ := hu
    cases g1
    have hall : ∀ l : List ℝ, l.filter (fun t => decide (Spec.InputCheck.Usable "Normal_2P" t)) = l := by
      intro l
      rw [List.filter_eq_self]
      intro t _
      exact decide_eq_true (.inl (by decide))
    rcases g2 with ⟨-, g2⟩ | g2
    · subst g2
      rw [g3, g4]
      exact ⟨hall _, hall _⟩
    · cases g2
  obtain ⟨rfl, rfl⟩ := hfc
  have hse := ex_se (hV ⟨by norm_num, by simp⟩)
  rw [hse] at hSE
  cases h2 with
  | cons i1 _ =>
    obtain ⟨l1, l2, -⟩ := i1
    rw [hSE.1, b1] at l1 l2
    have z1 := z_lower hz
    have z2 := z_upper hz
    have z3 : z ≤ 4.5 := by nlinarith
    intro x hx
    rw [e4] at hx
    refine lt_of_lt_of_le (lt_min ?_ ?_) (grid_between hx)
    · rw [l1]; linarith
    · rw [l2]; linarith

/-- Routines that find the mean and the standard deviation. -/
noncomputable def exN2 (argsort : List ℝ → List ℕ) (J : Jac) : Numerics :=
  { exN argsort J with
    num2 := fun _ => ⟨⟨fun _ => (-1, 1.3), (-1, 1.3), fun _ _ _ _ => ⟨true, (-1, 1.3)⟩⟩, fun _ _ _ p => ⟨true, p⟩⟩ }

/-- The case exists: such a plot is drawn. -/
example {argsort : List ℝ → List ℕ} (ha : IsArgsort argsort) (J : Jac) :
    ∃ p, likelihoodPlot (exN2 argsort J) "Normal_2P" (.array [-2.3, -2.3, 0.3, 0.3]) .none (.one 0.95) (.str "MLE")
      ((0, 1), (0, 1)) = .ok p ∧ p.point = (-1, 1.3) ∧ ∀ x ∈ p.xs, p.point.1 < x := by
  have hacc : Spec.InputCheck.Accepts "Normal_2P" (.array exData) .none (.str "MLE") .none (.float 0.95) .none none none (.str "time")
      ⟨exData, [], 0.95, some "MLE", none, .none, none, none, some "time"⟩ := by
    have hall : ∀ l : List ℝ, l.filter (fun t => decide (Spec.InputCheck.Usable "Normal_2P" t)) = l := by
      intro l
      rw [List.filter_eq_self]
      intro t _
      exact decide_eq_true (.inl (by decide))
    refine ⟨by decide, ⟨exData, [], rfl, .inl ⟨rfl, rfl⟩, fun t _ => .inl (by decide), by simp, (hall _).symm, rfl⟩,
      ⟨rfl, by norm_num, by norm_num⟩, .inl ⟨rfl, rfl⟩, ?_, .inl ⟨rfl, rfl⟩, ⟨rfl, by simp⟩, ⟨rfl, by simp⟩, ?_, ?_⟩
    · exact .inr ⟨"MLE", "MLE", ["MLE", "ML", "MAXIMUM LIKELIHOOD ESTIMATION", "MAXIMUM LIKELIHOOD", "MAX LIKELIHOOD"], rfl,
        rfl, by simp [Spec.InputCheck.methodNames], by decide +kernel⟩
    · have h1 : ({-2.3, 0.3} : Finset ℝ) ⊆ exData.toFinset := by
        intro t ht
        simp only [Finset.mem_insert, Finset.mem_singleton] at ht
        rcases ht with rfl | rfl <;> simp [exData]
      have h2 := Finset.card_le_card h1
      rw [Finset.card_pair (by norm_num)] at h2
      exact h2
    · exact .inr ⟨"time", "time", ["T", "TIME"], rfl, rfl, by simp [Spec.InputCheck.ciTypeNames], by decide +kernel⟩
  obtain ⟨r, hr⟩ := (C102_mle_returns_partial ha J (exN2 argsort J).num2 (fun _ _ _ _ _ => rfl) (fun _ _ _ _ _ => rfl)
    { failures := .array exData } _ rfl rfl).2.1 hacc
  have hpt : r.rows.map Row.point = [-1, 1.3] := by
    simp only [fitNormal2P, bind_ok] at hr
    obtain ⟨inp, h1, h2⟩ := hr
    rw [C51_ok_iff] at h1
    have hfb : inp.force_sigma = none := h1.sigma_ok.1
    have hopt : inp.optimizer = none := by
      rcases h1.optimizer_ok with ⟨-, h⟩ | ⟨s, c, l, h, -⟩
      · exact h
      · cases h
    rw [hfb] at h2
    simp only [fit2, bind_ok, hopt] at h2
    obtain ⟨e, he, s, -, q, -, g, -, h2⟩ := h2
    have hest : e.1 = (-1, 1.3) := by
      have hls : ∀ LLf : ℝ × ℝ → ℝ, ∃ n, Fitters.lsOptimization "Normal_2P" LLf (fun _ => ((-1 : ℝ), (1.3 : ℝ))) (-1, 1.3) "LS" =
          .ok ((-1, 1.3), n) := by
        intro LLf
        unfold Fitters.lsOptimization
        rw [if_neg (by decide), if_neg (by decide), if_neg (by decide)]
        dsimp only
        split_ifs <;> exact ⟨_, rfl⟩
      have hopt1 : ∀ (obj : ℝ × ℝ → ℝ) (o : Fitters.MLEOut (ℝ × ℝ)), Fitters.mleOptimization
          (fun _ _ => ⟨true, ((-1 : ℝ), (1.3 : ℝ))⟩) obj (-1, 1.3) none = .ok o → o.params = (-1, 1.3) := by
        intro obj o ho
        unfold Fitters.mleOptimization Fitters.optimizersToTry at ho
        dsimp only at ho
        have hans : answer (fun _ _ => ⟨true, ((-1 : ℝ), (1.3 : ℝ))⟩) obj (-1, 1.3) "TNC" = ⟨true, (-1, 1.3)⟩ := by
          obtain ⟨n, -, -, -, h1, -⟩ := C47_loop_terminates (fun _ => ⟨true, ((-1 : ℝ), (1.3 : ℝ))⟩) obj (-1, 1.3)
          unfold answer
          rw [h1]
          rfl
        rw [tryAll_cons, hans, if_pos ⟨rfl, rfl⟩] at ho
        simp only [tried, hans] at ho
        cases ho
        rfl
      have hm : inp.method = some "MLE" := by
        rcases h1.method_ok with ⟨h, -⟩ | ⟨s, c, l, h, hc, hl, hu⟩
        · cases h
        · cases h
          rw [hc]
          have : ∀ p ∈ Spec.InputCheck.methodNames, Fitters.up "MLE" ∈ p.2 → p.1 = "MLE" := by decide +kernel
          rw [show c = "MLE" from this (c, l) hl hu]
      unfold estimate at he
      rw [hm] at he
      simp only [lsMethod, if_true] at he
      obtain ⟨n, hn⟩ := hls (LLf2 normal2 none inp.failures inp.right_censored)
      simp only [bind_ok] at he
      obtain ⟨y, hy, he⟩ := he
      have hy' := hy.symm.trans hn
      cases hy'
      simp only [bind_ok, reduceCtorEq, Option.some.injEq, String.reduceEq, or_self, if_false, if_true] at he
      obtain ⟨o, ho, he⟩ := he
      cases he
      exact hopt1 _ o ho
    cases h2
    rw [hest]
    cases s <;> rfl
  obtain ⟨p, hp⟩ := C122_returns (N := exN2 argsort J) ha (s := "Normal_2P") (fam := .normal) (by decide +kernel)
    (failures := .array exData) (rc := .none) (m := .str "MLE") (rows := r.rows) (by
      show (fitNormal2P argsort J (exN2 argsort J).num2 { failures := .array exData }).map FitRes.rows = _
      rw [hr]; rfl) (CI := .one 0.95) (by simp) (fun _ _ _ _ => ⟨_, _, _, rfl⟩) ((0, 1), (0, 1))
  have hpp : p.point = (-1, 1.3) := by
    obtain ⟨fam, w1, w2, hf, hr', -, -, e3, -⟩ := run hp
    rw [show family "Normal_2P" = some .normal by decide +kernel] at hf
    cases hf
    simp only [fitRows] at hr'
    obtain ⟨r', hr'', hrows⟩ := map_rows hr'
    have : r' = r := by
      have := hr''.symm.trans hr
      cases this
      rfl
    rw [this] at hrows
    rw [hrows] at hpt
    simp only [List.map_cons, List.map_nil, List.cons.injEq, and_true] at hpt
    rw [e3, hpt.1, hpt.2]
  refine ⟨p, hp, hpp, ?_⟩
  have := C122_estimate_off_grid_finding (N := exN2 argsort J) ha hp hpp
  rw [hpp]
  exact this

end Reliability.Props.LikelihoodPlot

import Verif.Props.FitGlueExamples

/-! # Exponential, Gamma and Beta fits (C99, C100, C102, C103) -/

namespace Reliability.Props

open Reliability Reliability.Distributions Reliability.Likelihood Reliability.InputCheck Reliability.Props.Likelihood Reliability.FunctionCI
open Reliability.Fitters (MLEOut OptResult lsOptimization mleOptimization mleForced)
open Reliability.FitGlue Reliability.Spec Reliability.Spec.InputCheck Reliability.Spec.FitGlue

/-! ### Exponential -/

theorem exp1P_LL_eq (y : ℝ) (f rc : List ℝ) :
    exponential1P_LL y f rc = -(f.length * Real.log y) + y * (f.sum + rc.sum) := by
  have h1 : (f.map (exponential1P_logf y)).sum = f.length * Real.log y - y * f.sum := by
    induction f with
    | nil => simp
    | cons a f ih => simp only [List.map_cons, List.sum_cons, ih, List.length_cons, exponential1P_logf]; push_cast; ring
  have h2 : (rc.map (exponential1P_logR y)).sum = -(y * rc.sum) := by
    induction rc with
    | nil => simp
    | cons a f ih => simp only [List.map_cons, List.sum_cons, ih, exponential1P_logR]; ring
  rw [exponential1P_LL, LL, h1, h2]
  ring

theorem exp_hessian {L : ℝ} (hL : L ≠ 0) (f rc : List ℝ) :
    hessian (fun v : Fin 1 → ℝ => exponential1P_LL (v 0) f rc) ![L] 0 0 = f.length / L ^ 2 := by
  have d1 : ∀ y : ℝ, y ≠ 0 → deriv (fun y => exponential1P_LL y f rc) y = -(f.length * y⁻¹) + (f.sum + rc.sum) := by
    intro y hy
    simp only [exp1P_LL_eq]
    have h1 : HasDerivAt (fun y : ℝ => -(f.length * Real.log y)) (-(f.length * y⁻¹)) y :=
      ((Real.hasDerivAt_log hy).const_mul _).neg
    have h2 : HasDerivAt (fun y : ℝ => y * (f.sum + rc.sum)) (1 * (f.sum + rc.sum)) y := (hasDerivAt_id y).mul_const _
    rw [(h1.fun_add h2).deriv, one_mul]
  simp only [hessian, Matrix.of_apply, Function.update_self, Matrix.cons_val_fin_one]
  have : (fun x : ℝ => deriv (fun y => exponential1P_LL y f rc) x) =ᶠ[nhds L]
      fun y => -(f.length * y⁻¹) + (f.sum + rc.sum) := by
    filter_upwards [isOpen_ne.mem_nhds hL] with z hz using d1 z hz
  rw [this.deriv_eq]
  have h1 : HasDerivAt (fun y : ℝ => -(f.length * y⁻¹) + (f.sum + rc.sum)) (-(f.length * -(L ^ 2)⁻¹)) L :=
    (((hasDerivAt_inv hL).const_mul _).neg).add_const _
  rw [h1.deriv]
  field_simp

/-- The standard error of Lambda: never a LinAlgError. -/
theorem seExp_eq {L : ℝ} (hL : 0 < L) {f : List ℝ} (hf : f ≠ []) (rc : List ℝ) (o : Option String) :
    seExp L f rc o = .ok (some (L / Real.sqrt f.length)) := by
  have hn : (0 : ℝ) < f.length := by exact_mod_cast List.length_pos_iff.2 hf
  have hdet : (hessian (fun v : Fin 1 → ℝ => exponential1P_LL (v 0) f rc) ![L]).det = f.length / L ^ 2 := by
    rw [Matrix.det_fin_one, exp_hessian hL.ne']
  have hinv : npInv (hessian (fun v : Fin 1 → ℝ => exponential1P_LL (v 0) f rc) ![L]) =
      some (hessian (fun v : Fin 1 → ℝ => exponential1P_LL (v 0) f rc) ![L])⁻¹ := by
    unfold npInv
    rw [if_neg (by rw [hdet]; positivity)]
  have h00 : (hessian (fun v : Fin 1 → ℝ => exponential1P_LL (v 0) f rc) ![L])⁻¹ 0 0 = L ^ 2 / f.length := by
    have h := npInv_some hinv
    have h' := congrFun (congrFun h 0) 0
    rw [Matrix.mul_apply, Fin.sum_univ_one, exp_hessian hL.ne', Matrix.one_apply_eq] at h'
    field_simp at h' ⊢
    linarith
  unfold seExp
  rw [hinv]
  dsimp only
  rw [h00, seOf, abs_of_nonneg (by positivity), Real.sqrt_div (by positivity), Real.sqrt_sq hL.le]

theorem rowsExp_eq {L Z s : ℝ} (hL : 0 < L) (hZ : 0 < Z) (hs : 0 ≤ s) :
    ∃ w1 w2, rowsExp L Z (some s) = [w1, w2] ∧ w1.name = "Lambda" ∧ w1.point = L ∧ w1.SE = s ∧ Interval Z w1 .log ∧
      w2.name = "1/Lambda" ∧ w2.point = 1 / L ∧ w2.SE = s / L ^ 2 ∧ Interval Z w2 .log ∧
      w2.lower = 1 / w1.upper ∧ w2.upper = 1 / w1.lower := by
  have hSE : |1 / L * Real.log (L / (L * Real.exp (Z * (s / L)))) / Z| = s / L ^ 2 := by
    have e1 : L / (L * Real.exp (Z * (s / L))) = Real.exp (-(Z * (s / L))) := by
      rw [Real.exp_neg]; field_simp
    rw [e1, Real.log_exp]
    have e2 : 1 / L * -(Z * (s / L)) / Z = -(s / L ^ 2) := by field_simp
    rw [e2, abs_neg, abs_of_nonneg (by positivity)]
  refine ⟨_, _, rfl, rfl, rfl, rfl, ?_, rfl, rfl, hSE, ?_, rfl, rfl⟩
  · have := interval_log (Z := Z) (x := L) (SE := s) "Lambda" hZ.le hs
    simpa [ciRow, ciPositive] using this
  · have h := interval_log (Z := Z) (x := 1 / L) (SE := s / L ^ 2) "1/Lambda" hZ.le (by positivity)
    have e1 : 1 / (L * Real.exp (Z * (s / L))) = 1 / L * Real.exp (-Z * (s / L ^ 2 / (1 / L))) := by
      have : -Z * (s / L ^ 2 / (1 / L)) = -(Z * (s / L)) := by field_simp
      rw [this, Real.exp_neg]; field_simp
    have e2 : 1 / (L * Real.exp (-Z * (s / L))) = 1 / L * Real.exp (Z * (s / L ^ 2 / (1 / L))) := by
      have : Z * (s / L ^ 2 / (1 / L)) = -(-Z * (s / L)) := by field_simp
      rw [this, Real.exp_neg (-Z * (s / L))]; field_simp
    have hw : (⟨"1/Lambda", 1 / L, |1 / L * Real.log (L / (L * Real.exp (Z * (s / L)))) / Z|,
        1 / (L * Real.exp (Z * (s / L))), 1 / (L * Real.exp (-Z * (s / L)))⟩ : Row) =
        ciRow ciPositive "1/Lambda" (1 / L) (s / L ^ 2) Z := by
      rw [hSE, e1, e2]; rfl
    exact hw ▸ h

/-- What one run of Fit_Exponential_1P gives. -/
theorem exp1_run {argsort : List ℝ → List ℕ} {J : Jac} {num : Num ℝ} {x : Args} {r : FitRes Expo}
    (h : fitExponential1P argsort J num x = .ok r) :
    ∃ inp : Checked ℝ, Accepts "Exponential_1P" x.failures x.right_censored x.method x.optimizer x.CI x.quantiles none none
        .none inp ∧
      gof argsort (CDF (exponential r.dist.Lambda 0)) inp.failures inp.right_censored
        (inp.failures.length + inp.right_censored.length) 1 (exponential1P_LL r.dist.Lambda inp.failures inp.right_censored) =
          .ok r.gof ∧ r.dist.gamma = 0 ∧
      ∃ s, seExp r.dist.Lambda inp.failures inp.right_censored r.optimizer = .ok s ∧
        r.rows = rowsExp r.dist.Lambda (zOf inp.CI) s ∧
        r.dist.SE = some (.fin (s.getD 0)) ∧ r.dist.Z = some (.fin (zOf inp.CI)) ∧
        quantileTable J (.expo r.dist) inp.CI inp.quantiles = .ok r.quantiles ∧
        Labels false x.method r.method r.optimizer := by
  simp only [fitExponential1P, bind_ok] at h
  obtain ⟨inp, h1, e, he, s, hs, q, hq, g, hg, h⟩ := h
  rw [C51_ok_iff] at h1
  cases h
  refine ⟨inp, h1, hg, rfl, s, hs, rfl, rfl, rfl, hq, ?_⟩
  exact estimate_labels false (by decide) (fun g o ho => mle_optimizer ho) h1.method_ok (.inl rfl) he

/-- **C99 (Fit_Exponential_1P).** -/
theorem C99_exponential_1P {argsort : List ℝ → List ℕ} (harg : IsArgsort argsort) (J : Jac) (num : Num ℝ)
    (x : Args) (r : FitRes Expo) (h : fitExponential1P argsort J num x = .ok r) :
    ∃ f rc, Used "Exponential_1P" x f rc ∧ r.dist.gamma = 0 ∧
      (0 < r.dist.Lambda → Describes argsort (exponential r.dist.Lambda 0) f rc 1 r.gof) := by
  obtain ⟨inp, hacc, hg, h0, -⟩ := exp1_run h
  obtain ⟨u1, u2⟩ := usable_failures hacc
  exact ⟨_, _, used_of_accepts hacc, h0, fun hL => gof_describes harg hg (failures_ne hacc)
    (C41_exponential_1P _ hL _ _ (fun t ht => (usable_pos (by decide) (u1 t ht)).le)
      (fun t ht => (usable_pos (by decide) (u2 t ht)).le))⟩

/-- **C103 (Fit_Exponential_1P).** The standard error of Lambda is Lambda divided by the square root of the number of failures,
whatever the censoring; the bounds are the normal approximation of log Lambda; the row 1/Lambda is the reciprocal with the
reciprocal bounds, the other way round, and standard error 1/(Lambda √r). -/
theorem C103_exponential_1P (argsort : List ℝ → List ℕ) (J : Jac) (num : Num ℝ) (x : Args) (r : FitRes Expo)
    (h : fitExponential1P argsort J num x = .ok r) (hL : 0 < r.dist.Lambda) :
    ∃ f rc CI z w1 w2, Used "Exponential_1P" x f rc ∧ x.CI = .float CI ∧ TwoSidedZ CI z ∧ r.rows = [w1, w2] ∧
      w1.name = "Lambda" ∧ w1.point = r.dist.Lambda ∧ w1.SE = r.dist.Lambda / Real.sqrt f.length ∧ Interval z w1 .log ∧
      w2.name = "1/Lambda" ∧ w2.point = 1 / r.dist.Lambda ∧ w2.SE = 1 / (r.dist.Lambda * Real.sqrt f.length) ∧
      Interval z w2 .log ∧ w2.lower = 1 / w1.upper ∧ w2.upper = 1 / w1.lower ∧
      r.dist.SE = some (.fin w1.SE) ∧ r.dist.Z = some (.fin z) := by
  obtain ⟨inp, hacc, -, -, s, hs, hrow, hd, hz, -⟩ := exp1_run h
  rw [seExp_eq hL (failures_ne hacc)] at hs
  cases hs
  have hn : (0 : ℝ) < inp.failures.length := by exact_mod_cast List.length_pos_iff.2 (failures_ne hacc)
  have hsq := Real.sqrt_pos.2 hn
  obtain ⟨w1, w2, e, a1, a2, a3, a4, b1, b2, b3, b4, b5, b6⟩ := rowsExp_eq hL (zOf_spec hacc.ci.2.1 hacc.ci.2.2).1
    (show 0 ≤ r.dist.Lambda / Real.sqrt inp.failures.length by positivity)
  refine ⟨_, _, _, _, w1, w2, used_of_accepts hacc, hacc.ci.1, zOf_spec hacc.ci.2.1 hacc.ci.2.2, hrow.trans e, a1, a2, a3, a4,
    b1, b2, ?_, b4, b5, b6, ?_, hz⟩
  · rw [b3]; field_simp
  · rw [hd, a3]; rfl

theorem mleExp2_optimizer {LLf LLinv : ℝ × ℝ → ℝ} {bs : List (Fitters.Bound ℝ)} {num : Num (ℝ × ℝ)}
    {opt : Option String} {g : ℝ × ℝ} {o : MLEOut (ℝ × ℝ)} (h : mleExp2 LLf LLinv bs num opt g = .ok o) :
    o.optimizer = none ∨ ∃ n ∈ ["TNC", "L-BFGS-B", "nelder-mead", "powell"], o.optimizer = some n := by
  unfold mleExp2 at h
  split_ifs at h
  · cases h' : mleOptimization (num.minimize LLinv bs) (fun p => |2 * LLinv p|) (1 / g.1, g.2) opt with
    | error e => rw [h'] at h; cases h
    | ok o' =>
      rw [h'] at h
      cases h
      exact mle_optimizer (r := o') h'
  · exact mle_optimizer h

theorem exp2_run {argsort : List ℝ → List ℕ} {J : Jac} {num : Num (ℝ × ℝ)} {x : Args}
    {r : FitRes Expo} (h : fitExponential2P argsort J num x = .ok r) :
    ∃ inp : Checked ℝ, Accepts "Exponential_2P" x.failures x.right_censored x.method x.optimizer x.CI x.quantiles none none
        .none inp ∧
      gof argsort (CDF (exponential r.dist.Lambda r.dist.gamma)) inp.failures inp.right_censored
        (inp.failures.length + inp.right_censored.length) 2
        (exponential2P_LL r.dist.Lambda r.dist.gamma inp.failures inp.right_censored) = .ok r.gof ∧
      ∃ s, seExp r.dist.Lambda (inp.failures.map (· - r.dist.gamma)) (inp.right_censored.map (· - r.dist.gamma)) r.optimizer =
          .ok s ∧
        r.rows = rowsExp r.dist.Lambda (zOf inp.CI) s ++ [fixedRow "Gamma" r.dist.gamma] ∧
        r.dist.SE = some (.fin (s.getD 0)) ∧ r.dist.Z = some (.fin (zOf inp.CI)) ∧
        quantileTable J (.expo r.dist) inp.CI inp.quantiles = .ok r.quantiles ∧
        Labels true x.method r.method r.optimizer := by
  simp only [fitExponential2P, bind_ok] at h
  obtain ⟨inp, h1, e, he, s, hs, q, hq, g, hg, h⟩ := h
  rw [C51_ok_iff] at h1
  cases h
  refine ⟨inp, h1, hg, s, hs, rfl, rfl, rfl, hq, ?_⟩
  exact estimate_labels true (by decide) (fun g o ho => mleExp2_optimizer ho) h1.method_ok (.inl rfl) he

/-- **C99 (Fit_Exponential_2P)**, for a location at or below all the data (otherwise see C41_exponential_2P_finding). -/
theorem C99_exponential_2P {argsort : List ℝ → List ℕ} (harg : IsArgsort argsort) (J : Jac) (num : Num (ℝ × ℝ))
    (x : Args) (r : FitRes Expo) (h : fitExponential2P argsort J num x = .ok r) :
    ∃ f rc, Used "Exponential_2P" x f rc ∧
      (0 < r.dist.Lambda → (∀ t ∈ f, r.dist.gamma ≤ t) → (∀ t ∈ rc, r.dist.gamma ≤ t) →
        Describes argsort (exponential r.dist.Lambda r.dist.gamma) f rc 2 r.gof) := by
  obtain ⟨inp, hacc, hg, -⟩ := exp2_run h
  exact ⟨_, _, used_of_accepts hacc, fun hL hf hr => gof_describes harg hg (failures_ne hacc)
    (C41_exponential_2P _ _ hL _ _ hf hr)⟩

/-- **C103 (Fit_Exponential_2P).** The same with the location reported without uncertainty. -/
theorem C103_exponential_2P (argsort : List ℝ → List ℕ) (J : Jac) (num : Num (ℝ × ℝ))
    (x : Args) (r : FitRes Expo)
    (h : fitExponential2P argsort J num x = .ok r) (hL : 0 < r.dist.Lambda) :
    ∃ f rc CI z w1 w2, Used "Exponential_2P" x f rc ∧ x.CI = .float CI ∧ TwoSidedZ CI z ∧
      r.rows = [w1, w2, ⟨"Gamma", r.dist.gamma, 0, r.dist.gamma, r.dist.gamma⟩] ∧
      w1.name = "Lambda" ∧ w1.point = r.dist.Lambda ∧ w1.SE = r.dist.Lambda / Real.sqrt f.length ∧ Interval z w1 .log ∧
      w2.name = "1/Lambda" ∧ w2.point = 1 / r.dist.Lambda ∧ w2.SE = 1 / (r.dist.Lambda * Real.sqrt f.length) ∧
      Interval z w2 .log ∧ w2.lower = 1 / w1.upper ∧ w2.upper = 1 / w1.lower ∧
      r.dist.SE = some (.fin w1.SE) ∧ r.dist.Z = some (.fin z) := by
  obtain ⟨inp, hacc, -, s, hs, hrow, hd, hz, -⟩ := exp2_run h
  rw [seExp_eq hL (by simpa using failures_ne hacc), List.length_map] at hs
  cases hs
  have hn : (0 : ℝ) < inp.failures.length := by exact_mod_cast List.length_pos_iff.2 (failures_ne hacc)
  have hsq := Real.sqrt_pos.2 hn
  obtain ⟨w1, w2, e, a1, a2, a3, a4, b1, b2, b3, b4, b5, b6⟩ := rowsExp_eq hL (zOf_spec hacc.ci.2.1 hacc.ci.2.2).1
    (show 0 ≤ r.dist.Lambda / Real.sqrt inp.failures.length by positivity)
  rw [e] at hrow
  refine ⟨_, _, _, _, w1, w2, used_of_accepts hacc, hacc.ci.1, zOf_spec hacc.ci.2.1 hacc.ci.2.2, hrow, a1, a2, a3, a4,
    b1, b2, ?_, b4, b5, b6, ?_, hz⟩
  · rw [b3]; field_simp
  · rw [hd, a3]; rfl

/-- **C102 (Exponential).** -/
theorem C102_labels_exponential (argsort : List ℝ → List ℕ) (J : Jac) (num1 : Num ℝ) (num : Num (ℝ × ℝ))
    (x : Args) (r : FitRes Expo) :
    (fitExponential1P argsort J num1 x = .ok r → Labels false x.method r.method r.optimizer) ∧
    (fitExponential2P argsort J num x = .ok r → Labels true x.method r.method r.optimizer) := by
  constructor
  · intro h
    obtain ⟨inp, -, -, -, s, -, -, -, -, -, hl⟩ := exp1_run h
    exact hl
  · intro h
    obtain ⟨inp, -, -, s, -, -, -, -, -, hl⟩ := exp2_run h
    exact hl

/-! ### Beta -/

theorem isOpen_pos2 : IsOpen {v : Fin 2 → ℝ | 0 < v 0 ∧ 0 < v 1} :=
  (isOpen_lt continuous_const (continuous_apply 0)).inter (isOpen_lt continuous_const (continuous_apply 1))

theorem beta_run {argsort : List ℝ → List ℕ} (harg : IsArgsort argsort) {num : Num (ℝ × ℝ)} {x : Args}
    {r : FitRes Distributions.Dist} (h : fitBeta2P argsort num x = .ok r) :
    ∃ f rc CI a b, Used "Beta_2P" x f rc ∧ x.CI = .float CI ∧ r.dist = betaDist a b ∧
      (0 < a → 0 < b → Describes argsort (betaDist a b) f rc 2 r.gof) ∧
      r.rows.map (fun w => (w.name, w.point)) = [("Alpha", a), ("Beta", b)] ∧
      (∃ z, TwoSidedZ CI z ∧ List.Forall₂ (Interval z) r.rows [.log, .log]) ∧
      (∃ V, (0 < a → 0 < b → InverseInformation (fun v : Fin 2 → ℝ => 0 < v 0 ∧ 0 < v 1) (fun v => betaDist (v 0) (v 1)) f rc
          ![a, b] V) ∧ r.rows.map Row.SE = [stdErr V 0, stdErr V 1] ∧ r.Cov = covar V 0 1) ∧
      Labels true x.method r.method r.optimizer := by
  simp only [fitBeta2P, bind_ok] at h
  obtain ⟨inp, h1, e, he, s, hs, q, hq, g, hg, h⟩ := h
  rw [C51_ok_iff] at h1
  cases h
  obtain ⟨u1, u2⟩ := usable_failures h1
  have u1' : ∀ t ∈ inp.failures, 0 < t ∧ t < 1 := by
    intro t ht
    rcases u1 t ht with h | h
    · exact absurd h (by decide)
    · exact ⟨h.1, h.2 rfl⟩
  have u2' : ∀ t ∈ inp.right_censored, 0 < t ∧ t < 1 := by
    intro t ht
    rcases u2 t ht with h | h
    · exact absurd h (by decide)
    · exact ⟨h.1, h.2 rfl⟩
  have hz := zOf_spec h1.ci.2.1 h1.ci.2.2
  obtain ⟨V, hV, rfl⟩ := se2_free hs
  refine ⟨_, _, _, e.1.1, e.1.2, used_of_accepts h1, h1.ci.1, rfl, fun ha hb => ?_, ?_, ⟨_, hz, ?_⟩,
    ⟨V, fun ha hb => ?_, ?_, ?_⟩, ?_⟩
  · exact gof_describes harg hg (failures_ne h1) (C41_beta_2P _ _ ha hb _ _ u1' u2')
  · cases V <;> rfl
  · cases V with
    | none => exact .cons (interval_fixed ..) (.cons (interval_fixed ..) .nil)
    | some V =>
      exact .cons (interval_log _ hz.1.le (stdErr_nonneg (some V) 0))
        (.cons (interval_log _ hz.1.le (stdErr_nonneg (some V) 1)) .nil)
  · rw [hV]
    refine npInv_information isOpen_pos2 (by simp [ha, hb]) ?_
    intro v hv
    have := C41_beta_2P _ _ hv.1 hv.2 _ _ u1' u2'
    rwa [loglik_eq] at this
  · cases V <;> rfl
  · cases V <;> rfl
  · exact estimate_labels true (by decide) (fun g o ho => mle_optimizer ho) h1.method_ok (.inl rfl) he

/-- **C99 (Fit_Beta_2P).** -/
theorem C99_beta_2P {argsort : List ℝ → List ℕ} (harg : IsArgsort argsort) (num : Num (ℝ × ℝ)) (x : Args)
    (r : FitRes Distributions.Dist) (h : fitBeta2P argsort num x = .ok r) :
    ∃ f rc a b, Used "Beta_2P" x f rc ∧ r.dist = betaDist a b ∧
      (0 < a → 0 < b → Describes argsort (betaDist a b) f rc 2 r.gof) := by
  obtain ⟨f, rc, CI, a, b, h1, -, h2, h3, -⟩ := beta_run harg h
  exact ⟨f, rc, a, b, h1, h2, h3⟩

/-- **C100 (Fit_Beta_2P).** -/
theorem C100_beta_2P {argsort : List ℝ → List ℕ} (harg : IsArgsort argsort) (num : Num (ℝ × ℝ)) (x : Args)
    (r : FitRes Distributions.Dist) (h : fitBeta2P argsort num x = .ok r) :
    ∃ f rc CI a b, Used "Beta_2P" x f rc ∧ x.CI = .float CI ∧ r.dist = betaDist a b ∧
      r.rows.map (fun w => (w.name, w.point)) = [("Alpha", a), ("Beta", b)] ∧
      (∃ z, TwoSidedZ CI z ∧ List.Forall₂ (Interval z) r.rows [.log, .log]) ∧
      (∃ V, (0 < a → 0 < b → InverseInformation (fun v : Fin 2 → ℝ => 0 < v 0 ∧ 0 < v 1) (fun v => betaDist (v 0) (v 1)) f rc
          ![a, b] V) ∧ r.rows.map Row.SE = [stdErr V 0, stdErr V 1] ∧ r.Cov = covar V 0 1) := by
  obtain ⟨f, rc, CI, a, b, h1, h2, h3, -, h4, h5, h6, -⟩ := beta_run harg h
  exact ⟨f, rc, CI, a, b, h1, h2, h3, h4, h5, h6⟩

/-! ### Gamma -/

/-- The numbers of `seGamma` from the two inverse information matrices. -/
theorem seGamma_spec (a m b : ℝ) (f rc : List ℝ) :
    ∃ V W, V = npInv (hessian (fun v : Fin 2 → ℝ => gamma_LL_ab (v 0) (v 1) 0 f rc) ![a, b]) ∧
      W = npInv (hessian (fun v : Fin 2 → ℝ => gamma_LL_mb (v 0) (v 1) 0 f rc) ![m, b]) ∧
      (V.isSome = true ∧ W.isSome = true ∧
          seGamma a m b f rc = some (stdErr V 0, stdErr V 1, covar V 0 1, stdErr W 0, covar W 0 1) ∨
        (V = none ∨ W = none) ∧ seGamma a m b f rc = none) := by
  refine ⟨_, _, rfl, rfl, ?_⟩
  unfold seGamma
  cases h1 : npInv (hessian (fun v : Fin 2 → ℝ => gamma_LL_ab (v 0) (v 1) 0 f rc) ![a, b]) with
  | none => exact .inr ⟨.inl rfl, rfl⟩
  | some V =>
    cases h2 : npInv (hessian (fun v : Fin 2 → ℝ => gamma_LL_mb (v 0) (v 1) 0 f rc) ![m, b]) with
    | none => exact .inr ⟨.inr rfl, rfl⟩
    | some W => exact .inl ⟨rfl, rfl, rfl⟩

theorem isOpen_second : IsOpen {v : Fin 2 → ℝ | 0 < v 1} := isOpen_lt continuous_const (continuous_apply 1)

/-- What Fit_Gamma_2P gives, for data `f`, `rc`. -/
theorem gamma_run {argsort : List ℝ → List ℕ} (harg : IsArgsort argsort) {J : Jac} {num : Num (ℝ × ℝ)} {x : Args}
    {r : FitRes Two} (h : fitGamma2P argsort J num x = .ok r) :
    ∃ f rc CI α, Used "Gamma_2P" x f rc ∧ x.CI = .float CI ∧ r.dist.fam = .gamma ∧ r.dist.gamma = 0 ∧
      r.dist.a = Real.log α ∧ (0 < α → 0 < r.dist.b → Describes argsort (gammaDist α r.dist.b 0) f rc 2 r.gof) ∧
      GammaRows f rc CI α 0 r.rows r.extra r.Cov r.dist ∧ Labels true x.method r.method r.optimizer := by
  simp only [fitGamma2P, bind_ok] at h
  obtain ⟨inp, h1, e, he, s, hs, q, hq, g, hg, h⟩ := h
  rw [C51_ok_iff] at h1
  cases h
  obtain ⟨u1, u2⟩ := usable_failures h1
  have u1' : ∀ t ∈ inp.failures, 0 < t := fun t ht => usable_pos (by decide) (u1 t ht)
  have u2' : ∀ t ∈ inp.right_censored, 0 ≤ t := fun t ht => (usable_pos (by decide) (u2 t ht)).le
  have hz := zOf_spec h1.ci.2.1 h1.ci.2.2
  refine ⟨_, _, _, e.1.1, used_of_accepts h1, h1.ci.1, rfl, rfl, rfl, fun ha hb => ?_, ?_, ?_⟩
  · refine gof_describes harg (d := gammaDist e.1.1 e.1.2 0) ?_ (failures_ne h1) (C41_gamma _ _ _ ha hb _ _ u1' u2')
    have : (Fitted.two (two .gamma (Real.log e.1.1) e.1.2 0 inp.CI
        (s.map fun s => (s.2.2.2.1, s.2.1, s.2.2.2.2)))).dist = gammaDist e.1.1 e.1.2 0 := by
      change gammaDist (Real.exp (Real.log e.1.1)) e.1.2 0 = _
      rw [Real.exp_log ha]
    rw [this] at hg
    exact hg
  · obtain ⟨V, W, hV, hW, hVW⟩ := seGamma_spec e.1.1 (Real.log e.1.1) e.1.2 inp.failures inp.right_censored
    have hinfo : 0 < e.1.1 → 0 < e.1.2 →
        InverseInformation (fun v : Fin 2 → ℝ => 0 < v 0 ∧ 0 < v 1) (fun v => gammaDist (v 0) (v 1) 0) inp.failures
          inp.right_censored ![e.1.1, e.1.2] V ∧
        InverseInformation (fun v : Fin 2 → ℝ => 0 < v 1) (fun v => gammaDist (Real.exp (v 0)) (v 1) 0) inp.failures
          inp.right_censored ![Real.log e.1.1, e.1.2] W := by
      intro ha hb
      constructor
      · rw [hV]
        refine npInv_information isOpen_pos2 (by simp [ha, hb]) ?_
        intro v hv
        have := C41_gamma _ _ 0 hv.1 hv.2 _ _ u1' u2'
        rwa [loglik_eq] at this
      · rw [hW]
        refine npInv_information isOpen_second (by simp [hb]) ?_
        intro v hv
        have := C41_gamma_mu (v 0) _ 0 hv _ _ u1' u2'
        rwa [loglik_eq] at this
    rcases hVW with ⟨i1, i2, hse⟩ | ⟨hno, hse⟩
    · rw [hse] at hs
      cases hs
      refine ⟨rfl, rfl, ⟨_, hz, rfl, .cons (interval_log _ hz.1.le (stdErr_nonneg V 0))
        (.cons (interval_log _ hz.1.le (stdErr_nonneg V 1)) .nil),
        .cons (interval_log _ hz.1.le (stdErr_nonneg W 0)) .nil⟩, V, W, hinfo, ?_⟩
      rw [if_pos ⟨i1, i2⟩]
      exact ⟨rfl, rfl, rfl, rfl, rfl, rfl⟩
    · rw [hse] at hs
      have hs' : s = none := by
        cases h : e.2.2 with
        | none => rw [h] at hs; cases hs
        | some o => rw [h] at hs; cases hs; rfl
      subst hs'
      refine ⟨rfl, rfl, ⟨_, hz, rfl, .cons (interval_fixed ..) (.cons (interval_fixed ..) .nil),
        .cons (interval_fixed ..) .nil⟩, V, W, hinfo, ?_⟩
      rw [if_neg (by rintro ⟨h1, h2⟩; rcases hno with rfl | rfl <;> simp at h1 h2)]
      exact ⟨rfl, rfl, rfl, rfl, rfl, rfl⟩
  · exact estimate_labels true (by decide) (fun g o ho => mle_optimizer ho) h1.method_ok (.inr ⟨rfl, rfl⟩) he

/-- **C99 (Fit_Gamma_2P).** The distribution object is described by mu = ln(alpha) and beta. -/
theorem C99_gamma_2P {argsort : List ℝ → List ℕ} (harg : IsArgsort argsort) (J : Jac) (num : Num (ℝ × ℝ)) (x : Args)
    (r : FitRes Two) (h : fitGamma2P argsort J num x = .ok r) :
    ∃ f rc α, Used "Gamma_2P" x f rc ∧ r.dist.fam = .gamma ∧ r.dist.gamma = 0 ∧ r.dist.a = Real.log α ∧
      (0 < α → 0 < r.dist.b → Describes argsort (gammaDist α r.dist.b 0) f rc 2 r.gof) := by
  obtain ⟨f, rc, CI, α, h1, -, h2, h3, h4, h5, -⟩ := gamma_run harg h
  exact ⟨f, rc, α, h1, h2, h3, h4, h5⟩

/-- **C100 (Fit_Gamma_2P).** The standard errors of alpha and beta come from the information in alpha and beta, those of mu and
the covariance used by the bounds of the distribution from the information in mu and beta. -/
theorem C100_gamma_2P {argsort : List ℝ → List ℕ} (harg : IsArgsort argsort) (J : Jac) (num : Num (ℝ × ℝ)) (x : Args)
    (r : FitRes Two) (h : fitGamma2P argsort J num x = .ok r) :
    ∃ f rc CI α, Used "Gamma_2P" x f rc ∧ x.CI = .float CI ∧ GammaRows f rc CI α 0 r.rows r.extra r.Cov r.dist := by
  obtain ⟨f, rc, CI, α, h1, h2, -, -, -, -, h3, -⟩ := gamma_run harg h
  exact ⟨f, rc, CI, α, h1, h2, h3⟩

/-- **C102 (Beta, Gamma).** -/
theorem C102_labels_beta_gamma {argsort : List ℝ → List ℕ} (harg : IsArgsort argsort) (J : Jac) (num : Num (ℝ × ℝ)) (x : Args) :
    (∀ r, fitBeta2P argsort num x = .ok r → Labels true x.method r.method r.optimizer) ∧
    (∀ r, fitGamma2P argsort J num x = .ok r → Labels true x.method r.method r.optimizer) := by
  constructor
  · intro r h
    obtain ⟨f, rc, CI, a, b, -, -, -, -, -, -, -, hl⟩ := beta_run harg h
    exact hl
  · intro r h
    obtain ⟨f, rc, CI, α, -, -, -, -, -, -, -, hl⟩ := gamma_run harg h
    exact hl

end Reliability.Props

import Mathlib.MeasureTheory.Integral.IntervalIntegral.FundThmCalculus
import Mathlib.Analysis.SpecialFunctions.Integrals.Basic
import Verif.Model.Likelihood
import Verif.Spec.Likelihood
import Verif.Props.DSZI

/-!
# Properties of the fitters' likelihoods (C41, C42)
-/

namespace Reliability.Props.Likelihood

open Reliability Reliability.Distributions Reliability.Combined Reliability.Likelihood Spec MeasureTheory
open Reliability.Props.Distributions Reliability.Props.Combined Reliability.Props.DSZI

/-! ## Lemmas -/

theorem exp_sum_map (g : ℝ → ℝ) (l : List ℝ) : Real.exp (l.map g).sum = (l.map fun t => Real.exp (g t)).prod := by
  induction l with
  | nil => simp
  | cons a l ih => simp [Real.exp_add, ih]

theorem loglik_LL (logf logR : ℝ → ℝ) (Tf Trc : List ℝ) :
    loglik (LL logf logR Tf Trc) = (Tf.map logf).sum + (Trc.map logR).sum := by
  simp only [loglik, LL]; ring

/-- Pointwise agreement gives agreement of the likelihoods. -/
theorem isLogLik_of {f S logf logR : ℝ → ℝ} {Tf Trc : List ℝ} (hf : ∀ t ∈ Tf, Real.exp (logf t) = f t)
    (hS : ∀ t ∈ Trc, Real.exp (logR t) = S t) : IsLogLik f S Tf Trc (loglik (LL logf logR Tf Trc)) := by
  rw [IsLogLik, loglik_LL, Real.exp_add, exp_sum_map, exp_sum_map, List.map_congr_left hf, List.map_congr_left hS]

theorem rpow_exp {z : ℝ} (hz : 0 < z) (c : ℝ) : Real.exp (c * Real.log z) = z ^ c := by
  rw [Real.rpow_def_of_pos hz, mul_comm]

theorem weibull_pdf {a b g t : ℝ} (ha : 0 < a) (ht : g < t) : (weibull a b g).sp.pdf t =
    b * ((t - g) / a) ^ (b - 1) * Real.exp (-(((t - g) / a) ^ b)) / a := by
  simp only [weibull, locScale, weibullStd]
  rw [if_neg (not_lt.2 (div_nonneg (by linarith) ha.le))]

theorem weibull_sf {a b g t : ℝ} (ha : 0 < a) (hb : 0 < b) (ht : g ≤ t) : (weibull a b g).sp.sf t =
    Real.exp (-(((t - g) / a) ^ b)) := by
  simp only [weibull, locScale, weibullStd]
  by_cases h : (t - g) / a ≤ 0
  · have h0 : (t - g) / a = 0 := le_antisymm h (div_nonneg (by linarith) ha.le)
    rw [if_pos h, h0, Real.zero_rpow hb.ne']; simp
  · rw [if_neg h]

theorem weibull3P_logf_exp {a b g t : ℝ} (ha : 0 < a) (hb : 0 < b) (ht : g < t) :
    Real.exp (weibull3P_logf a b g t) = (weibull a b g).sp.pdf t := by
  have hz : 0 < (t - g) / a := div_pos (by linarith) ha
  rw [weibull_pdf ha ht, weibull3P_logf, sub_eq_add_neg, Real.exp_add, Real.exp_add, rpow_exp hz,
    Real.exp_log (div_pos hb ha)]
  ring

theorem weibull3P_logR_exp {a b g t : ℝ} (ha : 0 < a) (hb : 0 < b) (ht : g ≤ t) :
    Real.exp (weibull3P_logR a b g t) = (weibull a b g).sp.sf t := by
  rw [weibull_sf ha hb ht, weibull3P_logR]

theorem weibull2P_logf_eq (a b t : ℝ) : weibull2P_logf a b t = weibull3P_logf a b 0 t := by
  simp [weibull2P_logf, weibull3P_logf]

theorem weibull2P_logR_eq (a b t : ℝ) : weibull2P_logR a b t = weibull3P_logR a b 0 t := by
  simp [weibull2P_logR, weibull3P_logR]

/-! ## C41 -/

/-- **C41 (Weibull_2P; with `force_beta` the same with the forced value).** -/
theorem C41_weibull_2P (a b : ℝ) (ha : 0 < a) (hb : 0 < b) (Tf Trc : List ℝ) (hf : ∀ t ∈ Tf, 0 < t)
    (hr : ∀ t ∈ Trc, 0 ≤ t) :
    IsLogLik (weibull a b 0).sp.pdf (weibull a b 0).sp.sf Tf Trc (loglik (weibull2P_LL a b Tf Trc)) :=
  isLogLik_of (fun t ht => by rw [weibull2P_logf_eq, weibull3P_logf_exp ha hb (hf t ht)])
    (fun t ht => by rw [weibull2P_logR_eq, weibull3P_logR_exp ha hb (hr t ht)])

/-- **C41 (Weibull_3P).** -/
theorem C41_weibull_3P (a b g : ℝ) (ha : 0 < a) (hb : 0 < b) (Tf Trc : List ℝ) (hf : ∀ t ∈ Tf, g < t)
    (hr : ∀ t ∈ Trc, g ≤ t) :
    IsLogLik (weibull a b g).sp.pdf (weibull a b g).sp.sf Tf Trc (loglik (weibull3P_LL a b g Tf Trc)) :=
  isLogLik_of (fun t ht => weibull3P_logf_exp ha hb (hf t ht)) (fun t ht => weibull3P_logR_exp ha hb (hr t ht))

theorem exponential_pdf {L g t : ℝ} (hL : 0 < L) (ht : g ≤ t) : (exponential L g).sp.pdf t =
    L * Real.exp (-(L * (t - g))) := by
  simp only [exponential, locScale, exponStd]
  have e : (t - g) / (1 / L) = L * (t - g) := by field_simp
  rw [e, if_neg (not_lt.2 (mul_nonneg hL.le (by linarith)))]
  field_simp

theorem exponential_sf {L g t : ℝ} (hL : 0 < L) (ht : g ≤ t) : (exponential L g).sp.sf t =
    Real.exp (-(L * (t - g))) := by
  simp only [exponential, locScale, exponStd]
  have e : (t - g) / (1 / L) = L * (t - g) := by field_simp
  rw [e]
  by_cases h : L * (t - g) ≤ 0
  · have : L * (t - g) = 0 := le_antisymm h (mul_nonneg hL.le (by linarith))
    rw [if_pos h, this]; simp
  · rw [if_neg h]

/-- **C41 (Exponential_2P).** -/
theorem C41_exponential_2P (L g : ℝ) (hL : 0 < L) (Tf Trc : List ℝ) (hf : ∀ t ∈ Tf, g ≤ t)
    (hr : ∀ t ∈ Trc, g ≤ t) :
    IsLogLik (exponential L g).sp.pdf (exponential L g).sp.sf Tf Trc (loglik (exponential2P_LL L g Tf Trc)) :=
  isLogLik_of
    (fun t ht => by
      rw [exponential_pdf hL (hf t ht), exponential2P_logf, sub_eq_add_neg, Real.exp_add, Real.exp_log hL])
    (fun t ht => by rw [exponential_sf hL (hr t ht), exponential2P_logR])

/-- **C41 (Exponential_2P, inverted form).** The function optimised for Lambda < 1 is the same likelihood at
Lambda = 1/params[0]. -/
theorem C41_exponential_2P_inv (p g : ℝ) (hp : 0 < p) (Tf Trc : List ℝ) (hf : ∀ t ∈ Tf, g ≤ t)
    (hr : ∀ t ∈ Trc, g ≤ t) :
    IsLogLik (exponential (1 / p) g).sp.pdf (exponential (1 / p) g).sp.sf Tf Trc
      (loglik (exponential2P_LL_inv p g Tf Trc)) :=
  C41_exponential_2P (1 / p) g (by positivity) Tf Trc hf hr

/-- **C41 (Exponential_1P).** -/
theorem C41_exponential_1P (L : ℝ) (hL : 0 < L) (Tf Trc : List ℝ) (hf : ∀ t ∈ Tf, 0 ≤ t)
    (hr : ∀ t ∈ Trc, 0 ≤ t) :
    IsLogLik (exponential L 0).sp.pdf (exponential L 0).sp.sf Tf Trc (loglik (exponential1P_LL L Tf Trc)) := by
  have h := C41_exponential_2P L 0 hL Tf Trc hf hr
  have e1 : exponential2P_logf L 0 = exponential1P_logf L := by
    funext t; simp [exponential2P_logf, exponential1P_logf]
  have e2 : exponential2P_logR L 0 = exponential1P_logR L := by
    funext t; simp [exponential2P_logR, exponential1P_logR]
  rw [exponential2P_LL, e1, e2] at h
  exact h

/-- **C41 (finding).** For a right censored time before gamma the Exponential_2P likelihood credits a survival
"probability" above 1 (the survival function of the returned distribution is 1 there), so the reported loglik is
too high. -/
theorem C41_exponential_2P_finding (L g t : ℝ) (hL : 0 < L) (ht : t < g) :
    (exponential L g).sp.sf t = 1 ∧ 1 < Real.exp (exponential2P_logR L g t) := by
  refine ⟨((C33_exponential L g hL).2 t ht.le).2, ?_⟩
  rw [Real.one_lt_exp_iff, exponential2P_logR]
  nlinarith

/-- **C41 (Gumbel_2P).** -/
theorem C41_gumbel_2P (mu sigma : ℝ) (hs : 0 < sigma) (Tf Trc : List ℝ) :
    IsLogLik (gumbel mu sigma).sp.pdf (gumbel mu sigma).sp.sf Tf Trc (loglik (gumbel2P_LL mu sigma Tf Trc)) :=
  isLogLik_of
    (fun t _ => by
      have e : gumbel2P_logf mu sigma t =
          ((t - mu) / sigma - Real.exp ((t - mu) / sigma)) - Real.log sigma := by
        rw [gumbel2P_logf]; ring
      rw [e, Real.exp_sub, Real.exp_log hs]
      rfl)
    (fun t _ => rfl)

/-- **C41 (Loglogistic_2P with `g = 0`, Loglogistic_3P).** -/
theorem C41_loglogistic (a b g : ℝ) (ha : 0 < a) (hb : 0 < b) (Tf Trc : List ℝ) (hf : ∀ t ∈ Tf, g < t)
    (hr : ∀ t ∈ Trc, g ≤ t) :
    IsLogLik (loglogistic a b g).sp.pdf (loglogistic a b g).sp.sf Tf Trc (loglik (loglogistic_LL a b g Tf Trc)) := by
  refine isLogLik_of (fun t ht => ?_) (fun t ht => ?_)
  · have hz : 0 < (t - g) / a := div_pos (by linarith [hf t ht]) ha
    simp only [loglogistic, locScale, fiskStd, loglogistic_logf]
    rw [if_neg (not_lt.2 hz.le)]
    generalize (t - g) / a = z at hz
    have h1 : 0 < 1 + z ^ (-b) := by positivity
    have h2 : 0 < 1 + z ^ b := by positivity
    rw [Real.exp_sub, Real.exp_sub, Real.exp_log (div_pos hb ha), rpow_exp hz, mul_comm 2, Real.exp_mul,
      Real.exp_log h1]
    have e1 : z ^ (b + 1) = z ^ b * z := by rw [Real.rpow_add hz, Real.rpow_one]
    have e2 : z ^ (b - 1) = z ^ b / z := by rw [Real.rpow_sub hz, Real.rpow_one]
    have e3 : z ^ (-b) = (z ^ b)⁻¹ := Real.rpow_neg hz.le b
    have h3 : 0 < z ^ b := by positivity
    rw [e1, e2, e3, show ((1:ℝ) + (z ^ b)⁻¹) ^ (2:ℝ) = (1 + (z ^ b)⁻¹) ^ (2:ℕ) by exact_mod_cast Real.rpow_natCast _ 2]
    field_simp
    ring
  · have hz : 0 ≤ (t - g) / a := div_nonneg (by linarith [hr t ht]) ha.le
    simp only [loglogistic, locScale, fiskStd, loglogistic_logR]
    generalize (t - g) / a = z at hz
    rw [Real.exp_neg, Real.exp_log (by positivity)]
    rcases hz.eq_or_lt with h | h
    · rw [← h, if_pos le_rfl, Real.zero_rpow hb.ne']; simp
    · rw [if_neg (not_le.2 h), one_div]

/-! ### Normal and Lognormal: erf -/

theorem sqrt_two_pi : Real.sqrt (2 * Real.pi) = Real.sqrt 2 * Real.sqrt Real.pi := Real.sqrt_mul (by norm_num) _

/-- The standard normal distribution function in terms of `erf`. -/
theorem normStd_cdf_erf (z : ℝ) : normStd.cdf z = (1 + erf (z / Real.sqrt 2)) / 2 := by
  have h0 : (ofDensity normStdPdf).cdf 0 = 1 / 2 := by
    have := (C68_median 0 1 one_pos).2
    simpa [normal, ofScipy, locScale, normalMedian, normStd] using this
  have h2 : Real.sqrt 2 ≠ 0 := by positivity
  have e : ∫ t in (0:ℝ)..z, normStdPdf t = 1 / Real.sqrt Real.pi * ∫ t in (0:ℝ)..(z / Real.sqrt 2), Real.exp (-(t ^ 2)) := by
    have hs := intervalIntegral.integral_comp_div (a := 0) (b := z) (fun t => Real.exp (-(t ^ 2))) h2
    rw [zero_div] at hs
    have e1 : ∀ t, normStdPdf t = 1 / Real.sqrt (2 * Real.pi) * Real.exp (-((t / Real.sqrt 2) ^ 2)) := by
      intro t
      rw [normStdPdf, div_pow, Real.sq_sqrt (by norm_num)]
      rw [neg_div]; ring
    simp only [e1]
    rw [intervalIntegral.integral_const_mul, hs, sqrt_two_pi, smul_eq_mul]
    have : Real.sqrt Real.pi ≠ 0 := by positivity
    field_simp
  rw [normStd, normStd_density.cdf_eq, h0, e, erf]
  ring

theorem erf_neg (z : ℝ) : erf (-z) = -erf z := by
  simp only [erf]
  have h := intervalIntegral.integral_comp_neg (a := 0) (b := z) (fun t => Real.exp (-(t ^ 2)))
  simp only [neg_zero, neg_sq] at h
  rw [h, intervalIntegral.integral_symm (-z) 0]
  ring

/-- The standard normal survival function in terms of `erf`. -/
theorem normStd_sf_erf (z : ℝ) : normStd.sf z = (1 - erf (z / Real.sqrt 2)) / 2 := by
  have h := normStd_density.compl z
  have h1 := normStd_cdf_erf z
  rw [normStd] at h1 ⊢
  linarith

theorem normStd_sf_pos (z : ℝ) : 0 < normStd.sf z := normStd_density.sf_pos z (Set.mem_univ _)

/-- **C41 (Normal_2P; with `force_sigma` the same with the forced value).** -/
theorem C41_normal_2P (mu sigma : ℝ) (hs : 0 < sigma) (Tf Trc : List ℝ) :
    IsLogLik (normal mu sigma).sp.pdf (normal mu sigma).sp.sf Tf Trc (loglik (normal2P_LL mu sigma Tf Trc)) := by
  refine isLogLik_of (fun t _ => ?_) (fun t _ => ?_)
  · rw [normal2P_logf, Real.log_exp, Real.exp_sub, Real.exp_log (by positivity)]
    simp only [normal, ofScipy, locScale, normStd, ofDensity, normStdPdf]
    rw [div_div, mul_comm sigma]
    congr 2
    ring
  · have e : ((mu - t) / sigma) / Real.sqrt 2 = -(((t - mu) / sigma) / Real.sqrt 2) := by ring
    have hsf : (normal mu sigma).sp.sf t = normStd.sf ((t - mu) / sigma) := rfl
    rw [normal2P_logR, e, erf_neg, ← sub_eq_add_neg, ← normStd_sf_erf, Real.exp_log (normStd_sf_pos _), hsf]

/-- **C41 (Lognormal_2P with `g = 0`, also with forced sigma; Lognormal_3P).** -/
theorem C41_lognormal (mu sigma g : ℝ) (hs : 0 < sigma) (Tf Trc : List ℝ) (hf : ∀ t ∈ Tf, g < t)
    (hr : ∀ t ∈ Trc, g < t) :
    IsLogLik (lognormal mu sigma g).sp.pdf (lognormal mu sigma g).sp.sf Tf Trc
      (loglik (lognormal_LL mu sigma g Tf Trc)) := by
  have hlog : ∀ t, g < t → Real.log ((t - g) / Real.exp mu) / sigma = (Real.log (t - g) - mu) / sigma := by
    intro t ht
    rw [Real.log_div (by linarith) (Real.exp_pos mu).ne', Real.log_exp]
  refine isLogLik_of (fun t ht => ?_) (fun t ht => ?_)
  · have h := hf t ht
    have hz : 0 < (t - g) / Real.exp mu := div_pos (by linarith) (Real.exp_pos mu)
    have hp : 0 < t - g := by linarith
    rw [lognormal_logf, Real.exp_log (by positivity)]
    simp only [lognormal, ofScipy, locScale, lognormStd]
    rw [if_neg (not_le.2 hz), hlog t h, normStdPdf]
    have e : -0.5 * ((Real.log (t - g) - mu) / sigma) ^ 2 = -(((Real.log (t - g) - mu) / sigma) ^ 2) / 2 := by ring
    rw [e]
    have := (Real.exp_pos mu).ne'
    field_simp
  · have h := hr t ht
    have hz : 0 < (t - g) / Real.exp mu := div_pos (by linarith) (Real.exp_pos mu)
    simp only [lognormal, ofScipy, locScale, lognormStd, lognormal_logR]
    rw [if_neg (not_le.2 hz), hlog t h]
    have e : (Real.log (t - g) - mu) / (sigma * Real.sqrt 2) = (Real.log (t - g) - mu) / sigma / Real.sqrt 2 := by
      rw [div_div]
    rw [e]
    have e2 := normStd_sf_erf ((Real.log (t - g) - mu) / sigma)
    have e3 : (0.5 : ℝ) - 0.5 * erf ((Real.log (t - g) - mu) / sigma / Real.sqrt 2) =
        normStd.sf ((Real.log (t - g) - mu) / sigma) := by
      rw [e2]; ring
    rw [e3, Real.exp_log (normStd_sf_pos _)]

/-! ### Gamma -/

theorem gammaStd_sf {b x : ℝ} (hx : 0 ≤ x) : (ofDensity (gammaStdPdf b)).sf x = gammaincc b x := by
  simp only [ofDensity, gammaincc]
  rw [setIntegral_congr_fun (g := fun t => t ^ (b - 1) * Real.exp (-t) / Real.Gamma b) measurableSet_Ioi
    (fun t ht => ?_), integral_div]
  have : ¬ t < 0 := not_lt.2 (hx.trans (le_of_lt ht))
  simp [gammaStdPdf, this]

theorem gammaStd_sf_pos {b x : ℝ} (hb : 0 < b) (hx : 0 ≤ x) : 0 < (ofDensity (gammaStdPdf b)).sf x := by
  rcases hx.eq_or_lt with h | h
  · have h1 := (gammaStd_density hb).compl 0
    have h2 := density_below (gammaStd_density hb) (fun _ h => h) 0 le_rfl
    rw [← h, h2.2]; exact one_pos
  · exact (gammaStd_density hb).sf_pos x h

/-- **C41 (Gamma_2P with `g = 0`, Gamma_3P; alpha-beta parametrisation).** -/
theorem C41_gamma (a b g : ℝ) (ha : 0 < a) (hb : 0 < b) (Tf Trc : List ℝ) (hf : ∀ t ∈ Tf, g < t)
    (hr : ∀ t ∈ Trc, g ≤ t) :
    IsLogLik (gammaDist a b g).sp.pdf (gammaDist a b g).sp.sf Tf Trc (loglik (gamma_LL_ab a b g Tf Trc)) := by
  refine isLogLik_of (fun t ht => ?_) (fun t ht => ?_)
  · have hp : 0 < t - g := by linarith [hf t ht]
    have hz : 0 < (t - g) / a := div_pos hp ha
    have hG := Real.Gamma_pos_of_pos hb
    have hab : 0 < a ^ b := by positivity
    rw [gamma_logf_ab, Real.exp_sub, Real.exp_sub, Real.exp_log (by positivity), Real.exp_log (by positivity)]
    simp only [gammaDist, ofScipy, locScale, ofDensity, gammaStdPdf]
    rw [if_neg (not_lt.2 hz.le), Real.div_rpow hp.le ha.le, Real.exp_neg, Real.rpow_sub ha, Real.rpow_one]
    have := Real.exp_pos ((t - g) / a)
    field_simp
  · have hz : 0 ≤ (t - g) / a := div_nonneg (by linarith [hr t ht]) ha.le
    have hsf : (gammaDist a b g).sp.sf t = (ofDensity (gammaStdPdf b)).sf ((t - g) / a) := rfl
    rw [gamma_logR_ab, ← gammaStd_sf hz, Real.exp_log (gammaStd_sf_pos hb hz), hsf]

/-- **C41 (Gamma_2P, Gamma_3P; mu-beta parametrisation).** The function that is optimised is the likelihood of the
Gamma distribution with alpha = exp(mu). -/
theorem C41_gamma_mu (m b g : ℝ) (hb : 0 < b) (Tf Trc : List ℝ) (hf : ∀ t ∈ Tf, g < t) (hr : ∀ t ∈ Trc, g ≤ t) :
    IsLogLik (gammaDist (Real.exp m) b g).sp.pdf (gammaDist (Real.exp m) b g).sp.sf Tf Trc
      (loglik (gamma_LL_mb m b g Tf Trc)) :=
  C41_gamma (Real.exp m) b g (Real.exp_pos m) hb Tf Trc hf hr

/-! ### Beta -/

theorem betaStd_cdf {a b x : ℝ} (ha : 0 < a) (hb : 0 < b) (hx0 : 0 ≤ x) (hx1 : x ≤ 1) :
    (ofDensity (betaStdPdf a b)).cdf x = betainc a b x := by
  have hd := betaStd_density ha hb
  have h0 : (ofDensity (betaStdPdf a b)).cdf 0 = 0 := by
    have := ((C33_beta a b ha hb).2.1 0 le_rfl).1
    simpa [betaDist, ofScipy, locScale] using this
  rw [hd.cdf_eq, h0, zero_add, betainc]
  rw [← intervalIntegral.integral_div]
  refine intervalIntegral.integral_congr fun t ht => ?_
  rw [Set.uIcc_of_le hx0] at ht
  simp only [betaStdPdf, abeta]
  rw [if_neg]
  rintro (h | h)
  · linarith [ht.1]
  · linarith [ht.2]

/-- **C41 (Beta_2P).** -/
theorem C41_beta_2P (a b : ℝ) (ha : 0 < a) (hb : 0 < b) (Tf Trc : List ℝ) (hf : ∀ t ∈ Tf, 0 < t ∧ t < 1)
    (hr : ∀ t ∈ Trc, 0 < t ∧ t < 1) :
    IsLogLik (betaDist a b).sp.pdf (betaDist a b).sp.sf Tf Trc (loglik (beta2P_LL a b Tf Trc)) := by
  have hB : 0 < abeta a b := by
    have h1 := Real.Gamma_pos_of_pos ha
    have h2 := Real.Gamma_pos_of_pos hb
    have h3 := Real.Gamma_pos_of_pos (add_pos ha hb)
    rw [abeta]; positivity
  refine isLogLik_of (fun t ht => ?_) (fun t ht => ?_)
  · obtain ⟨h0, h1⟩ := hf t ht
    have h1' : 0 < 1 - t := by linarith
    rw [beta2P_logf, Real.exp_sub, Real.exp_log (by positivity), Real.exp_log hB]
    simp only [betaDist, ofScipy, locScale, ofDensity, betaStdPdf, sub_zero, div_one]
    rw [if_neg (by rintro (h | h) <;> linarith)]
    rfl
  · obtain ⟨h0, h1⟩ := hr t ht
    have hsf : (betaDist a b).sp.sf t = (ofDensity (betaStdPdf a b)).sf t := by
      simp [betaDist, ofScipy, locScale]
    have hc := (betaStd_density ha hb).compl t
    rw [betaStd_cdf ha hb h0.le h1.le] at hc
    have hp := (betaStd_density ha hb).sf_pos t ⟨h0, h1⟩
    have e : 1 - betainc a b t = (ofDensity (betaStdPdf a b)).sf t := by linarith
    rw [beta2P_logR, e, Real.exp_log hp, hsf]

/-! ### Weibull mixture and competing risks -/

/-- **C41 (Weibull_Mixture).** The density and survival function are those of the Mixture_Model of the two fitted
Weibull distributions with proportions p and 1 - p (see C38). -/
theorem C41_weibull_mixture (a1 b1 a2 b2 p : ℝ) (ha1 : 0 < a1) (hb1 : 0 < b1) (ha2 : 0 < a2) (hb2 : 0 < b2)
    (hp0 : 0 ≤ p) (hp1 : p ≤ 1) (Tf Trc : List ℝ) (hf : ∀ t ∈ Tf, 0 < t) (hr : ∀ t ∈ Trc, 0 ≤ t) :
    IsLogLik (fun t => (weibull a1 b1 0).sp.pdf t * p + (weibull a2 b2 0).sp.pdf t * (1 - p))
      (fun t => (weibull a1 b1 0).sp.sf t * p + (weibull a2 b2 0).sp.sf t * (1 - p)) Tf Trc
      (loglik (mixture_LL a1 b1 a2 b2 p Tf Trc)) := by
  have hpdf : ∀ a b t : ℝ, 0 < a → 0 < b → 0 < t →
      (b * t ^ (b - 1)) / (a ^ b) * Real.exp (-((t / a) ^ b)) = (weibull a b 0).sp.pdf t := by
    intro a b t ha hb ht
    rw [weibull_pdf ha ht, sub_zero, Real.div_rpow ht.le ha.le (b - 1), Real.rpow_sub ha, Real.rpow_one]
    field_simp
  have hpos : ∀ a b t : ℝ, 0 < a → 0 < b → 0 < t → 0 < (weibull a b 0).sp.pdf t := by
    intro a b t ha hb ht
    rw [← hpdf a b t ha hb ht]; positivity
  have hcomb : ∀ u v : ℝ, 0 < u → 0 < v → 0 < u * p + v * (1 - p) := by
    intro u v hu hv
    rcases hp0.eq_or_lt with h | h
    · rw [← h]; simpa using hv
    · have : 0 ≤ v * (1 - p) := mul_nonneg hv.le (by linarith)
      positivity
  refine isLogLik_of (fun t ht => ?_) (fun t ht => ?_)
  · have h := hf t ht
    have e : p * ((b1 * t ^ (b1 - 1)) / (a1 ^ b1)) * Real.exp (-((t / a1) ^ b1)) +
        (1 - p) * ((b2 * t ^ (b2 - 1)) / (a2 ^ b2)) * Real.exp (-((t / a2) ^ b2)) =
        (weibull a1 b1 0).sp.pdf t * p + (weibull a2 b2 0).sp.pdf t * (1 - p) := by
      rw [← hpdf a1 b1 t ha1 hb1 h, ← hpdf a2 b2 t ha2 hb2 h]; ring
    rw [mixture_logf, e, Real.exp_log (hcomb _ _ (hpos a1 b1 t ha1 hb1 h) (hpos a2 b2 t ha2 hb2 h))]
  · have h := hr t ht
    have e : p * Real.exp (-((t / a1) ^ b1)) + (1 - p) * Real.exp (-((t / a2) ^ b2)) =
        (weibull a1 b1 0).sp.sf t * p + (weibull a2 b2 0).sp.sf t * (1 - p) := by
      rw [weibull_sf ha1 hb1 h, weibull_sf ha2 hb2 h]; simp only [sub_zero]; ring
    rw [mixture_logR, e, Real.exp_log (hcomb _ _ ?_ ?_)]
    · rw [weibull_sf ha1 hb1 h]; positivity
    · rw [weibull_sf ha2 hb2 h]; positivity

/-- **C41 (Weibull_CR).** The density and survival function are those of the Competing_Risks_Model of the two fitted
Weibull distributions: product of survival functions, times the sum of hazards (see C37). -/
theorem C41_weibull_CR (a1 b1 a2 b2 : ℝ) (ha1 : 0 < a1) (hb1 : 0 < b1) (ha2 : 0 < a2) (hb2 : 0 < b2)
    (Tf Trc : List ℝ) (hf : ∀ t ∈ Tf, 0 < t) (hr : ∀ t ∈ Trc, 0 ≤ t) :
    IsLogLik
      (fun t => ((weibull a1 b1 0).sp.pdf t / (weibull a1 b1 0).sp.sf t +
        (weibull a2 b2 0).sp.pdf t / (weibull a2 b2 0).sp.sf t) *
        ((weibull a1 b1 0).sp.sf t * (weibull a2 b2 0).sp.sf t))
      (fun t => (weibull a1 b1 0).sp.sf t * (weibull a2 b2 0).sp.sf t) Tf Trc
      (loglik (CR_LL a1 b1 a2 b2 Tf Trc)) := by
  have hhaz : ∀ a b t : ℝ, 0 < a → 0 < b → 0 < t →
      (b * (t / a) ^ b) / t = (weibull a b 0).sp.pdf t / (weibull a b 0).sp.sf t := by
    intro a b t ha hb ht
    have hz : 0 < t / a := div_pos ht ha
    rw [weibull_pdf ha ht, weibull_sf ha hb ht.le, sub_zero, Real.rpow_sub hz, Real.rpow_one]
    have := Real.exp_pos (-((t / a) ^ b))
    field_simp
  refine isLogLik_of (fun t ht => ?_) (fun t ht => ?_)
  · have h := hf t ht
    have e : -(-(b2 * (t / a2) ^ b2) / t - (b1 * (t / a1) ^ b1) / t) *
        Real.exp (-((t / a2) ^ b2) - (t / a1) ^ b1) =
        ((weibull a1 b1 0).sp.pdf t / (weibull a1 b1 0).sp.sf t +
        (weibull a2 b2 0).sp.pdf t / (weibull a2 b2 0).sp.sf t) *
        ((weibull a1 b1 0).sp.sf t * (weibull a2 b2 0).sp.sf t) := by
      rw [← hhaz a1 b1 t ha1 hb1 h, ← hhaz a2 b2 t ha2 hb2 h, weibull_sf ha1 hb1 h.le, weibull_sf ha2 hb2 h.le,
        ← Real.exp_add]
      simp only [sub_zero]
      congr 1
      · ring
      · congr 1; ring
    have hpos : 0 < -(-(b2 * (t / a2) ^ b2) / t - (b1 * (t / a1) ^ b1) / t) *
        Real.exp (-((t / a2) ^ b2) - (t / a1) ^ b1) := by
      have e' : -(-(b2 * (t / a2) ^ b2) / t - (b1 * (t / a1) ^ b1) / t) =
          (b2 * (t / a2) ^ b2) / t + (b1 * (t / a1) ^ b1) / t := by ring
      rw [e']; positivity
    rw [CR_logf, Real.exp_log hpos, e]
  · have h := hr t ht
    rw [CR_logR, weibull_sf ha1 hb1 h, weibull_sf ha2 hb2 h, ← Real.exp_add]
    simp only [sub_zero]
    congr 1

/-! ### Defective subpopulation and zero inflation -/

/-- **C41 (Weibull_DSZI).** The likelihood of zeros, positive failures and censored times under the fitted DSZI model:
each zero contributes the model's probability of failing at time 0 (its CDF at 0, which is ZI), provided ZI > 0 or
there are no zeros. -/
theorem C41_weibull_DSZI (a b ds zi : ℝ) (ha : 0 < a) (hb : 0 < b) (_hz0 : 0 ≤ zi) (hzd : zi < ds) (hd1 : ds ≤ 1)
    (T0 Tf Trc : List ℝ) (hf : ∀ t ∈ Tf, 0 < t) (hr : ∀ t ∈ Trc, 0 ≤ t) (h0 : 0 < zi ∨ T0 = []) :
    Real.exp (loglik (DSZI_LL a b ds zi T0 Tf Trc)) =
      (⟨weibull a b 0, ds, zi⟩ : DSZI).cdfAt 0 ^ T0.length *
      (Tf.map (⟨weibull a b 0, ds, zi⟩ : DSZI).pdfAt).prod *
      (Trc.map fun t => 1 - (⟨weibull a b 0, ds, zi⟩ : DSZI).cdfAt t).prod := by
  have hlaw := C33_weibull a b 0 ha hb
  have hc0 : (⟨weibull a b 0, ds, zi⟩ : DSZI).cdfAt 0 = zi := by
    simp only [DSZI.cdfAt]; rw [(hlaw.2 0 le_rfl).1]; ring
  have e : loglik (DSZI_LL a b ds zi T0 Tf Trc) = (if zi > 0 then Real.log zi * (T0.length : ℝ) else 0) +
      (Tf.map (DSZI_logf a b ds zi)).sum + (Trc.map (DSZI_logR a b ds zi)).sum := by
    simp only [loglik, DSZI_LL]; ring
  rw [e, Real.exp_add, Real.exp_add, exp_sum_map, exp_sum_map, hc0]
  congr 1
  · congr 1
    · by_cases hz : zi > 0
      · rw [if_pos hz, Real.exp_mul, Real.exp_log hz, Real.rpow_natCast]
      · rw [if_neg hz, h0.resolve_left hz]; simp
    · congr 1
      refine List.map_congr_left fun t ht => ?_
      have hp : DSZI_logf a b ds zi t = weibull3P_logf a b 0 t + Real.log (ds - zi) := by
        simp [DSZI_logf, weibull3P_logf]
      rw [hp, Real.exp_add, weibull3P_logf_exp ha hb (hf t ht), Real.exp_log (by linarith)]
      rfl
  · congr 1
    refine List.map_congr_left fun t ht => ?_
    have hs := weibull_sf ha hb (hr t ht)
    rw [sub_zero] at hs
    have hcm := hlaw.1.compl t
    have e2 : 1 - ((1 - Real.exp (-((t / a) ^ b))) * (ds - zi) + zi) =
        1 - (⟨weibull a b 0, ds, zi⟩ : DSZI).cdfAt t := by
      simp only [DSZI.cdfAt]; rw [← hs]
      have : (weibull a b 0).sp.cdf t = 1 - (weibull a b 0).sp.sf t := by linarith
      rw [this]
    rw [DSZI_logR, Real.exp_log]
    · exact e2
    · have h1 := Real.exp_pos (-((t / a) ^ b))
      have h2 : 0 < (ds - zi) * Real.exp (-((t / a) ^ b)) := mul_pos (by linarith) h1
      nlinarith

/-- **C41 (Weibull_ZI).** The likelihood under the fitted zero inflated model (DS = 1). -/
theorem C41_weibull_ZI (a b zi : ℝ) (ha : 0 < a) (hb : 0 < b) (hz0 : 0 ≤ zi) (hz1 : zi < 1)
    (T0 Tf Trc : List ℝ) (hf : ∀ t ∈ Tf, 0 < t) (hr : ∀ t ∈ Trc, 0 ≤ t) (h0 : 0 < zi ∨ T0 = []) :
    Real.exp (loglik (ZI_LL a b zi T0 Tf Trc)) =
      (⟨weibull a b 0, 1, zi⟩ : DSZI).cdfAt 0 ^ T0.length *
      (Tf.map (⟨weibull a b 0, 1, zi⟩ : DSZI).pdfAt).prod *
      (Trc.map fun t => 1 - (⟨weibull a b 0, 1, zi⟩ : DSZI).cdfAt t).prod :=
  C41_weibull_DSZI a b 1 zi ha hb hz0 hz1 le_rfl T0 Tf Trc hf hr h0

/-- **C41 (Weibull_DS).** The likelihood under the fitted defective subpopulation model (ZI = 0). -/
theorem C41_weibull_DS (a b ds : ℝ) (ha : 0 < a) (hb : 0 < b) (hd0 : 0 < ds) (hd1 : ds ≤ 1)
    (Tf Trc : List ℝ) (hf : ∀ t ∈ Tf, 0 < t) (hr : ∀ t ∈ Trc, 0 ≤ t) :
    IsLogLik (⟨weibull a b 0, ds, 0⟩ : DSZI).pdfAt (fun t => 1 - (⟨weibull a b 0, ds, 0⟩ : DSZI).cdfAt t) Tf Trc
      (loglik (DS_LL a b ds Tf Trc)) := by
  have e1 : DSZI_logf a b ds 0 = DS_logf a b ds := by funext t; simp [DSZI_logf, DS_logf]
  have e2 : DSZI_logR a b ds 0 = DS_logR a b ds := by funext t; simp [DSZI_logR, DS_logR]
  have e : DS_LL a b ds Tf Trc = DSZI_LL a b ds 0 [] Tf Trc := by simp [DS_LL, DSZI_LL, LL, e1, e2]
  have h := C41_weibull_DSZI a b ds 0 ha hb le_rfl hd0 hd1 [] Tf Trc hf hr (Or.inr rfl)
  rw [IsLogLik, e, h, List.length_nil, pow_zero, one_mul]

/-- **C41 (finding).** With ZI = 0 failures at time 0 are ignored: the reported loglik does not depend on them,
although the fitted model gives them probability 0. -/
theorem C41_DSZI_zeros_finding (a b ds : ℝ) (ha : 0 < a) (hb : 0 < b) (T0 T0' Tf Trc : List ℝ) :
    DSZI_LL a b ds 0 T0 Tf Trc = DSZI_LL a b ds 0 T0' Tf Trc ∧ (⟨weibull a b 0, ds, 0⟩ : DSZI).cdfAt 0 = 0 := by
  refine ⟨by simp [DSZI_LL], ?_⟩
  simp only [DSZI.cdfAt]
  rw [((C33_weibull a b 0 ha hb).2 0 le_rfl).1]; ring

/-! ## C42 -/

theorem sum_replicate_group (g : ℝ → ℝ) (F : List (ℝ × ℕ)) :
    ((F.flatMap fun tq => List.replicate tq.2 tq.1).map g).sum = (F.map fun tq => g tq.1 * (tq.2 : ℝ)).sum := by
  induction F with
  | nil => simp
  | cons a F ih => simp [ih, mul_comm]

/-- **C42.** For every grouped data set the grouped likelihood is the ungrouped likelihood of the expanded data
(each time repeated `quantity` times), and likewise the number of observations. -/
theorem C42_grouped (a b : ℝ) (F C : List (ℝ × ℕ)) :
    weibull2P_grouped_LL a b F C =
      weibull2P_LL a b (F.flatMap fun tq => List.replicate tq.2 tq.1) (C.flatMap fun tq => List.replicate tq.2 tq.1) ∧
    (F.map Prod.snd).sum + (C.map Prod.snd).sum =
      (F.flatMap fun tq => List.replicate tq.2 tq.1).length + (C.flatMap fun tq => List.replicate tq.2 tq.1).length := by
  constructor
  · simp only [weibull2P_grouped_LL, weibull2P_LL, LL, sum_replicate_group]
  · simp [List.length_flatMap]

/-- A data set with failures and a censored time meeting the hypotheses. -/
example : IsLogLik (weibull 10 2 0).sp.pdf (weibull 10 2 0).sp.sf [5, 7, 12] [9, 15]
    (loglik (weibull2P_LL 10 2 [5, 7, 12] [9, 15])) :=
  C41_weibull_2P 10 2 (by norm_num) (by norm_num) _ _ (by simp) (by simp)

example : IsLogLik (betaDist 2 3).sp.pdf (betaDist 2 3).sp.sf [1/2] [1/4] (loglik (beta2P_LL 2 3 [1/2] [1/4])) :=
  C41_beta_2P 2 3 (by norm_num) (by norm_num) _ _ (by simp; norm_num) (by simp; norm_num)

end Reliability.Props.Likelihood

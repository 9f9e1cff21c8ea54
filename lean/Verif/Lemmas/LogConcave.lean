import Mathlib.Analysis.Convex.SpecificFunctions.Basic
import Mathlib.Analysis.Convex.Deriv
import Mathlib.MeasureTheory.Integral.IntegralEqImproper
import Verif.Lemmas.RankRegression
import Verif.Props.Likelihood
import Verif.Lemmas.Moments2

/-! # The standard densities and survival functions of the location-scale families are log-concave -/

namespace Reliability.LogConcave

open Reliability Reliability.Distributions Reliability.Props.Likelihood Reliability.Spec MeasureTheory
open Reliability.FunctionCI (CFam distOf)

/-! ## Log-concavity at midpoints -/

/-- Positive and log-concave at midpoints. -/
structure LC (g : ℝ → ℝ) : Prop where
  pos : ∀ x, 0 < g x
  mid : ∀ x y, g x * g y ≤ g ((x + y) / 2) ^ 2

/-- Strictly. -/
structure SLC (g : ℝ → ℝ) : Prop extends LC g where
  strict : ∀ x y, x ≠ y → g x * g y < g ((x + y) / 2) ^ 2

theorem SLC.mk' {g : ℝ → ℝ} (pos : ∀ x, 0 < g x) (strict : ∀ x y, x ≠ y → g x * g y < g ((x + y) / 2) ^ 2) : SLC g :=
  ⟨⟨pos, fun x y => by
    by_cases h : x = y
    · subst h; rw [show (x + x) / 2 = x by ring, sq]
    · exact (strict x y h).le⟩, strict⟩

theorem exp_mid {x y : ℝ} (h : x ≠ y) : 2 * Real.exp ((x + y) / 2) < Real.exp x + Real.exp y := by
  have := strictConvexOn_exp.2 (Set.mem_univ x) (Set.mem_univ y) h (show (0:ℝ) < 1 / 2 by norm_num) (show (0:ℝ) < 1 / 2 by norm_num)
    (by norm_num)
  simp only [smul_eq_mul] at this
  rw [show 1 / 2 * x + 1 / 2 * y = (x + y) / 2 by ring] at this
  linarith

theorem slc_exp {ψ : ℝ → ℝ} (h : ∀ x y, x ≠ y → ψ x + ψ y < 2 * ψ ((x + y) / 2)) : SLC fun z => Real.exp (ψ z) := by
  refine .mk' (fun x => Real.exp_pos _) fun x y hxy => ?_
  rw [← Real.exp_add, ← Real.exp_nat_mul, Real.exp_lt_exp]
  push_cast
  exact h x y hxy

/-- The smallest extreme value density. -/
theorem slc_sev : SLC fun z => Real.exp (z - Real.exp z) :=
  slc_exp fun x y h => by linarith [exp_mid h]

theorem slc_sev_sf : SLC fun z => Real.exp (-Real.exp z) :=
  slc_exp fun x y h => by linarith [exp_mid h]

theorem slc_norm : SLC normStdPdf := by
  have h : SLC fun z : ℝ => Real.exp (-(z ^ 2) / 2) := slc_exp fun x y h => by
    have := sq_pos_of_ne_zero (sub_ne_zero.2 h)
    nlinarith
  have hc : 0 < Real.sqrt (2 * Real.pi) := by positivity
  refine .mk' (fun x => by unfold normStdPdf; positivity) fun x y hxy => ?_
  have := h.strict x y hxy
  simp only [normStdPdf]
  rw [div_mul_div_comm, div_pow, ← sq]
  gcongr

theorem logis_mid {x y : ℝ} (h : x ≠ y) : (1 + Real.exp ((x + y) / 2)) ^ 2 < (1 + Real.exp x) * (1 + Real.exp y) := by
  have := exp_mid h
  have e : Real.exp x * Real.exp y = Real.exp ((x + y) / 2) ^ 2 := by
    rw [← Real.exp_add, ← Real.exp_nat_mul]; push_cast; ring_nf
  nlinarith

theorem slc_logis_sf : SLC fun z => 1 / (1 + Real.exp z) := by
  refine .mk' (fun x => by positivity) fun x y h => ?_
  rw [div_mul_div_comm, div_pow, one_mul, one_pow]
  exact one_div_lt_one_div_of_lt (by positivity) (logis_mid h)

theorem slc_logis : SLC fun z => Real.exp z / (1 + Real.exp z) ^ 2 := by
  refine .mk' (fun x => by positivity) fun x y h => ?_
  have e : Real.exp x * Real.exp y = Real.exp ((x + y) / 2) ^ 2 := by
    rw [← Real.exp_add, ← Real.exp_nat_mul]; push_cast; ring_nf
  have hl := logis_mid h
  rw [div_mul_div_comm, div_pow, e, ← mul_pow]
  apply div_lt_div_of_pos_left (by positivity) (by positivity)
  exact pow_lt_pow_left₀ hl (by positivity) (by norm_num)

/-! ## The normal survival function -/

theorem normPdf_deriv (z : ℝ) : HasDerivAt normStdPdf (-z * normStdPdf z) z := by
  have h : HasDerivAt (fun z : ℝ => -(z ^ 2) / 2) (-z) z := by
    have := ((hasDerivAt_pow 2 z).neg).div_const 2
    refine this.congr_deriv ?_
    push_cast; ring
  have := (h.exp).div_const (Real.sqrt (2 * Real.pi))
  refine this.congr_deriv ?_
  unfold normStdPdf; ring

theorem normSf_deriv (z : ℝ) : HasDerivAt normStd.sf (-normStdPdf z) z := by
  have h := normStd_density.hasDerivAt z (Set.mem_univ _)
  have e : normStd.sf = fun z => 1 - normStd.cdf z := by
    funext z
    have := normStd_density.compl z
    simp only [normStd] at *
    linarith
  rw [e]
  exact (h.const_sub 1).congr_deriv (by ring)

/-- The inequality of Mills' ratio. -/
theorem mills (z : ℝ) : z * normStd.sf z ≤ normStdPdf z := by
  have hint : IntegrableOn (fun t => t * normStdPdf t) (Set.Ioi z) := by
    have := (norm_int 1).integrableOn (s := Set.Ioi z)
    simpa using this
  have hi0 : IntegrableOn (fun t => z * normStdPdf t) (Set.Ioi z) := (normStd_density.int.const_mul z).integrableOn
  have hlim : Filter.Tendsto (fun t : ℝ => -normStdPdf t) Filter.atTop (nhds 0) := by
    have h1 : Filter.Tendsto (fun t : ℝ => -(t ^ 2) / 2) Filter.atTop Filter.atBot := by
      have : Filter.Tendsto (fun t : ℝ => t ^ 2) Filter.atTop Filter.atTop := Filter.tendsto_pow_atTop (by norm_num)
      have h2 := (Filter.tendsto_neg_atTop_atBot.comp this).atBot_div_const (show (0:ℝ) < 2 by norm_num)
      exact h2
    have := ((Real.tendsto_exp_atBot.comp h1).div_const (Real.sqrt (2 * Real.pi))).neg
    simpa [normStdPdf, Function.comp_def] using this
  have hF : ∫ t in Set.Ioi z, t * normStdPdf t = normStdPdf z := by
    have := integral_Ioi_of_hasDerivAt_of_tendsto (f := fun t => -normStdPdf t) (f' := fun t => t * normStdPdf t) (a := z) (m := 0)
      ((normPdf_deriv z).neg.continuousAt.continuousWithinAt)
      (fun t _ => ((normPdf_deriv t).neg).congr_deriv (by ring)) hint hlim
    rw [this]; ring
  have hle : ∫ t in Set.Ioi z, z * normStdPdf t ≤ ∫ t in Set.Ioi z, t * normStdPdf t := by
    refine setIntegral_mono_on hi0 hint measurableSet_Ioi fun t ht => ?_
    exact mul_le_mul_of_nonneg_right (le_of_lt ht) (normStd_density.nonneg t)
  rw [integral_const_mul, hF] at hle
  exact hle

theorem logSf_concave : ConcaveOn ℝ Set.univ fun z => Real.log (normStd.sf z) := by
  have hd : ∀ z, HasDerivAt (fun z => Real.log (normStd.sf z)) (-normStdPdf z / normStd.sf z) z := fun z =>
    (normSf_deriv z).log (normStd_sf_pos z).ne'
  have hder : deriv (fun z => Real.log (normStd.sf z)) = fun z => -normStdPdf z / normStd.sf z := funext fun z => (hd z).deriv
  refine Antitone.concaveOn_univ_of_deriv (fun z => (hd z).differentiableAt) ?_
  rw [hder]
  have hd2 : ∀ z, HasDerivAt (fun z => -normStdPdf z / normStd.sf z)
      ((-(-z * normStdPdf z) * normStd.sf z - -normStdPdf z * -normStdPdf z) / normStd.sf z ^ 2) z := fun z =>
    (normPdf_deriv z).neg.div (normSf_deriv z) (normStd_sf_pos z).ne'
  refine antitone_of_deriv_nonpos (fun z => (hd2 z).differentiableAt) fun z => ?_
  rw [(hd2 z).deriv]
  refine div_nonpos_of_nonpos_of_nonneg ?_ (by positivity)
  have := mills z
  have := normStd_density.nonneg z
  nlinarith

theorem lc_norm_sf : LC normStd.sf where
  pos := normStd_sf_pos
  mid x y := by
    have h := logSf_concave.2 (Set.mem_univ x) (Set.mem_univ y) (show (0:ℝ) ≤ 1 / 2 by norm_num) (show (0:ℝ) ≤ 1 / 2 by norm_num)
      (by norm_num)
    simp only [smul_eq_mul] at h
    rw [show 1 / 2 * x + 1 / 2 * y = (x + y) / 2 by ring] at h
    have p1 := normStd_sf_pos x
    have p2 := normStd_sf_pos y
    have p3 := normStd_sf_pos ((x + y) / 2)
    rw [← Real.exp_log p1, ← Real.exp_log p2, ← Real.exp_log p3, ← Real.exp_add, ← Real.exp_nat_mul, Real.exp_le_exp]
    push_cast; linarith

end Reliability.LogConcave

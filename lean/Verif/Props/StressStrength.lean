import Mathlib.Probability.Distributions.Gaussian.Real
import Verif.Model.OtherFunctions
import Verif.Props.Likelihood
import Verif.Lemmas.NumPy
import Mathlib.MeasureTheory.Integral.IntervalIntegral.TrapezoidalRule

/-!
# C60, C75: stress-strength interference
-/

namespace Reliability.Props

open Reliability.Props.Distributions (TakesX)
open Reliability OtherFunctions Reliability.Distributions Spec MeasureTheory ProbabilityTheory

/-- scipy's `norm.cdf` is the distribution function of the Gaussian measure. -/
theorem normStd_cdf_gaussian (z : ℝ) : ((gaussianReal 0 1) (Set.Iic z)).toReal = normStd.cdf z := by
  rw [gaussianReal_apply_eq_integral 0 one_ne_zero, ENNReal.toReal_ofReal]
  · simp only [normStd, ofDensity]
    refine integral_congr_ae (Filter.Eventually.of_forall fun x => ?_)
    simp only [gaussianPDFReal, normStdPdf, NNReal.coe_one, mul_one, sub_zero]
    ring
  · exact integral_nonneg fun x => gaussianPDFReal_nonneg _ _ _

/-- The distribution function of any Gaussian measure with positive variance. -/
theorem gaussian_cdf (m s : ℝ) (hs : 0 < s) (x : ℝ) :
    ((gaussianReal m (.mk (s ^ 2) (sq_nonneg _))) (Set.Iic x)).toReal = normStd.cdf ((x - m) / s) := by
  have hmap : (gaussianReal 0 1).map (fun z => s * z + m) = gaussianReal m (.mk (s ^ 2) (sq_nonneg _)) := by
    have h1 := gaussianReal_map_const_mul (μ := 0) (v := 1) s
    have h2 := gaussianReal_map_add_const (μ := s * 0) (v := .mk (s ^ 2) (sq_nonneg _) * 1) m
    rw [← h1, Measure.map_map (by fun_prop) (by fun_prop)] at h2
    rw [mul_zero, zero_add, mul_one] at h2
    exact h2
  rw [← hmap, Measure.map_apply (by fun_prop) measurableSet_Iic, ← normStd_cdf_gaussian]
  congr 2
  ext z
  simp only [Set.mem_preimage, Set.mem_Iic]
  rw [le_div_iff₀ hs]
  constructor <;> intro h <;> linarith

theorem norm_cdf_neg (z : ℝ) : normStd.cdf (-z) = 1 - normStd.cdf z := by
  rw [Likelihood.normStd_cdf_erf, Likelihood.normStd_cdf_erf, neg_div, Likelihood.erf_neg]
  ring

theorem norm_cdf_strictMono : StrictMono normStd.cdf := by
  have hm := normStd_density.survival.mono
  refine hm.strictMono_of_injective fun x y h => ?_
  have hq := normStd_density.quantile.quantile_cdf
  have h1 := hq x trivial
  have h2 := hq y trivial
  rw [show (ofDensity normStdPdf).cdf = normStd.cdf from rfl] at h1 h2
  rw [← h1, ← h2]
  exact congrArg _ h

/-- The combined standard deviation. -/
theorem sqrt_half {a : ℝ} : a ^ ((1:ℝ) / 2) = Real.sqrt a := (Real.sqrt_eq_rpow a).symm

/-- **C60 (probability).** For independent normal stress and strength, `stress_strength_normal` is the probability that
the stress exceeds the strength. -/
theorem C60_probability {Ω : Type*} [MeasurableSpace Ω] (P : Measure Ω) [IsProbabilityMeasure P] (stress strength : Ω → ℝ)
    (m1 s1 m2 s2 : ℝ) (h1 : 0 < s1) (h2 : 0 < s2)
    (hX : HasLaw stress (gaussianReal m1 (.mk (s1 ^ 2) (sq_nonneg _))) P)
    (hY : HasLaw strength (gaussianReal m2 (.mk (s2 ^ 2) (sq_nonneg _))) P) (hind : IndepFun stress strength P) :
    (P {ω | strength ω < stress ω}).toReal = stressStrengthNormal m1 s1 m2 s2 := by
  have hnY := gaussianReal_neg hY
  have hX' := gaussianReal_neg hX
  have hlaw : P.map (strength + -stress) = gaussianReal (m2 + -m1) (.mk (s2 ^ 2) (sq_nonneg _) + .mk (s1 ^ 2) (sq_nonneg _)) :=
    gaussianReal_add_gaussianReal_of_indepFun
      ((hind.symm).comp (φ := id) (ψ := fun x => -x) measurable_id measurable_neg) hY.map_eq hX'.map_eq
  have hpos : 0 < s2 ^ 2 + s1 ^ 2 := by positivity
  have hv : (NNReal.mk (s2 ^ 2) (sq_nonneg _) + NNReal.mk (s1 ^ 2) (sq_nonneg _) : NNReal) =
      .mk (Real.sqrt (s2 ^ 2 + s1 ^ 2) ^ 2) (sq_nonneg _) := by
    ext
    simp only [NNReal.coe_add, NNReal.coe_mk]
    rw [Real.sq_sqrt hpos.le]
  rw [hv] at hlaw
  have hae : AEMeasurable (strength + -stress) P := hY.aemeasurable.add hX.aemeasurable.neg
  have hset : {ω | strength ω < stress ω} = (strength + -stress) ⁻¹' Set.Iio 0 := by
    ext ω
    simp only [Set.mem_ofPred_eq, Set.mem_preimage, Pi.add_apply, Pi.neg_apply, Set.mem_Iio]
    constructor <;> intro h <;> linarith
  rw [hset, ← Measure.map_apply_of_aemeasurable hae measurableSet_Iio, hlaw]
  have hne : (NNReal.mk (Real.sqrt (s2 ^ 2 + s1 ^ 2) ^ 2) (sq_nonneg _) : NNReal) ≠ 0 := by
    intro h
    have := congrArg NNReal.toReal h
    simp only [NNReal.coe_mk, NNReal.coe_zero] at this
    rw [Real.sq_sqrt hpos.le] at this
    linarith
  have hIio : gaussianReal (m2 + -m1) (.mk (Real.sqrt (s2 ^ 2 + s1 ^ 2) ^ 2) (sq_nonneg _)) (Set.Iio 0) =
      gaussianReal (m2 + -m1) (.mk (Real.sqrt (s2 ^ 2 + s1 ^ 2) ^ 2) (sq_nonneg _)) (Set.Iic 0) := by
    rw [gaussianReal_apply_eq_integral _ hne, gaussianReal_apply_eq_integral _ hne, integral_Iic_eq_integral_Iio]
  rw [hIio, gaussian_cdf _ _ (Real.sqrt_pos.2 hpos), stressStrengthNormal, sqrt_half]
  congr 1
  congr 1
  ring

/-- **C60 (range).** Strictly between 0 and 1. -/
theorem C60_range (m1 s1 m2 s2 : ℝ) : 0 < stressStrengthNormal m1 s1 m2 s2 ∧ stressStrengthNormal m1 s1 m2 s2 < 1 :=
  normStd_density.quantile.range _ trivial

/-- **C60 (monotone).** A larger mean strength means a smaller probability of failure, a larger mean stress a larger
one. -/
theorem C60_monotone (m1 s1 m2 s2 : ℝ) (h1 : 0 < s1) (h2 : 0 < s2) :
    (∀ m2', m2 < m2' → stressStrengthNormal m1 s1 m2' s2 < stressStrengthNormal m1 s1 m2 s2) ∧
    (∀ m1', m1 < m1' → stressStrengthNormal m1 s1 m2 s2 < stressStrengthNormal m1' s1 m2 s2) := by
  have hpos : 0 < (s2 ^ 2 + s1 ^ 2) ^ ((1:ℝ) / 2) := by positivity
  constructor
  · intro m h
    exact norm_cdf_strictMono (div_lt_div_of_pos_right (by linarith) hpos)
  · intro m h
    exact norm_cdf_strictMono (div_lt_div_of_pos_right (by linarith) hpos)

/-- **C60 (equal means).** -/
theorem C60_equal (m s1 s2 : ℝ) : stressStrengthNormal m s1 m s2 = 1 / 2 := by
  have h := norm_cdf_neg 0
  rw [neg_zero] at h
  simp only [stressStrengthNormal, sub_self, neg_zero, zero_div]
  linarith

/-- **C60 (swap).** Swapping stress and strength gives the complement. -/
theorem C60_swap (m1 s1 m2 s2 : ℝ) : stressStrengthNormal m2 s2 m1 s1 = 1 - stressStrengthNormal m1 s1 m2 s2 := by
  unfold stressStrengthNormal
  rw [← norm_cdf_neg, add_comm (s1 ^ 2)]
  congr 1
  rw [← neg_div]
  congr 1
  ring

/-- Concrete, non-trivial instance: independent normal variables exist with any parameters. -/
example : ∃ (P : Measure (ℝ × ℝ)) (_ : IsProbabilityMeasure P),
    (P {ω | ω.2 < ω.1}).toReal = stressStrengthNormal 1 2 3 4 := by
  refine ⟨(gaussianReal 1 (.mk (2 ^ 2) (sq_nonneg _))).prod (gaussianReal 3 (.mk (4 ^ 2) (sq_nonneg _))), inferInstance,
    C60_probability _ Prod.fst Prod.snd 1 2 3 4 (by norm_num) (by norm_num) ⟨by fun_prop, ?_⟩ ⟨by fun_prop, ?_⟩ ?_⟩
  · simp
  · simp
  · exact indepFun_prod measurable_id measurable_id

/-! ## C75: stress_strength -/

theorem trapezoid_points (x : ℕ → ℝ) (g : ℝ → ℝ) (m : ℕ) :
    ∀ k, trapezoid ((List.range (m + 1)).map fun i => x (k + i)) (((List.range (m + 1)).map fun i => x (k + i)).map g) =
      ∑ i ∈ Finset.range m, (x (k + i + 1) - x (k + i)) * (g (x (k + i)) + g (x (k + i + 1))) / 2 := by
  induction m with
  | zero => intro k; simp [trapezoid]
  | succ m ih =>
    intro k
    have hl : (List.range (m + 1 + 1)).map (fun i => x (k + i)) =
        x k :: (List.range (m + 1)).map fun i => x (k + 1 + i) := by
      rw [List.range_succ_eq_map, List.map_cons, List.map_map]
      congr 1
      refine List.map_congr_left fun i _ => ?_
      simp only [Function.comp, Nat.succ_eq_add_one]
      congr 1; omega
    have hl2 : ((List.range (m + 1)).map fun i => x (k + 1 + i)) =
        x (k + 1) :: ((List.range m).map fun i => x (k + 1 + (i + 1))) := by
      rw [List.range_succ_eq_map, List.map_cons, List.map_map]; rfl
    rw [hl, Finset.sum_range_succ']
    have := ih (k + 1)
    rw [hl2] at this ⊢
    simp only [List.map_cons, trapezoid]
    simp only [List.map_cons] at this
    rw [this, add_comm]
    congr 1
    refine Finset.sum_congr rfl fun i _ => ?_
    rw [show k + 1 + i = k + (i + 1) by omega]

/-- `np.trapezoid` on a `linspace` grid is the trapezoidal rule. -/
theorem trapezoid_linspace (g : ℝ → ℝ) (a b : ℝ) (n : ℕ) (hn : 2 ≤ n) :
    trapezoid (Np.linspace a b n) ((Np.linspace a b n).map g) = trapezoidal_integral g (n - 1) a b := by
  obtain ⟨m, rfl⟩ : ∃ m, n = m + 2 := ⟨n - 2, by omega⟩
  have hm : ((m + 1 : ℕ) : ℝ) ≠ 0 := by positivity
  have h := trapezoid_points (fun i => a + (i : ℝ) * ((b - a) / ((m + 1 : ℕ) : ℝ))) g (m + 1) 0
  have e : Np.linspace a b (m + 2) = (List.range (m + 1 + 1)).map fun i : ℕ =>
      a + ((0 + i : ℕ) : ℝ) * ((b - a) / ((m + 1 : ℕ) : ℝ)) := by
    simp [Np.linspace]
  rw [e, h, show m + 2 - 1 = m + 1 by omega]
  have hs := sum_trapezoidal_integral_adjacent_intervals (f := g) (N := m + 1) (a := a)
    (h := (b - a) / ((m + 1 : ℕ) : ℝ)) (by omega)
  rw [mul_div_cancel₀ _ hm, add_sub_cancel] at hs
  rw [← hs]
  refine Finset.sum_congr rfl fun i _ => ?_
  rw [trapezoidal_integral_one]
  push_cast
  ring_nf

/-- The ends of the integration range. -/
noncomputable def loEnd (stress strength : Dist) : ℝ := min (stress.sp.ppf (1 / 10 ^ 8)) (strength.sp.ppf (1 / 10 ^ 8))
noncomputable def hiEnd (stress strength : Dist) : ℝ :=
  max (stress.sp.ppf (1 - 1 / 10 ^ 8)) (strength.sp.ppf (1 - 1 / 10 ^ 8))

/-- The integrand: density of the strength times probability that the stress exceeds it. -/
noncomputable def integrand (stress strength : Dist) (x : ℝ) : ℝ := strength.sp.pdf x * stress.sp.sf x

theorem zipWith_map_mul (f g : ℝ → ℝ) (l : List ℝ) :
    List.zipWith (· * ·) (l.map f) (l.map g) = l.map fun x => f x * g x := by
  induction l with
  | nil => rfl
  | cons a l ih => simp

/-- **C75 (what is returned).** If `stress_strength` returns, the value is the trapezoidal rule with `n - 1` trapezoids
for the integral of (density of strength) × (survival of stress) between the extreme quantiles; it returns unless one
of the two distributions refuses the integration range, and then raises ValueError. -/
theorem C75_trapezoidal (n : ℕ) (hn : 2 ≤ n) (stress strength : Dist) :
    (TakesX strength.fam (Np.linspace (loEnd stress strength) (hiEnd stress strength) n) →
      TakesX stress.fam (Np.linspace (loEnd stress strength) (hiEnd stress strength) n) →
      stressStrength n stress strength =
        .ok (trapezoidal_integral (integrand stress strength) (n - 1) (loEnd stress strength) (hiEnd stress strength))) ∧
    (¬ (TakesX strength.fam (Np.linspace (loEnd stress strength) (hiEnd stress strength) n) ∧
      TakesX stress.fam (Np.linspace (loEnd stress strength) (hiEnd stress strength) n)) →
      stressStrength n stress strength = .error .valueError) := by
  have hx : Np.linspace (min (stress.sp.ppf (1 / 10 ^ 8)) (strength.sp.ppf (1 / 10 ^ 8)))
      (max (strength.sp.ppf (1 - 1 / 10 ^ 8)) (stress.sp.ppf (1 - 1 / 10 ^ 8))) n =
      Np.linspace (loEnd stress strength) (hiEnd stress strength) n := by
    rw [loEnd, hiEnd, max_comm]
  rw [← Props.Distributions.checkX_ok, ← Props.Distributions.checkX_ok]
  constructor
  · intro h1 h2
    unfold stressStrength
    simp only [hx, PDF, SF, h1, h2]
    rw [zipWith_map_mul, ← trapezoid_linspace _ _ _ _ hn]
    rfl
  · intro h
    unfold stressStrength
    simp only [hx, PDF, SF]
    by_cases h1 : checkX strength.fam (Np.linspace (loEnd stress strength) (hiEnd stress strength) n) = .ok ()
    · have h2 : checkX stress.fam (Np.linspace (loEnd stress strength) (hiEnd stress strength) n) ≠ .ok () :=
        fun h2 => h ⟨h1, h2⟩
      rw [h1, Props.Distributions.checkX_err _ _ h2]
    · rw [Props.Distributions.checkX_err _ _ h1]

theorem trapezoid_nonneg : ∀ (x y : List ℝ), x.Pairwise (· ≤ ·) → (∀ v ∈ y, 0 ≤ v) → 0 ≤ trapezoid x y
  | [], _, _, _ => by simp [trapezoid]
  | [_], _, _, _ => by simp [trapezoid]
  | _ :: _ :: _, [], _, _ => by simp [trapezoid]
  | _ :: _ :: _, [_], _, _ => by simp [trapezoid]
  | x0 :: x1 :: xs, y0 :: y1 :: ys, hx, hy => by
    rw [trapezoid]
    have h1 : x0 ≤ x1 := (List.pairwise_cons.1 hx).1 x1 (by simp)
    have h2 := trapezoid_nonneg (x1 :: xs) (y1 :: ys) (List.pairwise_cons.1 hx).2 (fun v hv => hy v (by simp at hv ⊢; tauto))
    have h3 := hy y0 (by simp)
    have h4 := hy y1 (by simp)
    have : 0 ≤ (x1 - x0) * (y0 + y1) := mul_nonneg (by linarith) (by linarith)
    linarith

/-- **C75 (non-negative).** With a non-negative density and survival function the result is non-negative. -/
theorem C75_nonneg (n : ℕ) (stress strength : Dist) (hf : ∀ x, 0 ≤ strength.sp.pdf x)
    (hS : SurvivalLaw stress.sp.cdf stress.sp.sf)
    (hle : loEnd stress strength < hiEnd stress strength) (r : ℝ) (h : stressStrength n stress strength = .ok r) : 0 ≤ r := by
  unfold stressStrength at h
  simp only [PDF, SF] at h
  split at h
  · cases h
  · rename_i f hfq
    split at hfq
    · cases hfq
    · cases hfq
      split at h
      · cases h
      · rename_i S hSq
        split at hSq
        · cases hSq
        · cases hSq
          rw [← Except.ok.inj h, zipWith_map_mul]
          refine trapezoid_nonneg _ _ ?_ ?_
          · refine (Np.linspace_strictMono ?_).imp le_of_lt
            rw [loEnd, hiEnd, max_comm] at hle; exact hle
          · intro v hv
            obtain ⟨x, -, rfl⟩ := List.mem_map.1 hv
            have h1 := hS.compl x
            have h2 := (hS.range x).2
            exact mul_nonneg (hf x) (by linarith)

/-- **C75 (accuracy).** If the integrand is twice continuously differentiable on the range with second derivative at
most `ζ`, the result is within `(hi-lo)³·ζ / (12·(n-1)²)` of the integral; the library uses `n = 1000000`. -/
theorem C75_accuracy (n : ℕ) (hn : 2 ≤ n) (stress strength : Dist) (ζ r : ℝ)
    (hc : ContDiffOn ℝ 2 (integrand stress strength) (Set.uIcc (loEnd stress strength) (hiEnd stress strength)))
    (hz : ∀ x, |iteratedDerivWithin 2 (integrand stress strength)
      (Set.uIcc (loEnd stress strength) (hiEnd stress strength)) x| ≤ ζ)
    (h : stressStrength n stress strength = .ok r) :
    |r - ∫ x in (loEnd stress strength)..(hiEnd stress strength), integrand stress strength x| ≤
      |hiEnd stress strength - loEnd stress strength| ^ 3 * ζ / (12 * ((n - 1 : ℕ) : ℝ) ^ 2) := by
  have hr : r = trapezoidal_integral (integrand stress strength) (n - 1) (loEnd stress strength) (hiEnd stress strength) := by
    obtain ⟨ht, he⟩ := C75_trapezoidal n hn stress strength
    by_cases hk : TakesX strength.fam (Np.linspace (loEnd stress strength) (hiEnd stress strength) n) ∧
      TakesX stress.fam (Np.linspace (loEnd stress strength) (hiEnd stress strength) n)
    · rw [ht hk.1 hk.2] at h
      exact (Except.ok.inj h).symm
    · rw [he hk] at h; cases h
  rw [hr]
  exact trapezoidal_error_le_of_c2 hc hz (by omega)

/-- **C75, finding.** Mixing a Normal (or Gumbel) distribution with one that only accepts non-negative values: as soon
as the 1e-8 quantile of either is negative, `stress_strength` raises ValueError. -/
theorem C75_mixed_finding (n : ℕ) (hn : 2 ≤ n) (stress strength : Dist) (h1 : strength.fam ≠ .normal)
    (h2 : strength.fam ≠ .gumbel) (hneg : stress.sp.ppf (1 / 10 ^ 8) < 0) :
    stressStrength n stress strength = .error .valueError := by
  refine (C75_trapezoidal n hn stress strength).2 fun h => ?_
  have := h.1.2.1 h1 h2 (loEnd stress strength)
    (List.mem_of_getElem? (Np.linspace_first _ _ n (by omega)))
  have hlo : loEnd stress strength ≤ stress.sp.ppf (1 / 10 ^ 8) := min_le_left _ _
  linarith

/-- The finding is met: a standard normal stress against any Weibull strength. -/
example : stressStrength 1000000 (normal 0 1) (weibull 5 2 0) = .error .valueError := by
  refine C75_mixed_finding _ (by norm_num) _ _ (by simp [weibull]) (by simp [weibull]) ?_
  have hq := (Props.Distributions.C34_normal 0 1 one_pos).cdf_quantile (1 / 10 ^ 8) (by norm_num) (by norm_num)
  have hm := (Props.Distributions.C33_normal 0 1 one_pos).mono
  have h0 : (normal 0 1).sp.cdf 0 = 1 / 2 := by
    have := norm_cdf_neg 0
    rw [neg_zero] at this
    simp only [normal, ofScipy, locScale, sub_self, zero_div]
    linarith
  by_contra hge
  have := hm (not_lt.1 hge)
  rw [hq, h0] at this
  norm_num at this

/-- Two normals are always accepted (and `C75_nonneg` applies). -/
example : ∃ r, stressStrength 1000000 (normal 0 1) (normal 5 2) = .ok r := by
  have h : ∀ m s, TakesX (normal m s).fam
      (Np.linspace (loEnd (normal 0 1) (normal 5 2)) (hiEnd (normal 0 1) (normal 5 2)) 1000000) := by
    intro m s
    refine ⟨?_, fun h => absurd rfl h, fun h => by cases h⟩
    intro hnil
    have := congrArg List.length hnil
    rw [Np.linspace_length] at this
    simp at this
  exact ⟨_, (C75_trapezoidal 1000000 (by norm_num) _ _).1 (h 5 2) (h 0 1)⟩

end Reliability.Props

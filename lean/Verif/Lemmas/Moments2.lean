import Verif.Lemmas.Moments
import Mathlib.Analysis.MellinTransform
import Mathlib.NumberTheory.Harmonic.GammaDeriv
import Mathlib.Analysis.Calculus.LHopital
import Mathlib.Analysis.SpecialFunctions.Trigonometric.Deriv
import Mathlib.Analysis.SpecialFunctions.ImproperIntegrals

/-!
# Lemmas on moments: normal, lognormal, log-logistic and Gumbel laws
-/

namespace Reliability.Distributions

open Reliability Spec Filter Topology MeasureTheory

/-! ## Normal -/

theorem norm_int (k : ℕ) : Integrable (fun x : ℝ => x ^ k * normStdPdf x) := by
  have h : Integrable (fun x : ℝ => x ^ (k:ℝ) * Real.exp (-(1/2) * x ^ 2)) :=
    integrable_rpow_mul_exp_neg_mul_sq (by norm_num) (by have : (0:ℝ) ≤ k := Nat.cast_nonneg k; linarith)
  refine (h.div_const (Real.sqrt (2 * Real.pi))).congr (ae_of_all _ fun x => ?_)
  simp only [normStdPdf, Real.rpow_natCast]
  rw [show -(1/2) * x ^ 2 = -(x ^ 2) / 2 by ring]; ring

theorem norm_odd (k : ℕ) (hk : Odd k) : HasInt (fun x : ℝ => x ^ k * normStdPdf x) 0 := by
  refine ⟨norm_int k, ?_⟩
  have h := integral_neg_eq_self (fun x : ℝ => x ^ k * normStdPdf x) volume
  have h2 : ∀ x : ℝ, (-x) ^ k * normStdPdf (-x) = -(x ^ k * normStdPdf x) := by
    intro x; rw [hk.neg_pow]; simp [normStdPdf]
  simp only [h2, integral_neg] at h
  linarith

theorem norm_even (k : ℕ) (hk : Even k) : HasInt (fun x : ℝ => x ^ k * normStdPdf x)
    ((1 / 2 : ℝ) ^ (-((k:ℝ) + 1) / 2) * Real.Gamma (((k:ℝ) + 1) / 2) / Real.sqrt (2 * Real.pi)) := by
  refine ⟨norm_int k, ?_⟩
  have h1 := integral_comp_abs (f := fun x : ℝ => x ^ k * normStdPdf x)
  have h2 : ∀ x : ℝ, |x| ^ k * normStdPdf |x| = x ^ k * normStdPdf x := by
    intro x; rw [hk.pow_abs]; simp [normStdPdf, sq_abs]
  simp only [h2] at h1
  have h3 : ∫ x in Set.Ioi (0:ℝ), x ^ k * normStdPdf x =
      (∫ x in Set.Ioi (0:ℝ), x ^ (k:ℝ) * Real.exp (-(1/2) * x ^ (2:ℝ))) / Real.sqrt (2 * Real.pi) := by
    rw [← integral_div]
    refine setIntegral_congr_fun measurableSet_Ioi (fun x hx => ?_)
    simp only [normStdPdf, Real.rpow_natCast, Real.rpow_two]
    rw [show -(1/2) * x ^ 2 = -(x ^ 2) / 2 by ring]; ring
  rw [h1, h3, integral_rpow_mul_exp_neg_mul_rpow (by norm_num)
    (by have : (0:ℝ) ≤ k := Nat.cast_nonneg k; linarith) (by norm_num)]
  ring

theorem norm_raw : Raw normStdPdf (fun k => if k = 0 then 1 else if k = 2 then 1 else if k = 4 then 3 else 0)
    4 := by
  have hs : (1/2:ℝ) ^ (-(1:ℝ) / 2) = Real.sqrt 2 := by
    rw [show (1/2:ℝ) = 2⁻¹ by norm_num, Real.inv_rpow (by norm_num), ← Real.rpow_neg (by norm_num),
      Real.sqrt_eq_rpow]
    norm_num
  have hpi : Real.sqrt (2 * Real.pi) = Real.sqrt 2 * Real.sqrt Real.pi := Real.sqrt_mul (by norm_num) _
  have h2 : 0 < Real.sqrt 2 := by positivity
  have hp : 0 < Real.sqrt Real.pi := Real.sqrt_pos.2 Real.pi_pos
  have hG3 : Real.Gamma (3 / 2) = 1 / 2 * Real.sqrt Real.pi := by
    rw [show (3:ℝ)/2 = 1/2 + 1 by norm_num, Real.Gamma_add_one (by norm_num), Real.Gamma_one_half_eq]
  have hG5 : Real.Gamma (5 / 2) = 3 / 4 * Real.sqrt Real.pi := by
    rw [show (5:ℝ)/2 = 3/2 + 1 by norm_num, Real.Gamma_add_one (by norm_num), hG3]; ring
  have hp3 : (1/2:ℝ) ^ (-(3:ℝ) / 2) = 2 * Real.sqrt 2 := by
    rw [show -(3:ℝ)/2 = -1/2 + (-1:ℝ) by norm_num, Real.rpow_add (by norm_num), hs, Real.rpow_neg_one]
    norm_num; ring
  have hp5 : (1/2:ℝ) ^ (-(5:ℝ) / 2) = 4 * Real.sqrt 2 := by
    rw [show -(5:ℝ)/2 = -3/2 + (-1:ℝ) by norm_num, Real.rpow_add (by norm_num), hp3, Real.rpow_neg_one]
    norm_num; ring
  intro k hk
  interval_cases k
  · refine ⟨norm_int 0, ?_⟩; simpa using normStd_density.total
  · simpa using norm_odd 1 (by decide)
  · have := norm_even 2 (by decide)
    refine this.congr (fun _ => rfl) ?_
    push_cast
    rw [show -((2:ℝ) + 1) / 2 = -3 / 2 by norm_num, show ((2:ℝ) + 1) / 2 = 3 / 2 by norm_num, hp3, hG3, hpi]
    norm_num
    field_simp
  · simpa using norm_odd 3 (by decide)
  · have := norm_even 4 (by decide)
    refine this.congr (fun _ => rfl) ?_
    push_cast
    rw [show -((4:ℝ) + 1) / 2 = -5 / 2 by norm_num, show ((4:ℝ) + 1) / 2 = 5 / 2 by norm_num, hp5, hG5, hpi]
    norm_num
    field_simp

/-! ## Change of variable `z = exp (s y)` -/

theorem image_exp_mul {s : ℝ} (hs : 0 < s) : (fun y => Real.exp (s * y)) '' Set.univ = Set.Ioi 0 := by
  ext z
  simp only [Set.image_univ, Set.mem_range, Set.mem_Ioi]
  constructor
  · rintro ⟨y, rfl⟩; exact Real.exp_pos _
  · intro hz; exact ⟨Real.log z / s, by rw [mul_div_cancel₀ _ hs.ne', Real.exp_log hz]⟩

theorem hasInt_exp_mul {s a : ℝ} (hs : 0 < s) (g : ℝ → ℝ)
    (h : HasInt (fun y => s * Real.exp (s * y) * g (Real.exp (s * y))) a) :
    IntegrableOn g (Set.Ioi 0) ∧ ∫ z in Set.Ioi 0, g z = a := by
  have hd : ∀ y ∈ (Set.univ : Set ℝ), HasDerivWithinAt (fun y => Real.exp (s * y)) (s * Real.exp (s * y))
      Set.univ y := by
    intro y _
    have := ((hasDerivAt_id y).const_mul s).exp
    simp only [id, mul_one] at this
    rw [mul_comm s]; exact this.hasDerivWithinAt
  have hinj : Set.InjOn (fun y => Real.exp (s * y)) Set.univ := by
    intro x _ y _ hxy
    exact mul_left_cancel₀ hs.ne' (Real.exp_injective hxy)
  have hab : ∀ y, |s * Real.exp (s * y)| • g (Real.exp (s * y)) =
      s * Real.exp (s * y) * g (Real.exp (s * y)) := by
    intro y; rw [abs_of_pos (by positivity), smul_eq_mul]
  have h1 := integrableOn_image_iff_integrableOn_abs_deriv_smul MeasurableSet.univ hd hinj g
  have h2 := integral_image_eq_integral_abs_deriv_smul MeasurableSet.univ hd hinj g
  rw [image_exp_mul hs] at h1 h2
  simp only [hab] at h1 h2
  refine ⟨h1.2 h.1.integrableOn, ?_⟩
  rw [h2, setIntegral_univ, h.2]

theorem lognorm_raw {s : ℝ} (hs : 0 < s) (n : ℕ) :
    Raw (lognormStd s).pdf (fun k => Real.exp ((k * s) ^ 2 / 2)) n := by
  intro k _
  obtain ⟨hi, he⟩ := hasInt_exp_mul (a := Real.exp ((k * s) ^ 2 / 2)) hs
    (fun z => z ^ k * (normStdPdf (Real.log z / s) / (s * z))) (by
      have h0 : HasInt normStdPdf 1 := ⟨normStd_density.int, normStd_density.total⟩
      refine ((h0.affine (k * s) 1 one_pos).smul (Real.exp ((k * s) ^ 2 / 2))).congr (fun y => ?_) (by ring)
      have hy := Real.exp_pos (s * y)
      rw [Real.log_exp, mul_div_cancel_left₀ _ hs.ne', div_one]
      have e : Real.exp (s * y) ^ k * normStdPdf y =
          Real.exp ((k * s) ^ 2 / 2) * normStdPdf (y - k * s) := by
        simp only [normStdPdf]
        rw [← Real.exp_nat_mul, mul_div_assoc', mul_div_assoc', ← Real.exp_add, ← Real.exp_add]
        congr 2; ring
      rw [← e]; field_simp)
  refine hasInt_of_Ioi (fun x hx => ?_) (fun x hx => ?_) hi he
  · simp [lognormStd, hx.le]
  · simp only [lognormStd, if_neg (not_le.2 hx)]

/-! ## Log-logistic -/

theorem fisk_hasInt {c : ℝ} (hc : 0 < c) (k : ℕ) (hk : (k:ℝ) < c) :
    HasInt (fun z => z ^ k * (fiskStd c).pdf z) (betaFn (1 + k / c) (1 - k / c)) := by
  have hp0 : (0:ℝ) ≤ k / c := by positivity
  have hp1 : (k:ℝ) / c < 1 := by rwa [div_lt_one hc]
  set p : ℝ := k / c with hp
  have hd := betaStd_density (a := 1 + p) (b := 1 - p) (by linarith) (by linarith)
  have hB : 0 < betaFn (1 + p) (1 - p) := div_pos (mul_pos (Real.Gamma_pos_of_pos (by linarith))
    (Real.Gamma_pos_of_pos (by linarith))) (Real.Gamma_pos_of_pos (by linarith))
  set F : ℝ → ℝ := fun z => z ^ c / (1 + z ^ c) with hF
  have himg : F '' Set.Ioi 0 = Set.Ioo 0 1 := by
    ext u
    simp only [Set.mem_image, Set.mem_Ioi, Set.mem_Ioo, hF]
    constructor
    · rintro ⟨z, hz, rfl⟩
      have := Real.rpow_pos_of_pos hz c
      exact ⟨by positivity, by rw [div_lt_one (by linarith)]; linarith⟩
    · rintro ⟨h0, h1⟩
      have h3 : 0 < u / (1 - u) := div_pos h0 (by linarith)
      refine ⟨(u / (1 - u)) ^ (1 / c), Real.rpow_pos_of_pos h3 _, ?_⟩
      rw [← Real.rpow_mul h3.le, one_div_mul_cancel hc.ne', Real.rpow_one]
      have : (1 - u) ≠ 0 := by linarith
      field_simp; ring
  have hder : ∀ z ∈ Set.Ioi (0:ℝ), HasDerivWithinAt F ((fiskStd c).pdf z) (Set.Ioi 0) z := by
    intro z hz
    have hz' : (0:ℝ) < z := hz
    have h1 := ((fiskStd_hazard c).density z hz).hasDerivWithinAt (s := Set.Ioi 0)
    refine h1.congr (fun y hy => ?_) ?_
    · have hy' : (0:ℝ) < y := hy
      rw [fiskStd_cdf hy', hF]; have := Real.rpow_pos_of_pos hy' c; field_simp; ring
    · rw [fiskStd_cdf hz', hF]; have := Real.rpow_pos_of_pos hz' c; field_simp; ring
  have hinj : Set.InjOn F (Set.Ioi 0) := by
    intro x hx y hy hxy
    have hx' := Real.rpow_pos_of_pos (show (0:ℝ) < x from hx) c
    have hy' := Real.rpow_pos_of_pos (show (0:ℝ) < y from hy) c
    simp only [hF] at hxy
    rw [div_eq_div_iff (by positivity) (by positivity)] at hxy
    exact (Real.rpow_left_inj (le_of_lt hx) (le_of_lt hy) hc.ne').1 (by linarith)
  set g : ℝ → ℝ := fun u => betaFn (1 + p) (1 - p) * betaStdPdf (1 + p) (1 - p) u with hg
  have hab : ∀ z ∈ Set.Ioi (0:ℝ), |(fiskStd c).pdf z| • g (F z) = z ^ k * (fiskStd c).pdf z := by
    intro z hz
    have hz' : (0:ℝ) < z := hz
    have hzc := Real.rpow_pos_of_pos hz' c
    have hpos : 0 ≤ (fiskStd c).pdf z := by
      simp only [fiskStd, if_neg (not_lt.2 hz'.le)]
      have := Real.rpow_pos_of_pos hz' (c - 1)
      positivity
    have hFz : F z ∈ Set.Ioo 0 1 := himg ▸ Set.mem_image_of_mem F hz
    rw [abs_of_nonneg hpos, smul_eq_mul, hg, mul_comm]
    congr 1
    simp only [betaStdPdf]
    rw [if_neg (by push Not; exact ⟨hFz.1.le, hFz.2.le⟩)]
    change betaFn (1 + p) (1 - p) * (F z ^ (1 + p - 1) * (1 - F z) ^ (1 - p - 1) / betaFn (1 + p) (1 - p)) = _
    rw [mul_div_cancel₀ _ hB.ne', show 1 + p - 1 = p by ring, show 1 - p - 1 = -p by ring,
      Real.rpow_neg (by linarith [hFz.2]), ← div_eq_mul_inv, ← Real.div_rpow hFz.1.le (by linarith [hFz.2])]
    have : F z / (1 - F z) = z ^ c := by
      simp only [hF]; field_simp; ring
    rw [this, ← Real.rpow_mul hz'.le, hp, mul_div_cancel₀ _ hc.ne', Real.rpow_natCast]
  have hgint : HasInt g (betaFn (1 + p) (1 - p)) := by
    have := (show HasInt (betaStdPdf (1 + p) (1 - p)) 1 from ⟨hd.int, hd.total⟩).smul (betaFn (1 + p) (1 - p))
    rwa [mul_one] at this
  have h1 := integrableOn_image_iff_integrableOn_abs_deriv_smul measurableSet_Ioi hder hinj g
  have h2 := integral_image_eq_integral_abs_deriv_smul measurableSet_Ioi hder hinj g
  rw [himg] at h1 h2
  have hg0 : ∀ᵐ u, u ∉ Set.Ioo (0:ℝ) 1 → g u = 0 := by
    filter_upwards [hd.null] with u hu hn
    rw [hg]; simp only; rw [hu hn, mul_zero]
  have hgi : ∫ u in Set.Ioo (0:ℝ) 1, g u = betaFn (1 + p) (1 - p) := by
    rw [setIntegral_eq_integral_of_ae_compl_eq_zero hg0, hgint.2]
  refine hasInt_of_Ioi (h := fun z => z ^ k * (fiskStd c).pdf z) (fun x hx => ?_) (fun _ _ => rfl) ?_ ?_
  · simp [fiskStd, hx]
  · exact (h1.1 hgint.1.integrableOn).congr_fun hab measurableSet_Ioi
  · rw [← setIntegral_congr_fun measurableSet_Ioi hab, ← h2, hgi]

/-- The `k`-th moment of the log-logistic law diverges when `c ≤ k`. -/
theorem fisk_not_int {c : ℝ} (hc : 0 < c) (k : ℕ) (hk : c ≤ k) :
    ¬ Integrable (fun z => z ^ k * (fiskStd c).pdf z) := by
  intro h
  have h1 : IntegrableOn (fun z : ℝ => z ^ ((k:ℝ) - c - 1)) (Set.Ioi 1) := by
    refine Integrable.mono' ((h.integrableOn (s := Set.Ioi 1)).const_mul (4 / c)) ?_ ?_
    · refine (ContinuousOn.aestronglyMeasurable (fun z hz => ?_) measurableSet_Ioi)
      have hz' : (0:ℝ) < z := lt_trans one_pos hz
      exact (Real.continuousAt_rpow_const z _ (Or.inl hz'.ne')).continuousWithinAt
    · refine (ae_restrict_iff' measurableSet_Ioi).2 (ae_of_all _ fun z hz => ?_)
      have hz1 : (1:ℝ) < z := hz
      have hz0 : (0:ℝ) < z := by linarith
      simp only [fiskStd, if_neg (not_lt.2 hz0.le)]
      rw [Real.norm_of_nonneg (Real.rpow_nonneg hz0.le _)]
      have hzc : 1 ≤ z ^ c := Real.one_le_rpow hz1.le hc.le
      have e : z ^ ((k:ℝ) - c - 1) = z ^ k * z ^ (c - 1) / (z ^ c) ^ 2 := by
        rw [← Real.rpow_natCast z k, ← Real.rpow_add hz0, ← Real.rpow_natCast (z ^ c) 2,
          ← Real.rpow_mul hz0.le, ← Real.rpow_sub hz0]
        congr 1; push_cast; ring
      rw [e]
      have hnum : 0 ≤ z ^ k * z ^ (c - 1) := mul_nonneg (by positivity) (Real.rpow_nonneg hz0.le _)
      have e2 : 4 / c * (z ^ k * (c * z ^ (c - 1) / (1 + z ^ c) ^ 2)) =
          z ^ k * z ^ (c - 1) / ((1 + z ^ c) ^ 2 / 4) := by field_simp
      rw [e2]
      refine div_le_div_of_nonneg_left hnum (by positivity) ?_
      nlinarith
  have := (integrableOn_Ioi_rpow_iff (s := (k:ℝ) - c - 1) one_pos).1 h1
  linarith

end Reliability.Distributions

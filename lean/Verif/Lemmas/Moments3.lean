import Verif.Lemmas.Moments2

/-!
# Lemmas on moments: the Gumbel law (`Γ'(1) = -γ`, `Γ''(1) = γ² + π²/6`)
-/

namespace Reliability.Distributions

open Reliability Spec Filter Topology MeasureTheory Asymptotics

/-- `log^k t * exp(-t)` as a complex function -/
noncomputable def logE (k : ℕ) (t : ℝ) : ℂ := ((Real.log t ^ k * Real.exp (-t) : ℝ) : ℂ)

theorem logE_succ (k : ℕ) : logE (k + 1) = fun t => Real.log t • logE k t := by
  funext t
  simp only [logE, Complex.real_smul, ← Complex.ofReal_mul]
  congr 1; ring

theorem logE_loc (k : ℕ) : LocallyIntegrableOn (logE k) (Set.Ioi 0) := by
  refine ContinuousOn.locallyIntegrableOn ?_ measurableSet_Ioi
  refine Complex.continuous_ofReal.comp_continuousOn (ContinuousOn.mul ?_ (by fun_prop))
  exact (Real.continuousOn_log.mono (fun x hx => ne_of_gt hx)).pow k

theorem logE_top (k : ℕ) : ∀ a : ℝ, logE k =O[atTop] (fun t : ℝ => t ^ (-a)) := by
  induction k with
  | zero =>
    intro a
    rw [← isBigO_norm_left]
    simp only [logE, pow_zero, one_mul, Complex.norm_real, isBigO_norm_left]
    simpa only [neg_one_mul] using (isLittleO_exp_neg_mul_rpow_atTop zero_lt_one (-a)).isBigO
  | succ k ih =>
    intro a
    rw [logE_succ]
    exact isBigO_rpow_top_log_smul (lt_add_one a) (ih (a + 1))

theorem logE_bot (k : ℕ) : ∀ b : ℝ, 0 < b → logE k =O[𝓝[>] 0] (fun t : ℝ => t ^ (-b)) := by
  have h0 : logE 0 =O[𝓝[>] 0] (fun t : ℝ => t ^ (-(0:ℝ))) := by
    simp_rw [neg_zero, Real.rpow_zero]
    refine isBigO_const_of_tendsto (?_ : Tendsto _ _ (𝓝 (1 : ℂ))) one_ne_zero
    have : Continuous (logE 0) := by
      have e : logE 0 = fun t : ℝ => ((Real.exp (-t) : ℝ) : ℂ) := by funext t; simp [logE]
      rw [e]; fun_prop
    have h := this.tendsto 0
    simp only [logE, pow_zero, one_mul, neg_zero, Real.exp_zero, Complex.ofReal_one] at h
    exact h.mono_left nhdsWithin_le_nhds
  induction k with
  | zero =>
    intro b hb
    refine h0.trans ?_
    simp_rw [neg_zero, Real.rpow_zero]
    refine IsBigO.of_bound 1 ?_
    filter_upwards [Ioo_mem_nhdsGT (show (0:ℝ) < 1 by norm_num)] with t ht
    rw [Real.norm_of_nonneg (Real.rpow_nonneg ht.1.le _), norm_one, one_mul]
    exact Real.one_le_rpow_of_pos_of_le_one_of_nonpos ht.1 ht.2.le (by linarith)
  | succ k ih =>
    intro b hb
    rw [logE_succ]
    exact isBigO_rpow_zero_log_smul (show b / 2 < b by linarith) (ih (b / 2) (by linarith))

theorem logE_deriv (k : ℕ) {s : ℂ} (hs : 0 < s.re) :
    MellinConvergent (logE (k + 1)) s ∧ HasDerivAt (mellin (logE k)) (mellin (logE (k + 1)) s) s := by
  rw [logE_succ]
  exact mellin_hasDerivAt_of_isBigO_rpow (logE_loc k) (logE_top k (s.re + 1)) (lt_add_one _)
    (logE_bot k (s.re / 2) (by linarith)) (by linarith)

/-- `∫ t^(x-1) log^k t exp(-t)` -/
noncomputable def GD (k : ℕ) (x : ℝ) : ℝ := (mellin (logE k) x).re

theorem GD_deriv (k : ℕ) {x : ℝ} (hx : 0 < x) : HasDerivAt (GD k) (GD (k + 1) x) x :=
  (logE_deriv k (s := (x:ℂ)) (by simpa using hx)).2.real_of_complex

theorem GD_zero {x : ℝ} (hx : 0 < x) : GD 0 x = Real.Gamma x := by
  have h : mellin (logE 0) x = Complex.Gamma x := by
    rw [Complex.Gamma_eq_integral (by simpa using hx), Complex.GammaIntegral_eq_mellin]
    congr 1; funext t; simp [logE]
  rw [GD, h, Complex.Gamma_ofReal, Complex.ofReal_re]

theorem GD_at_one (k : ℕ) (hk : 1 ≤ k) :
    IntegrableOn (fun t : ℝ => Real.log t ^ k * Real.exp (-t)) (Set.Ioi 0) ∧
    ∫ t in Set.Ioi (0:ℝ), Real.log t ^ k * Real.exp (-t) = GD k 1 := by
  obtain ⟨j, rfl⟩ : ∃ j, k = j + 1 := ⟨k - 1, by omega⟩
  have hc := (logE_deriv j (s := ((1:ℝ):ℂ)) (by simp)).1
  have hi : IntegrableOn (logE (j + 1)) (Set.Ioi 0) := by
    have := hc
    simp only [MellinConvergent, Complex.ofReal_one, sub_self, Complex.cpow_zero, one_smul] at this
    exact this
  have hi' : IntegrableOn (fun t : ℝ => Real.log t ^ (j+1) * Real.exp (-t)) (Set.Ioi 0) := by
    have := hi.re
    simp only [logE, RCLike.re_to_complex, Complex.ofReal_re] at this
    exact this
  refine ⟨hi', ?_⟩
  have : mellin (logE (j+1)) ((1:ℝ):ℂ) = ((∫ t in Set.Ioi (0:ℝ), Real.log t ^ (j+1) * Real.exp (-t) : ℝ) : ℂ) := by
    rw [← integral_complex_ofReal, mellin]
    simp only [Complex.ofReal_one, sub_self, Complex.cpow_zero, one_smul]
    rfl
  rw [GD, this, Complex.ofReal_re]

theorem GD_one_one : GD 1 1 = -Real.eulerMascheroniConstant := by
  have h1 := GD_deriv 0 (x := 1) one_pos
  have h2 : HasDerivAt (GD 0) (-Real.eulerMascheroniConstant) 1 := by
    refine Real.hasDerivAt_Gamma_one.congr_of_eventuallyEq ?_
    filter_upwards [lt_mem_nhds (show (0:ℝ) < 1 by norm_num)] with x hx using GD_zero hx
  exact h1.unique h2

theorem sin_limit : Tendsto (fun x : ℝ => (Real.sin x - x * Real.cos x) / x ^ 3) (𝓝[>] 0) (𝓝 (1 / 3)) := by
  refine HasDerivAt.lhopital_zero_nhdsGT (f' := fun x => x * Real.sin x) (g' := fun x => 3 * x ^ 2)
    ?_ ?_ ?_ ?_ ?_ ?_
  · refine Eventually.of_forall fun x => ?_
    have := (Real.hasDerivAt_sin x).sub ((hasDerivAt_id x).mul (Real.hasDerivAt_cos x))
    refine this.congr_deriv ?_
    simp
  · refine Eventually.of_forall fun x => ?_
    simpa using hasDerivAt_pow 3 x
  · filter_upwards [self_mem_nhdsWithin] with x hx
    have : (0:ℝ) < x := hx
    positivity
  · have : Continuous (fun x : ℝ => Real.sin x - x * Real.cos x) := by fun_prop
    simpa using (this.tendsto 0).mono_left nhdsWithin_le_nhds
  · have : Continuous (fun x : ℝ => x ^ 3) := by fun_prop
    simpa using (this.tendsto 0).mono_left nhdsWithin_le_nhds
  · have h := (Real.hasDerivAt_sin 0).tendsto_slope_zero_right
    simp only [zero_add, Real.sin_zero, sub_zero, Real.cos_zero, smul_eq_mul] at h
    have h2 := h.mul_const (1 / 3)
    rw [one_mul] at h2
    refine h2.congr' ?_
    filter_upwards [self_mem_nhdsWithin] with x hx
    have : (0:ℝ) < x := hx
    field_simp

theorem GD_two_one : GD 2 1 = Real.eulerMascheroniConstant ^ 2 + Real.pi ^ 2 / 6 := by
  set F1 : ℝ → ℝ := fun s => GD 1 (1 + s) * GD 0 (1 - s) - GD 0 (1 + s) * GD 1 (1 - s) with hF1
  have hadd : ∀ s : ℝ, HasDerivAt (fun s : ℝ => 1 + s) 1 s := fun s => (hasDerivAt_id s).const_add 1
  have hsub : ∀ s : ℝ, HasDerivAt (fun s : ℝ => 1 - s) (-1) s := fun s => (hasDerivAt_id s).const_sub 1
  have hf : ∀ s, 0 < s → s < 1 → HasDerivAt (fun s => GD 0 (1 + s) * GD 0 (1 - s)) (F1 s) s := by
    intro s h0 h1
    have a1 := (GD_deriv 0 (x := 1 + s) (by linarith)).comp s (hadd s)
    have a2 := (GD_deriv 0 (x := 1 - s) (by linarith)).comp s (hsub s)
    refine (a1.mul a2).congr_deriv ?_
    simp only [hF1, Function.comp]; ring
  have hF10 : F1 0 = 0 := by simp [hF1]; ring
  have hF1d : HasDerivAt F1 (2 * (GD 2 1 - Real.eulerMascheroniConstant ^ 2)) 0 := by
    have p1 := (GD_deriv 1 (x := 1 + 0) (by norm_num)).comp 0 (hadd 0)
    have p0 := (GD_deriv 0 (x := 1 + 0) (by norm_num)).comp 0 (hadd 0)
    have m1 := (GD_deriv 1 (x := 1 - 0) (by norm_num)).comp 0 (hsub 0)
    have m0 := (GD_deriv 0 (x := 1 - 0) (by norm_num)).comp 0 (hsub 0)
    refine ((p1.mul m0).sub (p0.mul m1)).congr_deriv ?_
    simp only [Function.comp, add_zero, sub_zero, zero_add, Nat.reduceAdd]
    rw [GD_zero one_pos, Real.Gamma_one, GD_one_one]; ring
  have hexp : ∀ s, 0 < s → s < 1 → F1 s =
      Real.pi * (Real.sin (Real.pi * s) - Real.pi * s * Real.cos (Real.pi * s)) / Real.sin (Real.pi * s) ^ 2 := by
    intro s h0 h1
    have hsin : Real.sin (Real.pi * s) ≠ 0 :=
      (Real.sin_pos_of_pos_of_lt_pi (by positivity) (by nlinarith [Real.pi_pos])).ne'
    have hmul : HasDerivAt (fun s : ℝ => Real.pi * s) Real.pi s := by
      simpa using (hasDerivAt_id s).const_mul Real.pi
    have hd := hmul.div (hmul.sin) hsin
    have heq : (fun s => GD 0 (1 + s) * GD 0 (1 - s)) =ᶠ[𝓝 s] fun s => Real.pi * s / Real.sin (Real.pi * s) := by
      filter_upwards [Ioo_mem_nhds h0 h1] with t ht
      rw [GD_zero (by linarith [ht.1]), GD_zero (by linarith [ht.2]), add_comm 1 t,
        Real.Gamma_add_one ht.1.ne', mul_assoc, Real.Gamma_mul_Gamma_one_sub]
      ring
    have := (hf s h0 h1).unique (hd.congr_of_eventuallyEq heq)
    rw [this]; ring
  have hl1 : Tendsto (fun s => F1 s / s) (𝓝[>] 0) (𝓝 (2 * (GD 2 1 - Real.eulerMascheroniConstant ^ 2))) := by
    have h := hF1d.tendsto_slope_zero_right
    simp only [zero_add, hF10, sub_zero, smul_eq_mul] at h
    refine h.congr fun s => ?_
    rw [div_eq_inv_mul]
  have hl2 : Tendsto (fun s => F1 s / s) (𝓝[>] 0) (𝓝 (Real.pi ^ 2 * (1 / 3) / 1 ^ 2)) := by
    have hm : Tendsto (fun s : ℝ => Real.pi * s) (𝓝[>] 0) (𝓝[>] 0) := by
      refine tendsto_nhdsWithin_iff.2 ⟨?_, ?_⟩
      · have : Continuous (fun s : ℝ => Real.pi * s) := by fun_prop
        simpa using (this.tendsto 0).mono_left nhdsWithin_le_nhds
      · filter_upwards [self_mem_nhdsWithin] with s hs
        exact mul_pos Real.pi_pos hs
    have h1 := sin_limit.comp hm
    have h := (Real.hasDerivAt_sin 0).tendsto_slope_zero_right
    simp only [zero_add, Real.sin_zero, sub_zero, Real.cos_zero, smul_eq_mul] at h
    have h2 := h.comp hm
    have h3 := (h1.const_mul (Real.pi ^ 2)).div (h2.pow 2) (by norm_num)
    refine h3.congr' ?_
    filter_upwards [Ioo_mem_nhdsGT (show (0:ℝ) < 1 by norm_num)] with s hs
    have hs0 := hs.1
    have hsin : Real.sin (Real.pi * s) ≠ 0 :=
      (Real.sin_pos_of_pos_of_lt_pi (by positivity) (by nlinarith [Real.pi_pos, hs.2])).ne'
    rw [hexp s hs.1 hs.2]
    simp only [Function.comp, Pi.div_apply]
    have := Real.pi_pos
    field_simp
  have := tendsto_nhds_unique hl1 hl2
  linarith

theorem gumbel_hasInt (k : ℕ) (g : ℝ) (hi : IntegrableOn (fun t : ℝ => Real.log t ^ k * Real.exp (-t)) (Set.Ioi 0))
    (he : ∫ t in Set.Ioi (0:ℝ), Real.log t ^ k * Real.exp (-t) = g) :
    HasInt (fun z => z ^ k * gumbelStd.pdf z) g := by
  have hd : ∀ y ∈ (Set.univ : Set ℝ), HasDerivWithinAt Real.exp (Real.exp y) Set.univ y :=
    fun y _ => (Real.hasDerivAt_exp y).hasDerivWithinAt
  have hinj : Set.InjOn Real.exp Set.univ := Real.exp_injective.injOn
  have himg : Real.exp '' Set.univ = Set.Ioi 0 := by rw [Set.image_univ, Real.range_exp]
  have h1 := integrableOn_image_iff_integrableOn_abs_deriv_smul MeasurableSet.univ hd hinj
    (fun t : ℝ => Real.log t ^ k * Real.exp (-t))
  have h2 := integral_image_eq_integral_abs_deriv_smul MeasurableSet.univ hd hinj
    (fun t : ℝ => Real.log t ^ k * Real.exp (-t))
  have hab : ∀ y, |Real.exp y| • (Real.log (Real.exp y) ^ k * Real.exp (-Real.exp y)) =
      y ^ k * gumbelStd.pdf y := by
    intro y
    rw [abs_of_pos (Real.exp_pos y), Real.log_exp, smul_eq_mul]
    simp only [gumbelStd]
    rw [Real.exp_sub, Real.exp_neg]; field_simp
  rw [himg] at h1 h2
  simp only [hab] at h1 h2
  rw [setIntegral_univ] at h2
  exact ⟨integrableOn_univ.1 (h1.1 hi), by rw [← h2, he]⟩

theorem gumbel_raw : Raw gumbelStd.pdf (fun k => if k = 0 then 1 else GD k 1) 4 := by
  intro k _
  rcases Nat.eq_zero_or_pos k with h | h
  · subst h
    refine gumbel_hasInt 0 1 ?_ ?_
    · simpa using Real.GammaIntegral_convergent one_pos
    · have := Real.Gamma_eq_integral one_pos
      rw [Real.Gamma_one] at this
      simpa using this.symm
  · simp only [if_neg h.ne']
    exact gumbel_hasInt k _ (GD_at_one k h).1 (GD_at_one k h).2

end Reliability.Distributions

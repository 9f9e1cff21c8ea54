import Mathlib.MeasureTheory.Integral.IntegralEqImproper
import Mathlib.MeasureTheory.Integral.DominatedConvergence
import Mathlib.Probability.Distributions.Gaussian.Real
import Mathlib.Probability.Distributions.Gamma
import Mathlib.Probability.Distributions.Beta
import Verif.Lemmas.Distributions

namespace Reliability.Distributions

open Reliability Spec Filter Topology MeasureTheory

/-- `f` is a probability density, positive and continuous on the open interval `D` and null off it. -/
structure DensityOn (D : Set ℝ) (f : ℝ → ℝ) : Prop where
  int : Integrable f
  total : ∫ t, f t = 1
  nonneg : ∀ x, 0 ≤ f x
  pos : ∀ x ∈ D, 0 < f x
  cont : ∀ x ∈ D, ContinuousAt f x
  isOpen : IsOpen D
  conn : D.OrdConnected
  null : ∀ᵐ x, x ∉ D → f x = 0

namespace DensityOn

variable {D : Set ℝ} {f : ℝ → ℝ} (h : DensityOn D f)
include h

theorem compl (x : ℝ) : (ofDensity f).cdf x + (ofDensity f).sf x = 1 := by
  simp only [ofDensity]
  rw [intervalIntegral.integral_Iic_add_Ioi h.int.integrableOn h.int.integrableOn, h.total]

theorem cdf_eq (x : ℝ) : (ofDensity f).cdf x = (ofDensity f).cdf 0 + ∫ t in (0:ℝ)..x, f t := by
  simp only [ofDensity]
  rw [← intervalIntegral.integral_Iic_sub_Iic h.int.integrableOn h.int.integrableOn]; ring

theorem mono : Monotone (ofDensity f).cdf := by
  intro a b hab
  simp only [ofDensity]
  exact setIntegral_mono_set h.int.integrableOn (ae_of_all _ h.nonneg)
    (Set.Iic_subset_Iic.2 hab).eventuallyLE

theorem survival : SurvivalLaw (ofDensity f).cdf (ofDensity f).sf := by
  apply SurvivalLaw.mk' h.mono
  · have e : (ofDensity f).cdf = fun x => (ofDensity f).cdf 0 + ∫ t in (0:ℝ)..x, f t :=
      funext h.cdf_eq
    rw [e]
    exact continuous_const.add
      (intervalIntegral.continuous_primitive (fun a b => h.int.intervalIntegrable) 0)
  · exact tendsto_integral_Iic_zero tendsto_id
  · have e : (ofDensity f).cdf = fun x => 1 - ∫ t in Set.Ioi x, f t := by
      funext x
      have := h.compl x
      simp only [ofDensity] at this ⊢
      linarith
    rw [e]
    simpa using (tendsto_integral_Ioi_zero (f := f) (μ := volume) tendsto_id).const_sub 1
  · exact h.compl

theorem hasDerivAt (x : ℝ) (hx : x ∈ D) : HasDerivAt (ofDensity f).cdf (f x) x := by
  have e : (ofDensity f).cdf = fun x => (ofDensity f).cdf 0 + ∫ t in (0:ℝ)..x, f t := funext h.cdf_eq
  rw [e]
  refine HasDerivAt.const_add _ ?_
  exact intervalIntegral.integral_hasDerivAt_right h.int.intervalIntegrable
    h.int.aestronglyMeasurable.stronglyMeasurableAtFilter (h.cont x hx)

theorem strict {x z y : ℝ} (hxz : x < z) (hzy : z < y) (hz : z ∈ D) :
    (ofDensity f).cdf x < (ofDensity f).cdf y := by
  by_contra hcon
  push Not at hcon
  have hc : ∀ t, x < t → t < y → (ofDensity f).cdf t = (ofDensity f).cdf x := by
    intro t h1 h2
    exact le_antisymm ((h.mono h2.le).trans hcon) (h.mono h1.le)
  have hev : (ofDensity f).cdf =ᶠ[𝓝 z] fun _ => (ofDensity f).cdf x := by
    filter_upwards [eventually_gt_nhds hxz, eventually_lt_nhds hzy] with t h1 h2
    exact hc t h1 h2
  have h0 := (h.hasDerivAt z hz).congr_of_eventuallyEq hev.symm
  have := h0.unique (hasDerivAt_const z ((ofDensity f).cdf x))
  have := h.pos z hz
  linarith

theorem exists_left {x : ℝ} (hx : x ∈ D) (y : ℝ) (hy : y < x) : ∃ z ∈ D, y < z ∧ z < x := by
  have h1 : ∀ᶠ z in 𝓝[<] x, z ∈ D := nhdsWithin_le_nhds (h.isOpen.mem_nhds hx)
  have h2 : ∀ᶠ z in 𝓝[<] x, y < z := nhdsWithin_le_nhds (eventually_gt_nhds hy)
  have h3 : ∀ᶠ z in 𝓝[<] x, z < x := eventually_mem_nhdsWithin
  obtain ⟨z, hz⟩ := (h1.and (h2.and h3)).exists
  exact ⟨z, hz.1, hz.2.1, hz.2.2⟩

theorem exists_right {x : ℝ} (hx : x ∈ D) : ∃ z ∈ D, x < z := by
  have h1 : ∀ᶠ z in 𝓝[>] x, z ∈ D := nhdsWithin_le_nhds (h.isOpen.mem_nhds hx)
  have h3 : ∀ᶠ z in 𝓝[>] x, x < z := eventually_mem_nhdsWithin
  obtain ⟨z, hz⟩ := (h1.and h3).exists
  exact ⟨z, hz.1, hz.2⟩

theorem range (x : ℝ) (hx : x ∈ D) : 0 < (ofDensity f).cdf x ∧ (ofDensity f).cdf x < 1 := by
  obtain ⟨z, hz, hz1, hz2⟩ := h.exists_left hx (x - 1) (by linarith)
  obtain ⟨w, hw, hw2⟩ := h.exists_right hx
  constructor
  · exact lt_of_le_of_lt (h.survival.range (x - 1)).1 (h.strict hz1 hz2 hz)
  · exact lt_of_lt_of_le (h.strict hw2 (lt_add_one w) hw) (h.survival.range (w + 1)).2

theorem sf_pos (x : ℝ) (hx : x ∈ D) : 0 < (ofDensity f).sf x := by
  have := h.compl x
  have := (h.range x hx).2
  linarith

theorem off {x : ℝ} (hx : x ∉ D) : (ofDensity f).cdf x = 0 ∨ (ofDensity f).cdf x = 1 := by
  by_cases hr : ∃ d ∈ D, d < x
  · right
    obtain ⟨d, hd, hdx⟩ := hr
    have hno : ∀ y, x < y → y ∉ D := fun y hy hyD => hx (h.conn.out hd hyD ⟨hdx.le, hy.le⟩)
    have e : (ofDensity f).sf x = 0 := by
      simp only [ofDensity]
      refine integral_eq_zero_of_ae ?_
      filter_upwards [ae_restrict_mem measurableSet_Ioi, ae_restrict_of_ae h.null] with y hy hn
      exact hn (hno y hy)
    have := h.compl x
    linarith
  · left
    push Not at hr
    have hno : ∀ y, y ≤ x → y ∉ D := by
      intro y hy hyD
      rcases hy.lt_or_eq with hlt | heq
      · exact absurd (hr y hyD) (not_le.2 hlt)
      · exact hx (heq ▸ hyD)
    simp only [ofDensity]
    refine integral_eq_zero_of_ae ?_
    filter_upwards [ae_restrict_mem measurableSet_Iic, ae_restrict_of_ae h.null] with y hy hn
    exact hn (hno y hy)

theorem cdf_ppf {q : ℝ} (h0 : 0 < q) (h1 : q < 1) : (ofDensity f).cdf ((ofDensity f).ppf q) = q := by
  obtain ⟨x0, hx0⟩ : ∃ x, (ofDensity f).cdf x = q :=
    mem_range_of_exists_le_of_exists_ge h.survival.cont
      ((h.survival.bot.eventually (eventually_le_nhds h0)).exists)
      ((h.survival.top.eventually (eventually_ge_nhds h1)).exists)
  have hp : (ofDensity f).ppf q = sInf {x | q ≤ (ofDensity f).cdf x} := rfl
  have hne : {x | q ≤ (ofDensity f).cdf x}.Nonempty := ⟨x0, hx0.ge⟩
  have hcl : IsClosed {x | q ≤ (ofDensity f).cdf x} := isClosed_le continuous_const h.survival.cont
  have hbd : BddBelow {x | q ≤ (ofDensity f).cdf x} := by
    obtain ⟨b, hb⟩ := (h.survival.bot.eventually (eventually_lt_nhds h0)).exists
    refine ⟨b, fun x hx => ?_⟩
    by_contra hlt
    push Not at hlt
    exact absurd ((show q ≤ _ from hx).trans (h.mono hlt.le)) (not_le.2 hb)
  have hmem : q ≤ (ofDensity f).cdf ((ofDensity f).ppf q) := by
    rw [hp]; exact hcl.csInf_mem hne hbd
  have hle : (ofDensity f).ppf q ≤ x0 := by rw [hp]; exact csInf_le hbd hx0.ge
  exact le_antisymm ((h.mono hle).trans hx0.le) hmem

theorem ppf_cdf (x : ℝ) (hx : x ∈ D) : (ofDensity f).ppf ((ofDensity f).cdf x) = x := by
  obtain ⟨r0, r1⟩ := h.range x hx
  have e := h.cdf_ppf r0 r1
  rcases lt_trichotomy ((ofDensity f).ppf ((ofDensity f).cdf x)) x with hl | he | hg
  · obtain ⟨z, hz, hz1, hz2⟩ := h.exists_left hx _ hl
    have := h.strict hz1 hz2 hz
    linarith
  · exact he
  · have hle : (ofDensity f).ppf ((ofDensity f).cdf x) ≤ x := by
      have hp : (ofDensity f).ppf ((ofDensity f).cdf x)
        = sInf {y | (ofDensity f).cdf x ≤ (ofDensity f).cdf y} := rfl
      rw [hp]
      refine csInf_le ?_ (show (ofDensity f).cdf x ≤ (ofDensity f).cdf x from le_rfl)
      obtain ⟨b, hb⟩ := (h.survival.bot.eventually (eventually_lt_nhds r0)).exists
      refine ⟨b, fun y hy => ?_⟩
      by_contra hlt
      push Not at hlt
      exact absurd ((show _ ≤ _ from hy).trans (h.mono hlt.le)) (not_le.2 hb)
    exact absurd hle (not_le.2 hg)

theorem isf_eq (q : ℝ) : (ofDensity f).isf q = (ofDensity f).ppf (1 - q) := by
  have : {x | (ofDensity f).sf x ≤ q} = {x | 1 - q ≤ (ofDensity f).cdf x} := by
    ext x
    have := h.compl x
    simp only [Set.mem_ofPred_eq]
    constructor <;> intro <;> linarith
  exact congrArg sInf this

theorem quantile : QuantileLaw D (ofDensity f).cdf (ofDensity f).sf (ofDensity f).ppf
    (ofDensity f).isf where
  mem q h0 h1 := by
    by_contra hn
    have e := h.cdf_ppf h0 h1
    rcases h.off hn with h' | h' <;> rw [e] at h' <;> linarith
  cdf_quantile q h0 h1 := h.cdf_ppf h0 h1
  range := h.range
  quantile_cdf := h.ppf_cdf
  isf q h0 h1 := by
    refine ⟨h.isf_eq q, ?_⟩
    rw [h.isf_eq q]
    have := h.compl ((ofDensity f).ppf (1 - q))
    have e := h.cdf_ppf (q := 1 - q) (by linarith) (by linarith)
    linarith

end DensityOn

/-- `hf = pdf / sf` and `chf = -log(sf)` satisfy the hazard law for any scipy family whose distribution
function has its density as derivative. -/
theorem _root_.Reliability.Spec.HazardLaw.ofScipy {D : Set ℝ} {f F S : ℝ → ℝ} (compl : ∀ x, F x + S x = 1)
    (dens : ∀ x ∈ D, HasDerivAt F (f x) x) (pos : ∀ x ∈ D, 0 < S x) :
    HazardLaw D f F S (fun x => f x / S x) (fun x => -Real.log (S x)) where
  density := dens
  sf_pos := pos
  hazard _ _ := rfl
  cumhazard x hx := by rw [neg_neg, Real.exp_log (pos x hx)]
  deriv x hx := by
    have hS : S = fun x => 1 - F x := by funext y; have := compl y; linarith
    have hd : HasDerivAt S (-(f x)) x := by rw [hS]; exact (dens x hx).const_sub 1
    have := ((hd.log (pos x hx).ne').neg)
    refine this.congr_deriv ?_
    ring

/-! ## The three standard densities -/

theorem normStdPdf_eq : normStdPdf = ProbabilityTheory.gaussianPDFReal 0 1 := by
  funext z
  simp only [normStdPdf, ProbabilityTheory.gaussianPDFReal]
  simp
  ring

theorem normStd_density : DensityOn Set.univ normStdPdf where
  int := by rw [normStdPdf_eq]; exact ProbabilityTheory.integrable_gaussianPDFReal 0 1
  total := by rw [normStdPdf_eq]; exact ProbabilityTheory.integral_gaussianPDFReal_eq_one 0 one_ne_zero
  nonneg x := by rw [normStdPdf_eq]; exact ProbabilityTheory.gaussianPDFReal_nonneg 0 1 x
  pos x _ := by rw [normStdPdf_eq]; exact ProbabilityTheory.gaussianPDFReal_pos 0 1 x one_ne_zero
  cont x _ := by
    have : Continuous normStdPdf := by unfold normStdPdf; fun_prop
    exact this.continuousAt
  isOpen := isOpen_univ
  conn := Set.ordConnected_univ
  null := ae_of_all _ fun x hx => absurd trivial hx

theorem integrable_of_lintegral_one {f : ℝ → ℝ} (hm : AEStronglyMeasurable f) (h0 : ∀ x, 0 ≤ f x)
    (h1 : ∫⁻ x, ENNReal.ofReal (f x) = 1) : Integrable f ∧ ∫ x, f x = 1 := by
  constructor
  · refine ⟨hm, ?_⟩
    rw [hasFiniteIntegral_iff_ofReal (ae_of_all _ h0), h1]
    exact ENNReal.one_lt_top
  · rw [integral_eq_lintegral_of_nonneg_ae (ae_of_all _ h0) hm, h1]; rfl

theorem gammaStdPdf_eq (a : ℝ) : gammaStdPdf a = ProbabilityTheory.gammaPDFReal a 1 := by
  funext z
  simp only [gammaStdPdf, ProbabilityTheory.gammaPDFReal]
  by_cases h : z < 0
  · rw [if_pos h, if_neg (not_le.2 h)]
  · rw [if_neg h, if_pos (not_lt.1 h), Real.one_rpow, one_mul]; ring

theorem gammaStd_density {a : ℝ} (ha : 0 < a) : DensityOn (Set.Ioi 0) (gammaStdPdf a) := by
  have hm : Measurable (gammaStdPdf a) := by
    rw [gammaStdPdf_eq]; exact ProbabilityTheory.measurable_gammaPDFReal a 1
  have h0 : ∀ x, 0 ≤ gammaStdPdf a x := by
    rw [gammaStdPdf_eq]; exact ProbabilityTheory.gammaPDFReal_nonneg ha one_pos
  have h1 : ∫⁻ x, ENNReal.ofReal (gammaStdPdf a x) = 1 := by
    rw [gammaStdPdf_eq]; exact ProbabilityTheory.lintegral_gammaPDF_eq_one ha one_pos
  obtain ⟨hi, ht⟩ := integrable_of_lintegral_one hm.aestronglyMeasurable h0 h1
  refine ⟨hi, ht, h0, fun x hx => ?_, fun x hx => ?_, isOpen_Ioi, Set.ordConnected_Ioi, ?_⟩
  · rw [gammaStdPdf_eq]; exact ProbabilityTheory.gammaPDFReal_pos ha one_pos hx
  · have hx' : (0 : ℝ) < x := hx
    have e : gammaStdPdf a =ᶠ[𝓝 x] fun z => z ^ (a - 1) * Real.exp (-z) / Real.Gamma a := by
      filter_upwards [eventually_gt_nhds hx'] with y hy
      simp only [gammaStdPdf, if_neg (not_lt.2 hy.le)]
    refine ContinuousAt.congr ?_ e.symm
    exact ((Real.continuousAt_rpow_const x (a - 1) (Or.inl hx'.ne')).mul (by fun_prop)).div_const _
  · have h0 : ∀ᵐ x : ℝ, x ≠ 0 := by simp [ae_iff, measure_singleton]
    filter_upwards [h0] with x hx hn
    have : x < 0 := lt_of_le_of_ne (not_lt.1 hn) hx
    simp [gammaStdPdf, this]

theorem betaStdPdf_ae (a b : ℝ) : betaStdPdf a b =ᵐ[volume] ProbabilityTheory.betaPDFReal a b := by
  have h0 : ∀ᵐ x : ℝ, x ≠ 0 := by simp [ae_iff, measure_singleton]
  have h1 : ∀ᵐ x : ℝ, x ≠ 1 := by simp [ae_iff, measure_singleton]
  filter_upwards [h0, h1] with x hx0 hx1
  simp only [betaStdPdf, ProbabilityTheory.betaPDFReal, ProbabilityTheory.beta]
  by_cases h : 0 < x ∧ x < 1
  · rw [if_pos h, if_neg (by rw [not_or]; exact ⟨not_lt.2 h.1.le, not_lt.2 h.2.le⟩)]; ring
  · rw [if_neg h, if_pos]
    by_contra hc
    rw [not_or] at hc
    exact h ⟨lt_of_le_of_ne (not_lt.1 hc.1) (Ne.symm hx0), lt_of_le_of_ne (not_lt.1 hc.2) hx1⟩

theorem betaStd_density {a b : ℝ} (ha : 0 < a) (hb : 0 < b) : DensityOn (Set.Ioo 0 1) (betaStdPdf a b) := by
  have hB : 0 < Real.Gamma a * Real.Gamma b / Real.Gamma (a + b) := ProbabilityTheory.beta_pos ha hb
  have h0' : ∀ x, 0 ≤ ProbabilityTheory.betaPDFReal a b x := by
    intro x
    by_cases h : 0 < x ∧ x < 1
    · exact (ProbabilityTheory.betaPDFReal_pos h.1 h.2 ha hb).le
    · rw [ProbabilityTheory.betaPDFReal, if_neg h]
  obtain ⟨hi, ht⟩ := integrable_of_lintegral_one
    (ProbabilityTheory.measurable_betaPDFReal a b).aestronglyMeasurable h0'
    (ProbabilityTheory.lintegral_betaPDF_eq_one ha hb)
  refine ⟨hi.congr (betaStdPdf_ae a b).symm, ?_, fun x => ?_, fun x hx => ?_, fun x hx => ?_, isOpen_Ioo,
    Set.ordConnected_Ioo, ?_⟩
  · rw [integral_congr_ae (betaStdPdf_ae a b), ht]
  · simp only [betaStdPdf]
    split
    · exact le_rfl
    · rename_i h
      rw [not_or] at h
      have h1 := Real.rpow_nonneg (not_lt.1 h.1) (a - 1)
      have h2 := Real.rpow_nonneg (show 0 ≤ 1 - x by linarith [not_lt.1 h.2]) (b - 1)
      positivity
  · simp only [betaStdPdf]
    rw [if_neg (by rw [not_or]; exact ⟨not_lt.2 hx.1.le, not_lt.2 hx.2.le⟩)]
    have h1 := Real.rpow_pos_of_pos hx.1 (a - 1)
    have h2 := Real.rpow_pos_of_pos (show 0 < 1 - x by linarith [hx.2]) (b - 1)
    positivity
  · have e : betaStdPdf a b =ᶠ[𝓝 x] fun z => z ^ (a - 1) * (1 - z) ^ (b - 1) /
        (Real.Gamma a * Real.Gamma b / Real.Gamma (a + b)) := by
      filter_upwards [eventually_gt_nhds hx.1, eventually_lt_nhds hx.2] with y hy hy'
      simp only [betaStdPdf]
      rw [if_neg (by rw [not_or]; exact ⟨not_lt.2 hy.le, not_lt.2 hy'.le⟩)]
    refine ContinuousAt.congr ?_ e.symm
    refine ((Real.continuousAt_rpow_const x (a - 1) (Or.inl hx.1.ne')).mul ?_).div_const _
    have h1 : (1 : ℝ) - x ≠ 0 := by linarith [hx.2]
    exact ContinuousAt.comp (g := fun y : ℝ => y ^ (b - 1)) (f := fun z : ℝ => 1 - z)
      (Real.continuousAt_rpow_const (1 - x) (b - 1) (Or.inl h1)) (by fun_prop)
  · have h0 : ∀ᵐ x : ℝ, x ≠ 0 := by simp [ae_iff, measure_singleton]
    have h1 : ∀ᵐ x : ℝ, x ≠ 1 := by simp [ae_iff, measure_singleton]
    filter_upwards [h0, h1] with x hx0 hx1 hn
    simp only [betaStdPdf]
    rw [if_pos]
    by_contra hc
    rw [not_or] at hc
    exact hn ⟨lt_of_le_of_ne (not_lt.1 hc.1) (Ne.symm hx0), lt_of_le_of_ne (not_lt.1 hc.2) hx1⟩

/-! ## Lognormal -/

theorem lognormStd_survival {s : ℝ} (hs : 0 < s) : SurvivalLaw (lognormStd s).cdf (lognormStd s).sf := by
  have hN := normStd_density.survival
  have hd : ∀ x, 0 < x → (lognormStd s).cdf x = normStd.cdf (Real.log x / s) := by
    intro x hx; simp [lognormStd, not_le.2 hx]
  have hz : ∀ x, x ≤ 0 → (lognormStd s).cdf x = 0 := by
    intro x hx; simp [lognormStd, hx]
  apply SurvivalLaw.mk'
  · intro a b hab
    rcases le_or_gt a 0 with ha | ha
    · rw [hz a ha]
      rcases le_or_gt b 0 with hb | hb
      · rw [hz b hb]
      · rw [hd b hb]; exact (hN.range _).1
    · have hb := lt_of_lt_of_le ha hab
      rw [hd a ha, hd b hb]
      exact hN.mono (div_le_div_of_nonneg_right (Real.log_le_log ha hab) hs.le)
  · rw [continuous_iff_continuousAt]
    intro x
    rcases lt_trichotomy x 0 with hx | hx | hx
    · refine continuousAt_const.congr (f := fun _ => (0:ℝ)) ?_
      filter_upwards [eventually_lt_nhds hx] with y hy
      exact (hz y hy.le).symm
    · subst hx
      have h0 : (lognormStd s).cdf 0 = 0 := hz 0 le_rfl
      rw [ContinuousAt, h0]
      have k1 : Tendsto (lognormStd s).cdf (𝓝[≤] (0:ℝ)) (𝓝 0) := by
        refine tendsto_const_nhds.congr' (f₁ := fun _ => (0:ℝ)) ?_
        filter_upwards [eventually_mem_nhdsWithin] with y hy
        exact (hz y hy).symm
      have k2 : Tendsto (lognormStd s).cdf (𝓝[>] (0:ℝ)) (𝓝 0) := by
        have ht : Tendsto (fun y => Real.log y / s) (𝓝[>] 0) atBot :=
          Real.tendsto_log_nhdsGT_zero.atBot_div_const hs
        refine (hN.bot.comp ht).congr' ?_
        filter_upwards [eventually_mem_nhdsWithin] with y hy
        exact (hd y hy).symm
      have k := k1.sup k2
      rwa [nhdsLE_sup_nhdsGT] at k
    · have hc : ContinuousAt (fun y => normStd.cdf (Real.log y / s)) x :=
        hN.cont.continuousAt.comp ((Real.continuousAt_log hx.ne').div_const s)
      refine hc.congr ?_
      filter_upwards [eventually_gt_nhds hx] with y hy
      exact (hd y hy).symm
  · refine tendsto_const_nhds.congr' ?_
    filter_upwards [eventually_le_atBot 0] with x hx
    exact (hz x hx).symm
  · have ht : Tendsto (fun y => Real.log y / s) atTop atTop := Real.tendsto_log_atTop.atTop_div_const hs
    refine (hN.top.comp ht).congr' ?_
    filter_upwards [eventually_gt_atTop 0] with x hx
    exact (hd x hx).symm
  · intro x
    rcases le_or_gt x 0 with h | h
    · simp [lognormStd, h]
    · simp only [lognormStd, if_neg (not_le.2 h)]; exact hN.compl _

theorem lognormStd_density {s : ℝ} (z : ℝ) (hz : 0 < z) :
    HasDerivAt (lognormStd s).cdf ((lognormStd s).pdf z) z := by
  refine hasDerivAt_ifle hz (G := fun y => normStd.cdf (Real.log y / s))
    (fun y hy => by simp [lognormStd, not_le.2 hy]) ?_
  have h1 := normStd_density.hasDerivAt (Real.log z / s) trivial
  have h2 := ((Real.hasDerivAt_log hz.ne').div_const s)
  have := h1.comp z h2
  refine this.congr_deriv ?_
  simp only [lognormStd, if_neg (not_le.2 hz)]
  rw [div_eq_mul_inv _ (s * z), mul_inv, div_eq_mul_inv z⁻¹]; ring

theorem lognormStd_sf_pos {s : ℝ} (z : ℝ) (hz : 0 < z) : 0 < (lognormStd s).sf z := by
  simp only [lognormStd, if_neg (not_le.2 hz)]
  exact normStd_density.sf_pos _ trivial

theorem lognormStd_quantile {s : ℝ} (hs : 0 < s) : QuantileLaw (Set.Ioi 0) (lognormStd s).cdf
    (lognormStd s).sf (lognormStd s).ppf (lognormStd s).isf := by
  have hQ := normStd_density.quantile
  have e : ∀ y : ℝ, Real.log (Real.exp (s * y)) / s = y := fun y => by
    rw [Real.log_exp]; field_simp
  refine ⟨fun q _ _ => Real.exp_pos _, fun q h0 h1 => ?_, fun z hz => ?_, fun z hz => ?_,
    fun q h0 h1 => ⟨?_, ?_⟩⟩
  · simp only [lognormStd, if_neg (not_le.2 (Real.exp_pos _)), e]
    exact hQ.cdf_quantile q h0 h1
  · simp only [lognormStd, if_neg (not_le.2 (show (0:ℝ) < z from hz))]
    exact hQ.range _ trivial
  · simp only [lognormStd, if_neg (not_le.2 (show (0:ℝ) < z from hz))]
    have h := hQ.quantile_cdf (Real.log z / s) trivial
    rw [show normStd = ofDensity normStdPdf from rfl, h, mul_div_cancel₀ _ hs.ne', Real.exp_log hz]
  · simp only [lognormStd]
    rw [show normStd = ofDensity normStdPdf from rfl, (hQ.isf q h0 h1).1]
  · simp only [lognormStd, if_neg (not_le.2 (Real.exp_pos _)), e]
    exact (hQ.isf q h0 h1).2

end Reliability.Distributions

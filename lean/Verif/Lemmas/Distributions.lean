import Mathlib.Analysis.SpecialFunctions.Pow.Deriv
import Mathlib.Analysis.SpecialFunctions.Pow.Continuity
import Mathlib.Analysis.SpecialFunctions.Pow.Asymptotics
import Mathlib.Analysis.SpecialFunctions.ExpDeriv
import Mathlib.Analysis.SpecialFunctions.Log.Deriv
import Mathlib.MeasureTheory.Integral.IntervalIntegral.FundThmCalculus
import Mathlib.Topology.Order.MonotoneContinuity
import Mathlib.Topology.Order.IntermediateValue
import Verif.Model.Distributions
import Verif.Spec.Distributions

namespace Reliability.Distributions

open Reliability Spec Filter Topology

/-! ## Building the laws -/

/-- Limits and monotonicity give the range. -/
theorem _root_.Reliability.Spec.SurvivalLaw.mk' {F S : ℝ → ℝ} (mono : Monotone F) (cont : Continuous F)
    (bot : Tendsto F atBot (𝓝 0)) (top : Tendsto F atTop (𝓝 1)) (compl : ∀ x, F x + S x = 1) :
    SurvivalLaw F S where
  mono := mono
  cont := cont
  bot := bot
  top := top
  range x := ⟨mono.le_of_tendsto bot x, mono.ge_of_tendsto top x⟩
  compl := compl

/-- A distribution on the positive half line given by `G` there. -/
theorem _root_.Reliability.Spec.SurvivalLaw.ofPos {F S G : ℝ → ℝ} (hneg : ∀ x ≤ 0, F x = 0) (hpos : ∀ x, 0 < x → F x = G x)
    (hG0 : G 0 = 0) (hGm : MonotoneOn G (Set.Ici 0)) (hGc : ContinuousOn G (Set.Ici 0))
    (hGt : Tendsto G atTop (𝓝 1)) (compl : ∀ x, F x + S x = 1) : SurvivalLaw F S := by
  have hF : F = fun x => G (max 0 x) := by
    funext x
    rcases le_or_gt x 0 with h | h
    · rw [hneg x h, max_eq_left h, hG0]
    · rw [hpos x h, max_eq_right h.le]
  apply SurvivalLaw.mk'
  · rw [hF]
    intro a b hab
    exact hGm (Set.mem_Ici.2 (le_max_left _ _)) (Set.mem_Ici.2 (le_max_left _ _)) (max_le_max le_rfl hab)
  · rw [hF]
    exact hGc.comp_continuous (by fun_prop) fun x => Set.mem_Ici.2 (le_max_left _ _)
  · refine tendsto_const_nhds.congr' ?_
    filter_upwards [eventually_le_atBot 0] with x hx
    exact (hneg x hx).symm
  · refine hGt.congr' ?_
    filter_upwards [eventually_gt_atTop 0] with x hx
    exact (hpos x hx).symm
  · exact compl

theorem affine_tendsto_atTop (loc scale : ℝ) (hs : 0 < scale) :
    Tendsto (fun x => (x - loc) / scale) atTop atTop :=
  (tendsto_id.atTop_add (tendsto_const_nhds (x := -loc))).atTop_div_const hs

theorem affine_tendsto_atBot (loc scale : ℝ) (hs : 0 < scale) :
    Tendsto (fun x => (x - loc) / scale) atBot atBot :=
  (tendsto_id.atBot_add (tendsto_const_nhds (x := -loc))).atBot_div_const hs

theorem _root_.Reliability.Spec.SurvivalLaw.locScale {s : Scipy} (h : SurvivalLaw s.cdf s.sf) (loc scale : ℝ) (hs : 0 < scale) :
    SurvivalLaw (Distributions.locScale s loc scale).cdf (Distributions.locScale s loc scale).sf := by
  apply SurvivalLaw.mk'
  · intro a b hab
    exact h.mono (div_le_div_of_nonneg_right (by linarith) hs.le)
  · exact h.cont.comp (by fun_prop)
  · exact h.bot.comp (affine_tendsto_atBot loc scale hs)
  · exact h.top.comp (affine_tendsto_atTop loc scale hs)
  · exact fun x => h.compl _

theorem affine_hasDerivAt (loc scale x : ℝ) :
    HasDerivAt (fun x => (x - loc) / scale) (1 / scale) x :=
  ((hasDerivAt_id x).sub_const loc).div_const scale

theorem _root_.Reliability.Spec.HazardLaw.locScale {s : Scipy} {D : Set ℝ} {h H : ℝ → ℝ} (law : HazardLaw D s.pdf s.cdf s.sf h H)
    (loc scale : ℝ) {h' H' : ℝ → ℝ} {D' : Set ℝ} (hD : ∀ x ∈ D', (x - loc) / scale ∈ D)
    (hh : ∀ x ∈ D', h' x = h ((x - loc) / scale) / scale)
    (hH : ∀ x, H' x = H ((x - loc) / scale)) :
    HazardLaw D' (Distributions.locScale s loc scale).pdf (Distributions.locScale s loc scale).cdf
      (Distributions.locScale s loc scale).sf h' H' where
  density x hx := by
    have := (law.density _ (hD x hx)).comp x (affine_hasDerivAt loc scale x)
    refine this.congr_deriv ?_
    simp [Distributions.locScale, div_eq_mul_inv]
  sf_pos x hx := law.sf_pos _ (hD x hx)
  hazard x hx := by
    rw [hh x hx, law.hazard _ (hD x hx)]
    simp only [Distributions.locScale]; ring
  cumhazard x hx := by
    rw [hH]; exact law.cumhazard _ (hD x hx)
  deriv x hx := by
    have := (law.deriv _ (hD x hx)).comp x (affine_hasDerivAt loc scale x)
    have e : H' = fun x => H ((x - loc) / scale) := funext hH
    rw [e, hh x hx]
    refine this.congr_deriv ?_
    simp [div_eq_mul_inv]

theorem _root_.Reliability.Spec.QuantileLaw.locScale {s : Scipy} {D : Set ℝ} (law : QuantileLaw D s.cdf s.sf s.ppf s.isf)
    (loc scale : ℝ) (hs : 0 < scale) {D' : Set ℝ} (hD : ∀ x, x ∈ D' ↔ (x - loc) / scale ∈ D) :
    QuantileLaw D' (Distributions.locScale s loc scale).cdf (Distributions.locScale s loc scale).sf
      (Distributions.locScale s loc scale).ppf (Distributions.locScale s loc scale).isf := by
  have e : ∀ z : ℝ, (z * scale + loc - loc) / scale = z := fun z => by field_simp; ring
  refine ⟨fun q h0 h1 => ?_, fun q h0 h1 => ?_, fun x hx => ?_, fun x hx => ?_, fun q h0 h1 => ⟨?_, ?_⟩⟩
  · rw [hD]; simp only [Distributions.locScale]; rw [e]; exact law.mem q h0 h1
  · simp only [Distributions.locScale]; rw [e]; exact law.cdf_quantile q h0 h1
  · exact law.range _ ((hD x).1 hx)
  · simp only [Distributions.locScale]; rw [law.quantile_cdf _ ((hD x).1 hx)]; field_simp; ring
  · simp only [Distributions.locScale]; rw [(law.isf q h0 h1).1]
  · simp only [Distributions.locScale]; rw [e]; exact (law.isf q h0 h1).2

theorem mem_Ioi_affine {loc scale : ℝ} (hs : 0 < scale) (x : ℝ) :
    x ∈ Set.Ioi loc ↔ (x - loc) / scale ∈ Set.Ioi 0 := by
  simp only [Set.mem_Ioi]
  rw [lt_div_iff₀ hs]; constructor <;> intro h <;> linarith

/-! ## Standard families with elementary distribution functions -/

theorem hasDerivAt_ifle {F G : ℝ → ℝ} {x d : ℝ} (hx : 0 < x) (hF : ∀ y, 0 < y → F y = G y)
    (h : HasDerivAt G d x) : HasDerivAt F d x := by
  refine h.congr_of_eventuallyEq ?_
  filter_upwards [eventually_gt_nhds hx] with y hy
  exact hF y hy

theorem weibullStd_survival {c : ℝ} (hc : 0 < c) : SurvivalLaw (weibullStd c).cdf (weibullStd c).sf := by
  apply SurvivalLaw.ofPos (G := fun z => 1 - Real.exp (-(z ^ c)))
  · intro x hx; simp [weibullStd, hx]
  · intro x hx; simp [weibullStd, not_le.2 hx]
  · simp [Real.zero_rpow hc.ne']
  · intro a ha b hb hab
    have := Real.rpow_le_rpow ha hab hc.le
    have := Real.exp_le_exp.2 (neg_le_neg this)
    simp only; linarith
  · refine ContinuousOn.sub continuousOn_const (Real.continuous_exp.comp_continuousOn ?_)
    exact ((Real.continuous_rpow_const hc.le).neg).continuousOn
  · have h := (Real.tendsto_exp_neg_atTop_nhds_zero.comp (tendsto_rpow_atTop hc)).const_sub 1
    simpa using h
  · intro x; simp only [weibullStd]; split <;> ring

theorem rpow_hasDerivAt {c z : ℝ} (hz : 0 < z) : HasDerivAt (fun z => z ^ c) (c * z ^ (c - 1)) z :=
  Real.hasDerivAt_rpow_const (Or.inl hz.ne')

theorem weibullStd_hazard (c : ℝ) : HazardLaw (Set.Ioi 0) (weibullStd c).pdf (weibullStd c).cdf
    (weibullStd c).sf (fun z => c * z ^ (c - 1)) (fun z => z ^ c) where
  density z hz := by
    have hz' : (0 : ℝ) < z := hz
    refine hasDerivAt_ifle hz' (G := fun z => 1 - Real.exp (-(z ^ c)))
      (fun y hy => by simp [weibullStd, not_le.2 hy]) ?_
    have := ((rpow_hasDerivAt (c := c) hz').neg.exp).const_sub 1
    refine this.congr_deriv ?_
    simp only [weibullStd, if_neg (not_lt.2 hz'.le), Pi.neg_apply]; ring
  sf_pos z hz := by
    simp only [weibullStd, if_neg (not_le.2 (show (0:ℝ) < z from hz))]; exact Real.exp_pos _
  hazard z hz := by
    have hz' : (0 : ℝ) < z := hz
    simp only [weibullStd, if_neg (not_lt.2 hz'.le), if_neg (not_le.2 hz')]
    rw [mul_div_assoc, div_self (Real.exp_ne_zero _), mul_one]
  cumhazard z hz := by simp only [weibullStd, if_neg (not_le.2 (show (0:ℝ) < z from hz))]
  deriv z hz := rpow_hasDerivAt hz

theorem neglog_pos {q : ℝ} (h0 : 0 < q) (h1 : q < 1) : 0 < -Real.log q := by
  have := Real.log_neg h0 h1; linarith

theorem weibullStd_quantile {c : ℝ} (hc : 0 < c) : QuantileLaw (Set.Ioi 0) (weibullStd c).cdf
    (weibullStd c).sf (weibullStd c).ppf (weibullStd c).isf := by
  have key : ∀ q, 0 < q → q < 1 → 0 < (-Real.log q) ^ (1 / c) ∧
      Real.exp (-(((-Real.log q) ^ (1 / c)) ^ c)) = q := by
    intro q h0 h1
    have hp := neglog_pos h0 h1
    refine ⟨Real.rpow_pos_of_pos hp _, ?_⟩
    rw [← Real.rpow_mul hp.le, one_div_mul_cancel hc.ne', Real.rpow_one, neg_neg, Real.exp_log h0]
  refine ⟨fun q h0 h1 => (key (1 - q) (by linarith) (by linarith)).1, fun q h0 h1 => ?_, fun z hz => ?_,
    fun z hz => ?_, fun q h0 h1 => ⟨?_, ?_⟩⟩
  · obtain ⟨p, e⟩ := key (1 - q) (by linarith) (by linarith)
    simp only [weibullStd]
    rw [if_neg (not_le.2 p), e]; ring
  · have hz' : (0 : ℝ) < z := hz
    simp only [weibullStd, if_neg (not_le.2 hz')]
    have := Real.rpow_pos_of_pos hz' c
    have h1 : Real.exp (-(z ^ c)) < 1 := (Real.exp_lt_one_iff.2 (by linarith))
    have := Real.exp_pos (-(z ^ c))
    constructor <;> linarith
  · have hz' : (0 : ℝ) < z := hz
    simp only [weibullStd, if_neg (not_le.2 hz')]
    rw [sub_sub_cancel, Real.log_exp, neg_neg, ← Real.rpow_mul hz'.le, mul_one_div_cancel hc.ne',
      Real.rpow_one]
  · simp [weibullStd]
  · obtain ⟨p, e⟩ := key q h0 h1
    simp only [weibullStd]
    rw [if_neg (not_le.2 p), e]

theorem exponStd_eq : exponStd = weibullStd 1 := by
  simp [exponStd, weibullStd]

theorem fiskStd_cdf {c z : ℝ} (hz : 0 < z) : (fiskStd c).cdf z = 1 - 1 / (1 + z ^ c) := by
  have h := Real.rpow_pos_of_pos hz c
  simp only [fiskStd, if_neg (not_le.2 hz)]
  rw [Real.rpow_neg hz.le]
  field_simp
  ring

theorem fiskStd_survival {c : ℝ} (hc : 0 < c) : SurvivalLaw (fiskStd c).cdf (fiskStd c).sf := by
  apply SurvivalLaw.ofPos (G := fun z => 1 - 1 / (1 + z ^ c))
  · intro x hx; simp [fiskStd, hx]
  · intro x hx; exact fiskStd_cdf hx
  · simp [Real.zero_rpow hc.ne']
  · intro a ha b hb hab
    have h1 := Real.rpow_le_rpow ha hab hc.le
    have h2 := Real.rpow_nonneg ha c
    have := one_div_le_one_div_of_le (by linarith : 0 < 1 + a ^ c) (by linarith : 1 + a ^ c ≤ 1 + b ^ c)
    simp only; linarith
  · refine ContinuousOn.sub continuousOn_const (ContinuousOn.div continuousOn_const ?_ ?_)
    · exact (continuous_const.add (Real.continuous_rpow_const hc.le)).continuousOn
    · intro x hx
      have := Real.rpow_nonneg (show (0:ℝ) ≤ x from hx) c
      linarith
  · have h : Tendsto (fun z : ℝ => 1 / (1 + z ^ c)) atTop (𝓝 0) :=
      tendsto_const_nhds.div_atTop (tendsto_atTop_add_const_left _ _ (tendsto_rpow_atTop hc))
    simpa using h.const_sub 1
  · intro x
    rcases le_or_gt x 0 with h | h
    · simp [fiskStd, h]
    · rw [fiskStd_cdf h]; simp only [fiskStd, if_neg (not_le.2 h)]; ring

theorem fiskStd_hazard (c : ℝ) : HazardLaw (Set.Ioi 0) (fiskStd c).pdf (fiskStd c).cdf
    (fiskStd c).sf (fun z => c * z ^ (c - 1) / (1 + z ^ c)) (fun z => Real.log (1 + z ^ c)) where
  density z hz := by
    have hz' : (0 : ℝ) < z := hz
    have hp := Real.rpow_pos_of_pos hz' c
    refine hasDerivAt_ifle hz' (fun y hy => fiskStd_cdf hy) ?_
    have := ((((rpow_hasDerivAt (c := c) hz').const_add 1).inv (by linarith)).const_sub 1)
    simp only [one_div]
    refine this.congr_deriv ?_
    simp only [fiskStd, if_neg (not_lt.2 hz'.le)]; ring
  sf_pos z hz := by
    have hp := Real.rpow_pos_of_pos (show (0:ℝ) < z from hz) c
    simp only [fiskStd, if_neg (not_le.2 (show (0:ℝ) < z from hz))]; positivity
  hazard z hz := by
    have hz' : (0 : ℝ) < z := hz
    have hp := Real.rpow_pos_of_pos hz' c
    simp only [fiskStd, if_neg (not_lt.2 hz'.le), if_neg (not_le.2 hz')]
    field_simp
  cumhazard z hz := by
    have hp := Real.rpow_pos_of_pos (show (0:ℝ) < z from hz) c
    simp only [fiskStd, if_neg (not_le.2 (show (0:ℝ) < z from hz))]
    rw [Real.exp_neg, Real.exp_log (by linarith), one_div]
  deriv z hz := by
    have hp := Real.rpow_pos_of_pos (show (0:ℝ) < z from hz) c
    exact ((rpow_hasDerivAt (c := c) (show (0:ℝ) < z from hz)).const_add 1).log (by linarith)

theorem odds_pos {q : ℝ} (h0 : 0 < q) (h1 : q < 1) : 0 < 1 / q - 1 := by
  have := one_lt_one_div h0 h1; linarith

theorem fiskStd_quantile {c : ℝ} (hc : 0 < c) : QuantileLaw (Set.Ioi 0) (fiskStd c).cdf
    (fiskStd c).sf (fiskStd c).ppf (fiskStd c).isf := by
  have hppf : ∀ q, 0 < q → q < 1 → 0 < (fiskStd c).ppf q := fun q h0 h1 =>
    Real.rpow_pos_of_pos (odds_pos h0 h1) _
  have hisf : ∀ q, 0 < q → q < 1 → 0 < (fiskStd c).isf q := fun q h0 h1 =>
    Real.rpow_pos_of_pos (odds_pos h0 h1) _
  have hpow : ∀ q, 0 < q → q < 1 → ((fiskStd c).isf q) ^ c = 1 / q - 1 := by
    intro q h0 h1
    simp only [fiskStd]
    rw [← Real.rpow_mul (odds_pos h0 h1).le, one_div_mul_cancel hc.ne', Real.rpow_one]
  have hpow' : ∀ q, 0 < q → q < 1 → ((fiskStd c).ppf q) ^ (-c) = 1 / q - 1 := by
    intro q h0 h1
    simp only [fiskStd]
    rw [← Real.rpow_mul (odds_pos h0 h1).le]
    have : -1 / c * -c = 1 := by field_simp
    rw [this, Real.rpow_one]
  refine ⟨hppf, fun q h0 h1 => ?_, fun z hz => ?_, fun z hz => ?_, fun q h0 h1 => ⟨?_, ?_⟩⟩
  · have e := hpow' q h0 h1
    have p := hppf q h0 h1
    have : (fiskStd c).cdf ((fiskStd c).ppf q) = 1 / (1 + ((fiskStd c).ppf q) ^ (-c)) := by
      simp only [fiskStd] at p ⊢
      rw [if_neg (not_le.2 p)]
    rw [this, e]; field_simp; ring
  · have hp := Real.rpow_pos_of_pos (show (0:ℝ) < z from hz) c
    rw [fiskStd_cdf hz]
    have h1 : 1 / (1 + z ^ c) < 1 := by rw [div_lt_one (by linarith)]; linarith
    have h2 : 0 < 1 / (1 + z ^ c) := by positivity
    constructor <;> linarith
  · have hz' : (0 : ℝ) < z := hz
    have hp := Real.rpow_pos_of_pos hz' (-c)
    simp only [fiskStd, if_neg (not_le.2 hz')]
    have : (1 / (1 / (1 + z ^ (-c))) - 1) = z ^ (-c) := by field_simp; ring
    rw [this, ← Real.rpow_mul hz'.le]
    have : -c * (-1 / c) = 1 := by field_simp
    rw [this, Real.rpow_one]
  · simp only [fiskStd]
    have h : 1 / (1 - q) - 1 = (1 / q - 1)⁻¹ := by
      have : 1 - q ≠ 0 := by linarith
      have h3 : 1 / q - 1 = (1 - q) / q := by field_simp
      rw [h3, inv_div]; field_simp; ring
    rw [h, Real.inv_rpow (odds_pos h0 h1).le, ← Real.rpow_neg (odds_pos h0 h1).le]
    congr 1; ring
  · have e := hpow q h0 h1
    have p := hisf q h0 h1
    have : (fiskStd c).sf ((fiskStd c).isf q) = 1 / (1 + ((fiskStd c).isf q) ^ c) := by
      simp only [fiskStd] at p ⊢
      rw [if_neg (not_le.2 p)]
    rw [this, e]; field_simp; ring

theorem gumbelStd_survival : SurvivalLaw gumbelStd.cdf gumbelStd.sf := by
  apply SurvivalLaw.mk'
  · intro a b hab
    have := Real.exp_le_exp.2 hab
    have := Real.exp_le_exp.2 (neg_le_neg this)
    simp only [gumbelStd]; linarith
  · simp only [gumbelStd]; fun_prop
  · have h := ((Real.continuous_exp.tendsto _).comp (Real.tendsto_exp_atBot.neg)).const_sub 1
    have e : gumbelStd.cdf = fun z => 1 - Real.exp (-Real.exp z) := rfl
    rw [e]
    simpa using h
  · have h := (Real.tendsto_exp_neg_atTop_nhds_zero.comp Real.tendsto_exp_atTop).const_sub 1
    have e : gumbelStd.cdf = fun z => 1 - Real.exp (-Real.exp z) := rfl
    rw [e]
    simpa using h
  · intro x; simp only [gumbelStd]; ring

theorem gumbelStd_hazard : HazardLaw Set.univ gumbelStd.pdf gumbelStd.cdf gumbelStd.sf Real.exp Real.exp where
  density z _ := by
    have := ((Real.hasDerivAt_exp z).neg.exp).const_sub 1
    refine this.congr_deriv ?_
    simp only [gumbelStd, sub_eq_add_neg, Real.exp_add, Pi.neg_apply]; ring
  sf_pos z _ := Real.exp_pos _
  hazard z _ := by
    simp only [gumbelStd]
    rw [← Real.exp_sub]; congr 1; ring
  cumhazard z _ := rfl
  deriv z _ := Real.hasDerivAt_exp z

theorem gumbelStd_quantile : QuantileLaw Set.univ gumbelStd.cdf gumbelStd.sf gumbelStd.ppf gumbelStd.isf := by
  have key : ∀ q, 0 < q → q < 1 → Real.exp (-Real.exp (Real.log (-Real.log q))) = q := by
    intro q h0 h1
    rw [Real.exp_log (neglog_pos h0 h1), neg_neg, Real.exp_log h0]
  refine ⟨fun q h0 h1 => trivial, fun q h0 h1 => ?_, fun z hz => ?_, fun z hz => ?_, fun q h0 h1 => ⟨?_, ?_⟩⟩
  · simp only [gumbelStd]; rw [key (1 - q) (by linarith) (by linarith)]; ring
  · simp only [gumbelStd]
    have h1 : Real.exp (-Real.exp z) < 1 := Real.exp_lt_one_iff.2 (by have := Real.exp_pos z; linarith)
    have := Real.exp_pos (-Real.exp z)
    constructor <;> linarith
  · simp only [gumbelStd]; simp
  · simp [gumbelStd]
  · simp only [gumbelStd]; exact key q h0 h1

end Reliability.Distributions

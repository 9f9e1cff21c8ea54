import Verif.Props.Repairable
import Mathlib.Analysis.Calculus.MeanValue
import Mathlib.Analysis.SpecialFunctions.Pow.Deriv
import Mathlib.MeasureTheory.Integral.IntervalIntegral.FundThmCalculus

/-! # C148: how the optimal replacement time depends on the costs -/

namespace Reliability.Repairable

open Reliability List

/-- The exact integral from 0. -/
noncomputable def exactQuad (f : ℝ → ℝ) (t : ℝ) : ℝ := ∫ x in (0 : ℝ)..t, f x

/-- Survival function of a Weibull(α, β) unit. -/
noncomputable def wSF (α β x : ℝ) : ℝ := Real.exp (-((x / α) ^ β))

theorem wSF_cont {α β : ℝ} (hβ : 0 ≤ β) : Continuous (wSF α β) := by
  unfold wSF
  exact Real.continuous_exp.comp ((continuous_id.div_const α).rpow_const fun _ => Or.inr hβ).neg

theorem wSF_pos (α β x : ℝ) : 0 < wSF α β x := Real.exp_pos _

theorem quad_hasDeriv {α β : ℝ} (hβ : 0 ≤ β) (t : ℝ) : HasDerivAt (exactQuad (wSF α β)) (wSF α β t) t := by
  unfold exactQuad
  exact intervalIntegral.integral_hasDerivAt_right ((wSF_cont hβ).intervalIntegrable _ _)
    ((wSF_cont hβ).stronglyMeasurableAtFilter _ _) (wSF_cont hβ).continuousAt

theorem quad_strictMono {α β : ℝ} (hβ : 0 ≤ β) : StrictMono (exactQuad (wSF α β)) :=
  strictMono_of_hasDerivAt_pos (fun t => quad_hasDeriv hβ t) fun t => wSF_pos α β t

theorem quad_zero (α β : ℝ) : exactQuad (wSF α β) 0 = 0 := by unfold exactQuad; exact intervalIntegral.integral_same

theorem quad_pos {α β t : ℝ} (hβ : 0 ≤ β) (ht : 0 < t) : 0 < exactQuad (wSF α β) t := by
  have := quad_strictMono (α := α) hβ ht
  rwa [quad_zero] at this

/-- Hazard rate. -/
noncomputable def wHaz (α β x : ℝ) : ℝ := β * (x / α) ^ (β - 1) / α

theorem wHaz_mono {α β x y : ℝ} (hα : 0 < α) (hβ : 1 ≤ β) (hx : 0 ≤ x) (hxy : x ≤ y) : wHaz α β x ≤ wHaz α β y := by
  unfold wHaz
  have : (x / α) ^ (β - 1) ≤ (y / α) ^ (β - 1) :=
    Real.rpow_le_rpow (div_nonneg hx hα.le) (div_le_div_of_nonneg_right hxy hα.le) (by linarith)
  exact div_le_div_of_nonneg_right (mul_le_mul_of_nonneg_left this (by linarith)) hα.le

theorem cdf_hasDeriv {α β t : ℝ} (hα : 0 < α) (hβ : 1 ≤ β) (ht : 0 < t) : HasDerivAt (fun x => 1 - wSF α β x) (wHaz α β t * wSF α β t) t := by
  have h1 : HasDerivAt (fun x : ℝ => x / α) (1 / α) t := (hasDerivAt_id t).div_const α
  have h2 := h1.rpow_const (p := β) (Or.inr hβ)
  have h3 := h2.neg.exp.const_sub 1
  refine h3.congr_deriv ?_
  unfold wHaz wSF
  show -(Real.exp (-((t / α) ^ β)) * -(1 / α * β * (t / α) ^ (β - 1))) = _
  ring

/-- Cauchy's mean value theorem for the CDF over the integral of the SF. -/
theorem cdf_ratio {α β s t : ℝ} (hα : 0 < α) (hβ : 1 ≤ β) (hs : 0 ≤ s) (hst : s < t) :
    ∃ c, s < c ∧ c < t ∧ (1 - wSF α β t) - (1 - wSF α β s) = wHaz α β c * (exactQuad (wSF α β) t - exactQuad (wSF α β) s) := by
  obtain ⟨c, ⟨h1, h2⟩, h⟩ := exists_ratio_hasDerivAt_eq_ratio_slope (fun x => 1 - wSF α β x) (fun x => wHaz α β x * wSF α β x) hst
    (continuous_const.sub (wSF_cont (by linarith))).continuousOn (fun x hx => cdf_hasDeriv hα hβ (lt_of_le_of_lt hs hx.1))
    (exactQuad (wSF α β)) (wSF α β) (fun x _ => (quad_hasDeriv (by linarith) x).continuousAt.continuousWithinAt)
    (fun x _ => quad_hasDeriv (by linarith) x)
  refine ⟨c, h1, h2, ?_⟩
  have hp := wSF_pos α β c
  have : wSF α β c * ((1 - wSF α β t) - (1 - wSF α β s)) = wSF α β c * (wHaz α β c * (exactQuad (wSF α β) t - exactQuad (wSF α β) s)) := by
    linarith
  exact mul_left_cancel₀ hp.ne' this

/-- With a hazard that does not decrease, the failures per unit time in use do not decrease with the age at replacement. -/
theorem failRate_mono {α β s t : ℝ} (hα : 0 < α) (hβ : 1 ≤ β) (hs : 0 < s) (hst : s ≤ t) :
    (1 - wSF α β s) / exactQuad (wSF α β) s ≤ (1 - wSF α β t) / exactQuad (wSF α β) t := by
  rcases hst.eq_or_lt with rfl | hst
  · rfl
  have hI := quad_pos (α := α) (β := β) (by linarith) hs
  have hJ := quad_strictMono (α := α) (β := β) (by linarith) hst
  obtain ⟨c, hc0, hcs, h1⟩ := cdf_ratio hα hβ le_rfl hs
  obtain ⟨d, hds, hdt, h2⟩ := cdf_ratio hα hβ hs.le hst
  have hz : wSF α β 0 = 1 := by
    unfold wSF
    rw [zero_div, Real.zero_rpow (by linarith), neg_zero, Real.exp_zero]
  rw [hz, quad_zero] at h1
  have hm := wHaz_mono hα hβ hc0.le (hcs.le.trans hds.le)
  rw [div_le_div_iff₀ hI (hI.trans hJ)]
  have e1 : 1 - wSF α β s = wHaz α β c * exactQuad (wSF α β) s := by linarith
  have e2 : 1 - wSF α β t = wHaz α β c * exactQuad (wSF α β) s + wHaz α β d * (exactQuad (wSF α β) t - exactQuad (wSF α β) s) := by linarith
  rw [e1, e2]
  nlinarith [mul_nonneg (mul_nonneg (sub_nonneg.2 hm) (sub_pos.2 hJ).le) hI.le]

/-- The preventive replacements per unit time in use do not increase with the age at replacement. -/
theorem prevRate_anti {α β s t : ℝ} (hα : 0 < α) (hβ : 0 ≤ β) (hs : 0 < s) (hst : s ≤ t) :
    wSF α β t / exactQuad (wSF α β) t ≤ wSF α β s / exactQuad (wSF α β) s := by
  have hI := quad_pos (α := α) (β := β) hβ hs
  have h2 : wSF α β t ≤ wSF α β s := by
    unfold wSF
    refine Real.exp_le_exp.2 (neg_le_neg (Real.rpow_le_rpow (div_nonneg hs.le hα.le) (div_le_div_of_nonneg_right hst hα.le) hβ))
  exact div_le_div₀ (wSF_pos α β s).le h2 hI ((quad_strictMono hβ).monotone hst)

theorem gridPoint_mono {α : ℝ} (hα : 1 / 3 ≤ α) {i j : Nat} (h : i ≤ j) : gridPoint α i ≤ gridPoint α j := by
  unfold gridPoint
  have : (i : ℝ) ≤ j := by exact_mod_cast h
  have h2 : 0 ≤ (α * 3 - 1) / 9999 := by apply div_nonneg <;> linarith
  nlinarith

theorem gridPoint_pos {α : ℝ} (hα : 1 / 3 ≤ α) (i : Nat) : 0 < gridPoint α i := by
  have := gridPoint_mono hα (Nat.zero_le i)
  have h0 : gridPoint α 0 = 1 := by simp [gridPoint]
  linarith

theorem renewalCost_split (PM CM α β t : ℝ) : renewalCost exactQuad PM CM α β t =
    PM * (wSF α β t / exactQuad (wSF α β) t) + CM * ((1 - wSF α β t) / exactQuad (wSF α β) t) := by
  show (PM * wSF α β t + CM * (1 - wSF α β t)) / exactQuad (wSF α β) t = _
  ring

/-- **C148 (cost of a failure, as good as new).** With exact integrals, a hazard rate that does not decrease (β ≥ 1) and α of at least 1/3: if a failure
costs more, the optimal replacement time is not later. -/
theorem C148_failure_cost (PM CM CM' α β : ℝ) (hα : 1 / 3 ≤ α) (hβ : 1 ≤ β) (hle : CM ≤ CM') (r r' : Replacement)
    (h : optimalReplacementTime exactQuad PM CM α β 0 = .ok r) (h' : optimalReplacementTime exactQuad PM CM' α β 0 = .ok r') :
    r'.ORT ≤ r.ORT := by
  rcases hle.eq_or_lt with rfl | hlt
  · rw [h] at h'; cases h'; rfl
  have hPM : PM ≤ CM := by
    by_contra hc
    exact absurd h (by unfold optimalReplacementTime; rw [if_pos (not_le.1 hc)]; exact fun hh => by cases hh)
  obtain ⟨s, i, hs, hi, h1, h2, h3⟩ := C24_as_good_as_new exactQuad PM CM α β hPM
  obtain ⟨s', i', hs', hi', h1', h2', h3'⟩ := C24_as_good_as_new exactQuad PM CM' α β (hPM.trans hle)
  rw [h, Except.ok.injEq] at hs
  rw [h', Except.ok.injEq] at hs'
  subst hs hs'
  rw [h1, h1']
  apply gridPoint_mono hα
  by_contra hc
  push Not at hc
  have a1 := (h3 i' hi').1
  have a2 := (h3' i hi).2 hc
  rw [h2, h1, renewalCost_split, renewalCost_split] at a1
  rw [h2', h1', renewalCost_split, renewalCost_split] at a2
  have a3 := failRate_mono (α := α) (β := β) (by linarith) hβ (gridPoint_pos hα i) (gridPoint_mono hα hc.le)
  have a4 := mul_le_mul_of_nonneg_left a3 (sub_pos.2 hlt).le
  linarith

/-- **C148 (cost of planned maintenance, as good as new).** With exact integrals, any shape β ≥ 0 and α of at least 1/3: if planned maintenance costs more,
the optimal replacement time is not earlier. -/
theorem C148_planned_cost (PM PM' CM α β : ℝ) (hα : 1 / 3 ≤ α) (hβ : 0 ≤ β) (hle : PM ≤ PM') (r r' : Replacement)
    (h : optimalReplacementTime exactQuad PM CM α β 0 = .ok r) (h' : optimalReplacementTime exactQuad PM' CM α β 0 = .ok r') :
    r.ORT ≤ r'.ORT := by
  rcases hle.eq_or_lt with rfl | hlt
  · rw [h] at h'; cases h'; rfl
  have hPM : PM' ≤ CM := by
    by_contra hc
    exact absurd h' (by unfold optimalReplacementTime; rw [if_pos (not_le.1 hc)]; exact fun hh => by cases hh)
  obtain ⟨s, i, hs, hi, h1, h2, h3⟩ := C24_as_good_as_new exactQuad PM CM α β (hle.trans hPM)
  obtain ⟨s', i', hs', hi', h1', h2', h3'⟩ := C24_as_good_as_new exactQuad PM' CM α β hPM
  rw [h, Except.ok.injEq] at hs
  rw [h', Except.ok.injEq] at hs'
  subst hs hs'
  rw [h1, h1']
  apply gridPoint_mono hα
  by_contra hc
  push Not at hc
  have a1 := (h3 i' hi').2 hc
  have a2 := (h3' i hi).1
  rw [h2, h1, renewalCost_split, renewalCost_split] at a1
  rw [h2', h1', renewalCost_split, renewalCost_split] at a2
  have a3 := prevRate_anti (α := α) (β := β) (by linarith) hβ (gridPoint_pos hα i') (gridPoint_mono hα hc.le)
  have a4 := mul_le_mul_of_nonneg_left a3 (sub_pos.2 hlt).le
  linarith

/-- **C148 (unit of money).** For both values of q and any integrator: with both costs in another unit of money the optimal time is the same, and the least cost is
in the new unit. So the optimal time depends on the costs through their ratio only. -/
theorem C148_money (quad : (ℝ → ℝ) → ℝ → ℝ) (PM CM α β q k : ℝ) (hk : 0 < k) (r : Replacement)
    (h : optimalReplacementTime quad PM CM α β q = .ok r) :
    optimalReplacementTime quad (k * PM) (k * CM) α β q = .ok ⟨r.ORT, k * r.min_cost⟩ := by
  have hPM : PM ≤ CM := by
    by_contra hc
    exact absurd h (by unfold optimalReplacementTime; rw [if_pos (not_le.1 hc)]; exact fun hh => by cases hh)
  have hkl := mul_le_mul_of_nonneg_left hPM hk.le
  have hq : q = 1 ∨ q = 0 := by
    by_contra hc
    push Not at hc
    exact absurd h (by unfold optimalReplacementTime; rw [if_neg (not_lt.2 hPM), if_neg hc.1, if_neg hc.2]; exact fun hh => by cases hh)
  rcases hq with rfl | rfl
  · unfold optimalReplacementTime at h ⊢
    rw [if_neg (not_lt.2 hPM), if_pos rfl] at h
    rw [if_neg (not_lt.2 hkl), if_pos rfl]
    rw [Except.ok.injEq] at h ⊢
    rw [← h]
    have e : k * CM / (k * PM * (β - 1)) = CM / (PM * (β - 1)) := by
      rw [mul_assoc, mul_div_mul_left _ _ hk.ne']
    simp only [e]
    refine congrArg _ ?_
    ring
  · obtain ⟨s, i, hs, hi, h1, h2, h3⟩ := C24_as_good_as_new quad PM CM α β hPM
    obtain ⟨s', i', hs', hi', h1', h2', h3'⟩ := C24_as_good_as_new quad (k * PM) (k * CM) α β hkl
    rw [h, Except.ok.injEq] at hs
    subst hs
    have hsc : ∀ t, renewalCost quad (k * PM) (k * CM) α β t = k * renewalCost quad PM CM α β t := by
      intro t
      unfold renewalCost
      ring
    have hii : i = i' := by
      rcases lt_trichotomy i i' with hlt | heq | hlt
      · have a1 := (h3' i hi).2 hlt
        have a2 := (h3 i' hi').1
        rw [h2', h1', hsc, hsc] at a1
        rw [h2, h1] at a2
        have := lt_of_mul_lt_mul_left a1 hk.le
        linarith
      · exact heq
      · have a1 := (h3 i' hi').2 hlt
        have a2 := (h3' i hi).1
        rw [h2', h1', hsc, hsc] at a2
        rw [h2, h1] at a1
        have := le_of_mul_le_mul_left a2 hk
        linarith
    rw [hs', Except.ok.injEq]
    have e1 : s'.ORT = r.ORT := by rw [h1, h1', hii]
    have e2 : s'.min_cost = k * r.min_cost := by rw [h2', hsc, h2, e1]
    cases s'
    simp only at e1 e2
    rw [e1, e2]

/-- **Finding (C148).** As good as old, the other way round: if a failure costs more, the optimal time is strictly later, and if planned maintenance costs more
it is strictly earlier. -/
theorem C148_old_finding (quad : (ℝ → ℝ) → ℝ → ℝ) (PM PM' CM CM' α β : ℝ) (hPM : 0 < PM) (hlePM : PM' ≤ PM) (hPM' : 0 < PM') (hle : CM ≤ CM')
    (hne : PM' < PM ∨ CM < CM') (hα : 0 < α) (hβ : 1 < β) (r r' : Replacement)
    (h : optimalReplacementTime quad PM CM α β 1 = .ok r) (h' : optimalReplacementTime quad PM' CM' α β 1 = .ok r') : r.ORT < r'.ORT := by
  have hc : PM ≤ CM := by
    by_contra hc
    exact absurd h (by unfold optimalReplacementTime; rw [if_pos (not_le.1 hc)]; exact fun hh => by cases hh)
  have hc' : PM' ≤ CM' := (hlePM.trans hc).trans hle
  unfold optimalReplacementTime at h h'
  rw [if_neg (not_lt.2 hc), if_pos rfl, Except.ok.injEq] at h
  rw [if_neg (not_lt.2 hc'), if_pos rfl, Except.ok.injEq] at h'
  rw [← h, ← h']
  have hb : 0 < β - 1 := by linarith
  have hCM : 0 < CM := lt_of_lt_of_le hPM hc
  refine mul_lt_mul_of_pos_left (Real.rpow_lt_rpow (by positivity) ?_ (by positivity)) hα
  rw [div_lt_div_iff₀ (by positivity) (by positivity)]
  rcases hne with hn | hn
  · have : CM * (PM' * (β - 1)) < CM * (PM * (β - 1)) := mul_lt_mul_of_pos_left (mul_lt_mul_of_pos_right hn hb) hCM
    have : CM * (PM * (β - 1)) ≤ CM' * (PM * (β - 1)) := mul_le_mul_of_nonneg_right hle (by positivity)
    linarith
  · have : CM * (PM' * (β - 1)) ≤ CM * (PM * (β - 1)) := mul_le_mul_of_nonneg_left (mul_le_mul_of_nonneg_right hlePM hb.le) hCM.le
    have : CM * (PM * (β - 1)) < CM' * (PM * (β - 1)) := mul_lt_mul_of_pos_right hn (by positivity)
    linarith

/-- The hypotheses are met: α = 1000, β = 2.5, PM = 1 or 2, CM = 5 or 9. -/
example : (∃ r, optimalReplacementTime exactQuad 1 5 1000 2.5 0 = .ok r) ∧ (∃ r, optimalReplacementTime exactQuad 1 9 1000 2.5 0 = .ok r) ∧
    (∃ r, optimalReplacementTime exactQuad 2 5 1000 2.5 0 = .ok r) ∧ ∃ r, optimalReplacementTime exactQuad 1 9 1000 2.5 1 = .ok r := by
  obtain ⟨a, -, ha, -⟩ := C24_as_good_as_new exactQuad 1 5 1000 2.5 (by norm_num)
  obtain ⟨b, -, hb, -⟩ := C24_as_good_as_new exactQuad 1 9 1000 2.5 (by norm_num)
  obtain ⟨c, -, hc, -⟩ := C24_as_good_as_new exactQuad 2 5 1000 2.5 (by norm_num)
  obtain ⟨d, hd, -⟩ := C24_as_good_as_old exactQuad 1 9 1000 2.5 (by norm_num) (by norm_num) (by norm_num) (by norm_num)
  exact ⟨⟨a, ha⟩, ⟨b, hb⟩, ⟨c, hc⟩, ⟨d, hd⟩⟩

end Reliability.Repairable

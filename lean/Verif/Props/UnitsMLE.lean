import Mathlib.Tactic.Ring
import Mathlib.Tactic.FieldSimp
import Mathlib.Tactic.Linarith
import Mathlib.Tactic.Positivity
import Verif.Spec.Units

/-! # C89: change of time unit in maximum likelihood fitting -/

namespace Reliability.Props

open Reliability.Likelihood Reliability.Spec List

/-- what has to be shown for each fitter -/
structure ScaleLaw (F : LLFamily) : Prop where
  ll : ∀ k, 0 < k → ∀ p Tf Trc, F.legal p Tf Trc → F.LL (F.rescale k p) (Tf.map (k * ·)) (Trc.map (k * ·)) =
    F.LL p Tf Trc + Tf.length * Real.log k
  ok : ∀ k, 0 < k → ∀ p Tf Trc, F.legal p Tf Trc → F.legal (F.rescale k p) (Tf.map (k * ·)) (Trc.map (k * ·))
  inv : ∀ k, 0 < k → ∀ p, F.rescale k (F.rescale k⁻¹ p) = p

theorem above_scale {g k : ℝ} {Tf Trc : List ℝ} (hk : 0 < k) (h : Above g Tf Trc) :
    Above (k * g) (Tf.map (k * ·)) (Trc.map (k * ·)) := by
  constructor <;> intro t ht <;> obtain ⟨u, hu, rfl⟩ := mem_map.1 ht
  · exact mul_lt_mul_of_pos_left (h.1 u hu) hk
  · exact mul_lt_mul_of_pos_left (h.2 u hu) hk

theorem above_scale0 {k : ℝ} {Tf Trc : List ℝ} (hk : 0 < k) (h : Above 0 Tf Trc) :
    Above 0 (Tf.map (k * ·)) (Trc.map (k * ·)) := by
  have := above_scale hk h
  rwa [mul_zero] at this

theorem sum_scale {f f' : ℝ → ℝ} {k d : ℝ} (Tf : List ℝ) (h : ∀ t ∈ Tf, f' (k * t) = f t - d) :
    ((Tf.map (k * ·)).map f').sum = (Tf.map f).sum - Tf.length * d := by
  induction Tf with
  | nil => simp
  | cons t T ih =>
    simp only [map_cons, sum_cons, length_cons]
    rw [h t mem_cons_self, ih fun u hu => h u (mem_cons_of_mem _ hu)]
    push_cast
    ring

theorem LL_scale {logf logR logf' logR' : ℝ → ℝ} {k : ℝ} {Tf Trc : List ℝ}
    (hf : ∀ t ∈ Tf, logf' (k * t) = logf t - Real.log k) (hr : ∀ t ∈ Trc, logR' (k * t) = logR t) :
    LL logf' logR' (Tf.map (k * ·)) (Trc.map (k * ·)) = LL logf logR Tf Trc + Tf.length * Real.log k := by
  unfold LL
  rw [sum_scale Tf hf, sum_scale (d := 0) Trc fun t ht => by rw [hr t ht]; ring]
  ring

theorem ratio {k : ℝ} (hk : 0 < k) (t g a : ℝ) : (k * t - k * g) / (k * a) = (t - g) / a := by
  rw [← mul_sub, mul_div_mul_left _ _ hk.ne']

theorem ratio0 {k : ℝ} (hk : 0 < k) (t a : ℝ) : k * t / (k * a) = t / a := mul_div_mul_left _ _ hk.ne'

theorem log_ratio {k a b : ℝ} (hk : 0 < k) (ha : 0 < a) (hb : 0 < b) :
    Real.log (b / (k * a)) = Real.log (b / a) - Real.log k := by
  rw [mul_comm, ← div_div, Real.log_div (by positivity) hk.ne']

theorem ne_inv {k x : ℝ} (hk : 0 < k) : k * (k⁻¹ * x) = x := by field_simp

theorem mix_term {k a b t : ℝ} (hk : 0 < k) (ha : 0 < a) (ht : 0 < t) :
    (b * (k * t) ^ (b - 1)) / ((k * a) ^ b) = (b * t ^ (b - 1)) / (a ^ b) / k := by
  rw [Real.mul_rpow hk.le ht.le, Real.mul_rpow hk.le ha.le, Real.rpow_sub hk, Real.rpow_one]
  have : 0 < k ^ b := by positivity
  have : 0 < a ^ b := by positivity
  field_simp

theorem scaleLaw (T0 : List ℝ) : ∀ F ∈ llFamilies T0, ScaleLaw F := by
  intro F hF
  simp only [llFamilies, mem_cons, not_mem_nil, or_false] at hF
  rcases hF with rfl | rfl | rfl | rfl | rfl | rfl | rfl | rfl | rfl | rfl | rfl | rfl | rfl | rfl | rfl | rfl | rfl
  -- Weibull_2P
  · refine ⟨fun k hk p Tf Trc ⟨ha, hb, hA⟩ => LL_scale (fun t ht => ?_) fun t ht => ?_,
      fun k hk p Tf Trc ⟨ha, hb, hA⟩ => ⟨mul_pos hk ha, hb, above_scale0 hk hA⟩, fun k hk p => by simp [ne_inv hk]⟩
    · simp only [weibull2P_logf, ratio0 hk, log_ratio hk ha hb]; ring
    · simp only [weibull2P_logR, ratio0 hk]
  -- Weibull_3P
  · refine ⟨fun k hk p Tf Trc ⟨ha, hb, hA⟩ => LL_scale (fun t ht => ?_) fun t ht => ?_,
      fun k hk p Tf Trc ⟨ha, hb, hA⟩ => ⟨mul_pos hk ha, hb, above_scale hk hA⟩, fun k hk p => by simp [ne_inv hk]⟩
    · simp only [weibull3P_logf, ratio hk, log_ratio hk ha hb]; ring
    · simp only [weibull3P_logR, ratio hk]
  -- mixture
  · refine ⟨fun k hk p Tf Trc ⟨ha, hb, hc, hd, h0, h1, hA⟩ => LL_scale (fun t ht => ?_) fun t ht => ?_,
      fun k hk p Tf Trc ⟨ha, hb, hc, hd, h0, h1, hA⟩ => ⟨mul_pos hk ha, hb, mul_pos hk hc, hd, h0, h1, above_scale0 hk hA⟩,
      fun k hk p => by simp [ne_inv hk]⟩
    · have ht := hA.1 t ht
      obtain ⟨⟨a, b⟩, ⟨c, d⟩, q⟩ := p
      simp only at ha hb hc hd h0 h1
      simp only [mixture_logf, ratio0 hk, mix_term hk ha ht, mix_term hk hc ht]
      rw [← Real.log_div ?_ hk.ne']
      · congr 1
        ring
      · have e1 : 0 < b * t ^ (b - 1) / a ^ b := by positivity
        have e2 : 0 < d * t ^ (d - 1) / c ^ d := by positivity
        have e3 := Real.exp_pos (-(t / a) ^ b)
        have e4 := Real.exp_pos (-(t / c) ^ d)
        rcases h0.lt_or_eq with h | h
        · have : 0 ≤ (1 - q) * (d * t ^ (d - 1) / c ^ d) * Real.exp (-(t / c) ^ d) :=
            mul_nonneg (mul_nonneg (by linarith) e2.le) e4.le
          have : 0 < q * (b * t ^ (b - 1) / a ^ b) * Real.exp (-(t / a) ^ b) := by positivity
          exact (by linarith : (0:ℝ) < _).ne'
        · rw [← h, zero_mul, zero_mul, zero_add, sub_zero, one_mul]
          positivity
    · simp only [mixture_logR, ratio0 hk]
  -- competing risks
  · refine ⟨fun k hk p Tf Trc ⟨ha, hb, hc, hd, hA⟩ => LL_scale (fun t ht => ?_) fun t ht => ?_,
      fun k hk p Tf Trc ⟨ha, hb, hc, hd, hA⟩ => ⟨mul_pos hk ha, hb, mul_pos hk hc, hd, above_scale0 hk hA⟩,
      fun k hk p => by simp [ne_inv hk]⟩
    · have ht := hA.1 t ht
      obtain ⟨⟨a, b⟩, ⟨c, d⟩⟩ := p
      simp only at ha hb hc hd
      simp only [CR_logf, ratio0 hk]
      have e1 : 0 < (t / a) ^ b := by positivity
      have e2 : 0 < (t / c) ^ d := by positivity
      generalize (t / a) ^ b = A at *
      generalize (t / c) ^ d = B at *
      have e3 := Real.exp_pos (-B - A)
      rw [← Real.log_div ?_ hk.ne']
      · congr 1
        field_simp
      · have : -(-(d * B) / t - b * A / t) = (d * B + b * A) / t := by ring
        rw [this]
        positivity
    · simp only [CR_logR, ratio0 hk]
  -- DSZI
  · refine ⟨fun k hk p Tf Trc ⟨ha, hb, h0, h1, h2, hA⟩ => ?_,
      fun k hk p Tf Trc ⟨ha, hb, h0, h1, h2, hA⟩ => ⟨mul_pos hk ha, hb, h0, h1, h2, above_scale0 hk hA⟩,
      fun k hk p => by simp [ne_inv hk]⟩
    simp only [DSZI_LL]
    rw [sum_scale (f := DSZI_logf p.1 p.2.1 p.2.2.1 p.2.2.2) (d := Real.log k) Tf,
      sum_scale (f := DSZI_logR p.1 p.2.1 p.2.2.1 p.2.2.2) (d := 0) Trc]
    · ring
    · intro t _
      simp only [DSZI_logR, ratio0 hk, sub_zero]
    · intro t _
      simp only [DSZI_logf, ratio0 hk, log_ratio hk ha hb]; ring
  -- DS
  · refine ⟨fun k hk p Tf Trc ⟨ha, hb, h0, h1, hA⟩ => LL_scale (fun t ht => ?_) fun t ht => ?_,
      fun k hk p Tf Trc ⟨ha, hb, h0, h1, hA⟩ => ⟨mul_pos hk ha, hb, h0, h1, above_scale0 hk hA⟩,
      fun k hk p => by simp [ne_inv hk]⟩
    · simp only [DS_logf, ratio0 hk, log_ratio hk ha hb]; ring
    · simp only [DS_logR, ratio0 hk]
  -- ZI
  · refine ⟨fun k hk p Tf Trc ⟨ha, hb, h0, h1, hA⟩ => ?_,
      fun k hk p Tf Trc ⟨ha, hb, h0, h1, hA⟩ => ⟨mul_pos hk ha, hb, h0, h1, above_scale0 hk hA⟩,
      fun k hk p => by simp [ne_inv hk]⟩
    simp only [ZI_LL]
    rw [sum_scale (f := ZI_logf p.1 p.2.1 p.2.2) (d := Real.log k) Tf,
      sum_scale (f := ZI_logR p.1 p.2.1 p.2.2) (d := 0) Trc]
    · ring
    · intro t _
      simp only [ZI_logR, ratio0 hk, sub_zero]
    · intro t _
      simp only [ZI_logf, ratio0 hk, log_ratio hk ha hb]; ring
  -- Exponential_1P
  · refine ⟨fun k hk (p : ℝ) Tf Trc ⟨ha, hA⟩ => LL_scale (fun t ht => ?_) fun t ht => ?_,
      fun k hk (p : ℝ) Tf Trc ⟨ha, hA⟩ => ⟨div_pos ha hk, above_scale0 hk hA⟩,
      fun k hk (p : ℝ) => show p / k⁻¹ / k = p by field_simp⟩
    · simp only [exponential1P_logf]
      rw [Real.log_div ha.ne' hk.ne', show p / k * (k * t) = p * t by field_simp]; ring
    · simp only [exponential1P_logR]
      rw [show p / k * (k * t) = p * t by field_simp]
  -- Exponential_2P
  · refine ⟨fun k hk p Tf Trc ⟨ha, hA⟩ => LL_scale (fun t ht => ?_) fun t ht => ?_,
      fun k hk p Tf Trc ⟨ha, hA⟩ => ⟨div_pos ha hk, above_scale hk hA⟩,
      fun k hk p => by simp [ne_inv hk, hk.ne']⟩
    · simp only [exponential2P_logf]
      rw [Real.log_div ha.ne' hk.ne', show p.1 / k * (k * t - k * p.2) = p.1 * (t - p.2) by field_simp]; ring
    · simp only [exponential2P_logR]
      rw [show p.1 / k * (k * t - k * p.2) = p.1 * (t - p.2) by field_simp]
  -- Normal
  · refine ⟨fun k hk p Tf Trc ha => LL_scale (fun t ht => ?_) fun t ht => ?_,
      fun k hk p Tf Trc ha => mul_pos hk ha, fun k hk p => by simp [ne_inv hk]⟩
    · have ha : 0 < p.2 := ha
      have hpi := Real.pi_pos
      simp only [normal2P_logf, ratio hk]
      rw [mul_assoc, Real.log_mul hk.ne' (by positivity)]; ring
    · simp only [normal2P_logR, ratio hk]
  -- Gumbel
  · refine ⟨fun k hk p Tf Trc ha => LL_scale (fun t ht => ?_) fun t ht => ?_,
      fun k hk p Tf Trc ha => mul_pos hk ha, fun k hk p => by simp [ne_inv hk]⟩
    · have ha : 0 < p.2 := ha
      simp only [gumbel2P_logf, ratio hk]
      rw [Real.log_mul hk.ne' ha.ne']; ring
    · simp only [gumbel2P_logR, ratio hk]
  -- Lognormal_2P
  · refine ⟨fun k hk p Tf Trc ⟨ha, hA⟩ => LL_scale (fun t ht => ?_) fun t ht => ?_,
      fun k hk p Tf Trc ⟨ha, hA⟩ => ⟨ha, above_scale0 hk hA⟩, fun k hk p => by simp⟩
    · have ht := hA.1 t ht
      have hpi := Real.pi_pos
      simp only [lognormal_logf, sub_zero]
      rw [Real.log_mul hk.ne' ht.ne', show Real.log k + Real.log t - (p.1 + Real.log k) = Real.log t - p.1 by ring,
        ← Real.log_div (by positivity) hk.ne']
      congr 1
      field_simp
    · have ht := hA.2 t ht
      simp only [lognormal_logR, sub_zero]
      rw [Real.log_mul hk.ne' ht.ne', show Real.log k + Real.log t - (p.1 + Real.log k) = Real.log t - p.1 by ring]
  -- Lognormal_3P
  · refine ⟨fun k hk p Tf Trc ⟨ha, hA⟩ => LL_scale (fun t ht => ?_) fun t ht => ?_,
      fun k hk p Tf Trc ⟨ha, hA⟩ => ⟨ha, above_scale hk hA⟩, fun k hk p => by simp [ne_inv hk]⟩
    · have ht : 0 < t - p.2.2 := sub_pos.2 (hA.1 t ht)
      have hpi := Real.pi_pos
      simp only [lognormal_logf, ← mul_sub]
      rw [Real.log_mul hk.ne' ht.ne',
        show Real.log k + Real.log (t - p.2.2) - (p.1 + Real.log k) = Real.log (t - p.2.2) - p.1 by ring,
        ← Real.log_div (by positivity) hk.ne']
      congr 1
      field_simp
    · have ht : 0 < t - p.2.2 := sub_pos.2 (hA.2 t ht)
      simp only [lognormal_logR, ← mul_sub]
      rw [Real.log_mul hk.ne' ht.ne',
        show Real.log k + Real.log (t - p.2.2) - (p.1 + Real.log k) = Real.log (t - p.2.2) - p.1 by ring]
  -- Gamma_2P
  · refine ⟨fun k hk p Tf Trc ⟨ha, hb, hA⟩ => LL_scale (fun t ht => ?_) fun t ht => ?_,
      fun k hk p Tf Trc ⟨ha, hb, hA⟩ => ⟨mul_pos hk ha, hb, above_scale0 hk hA⟩, fun k hk p => by simp [ne_inv hk]⟩
    · have ht := hA.1 t ht
      have hG := Real.Gamma_pos_of_pos hb
      simp only [gamma_logf_ab, sub_zero, ratio0 hk]
      rw [Real.mul_rpow hk.le ht.le, Real.mul_rpow hk.le ha.le, Real.log_mul (by positivity) (by positivity), mul_assoc,
        Real.log_mul (x := k ^ p.2) (by positivity) (by positivity), Real.log_rpow hk, Real.log_rpow hk]
      ring
    · simp only [gamma_logR_ab, sub_zero, ratio0 hk]
  -- Gamma_3P
  · refine ⟨fun k hk p Tf Trc ⟨ha, hb, hA⟩ => LL_scale (fun t ht => ?_) fun t ht => ?_,
      fun k hk p Tf Trc ⟨ha, hb, hA⟩ => ⟨mul_pos hk ha, hb, above_scale hk hA⟩, fun k hk p => by simp [ne_inv hk]⟩
    · have ht : 0 < t - p.2.2 := sub_pos.2 (hA.1 t ht)
      have hG := Real.Gamma_pos_of_pos hb
      simp only [gamma_logf_ab, ← mul_sub, ratio0 hk]
      rw [Real.mul_rpow hk.le ht.le, Real.mul_rpow hk.le ha.le, Real.log_mul (by positivity) (by positivity), mul_assoc,
        Real.log_mul (x := k ^ p.2.1) (by positivity) (by positivity), Real.log_rpow hk, Real.log_rpow hk]
      ring
    · simp only [gamma_logR_ab, ratio hk]
  -- Loglogistic_2P
  · refine ⟨fun k hk p Tf Trc ⟨ha, hb, hA⟩ => LL_scale (fun t ht => ?_) fun t ht => ?_,
      fun k hk p Tf Trc ⟨ha, hb, hA⟩ => ⟨mul_pos hk ha, hb, above_scale0 hk hA⟩, fun k hk p => by simp [ne_inv hk]⟩
    · simp only [loglogistic_logf, sub_zero, ratio0 hk, log_ratio hk ha hb]; ring
    · simp only [loglogistic_logR, sub_zero, ratio0 hk]
  -- Loglogistic_3P
  · refine ⟨fun k hk p Tf Trc ⟨ha, hb, hA⟩ => LL_scale (fun t ht => ?_) fun t ht => ?_,
      fun k hk p Tf Trc ⟨ha, hb, hA⟩ => ⟨mul_pos hk ha, hb, above_scale hk hA⟩, fun k hk p => by simp [ne_inv hk]⟩
    · simp only [loglogistic_logf, ratio hk, log_ratio hk ha hb]; ring
    · simp only [loglogistic_logR, ratio hk]

/-- **C89.** The function minimised by a fitter changes only by a constant when the unit of time changes: for every fitter
(except Beta), data, legal parameters and `k > 0`. -/
theorem C89_loglik (T0 : List ℝ) (F : LLFamily) (hF : F ∈ llFamilies T0) (k : ℝ) (hk : 0 < k) (p : F.P)
    (Tf Trc : List ℝ) (hp : F.legal p Tf Trc) :
    F.LL (F.rescale k p) (Tf.map fun t => k * t) (Trc.map fun t => k * t) = F.LL p Tf Trc + Tf.length * Real.log k :=
  (scaleLaw T0 F hF).ll k hk p Tf Trc hp

/-- **C89.** Hence `p` is a maximum likelihood estimate exactly if the rescaled parameters are one for the rescaled data. -/
theorem C89_mle (T0 : List ℝ) (F : LLFamily) (hF : F ∈ llFamilies T0) (k : ℝ) (hk : 0 < k) (p : F.P)
    (Tf Trc : List ℝ) :
    IsMLE F p Tf Trc ↔ IsMLE F (F.rescale k p) (Tf.map fun t => k * t) (Trc.map fun t => k * t) := by
  have law := scaleLaw T0 F hF
  have main : ∀ k, 0 < k → ∀ p Tf Trc, IsMLE F p Tf Trc →
      IsMLE F (F.rescale k p) (Tf.map fun t => k * t) (Trc.map fun t => k * t) := by
    intro k hk p Tf Trc ⟨hp, hmin⟩
    refine ⟨law.ok k hk p Tf Trc hp, fun q hq => ?_⟩
    have hk' : 0 < k⁻¹ := inv_pos.2 hk
    have hback : ∀ T : List ℝ, (T.map fun t => k * t).map (fun t => k⁻¹ * t) = T := by
      intro T
      rw [map_map]
      conv_rhs => rw [← map_id T]
      apply map_congr_left
      intro t _
      simp only [Function.comp_apply, id]
      field_simp
    have hq' := law.ok k⁻¹ hk' q _ _ hq
    rw [hback, hback] at hq'
    have h1 := law.ll k hk p Tf Trc hp
    have h2 := law.ll k hk _ Tf Trc hq'
    rw [law.inv k hk] at h2
    have h3 := hmin _ hq'
    rw [h1, h2]
    linarith
  refine ⟨main k hk p Tf Trc, fun h => ?_⟩
  have hk' : 0 < k⁻¹ := inv_pos.2 hk
  have := main k⁻¹ hk' _ _ _ h
  have hback : ∀ T : List ℝ, (T.map fun t => k * t).map (fun t => k⁻¹ * t) = T := by
    intro T
    rw [map_map]
    conv_rhs => rw [← map_id T]
    apply map_congr_left
    intro t _
    simp only [Function.comp_apply, id]
    field_simp
  rw [hback, hback] at this
  have hi := law.inv k⁻¹ hk' p
  rw [inv_inv] at hi
  rw [hi] at this
  exact this

/-- The hypotheses are met, for example, by Weibull_3P with failures at 2 and 3, a unit censored at 4 and threshold 1. -/
example : (⟨ℝ × ℝ × ℝ, fun p => weibull3P_LL p.1 p.2.1 p.2.2,
    fun p Tf Trc => 0 < p.1 ∧ 0 < p.2.1 ∧ Above p.2.2 Tf Trc, fun k p => (k * p.1, p.2.1, k * p.2.2)⟩ : LLFamily) ∈
      llFamilies [] ∧ (0 < (5:ℝ) ∧ 0 < (2:ℝ) ∧ Above 1 [2, 3] [4]) := by
  refine ⟨by simp [llFamilies], by norm_num, by norm_num, ?_, ?_⟩ <;> intro t ht <;>
    simp only [mem_cons, not_mem_nil, or_false] at ht
  · rcases ht with rfl | rfl <;> norm_num
  · rw [ht]; norm_num

end Reliability.Props

import Verif.Props.Growth

/-! # C24–C26, C66: optimal replacement time and ROCOF -/

set_option linter.unusedSectionVars false

namespace Reliability.Repairable

open Reliability List

/-! ### C24 -/

/-- Expected cost per unit time when every unit of hazard `(t/α)^β` costs `perEvent` and each
replacement `perCycle`. -/
noncomputable def costRate (perEvent perCycle α β t : ℝ) : ℝ := (perEvent * (t / α) ^ β + perCycle) / t

/-- The calculus fact: `α (B/(A(β-1)))^(1/β)` is the unique minimiser of `(A (t/α)^β + B)/t`. -/
theorem costRate_min {A B α β : ℝ} (hA : 0 < A) (hB : 0 < B) (hα : 0 < α) (hβ : 1 < β) {t : ℝ} (ht : 0 < t) :
    let s := α * (B / (A * (β - 1))) ^ (1 / β)
    0 < s ∧ costRate A B α β s ≤ costRate A B α β t ∧ (t ≠ s → costRate A B α β s < costRate A B α β t) := by
  intro s
  have hβ1 : 0 < β - 1 := by linarith
  set w := B / (A * (β - 1)) with hw
  have hwpos : 0 < w := by positivity
  have hspos : 0 < s := mul_pos hα (Real.rpow_pos_of_pos hwpos _)
  have hsα : (s / α) ^ β = w := by
    have : s / α = w ^ (1 / β) := by simp only [s, ← hw]; field_simp
    rw [this, ← Real.rpow_mul hwpos.le, show 1 / β * β = 1 by field_simp, Real.rpow_one]
  have hBw : B = w * A * (β - 1) := by rw [hw]; field_simp
  have hval : costRate A B α β s = A * w * β / s := by
    unfold costRate
    rw [hsα, hBw]
    congr 1
    ring
  have hx : 0 < t / s := by positivity
  have htα : (t / α) ^ β = w * (t / s) ^ β := by
    have : t / α = (s / α) * (t / s) := by field_simp
    rw [this, Real.mul_rpow (by positivity) hx.le, hsα]
  have hval2 : costRate A B α β t = A * w * ((t / s) ^ β + (β - 1)) / t := by
    unfold costRate
    rw [htα, hBw]
    congr 1
    ring
  have hbase : costRate A B α β s = A * w * (β * (t / s)) / t := by
    rw [hval]; field_simp
  refine ⟨hspos, ?_, ?_⟩
  · rw [hval2, hbase]
    apply div_le_div_of_nonneg_right _ ht.le
    apply mul_le_mul_of_nonneg_left _ (by positivity)
    have := one_add_mul_self_le_rpow_one_add (s := t / s - 1) (by linarith) hβ.le
    rw [show 1 + (t / s - 1) = t / s by ring] at this
    linarith
  · intro hne
    rw [hval2, hbase]
    apply div_lt_div_of_pos_right _ ht
    apply mul_lt_mul_of_pos_left _ (by positivity)
    have hne' : t / s - 1 ≠ 0 := by
      intro h
      apply hne
      have : t / s = 1 := by linarith
      field_simp at this
      exact this
    have := one_add_mul_self_lt_rpow_one_add (s := t / s - 1) (by linarith) hne' hβ
    rw [show 1 + (t / s - 1) = t / s by ring] at this
    linarith

/-- C24, q = 1: with positive cost and shape above 1 the call succeeds, the returned time is the unique
minimiser over all positive times of the code's cost curve `(PM (t/α)^β + CM)/t`, and `min_cost` is that
minimum. -/
theorem C24_as_good_as_old (quad : (ℝ → ℝ) → ℝ → ℝ) (PM CM α β : ℝ) (hPM : 0 < PM) (hle : PM ≤ CM)
    (hα : 0 < α) (hβ : 1 < β) :
    ∃ r, optimalReplacementTime quad PM CM α β 1 = .ok r ∧ 0 < r.ORT ∧
      r.min_cost = costRate PM CM α β r.ORT ∧
      ∀ t, 0 < t → r.min_cost ≤ costRate PM CM α β t ∧ (t ≠ r.ORT → r.min_cost < costRate PM CM α β t) := by
  have hCM : 0 < CM := lt_of_lt_of_le hPM hle
  unfold optimalReplacementTime
  rw [if_neg (not_lt.2 hle), if_pos rfl]
  refine ⟨_, rfl, (costRate_min hPM hCM hα hβ one_pos).1, rfl, ?_⟩
  intro t ht
  exact (costRate_min hPM hCM hα hβ ht).2

/-- The i-th point of the grid searched for q = 0. -/
noncomputable def gridPoint (α : ℝ) (i : Nat) : ℝ := 1 + (i : ℝ) * ((α * 3 - 1) / 9999)

/-- Renewal-reward cost rate of age replacement at age `t` for a Weibull(α, β) unit: expected cost of a
cycle (PM if it survives to `t`, CM if not) over the expected length of a cycle (the integral of the
survival function from 0 to `t`, computed by `quad`). -/
noncomputable def renewalCost (quad : (ℝ → ℝ) → ℝ → ℝ) (PM CM α β t : ℝ) : ℝ :=
  let survival := fun x : ℝ => Real.exp (-((x / α) ^ β))
  (PM * survival t + CM * (1 - survival t)) / quad survival t

/-- C24, q = 0: the returned time is the first point of the grid of 10000 points from 1 to `3α` with
the least cost, and `min_cost` is the cost there (for any numerical integrator `quad`). -/
theorem C24_as_good_as_new (quad : (ℝ → ℝ) → ℝ → ℝ) (PM CM α β : ℝ) (hle : PM ≤ CM) :
    ∃ r i, optimalReplacementTime quad PM CM α β 0 = .ok r ∧ i < 10000 ∧ r.ORT = gridPoint α i ∧
      r.min_cost = renewalCost quad PM CM α β r.ORT ∧
      ∀ j < 10000, r.min_cost ≤ renewalCost quad PM CM α β (gridPoint α j) ∧
        (j < i → r.min_cost < renewalCost quad PM CM α β (gridPoint α j)) := by
  unfold optimalReplacementTime
  rw [if_neg (not_lt.2 hle), if_neg (by norm_num), if_pos rfl]
  dsimp only
  set grid := Np.linspace (1 : ℝ) (α * 3) 10000 with hgrid
  have hlen : grid.length = 10000 := Np.linspace_length _ _ _
  have hget : ∀ j < 10000, grid[j]? = some (gridPoint α j) := by
    intro j hj
    rw [hgrid, Np.linspace_get _ _ _ _ hj]
    unfold gridPoint
    norm_num
  rw [show cputNew quad PM CM α β = renewalCost quad PM CM α β from rfl]
  set f := renewalCost quad PM CM α β with hf
  clear_value grid
  have hne : grid.map f ≠ [] := by
    intro h
    have := congrArg length h
    rw [length_map, hlen] at this
    simp at this
  obtain ⟨i, hi⟩ := Np.argmin_isSome hne
  obtain ⟨m, hm, hmin, hfirst⟩ := Np.argmin_spec hi
  have hi' : i < 10000 := by
    by_contra hc
    rw [getElem?_eq_none (by rw [length_map, hlen]; omega)] at hm
    simp at hm
  rw [getElem?_map, hget i hi'] at hm
  simp only [Option.map_some, Option.some.injEq] at hm
  have e1 : grid.getD i 0 = gridPoint α i := by
    rw [getD_eq_getElem?_getD, hget i hi']; rfl
  have e2 : (grid.map f).getD i 0 = f (gridPoint α i) := by
    rw [getD_eq_getElem?_getD, getElem?_map, hget i hi']; rfl
  simp only [hi, e1, e2]
  refine ⟨⟨gridPoint α i, f (gridPoint α i)⟩, i, rfl, hi', rfl, rfl, ?_⟩
  · intro j hj
    simp only [hm]
    have hjm : (grid.map f)[j]? = some (f (gridPoint α j)) := by
      rw [getElem?_map, hget j hj]; rfl
    refine ⟨hmin _ (mem_of_getElem? hjm), ?_⟩
    intro hji
    exact hfirst j _ hjm hji

/-- C24: rejected exactly when PM costs more than CM or q is neither 0 nor 1. -/
theorem C24_rejects_iff (quad : (ℝ → ℝ) → ℝ → ℝ) (PM CM α β q : ℝ) :
    optimalReplacementTime quad PM CM α β q = valueErr ↔ CM < PM ∨ (q ≠ 0 ∧ q ≠ 1) := by
  by_cases hle : CM < PM
  · simp [optimalReplacementTime, hle]
  · by_cases h1 : q = 1
    · subst h1
      unfold optimalReplacementTime
      rw [if_neg hle, if_pos rfl]
      simp [hle]
    · by_cases h0 : q = 0
      · subst h0
        obtain ⟨r, i, hr, -⟩ := C24_as_good_as_new quad PM CM α β (not_lt.1 hle)
        rw [hr]
        simp [hle]
      · unfold optimalReplacementTime
        rw [if_neg hle, if_neg h1, if_neg h0]
        simp [h0, h1]

/-- Finding about C24, q = 1: the code charges `cost_PM` for every failure and `cost_CM` for every
replacement.  Under the usual minimal-repair model (each failure costs CM, each planned replacement PM)
the returned time is never optimal when PM < CM. -/
theorem C24_cost_roles_finding (quad : (ℝ → ℝ) → ℝ → ℝ) (PM CM α β : ℝ) (hPM : 0 < PM) (hlt : PM < CM)
    (hα : 0 < α) (hβ : 1 < β) (r : Replacement) (h : optimalReplacementTime quad PM CM α β 1 = .ok r) :
    ∃ t, 0 < t ∧ costRate CM PM α β t < costRate CM PM α β r.ORT := by
  have hCM : 0 < CM := hPM.trans hlt
  have hβ1 : 0 < β - 1 := by linarith
  have hr : r.ORT = α * (CM / (PM * (β - 1))) ^ (1 / β) := by
    unfold optimalReplacementTime at h
    rw [if_neg (not_lt.2 hlt.le), if_pos rfl] at h
    cases h
    rfl
  have hpos : 0 < r.ORT := by
    rw [hr]
    exact mul_pos hα (Real.rpow_pos_of_pos (by positivity) _)
  have hmin := costRate_min hCM hPM hα hβ hpos
  refine ⟨_, hmin.1, hmin.2.2 ?_⟩
  rw [hr]
  intro heq
  have h1 := mul_left_cancel₀ hα.ne' heq
  have h2 := (Real.rpow_left_inj (x := CM / (PM * (β - 1))) (y := PM / (CM * (β - 1))) (by positivity)
    (by positivity) (by positivity : 1 / β ≠ 0)).1 h1
  rw [div_eq_div_iff (by positivity) (by positivity)] at h2
  have h3 : CM * CM = PM * PM := by
    have : (CM * CM) * (β - 1) = (PM * PM) * (β - 1) := by linarith
    exact mul_right_cancel₀ hβ1.ne' this
  nlinarith

example (quad : (ℝ → ℝ) → ℝ → ℝ) : ∃ r, optimalReplacementTime quad 1 5 1000 (5/2) 1 = .ok r ∧ 0 < r.ORT :=
  let ⟨r, h, hp, _⟩ := C24_as_good_as_old quad 1 5 1000 (5/2) one_pos (by norm_num) (by norm_num) (by norm_num)
  ⟨r, h, hp⟩

/-! ### C25 -/

theorem diffs_cumsum (s : ℝ) (l : List ℝ) : diffs s (Np.cumsum s l) = l := by
  induction l generalizing s with
  | nil => rfl
  | cons x xs ih => simp [Np.cumsum, diffs, ih]

theorem diffs_zipWith (s : ℝ) (l : List ℝ) : diffs s l = zipWith (fun t before => t - before) l (s :: l) := by
  induction l generalizing s with
  | nil => rfl
  | cons x xs ih => simp [diffs, ih]

theorem cumsum_diffs (s : ℝ) (l : List ℝ) : Np.cumsum s (diffs s l) = l := by
  induction l generalizing s with
  | nil => rfl
  | cons x xs ih => simp [Np.cumsum, diffs, ih]

/-- C25: giving the failure times (in any order) instead of the positive times between failures they
accumulate from changes nothing. -/
theorem C25_same_analysis (ppf : ℝ → ℝ) (tbf failure_times : List ℝ) (hpos : ∀ t ∈ tbf, 0 < t)
    (hperm : failure_times ~ Np.cumsum 0 tbf) (CI : ℝ) (test_end : Option ℝ) :
    rocof ppf none (some failure_times) CI test_end = rocof ppf (some tbf) none CI test_end := by
  have h1 : ¬ failure_times.any (fun t => decide (t ≤ 0)) = true := by
    rw [any_eq_true]
    rintro ⟨t, ht, h0⟩
    have := Np.cumsum_gt 0 tbf hpos t (hperm.mem_iff.1 ht)
    simp only [decide_eq_true_eq] at h0
    linarith
  have h2 : ¬ tbf.any (fun t => decide (t ≤ 0)) = true := by
    rw [any_eq_true]
    rintro ⟨t, ht, h0⟩
    have := hpos t ht
    simp only [decide_eq_true_eq] at h0
    linarith
  unfold rocof
  simp only [if_neg h1, if_neg h2]
  rw [Np.sort_congr hperm, Np.sort_eq_self (Np.cumsum_sorted 0 tbf hpos), diffs_cumsum]

/-- C25, the other way round: failure times are analysed as their successive differences. -/
theorem C25_failure_times (ppf : ℝ → ℝ) (f : List ℝ) (hs : f.Pairwise (· < ·)) (hpos : ∀ t ∈ f, 0 < t)
    (CI : ℝ) (test_end : Option ℝ) :
    rocof ppf none (some f) CI test_end =
      rocof ppf (some (zipWith (fun t before => t - before) f (0 :: f))) none CI test_end := by
  rw [← diffs_zipWith]
  apply C25_same_analysis
  · have : ∀ s, (∀ t ∈ f, s < t) → ∀ t ∈ diffs s f, 0 < t := by
      clear hpos
      induction f with
      | nil => simp [diffs]
      | cons a f ih =>
        intro s hsa t ht
        rw [diffs, mem_cons] at ht
        rcases ht with rfl | ht
        · have := hsa a (by simp); linarith
        · exact ih (pairwise_cons.1 hs).2 a (pairwise_cons.1 hs).1 t ht
    exact this 0 hpos
  · rw [cumsum_diffs]

example : rocof (fun p => p - 1/2) none (some [60, 10, 30]) (9/10) none =
    rocof (fun p => p - 1/2) (some [10, 20, 30]) none (9/10) none := by
  apply C25_same_analysis
  · norm_num
  · norm_num [Np.cumsum]
    exact perm_append_comm (l₁ := [60]) (l₂ := [10, 30])

/-- **C25.** With neither kind of times given nothing is computed; an invalid CI is reported first. -/
theorem C25_no_data (ppf : ℝ → ℝ) (CI : ℝ) (test_end : Option ℝ) :
    (∀ r, rocof ppf none none CI test_end ≠ .ok r) ∧
    (rocof ppf none none CI test_end = .error .valueError ↔ CI ≤ 0 ∨ 1 ≤ CI) := by
  simp only [rocof]
  by_cases h : CI ≤ 0 ∨ CI ≥ 1
  · rw [if_pos h]; simp only [valueErr]; exact ⟨by simp, by simpa using h⟩
  · rw [if_neg h]; exact ⟨by simp, by simpa using h⟩

/-- C25: both given is a ValueError; a non-positive time is a ValueError; so is a CI outside (0,1) or a
test end before the last failure. -/
theorem C25_rejects (ppf : ℝ → ℝ) (l : List ℝ) (CI : ℝ) (test_end : Option ℝ) :
    (∀ f, rocof ppf (some l) (some f) CI test_end = valueErr) ∧
    ((∃ t ∈ l, t ≤ 0) → rocof ppf (some l) none CI test_end = valueErr ∧
      rocof ppf none (some l) CI test_end = valueErr) ∧
    (CI ≤ 0 ∨ 1 ≤ CI → rocof ppf (some l) none CI test_end = valueErr) ∧
    (∀ e, test_end = some e → e < l.sum → rocof ppf (some l) none CI test_end = valueErr) := by
  refine ⟨fun _ => rfl, ?_, ?_, ?_⟩
  · rintro ⟨t, ht, h0⟩
    have : l.any (fun t => decide (t ≤ 0)) = true := any_eq_true.2 ⟨t, ht, by simpa using h0⟩
    simp [rocof, this]
  · intro h
    unfold rocof rocofTi
    simp only [ge_iff_le, if_pos h, ite_self]
  · rintro e rfl he
    unfold rocof rocofTi
    simp [he]

/-! ### C26 -/

/-- The Laplace statistic of failures at `tc` over an observation period `tn`. -/
noncomputable def laplaceU (tc : List ℝ) (tn : ℝ) : ℝ :=
  (tc.sum / tc.length - tn / 2) / (tn * Real.sqrt (1 / (12 * tc.length)))

/-- What an accepted call computes: the cumulative times used and the total observation time. -/
theorem rocofTi_ok {ppf : ℝ → ℝ} {ti : List ℝ} {CI : ℝ} {test_end : Option ℝ} {r : RocofResult}
    (h : rocofTi ppf ti CI test_end = .ok r) :
    let tn := test_end.getD ti.sum
    let n := if test_end.isSome then ti.length else ti.length - 1
    let tc := (Np.cumsum 0 ti).take n
    let B := (ti.length : ℝ) / (tc.map fun t => Real.log (tn / t)).sum
    0 < CI ∧ CI < 1 ∧ n ≠ 0 ∧ tc.length = n ∧ ti.sum ≤ tn ∧
    r.U = laplaceU tc tn ∧ r.z_crit = ppf ((1 - CI) / 2) ∧
    r.trend = (if r.U < r.z_crit then .improving B (ti.length / tn ^ B)
      else if r.U > -r.z_crit then .worsening B (ti.length / tn ^ B)
      else .constant (((n : ℝ) + 1) / ti.sum)) := by
  unfold rocofTi at h
  intro tn n tc B
  by_cases hCI : CI ≤ 0 ∨ CI ≥ 1
  · simp [hCI] at h
  · have hCI' := hCI
    push Not at hCI'
    rw [if_neg hCI] at h
    have hnn : (if test_end.isSome then ti.length else ti.length - 1) = n := rfl
    have htt : test_end.getD ti.sum = tn := rfl
    simp only [hnn, htt] at h
    by_cases hte : test_end.isSome ∧ tn < ti.sum
    · rw [if_pos hte] at h; cases h
    · rw [if_neg hte] at h
      by_cases hn0 : n = 0
      · rw [if_pos hn0] at h; cases h
      · rw [if_neg hn0] at h
        have hlen : tc.length = n := by
          simp only [tc, length_take, Np.cumsum_length, n]
          split <;> omega
        have hcs : Np.cumsum 0 (ti.take n) = tc := Np.cumsum_take 0 ti n
        have hsum : ti.sum ≤ tn := by
          cases test_end with
          | none => exact le_rfl
          | some e => simpa [tn] using hte
        have hU : (tc.sum / (n : ℝ) - tn / 2) / (tn * Real.sqrt (1 / (12 * (n : ℝ)))) = laplaceU tc tn := by
          unfold laplaceU
          rw [hlen]
        simp only [hcs, hU] at h
        refine ⟨hCI'.1, hCI'.2, hn0, hlen, hsum, ?_⟩
        split at h
        · next hlt => cases h; exact ⟨rfl, rfl, by simp only [if_pos hlt]; rfl⟩
        · next hlt =>
          split at h
          · next hgt => cases h; exact ⟨rfl, rfl, by simp only [if_neg hlt, if_pos hgt]; rfl⟩
          · next hgt => cases h; exact ⟨rfl, rfl, by simp only [if_neg hlt, if_neg hgt]⟩

/-- The three verdicts. -/
def Trend.isImproving : Trend → Prop
  | .improving .. => True
  | _ => False
def Trend.isWorsening : Trend → Prop
  | .worsening .. => True
  | _ => False
def Trend.isConstant : Trend → Prop
  | .constant _ => True
  | _ => False

/-- C26: `U` is the Laplace statistic of the failures used, and the verdict is decided by it exactly
as stated, for a quantile that is not positive below one half. -/
theorem C26_trend_iff (ppf : ℝ → ℝ) (hppf : ∀ p, p ≤ 1 / 2 → ppf p ≤ 0) (ti : List ℝ) (CI : ℝ)
    (test_end : Option ℝ) (r : RocofResult) (h : rocof ppf (some ti) none CI test_end = .ok r) :
    r.U = laplaceU ((Np.cumsum 0 ti).take (if test_end.isSome then ti.length else ti.length - 1))
      (test_end.getD ti.sum) ∧
    r.z_crit = ppf ((1 - CI) / 2) ∧
    (r.trend.isImproving ↔ r.U < r.z_crit) ∧ (r.trend.isWorsening ↔ r.U > -r.z_crit) ∧
    (r.trend.isConstant ↔ r.z_crit ≤ r.U ∧ r.U ≤ -r.z_crit) := by
  unfold rocof at h
  simp only at h
  split at h
  · cases h
  · obtain ⟨h0, h1, hn, hlen, hs, hU, hz, ht⟩ := rocofTi_ok h
    refine ⟨hU, hz, ?_⟩
    have hz0 : r.z_crit ≤ 0 := by rw [hz]; exact hppf _ (by linarith)
    rw [ht]
    by_cases hlt : r.U < r.z_crit
    · rw [if_pos hlt]
      have : ¬ r.U > -r.z_crit := by linarith
      simp only [Trend.isImproving, Trend.isWorsening, Trend.isConstant, hlt, true_iff, false_iff, true_and,
        this, not_false_eq_true]
      intro hc; linarith [hc.1]
    · rw [if_neg hlt]
      by_cases hgt : r.U > -r.z_crit
      · rw [if_pos hgt]
        simp only [Trend.isImproving, Trend.isWorsening, Trend.isConstant, hlt, hgt, true_iff, false_iff, true_and,
          not_false_eq_true]
        intro hc; linarith [hc.2]
      · rw [if_neg hgt]
        simp only [Trend.isImproving, Trend.isWorsening, Trend.isConstant, hlt, hgt, not_false_eq_true, true_and,
          true_iff, false_iff]
        exact ⟨not_lt.1 hlt, not_lt.1 hgt⟩

theorem sum_scale (k : ℝ) (l : List ℝ) : (l.map fun t => k * t).sum = k * l.sum := by
  induction l with
  | nil => simp
  | cons a l ih => simp only [map_cons, sum_cons, ih]; ring

/-- C26: changing the unit of time changes neither `U`, nor the verdict, nor Beta_hat; a constant
ROCOF is divided by the factor and Lambda_hat is rescaled to give the same expected counts. -/
theorem C26_unit_invariant (ppf : ℝ → ℝ) (ti : List ℝ) (hpos : ∀ t ∈ ti, 0 < t) (CI : ℝ)
    (test_end : Option ℝ) (k : ℝ) (hk : 0 < k) (r r' : RocofResult)
    (h : rocof ppf (some ti) none CI test_end = .ok r)
    (h' : rocof ppf (some (ti.map fun t => k * t)) none CI (test_end.map fun e => k * e) = .ok r') :
    r'.U = r.U ∧ r'.z_crit = r.z_crit ∧
    (∀ c, r.trend = .constant c → r'.trend = .constant (c / k)) ∧
    (∀ B L, r.trend = .improving B L → ∃ L', r'.trend = .improving B L' ∧ L' * k ^ B = L) ∧
    (∀ B L, r.trend = .worsening B L → ∃ L', r'.trend = .worsening B L' ∧ L' * k ^ B = L) := by
  unfold rocof at h h'
  simp only at h h'
  split at h
  · cases h
  split at h'
  · cases h'
  obtain ⟨-, -, hn, hlen, hs, hU, hz, ht⟩ := rocofTi_ok h
  obtain ⟨-, -, hn', hlen', hs', hU', hz', ht'⟩ := rocofTi_ok h'
  have hsum : (ti.map fun t => k * t).sum = k * ti.sum := by
    exact sum_scale k ti
  have htn : (test_end.map fun e => k * e).getD (ti.map fun t => k * t).sum = k * test_end.getD ti.sum := by
    cases test_end with
    | none => exact hsum
    | some e => rfl
  have hcs : Np.cumsum 0 (ti.map fun t => k * t) = (Np.cumsum 0 ti).map fun t => k * t := by
    have := Np.cumsum_scale k 0 ti
    rwa [mul_zero] at this
  have hsome : (test_end.map fun e => k * e).isSome = test_end.isSome := by cases test_end <;> rfl
  simp only [hsome, length_map, htn, hcs, ← map_take] at hU' ht' hn' hlen'
  set n := (if test_end.isSome then ti.length else ti.length - 1) with hnd
  set tc := (Np.cumsum 0 ti).take n with htc
  set tn := test_end.getD ti.sum with htnd
  have hnpos : (0 : ℝ) < n := by exact_mod_cast Nat.pos_of_ne_zero hn
  have htine : ti ≠ [] := by
    rintro rfl
    simp at hnd
    exact hn hnd
  have hsumpos : 0 < ti.sum := by
    obtain ⟨a, l, rfl⟩ := exists_cons_of_ne_nil htine
    rw [sum_cons]
    have h1 := hpos a (by simp)
    have h2 : 0 ≤ l.sum := List.sum_nonneg fun x hx => (hpos x (by simp [hx])).le
    linarith
  have htnpos : 0 < tn := lt_of_lt_of_le hsumpos hs
  have hUU : r'.U = r.U := by
    rw [hU', hU]
    unfold laplaceU
    have : (tc.map fun t => k * t).sum = k * tc.sum := by
      exact sum_scale k tc
    rw [this, length_map, hlen]
    have hsq : 0 < Real.sqrt (1 / (12 * (n : ℝ))) := Real.sqrt_pos.2 (by positivity)
    field_simp
  have hzz : r'.z_crit = r.z_crit := by rw [hz', hz]
  have htcpos : ∀ t ∈ tc, 0 < t := fun t ht => Np.cumsum_gt 0 ti hpos t (mem_of_mem_take ht)
  have hB : ((tc.map fun t => k * t).map fun t => Real.log (k * tn / t)) = tc.map fun t => Real.log (tn / t) := by
    rw [map_map]
    apply map_congr_left
    intro t ht
    have := htcpos t ht
    simp only [Function.comp]
    congr 1
    field_simp
  rw [hB, hUU, hzz, hsum] at ht'
  set B := (ti.length : ℝ) / (tc.map fun t => Real.log (tn / t)).sum with hBd
  have hL : (ti.length : ℝ) / (k * tn) ^ B * k ^ B = ti.length / tn ^ B := by
    rw [Real.mul_rpow hk.le htnpos.le]
    have h1 : 0 < k ^ B := Real.rpow_pos_of_pos hk _
    have h2 : 0 < tn ^ B := Real.rpow_pos_of_pos htnpos _
    field_simp
  refine ⟨hUU, hzz, ?_, ?_, ?_⟩
  · intro c hc
    rw [ht] at hc
    split at hc
    · cases hc
    · next h1 =>
      split at hc
      · cases hc
      · next h2 =>
        cases hc
        rw [ht', if_neg h1, if_neg h2]
        congr 1
        field_simp
  · intro B' L' hc
    rw [ht] at hc
    split at hc
    · next h1 =>
      cases hc
      exact ⟨_, by rw [ht', if_pos h1], hL⟩
    · split at hc <;> cases hc
  · intro B' L' hc
    rw [ht] at hc
    split at hc
    · cases hc
    · next h1 =>
      split at hc
      · next h2 =>
        cases hc
        exact ⟨_, by rw [ht', if_neg h1, if_pos h2], hL⟩
      · cases hc

/-- C26, constant ROCOF, partial: for a failure-terminated test (no `test_end`) it is the number of
failures over the total observation time.  Missing: time-terminated tests, where it is not
(`C26_constant_time_terminated`). -/
theorem C26_constant_rate_partial (ppf : ℝ → ℝ) (ti : List ℝ) (CI c : ℝ) (r : RocofResult)
    (h : rocof ppf (some ti) none CI none = .ok r) (hc : r.trend = .constant c) :
    c = ti.length / ti.sum := by
  unfold rocof at h
  simp only at h
  split at h
  · cases h
  obtain ⟨-, -, hn, -, -, -, -, ht⟩ := rocofTi_ok h
  rw [hc] at ht
  split at ht
  · cases ht
  · split at ht
    · cases ht
    · cases ht
      simp only [Option.isSome_none, Bool.false_eq_true, if_false] at hn ⊢
      rw [Nat.cast_sub (by omega)]
      push_cast
      ring

/-- C26 is false for time-terminated tests: with `test_end` the constant ROCOF reported is
`(failures + 1)/(time of the last failure)`, strictly more than failures over the observation time. -/
theorem C26_constant_time_terminated (ppf : ℝ → ℝ) (ti : List ℝ) (hpos : ∀ t ∈ ti, 0 < t) (CI c e : ℝ)
    (r : RocofResult) (h : rocof ppf (some ti) none CI (some e) = .ok r) (hc : r.trend = .constant c) :
    c = (ti.length + 1) / ti.sum ∧ (ti.length : ℝ) / e < c := by
  unfold rocof at h
  simp only at h
  split at h
  · cases h
  obtain ⟨-, -, hn, -, hs, -, -, ht⟩ := rocofTi_ok h
  rw [hc] at ht
  simp only [Option.isSome_some, if_true, Option.getD_some] at hn ht hs
  split at ht
  · cases ht
  · split at ht
    · cases ht
    · cases ht
      refine ⟨rfl, ?_⟩
      have htine : ti ≠ [] := by rintro rfl; simp at hn
      have hsumpos : 0 < ti.sum := by
        obtain ⟨a, l, rfl⟩ := exists_cons_of_ne_nil htine
        rw [sum_cons]
        have h1 := hpos a (by simp)
        have h2 : 0 ≤ l.sum := List.sum_nonneg fun x hx => (hpos x (by simp [hx])).le
        linarith
      have he : 0 < e := lt_of_lt_of_le hsumpos hs
      rw [div_lt_div_iff₀ he hsumpos]
      have : (0 : ℝ) ≤ ti.length := Nat.cast_nonneg _
      nlinarith

/-- A time-terminated case: one failure at 5 of a test run to 10 has `U = 0`, a constant trend, and
ROCOF 2/5 instead of 1/10. -/
example : rocof (fun p => p - 1) (some [5]) none (9/10) (some 10) =
    .ok ⟨0, (1 - 9/10) / 2 - 1, .constant (2 / 5)⟩ := by
  unfold rocof rocofTi
  norm_num [Np.cumsum]

/-! ### C66 -/

/-- C66: for a failure-terminated test, the Beta_hat and Lambda_hat ROCOF reports when there is a trend
are the Crow-AMSAA Beta and Lambda that `reliability_growth` reports for the same failure times. -/
theorem C66_rocof_agrees_with_crow (ppf : ℝ → ℝ) (ti : List ℝ) (hpos : ∀ t ∈ ti, 0 < t) (CI B L : ℝ)
    (r : RocofResult) (h : rocof ppf (some ti) none CI none = .ok r)
    (ht : r.trend = .improving B L ∨ r.trend = .worsening B L) (target : Option ℝ) (name : String) (g : Crow)
    (hg : reliabilityGrowth (Np.cumsum 0 ti) target name = .ok (.inl g)) :
    B = g.Beta ∧ L = g.Lambda := by
  unfold rocof at h
  simp only at h
  split at h
  · cases h
  obtain ⟨-, -, hn, hlen, hs, -, -, htr⟩ := rocofTi_ok h
  obtain ⟨T, hT, hpos', rfl⟩ := growth_crow_inv hg
  simp only [Option.isSome_none, Bool.false_eq_true, if_false, Option.getD_none] at hn hlen htr
  have htine : ti ≠ [] := by rintro rfl; simp at hn
  set cs := Np.cumsum 0 ti with hcs
  have hsplit : cs = cs.take (ti.length - 1) ++ [ti.sum] := by
    have h1 := dropLast_append_getLast htine
    have : cs = Np.cumsum 0 ti.dropLast ++ [ti.sum] := by
      rw [hcs]
      conv_lhs => rw [← h1]
      rw [Np.cumsum_append]
      congr 1
      simp only [Np.cumsum, zero_add]
      conv_rhs => rw [← h1]
      rw [sum_append]; simp
    rw [this]
    congr 1
    rw [take_append_of_le_length (by rw [Np.cumsum_length, length_dropLast])]
    rw [take_of_length_le (by rw [Np.cumsum_length, length_dropLast])]
  have hTs : T = ti.sum := by
    apply le_antisymm
    · have := Np.cumsum_le 0 ti hpos T hT.1
      simpa using this
    · apply hT.2
      rw [hsplit]; simp
  have hTpos : 0 < T := hpos' T hT.1
  have hsorted : Np.sort cs = cs := Np.sort_eq_self (Np.cumsum_sorted 0 ti hpos)
  have hden : ((cs.take (ti.length - 1)).map fun t => Real.log (ti.sum / t)).sum =
      (cs.length : ℝ) * Real.log T - (cs.map Real.log).sum := by
    have gen : ∀ l : List ℝ, (∀ t ∈ l, 0 < t) → (l.map fun t => Real.log (T / t)).sum =
        (l.length : ℝ) * Real.log T - (l.map Real.log).sum := by
      intro l hl
      induction l with
      | nil => simp
      | cons a l ih =>
        have ha := hl a (by simp)
        simp only [map_cons, sum_cons, length_cons]
        rw [ih (fun t ht => hl t (by simp [ht])), Real.log_div hTpos.ne' ha.ne']
        push_cast
        ring
    rw [← hTs, ← gen cs hpos']
    conv_rhs => rw [hsplit]
    rw [map_append, sum_append]
    simp only [map_cons, map_nil, sum_cons, sum_nil, ← hTs, div_self hTpos.ne', Real.log_one, add_zero]
  have hcl : cs.length = ti.length := Np.cumsum_length 0 ti
  have hB : B = (crow (Np.sort cs) T target).Beta ∧ L = ti.length / ti.sum ^ B := by
    have hBeta : (crow (Np.sort cs) T target).Beta =
        (ti.length : ℝ) / ((cs.take (ti.length - 1)).map fun t => Real.log (ti.sum / t)).sum := by
      rw [hsorted, hden]
      simp only [crow, hcl]
    rw [hBeta]
    rcases ht with ht | ht
    · rw [ht] at htr
      split at htr
      · cases htr; exact ⟨rfl, rfl⟩
      · split at htr <;> cases htr
    · rw [ht] at htr
      split at htr
      · cases htr
      · split at htr
        · cases htr; exact ⟨rfl, rfl⟩
        · cases htr
  refine ⟨hB.1, ?_⟩
  rw [hB.2, hB.1, hsorted, ← hTs]
  simp only [crow, hcl]

/-- C66, time-terminated: with a test end not before the last failure, the reported parameters maximise
the power-law log-likelihood observed to `test_end`. -/
theorem C66_rocof_time_terminated_mle (ppf : ℝ → ℝ) (ti : List ℝ) (hpos : ∀ t ∈ ti, 0 < t) (CI B L e : ℝ)
    (r : RocofResult) (h : rocof ppf (some ti) none CI (some e) = .ok r)
    (ht : r.trend = .improving B L ∨ r.trend = .worsening B L)
    (hlt : ∃ t ∈ Np.cumsum 0 ti, t ≠ e) :
    0 < B ∧ 0 < L ∧ ∀ lam β, 0 < lam → 0 < β →
      powerLawLogLik (Np.cumsum 0 ti) e lam β ≤ powerLawLogLik (Np.cumsum 0 ti) e L B := by
  unfold rocof at h
  simp only at h
  split at h
  · cases h
  obtain ⟨-, -, hn, hlen, hs, -, -, htr⟩ := rocofTi_ok h
  simp only [Option.isSome_some, if_true, Option.getD_some] at hn hlen htr hs
  rw [take_of_length_le (by rw [Np.cumsum_length])] at htr
  set cs := Np.cumsum 0 ti with hcs
  have hcl : cs.length = ti.length := Np.cumsum_length 0 ti
  have hcpos : ∀ t ∈ cs, 0 < t := fun t ht => Np.cumsum_gt 0 ti hpos t ht
  have hcle : ∀ t ∈ cs, t ≤ e := by
    intro t ht
    have := Np.cumsum_le 0 ti hpos t ht
    linarith
  obtain ⟨t0, ht0, hne0⟩ := hlt
  have hepos : 0 < e := lt_of_lt_of_le (hcpos t0 ht0) (hcle t0 ht0)
  have gen : ∀ l : List ℝ, (∀ t ∈ l, 0 < t) → (l.map fun t => Real.log (e / t)).sum =
      (l.length : ℝ) * Real.log e - (l.map Real.log).sum := by
    intro l hl
    induction l with
    | nil => simp
    | cons a l ih =>
      have ha := hl a (by simp)
      simp only [map_cons, sum_cons, length_cons]
      rw [ih (fun t ht => hl t (by simp [ht])), Real.log_div hepos.ne' ha.ne']
      push_cast
      ring
  set S := (cs.map fun t => Real.log (e / t)).sum with hS
  have hSeq := gen cs hcpos
  rw [← hS] at hSeq
  have hSpos : 0 < S := by
    have h0 : ∀ x ∈ cs.map (fun t => Real.log (e / t)), 0 ≤ x := by
      intro x hx
      rw [mem_map] at hx
      obtain ⟨s, hs, rfl⟩ := hx
      apply Real.log_nonneg
      rw [le_div_iff₀ (hcpos s hs)]
      linarith [hcle s hs]
    have h1 : Real.log (e / t0) ≤ S := single_le_sum h0 _ (mem_map.2 ⟨t0, ht0, rfl⟩)
    have h2 : 0 < Real.log (e / t0) := by
      apply Real.log_pos
      rw [lt_div_iff₀ (hcpos t0 ht0)]
      have := lt_of_le_of_ne (hcle t0 ht0) hne0
      linarith
    linarith
  set n : ℝ := (ti.length : ℝ) with hnd
  have hnpos : 0 < n := by
    rw [hnd]; exact_mod_cast Nat.pos_of_ne_zero hn
  have hBL : B = n / S ∧ L = n / e ^ B := by
    rcases ht with ht | ht
    · rw [ht] at htr
      split at htr
      · cases htr; exact ⟨rfl, rfl⟩
      · split at htr <;> cases htr
    · rw [ht] at htr
      split at htr
      · cases htr
      · split at htr
        · cases htr; exact ⟨rfl, rfl⟩
        · cases htr
  obtain ⟨hB, hL⟩ := hBL
  have hBpos : 0 < B := by rw [hB]; positivity
  have heB : 0 < e ^ B := Real.rpow_pos_of_pos hepos _
  have hLpos : 0 < L := by rw [hL]; positivity
  refine ⟨hBpos, hLpos, ?_⟩
  intro lam β hl hb
  have hLe : L * e ^ B = n := by rw [hL]; field_simp
  have hlogL : Real.log L = Real.log n - B * Real.log e := by
    rw [hL, Real.log_div hnpos.ne' heB.ne', Real.log_rpow hepos]
  rw [powerLawLogLik_expand cs hcpos e lam β hl hb, powerLawLogLik_expand cs hcpos e _ _ hLpos hBpos, hLe,
    hlogL, hcl, ← hnd]
  have heb : 0 < e ^ β := Real.rpow_pos_of_pos hepos _
  have hA := log_max hnpos heb hl
  rw [Real.log_div hnpos.ne' heb.ne', Real.log_rpow hepos] at hA
  have hBm := log_max hnpos hSpos hb
  rw [← hB] at hBm
  have hBS : B * S = n := by rw [hB]; field_simp
  rw [hcl, ← hnd] at hSeq
  have e1 : β * S = β * n * Real.log e - β * (cs.map Real.log).sum := by rw [hSeq]; ring
  have e2 : B * S = B * n * Real.log e - B * (cs.map Real.log).sum := by rw [hSeq]; ring
  nlinarith

end Reliability.Repairable

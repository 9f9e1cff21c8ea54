import Mathlib.MeasureTheory.Integral.IntervalIntegral.Basic
import Mathlib.Data.List.Sort

/-! # Specification of the Anderson–Darling statistic (C90) -/

namespace Reliability.Spec

/-- The empirical distribution on the probability scale of the fitted one: at `z` it is the `k`-th smallest empirical value,
`k` being the number of fitted values at or below `z` (0 if there is none). -/
noncomputable def empiricalStep (fitted empirical : List ℝ) (z : ℝ) : ℝ :=
  (0 :: empirical.insertionSort (· ≤ ·)).getD (fitted.countP fun c => c ≤ z) 0

/-- `n ∫ (Fₙ(z) - z)² / (z (1 - z)) dz` from 0 to the upper end `c`. -/
noncomputable def adIntegral (fitted empirical : List ℝ) (c : ℝ) : ℝ :=
  fitted.length * ∫ z in (0 : ℝ)..c, (empiricalStep fitted empirical z - z) ^ 2 / (z * (1 - z))

end Reliability.Spec

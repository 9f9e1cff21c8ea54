import Mathlib.MeasureTheory.Integral.Bochner.Set
import Mathlib.MeasureTheory.Measure.Lebesgue.Basic
import Mathlib.Analysis.SpecialFunctions.Pow.Real

/-!
# Specifications of moments (independent of the model)
-/

namespace Reliability.Spec

open MeasureTheory

/-- The (absolutely convergent) integral of `f` over the real line exists and is `a`. -/
def HasInt (f : ℝ → ℝ) (a : ℝ) : Prop := Integrable f ∧ ∫ x, f x = a

/-- `m` is the mean and `v` the variance of the law with density `f`. -/
structure MeanVar (f : ℝ → ℝ) (m v : ℝ) : Prop where
  total : HasInt f 1
  mean : HasInt (fun x => x * f x) m
  var : HasInt (fun x => (x - m) ^ 2 * f x) v
  var_pos : 0 < v

/-- `s` is the skewness `E(X-m)^3/v^(3/2)` and `k` the kurtosis `E(X-m)^4/v^2` of the law with density `f`,
mean `m` and variance `v`. -/
structure SkewKurt (f : ℝ → ℝ) (m v s k : ℝ) : Prop where
  third : ∃ c, HasInt (fun x => (x - m) ^ 3 * f x) c ∧ s = c / v ^ ((3:ℝ) / 2)
  fourth : ∃ c, HasInt (fun x => (x - m) ^ 4 * f x) c ∧ k = c / v ^ 2

end Reliability.Spec

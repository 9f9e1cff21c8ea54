import Mathlib.Order.Bounds.Defs
import Verif.Model.CombinedInit
import Verif.Spec.Quadrature

/-!
# Specification: the attributes of a combined model
-/

namespace Reliability.Spec

open Reliability.Combined

/-- `x` is a point of the grid at which `F` is as near to `p` as anywhere on the grid. -/
def NearestTo (X : List ℝ) (F : ℝ → ℝ) (p x : ℝ) : Prop := x ∈ X ∧ ∀ y ∈ X, |F x - p| ≤ |F y - p|

/-- The attributes are those of the density `f` with distribution function `F`, integrals being taken by the rule with the
weights `w` on the grid `X`. -/
structure AttrsOf (X w : List ℝ) (f F : ℝ → ℝ) (s : Summary) : Prop where
  mean : s.mean = quadSum w X (fun x => f x * x)
  variance : s.variance = quadSum w X (fun x => f x * (x - s.mean) ^ 2)
  sd : 0 ≤ s.standard_deviation ∧ s.standard_deviation ^ 2 = s.variance
  skewness : s.standard_deviation ≠ 0 →
    s.skewness * s.standard_deviation ^ 3 = quadSum w X (fun x => f x * (x - s.mean) ^ 3)
  kurtosis : s.standard_deviation ≠ 0 →
    s.kurtosis * s.standard_deviation ^ 4 = quadSum w X (fun x => f x * (x - s.mean) ^ 4)
  excess : s.excess_kurtosis = s.kurtosis - 3
  mode : s.mode ∈ X ∧ ∀ x ∈ X, f x ≤ f s.mode
  median : NearestTo X F (1 / 2) s.median
  b5 : NearestTo X F (5 / 100) s.b5
  b95 : NearestTo X F (95 / 100) s.b95

end Reliability.Spec

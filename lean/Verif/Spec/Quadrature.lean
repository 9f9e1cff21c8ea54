import Mathlib.MeasureTheory.Integral.IntervalIntegral.Basic

/-!
# Specification: a quadrature rule on a grid
-/

namespace Reliability.Spec

/-- The weighted sum of the values of `g` on the grid. -/
def quadSum (w X : List ℝ) (g : ℝ → ℝ) : ℝ := (List.zipWith (fun v x => v * g x) w X).sum

/-- A quadrature rule on the grid `X` for the interval from `a` to `b`: one positive weight per grid point, and the weighted
sum of every polynomial of degree at most 2 is its integral. -/
structure Quadrature (a b : ℝ) (X w : List ℝ) : Prop where
  length : w.length = X.length
  pos : ∀ v ∈ w, 0 < v
  exact : ∀ A B C : ℝ, quadSum w X (fun x => A + B * x + C * x ^ 2) = ∫ x in a..b, (A + B * x + C * x ^ 2)

end Reliability.Spec

import Mathlib.Data.Real.Basic
import Mathlib.Algebra.BigOperators.Group.List.Basic
import Verif.Model.Distributions

/-!
# What the QQ and PP plots are measured against (independent of the plotting model)
-/

namespace Reliability.ProbPlots.Spec

open Reliability.Distributions

/-- The eight standard distributions with admissible parameters. -/
inductive Standard : Dist → Prop
  | weibull (alpha beta gamma : ℝ) (ha : 0 < alpha) (hb : 0 < beta) : Standard (weibull alpha beta gamma)
  | exponential (Lambda gamma : ℝ) (hl : 0 < Lambda) : Standard (exponential Lambda gamma)
  | loglogistic (alpha beta gamma : ℝ) (ha : 0 < alpha) (hb : 0 < beta) : Standard (loglogistic alpha beta gamma)
  | gumbel (mu sigma : ℝ) (hs : 0 < sigma) : Standard (gumbel mu sigma)
  | normal (mu sigma : ℝ) (hs : 0 < sigma) : Standard (normal mu sigma)
  | lognormal (mu sigma gamma : ℝ) (hs : 0 < sigma) : Standard (lognormal mu sigma gamma)
  | gamma (alpha beta gamma : ℝ) (ha : 0 < alpha) (hb : 0 < beta) : Standard (gammaDist alpha beta gamma)
  | beta (alpha beta : ℝ) (ha : 0 < alpha) (hb : 0 < beta) : Standard (betaDist alpha beta)

/-- The sum of the squared vertical distances of the points from the line `Y = m X + c`. -/
def sse (x y : List ℝ) (m c : ℝ) : ℝ := ((x.zip y).map fun p => (p.2 - (m * p.1 + c)) ^ 2).sum

/-- What is trusted about `np.polyfit(x, y, deg=1)` and `np.linalg.lstsq(x, y)`: on equally long non-empty arrays
of numbers they return a line `Y = m X + c`, respectively `Y = m X`, with the least sum of squares. -/
def LeastSquares (polyfit : List ℝ → List ℝ → ℝ × ℝ) (lstsq : List ℝ → List ℝ → ℝ) : Prop :=
  ∀ x y : List ℝ, x ≠ [] → x.length = y.length →
    (∀ m c, sse x y (polyfit x y).1 (polyfit x y).2 ≤ sse x y m c) ∧
    (∀ m, sse x y (lstsq x y) 0 ≤ sse x y m 0)

/-- The fraction `1/100 + i·(98/100)/99`: the `i`-th of 100 evenly spaced fractions from 1% to 99%. -/
noncomputable def frac (i : ℕ) : ℝ := 1 / 100 + (i : ℝ) * ((99 / 100 - 1 / 100) / 99)

/-- All times from `lo` to `hi` are possible for the distribution: not negative unless it is Normal or Gumbel, and
not above 1 if it is Beta. -/
def Accepts (d : Dist) (lo hi : ℝ) : Prop :=
  (d.fam ≠ .normal → d.fam ≠ .gumbel → 0 ≤ lo) ∧ (d.fam = .beta → hi ≤ 1)

end Reliability.ProbPlots.Spec

import Mathlib.Data.EReal.Operations

/-!
# What the limits of a plot are meant to be

Independent of the model: intervals, and the horizontal window of a plot of a distribution function.
-/

namespace Reliability.Spec.AxesLimits

/-- The interval with the ends `p` lies in the one with the ends `q`. -/
def Within (p q : ℝ × ℝ) : Prop := q.1 ≤ p.1 ∧ p.2 ≤ q.2

/-- `lo` and `hi` are the smallest and the largest of the numbers. -/
def Extremes (v : List ℝ) (lo hi : ℝ) : Prop := lo ∈ v ∧ hi ∈ v ∧ ∀ t ∈ v, lo ≤ t ∧ t ≤ hi

/-- The left end of the window, if the caller gives no `xmin`: 0 for the lifetime distributions and for Beta; for a shifted
lifetime distribution a tenth of its range before the 0.1% quantile, but not below 0; the 0.1% quantile for Normal and Gumbel;
the first point of the curve for the combined models. -/
def Left (name : String) (gamma : ℝ) (quantile : ℝ → ℝ) (X : List ℝ) (l : ℝ) : Prop :=
  (name ∈ ["Weibull", "Gamma", "Loglogistic", "Exponential", "Lognormal"] ∧ gamma = 0 ∧ l = 0) ∨
  (name ∈ ["Weibull", "Gamma", "Loglogistic", "Exponential", "Lognormal"] ∧ gamma ≠ 0 ∧
    l = max 0 (quantile (1 / 1000) - (quantile (999 / 1000) - quantile (1 / 1000)) / 10)) ∨
  (name ∈ ["Normal", "Gumbel"] ∧ l = quantile (1 / 1000)) ∨
  (name = "Beta" ∧ l = 0) ∨
  (name ∈ ["Mixture", "Competing risks"] ∧ l ∈ X ∧ ∀ t ∈ X, l ≤ t)

/-- The right end, if the caller gives no `xmax`: 1 for Beta, otherwise the 99.9% quantile. -/
def Right (name : String) (quantile : ℝ → ℝ) (u : ℝ) : Prop :=
  (name = "Beta" ∧ u = 1) ∨ (name ≠ "Beta" ∧ u = quantile (999 / 1000))

/-- The number the caller gave, or one that the rule `P` allows if none was given. -/
def GivenOr (given : Option ℝ) (P : ℝ → Prop) (l : ℝ) : Prop :=
  match given with
  | some x => l = x
  | none => P l

/-- The window of a plot: the range of the `xvals` if there are any; otherwise from `xmin` to `xmax`, in whichever order they
were given, with the ends of the distribution for the ones that were not. -/
def Window (name : String) (gamma : ℝ) (quantile : ℝ → ℝ) (X : List ℝ) (xvals : Option (List ℝ)) (xmin xmax : Option ℝ)
    (lo hi : ℝ) : Prop :=
  match xvals with
  | some v => Extremes v lo hi
  | none => ∃ l u, GivenOr xmin (Left name gamma quantile X) l ∧ GivenOr xmax (Right name quantile) u ∧
      lo = min l u ∧ hi = max l u

/-- The names of the functions that can be plotted. -/
def Functions : List String := ["pdf", "PDF", "cdf", "CDF", "sf", "SF", "hf", "HF", "chf", "CHF"]

/-- The names of the distributions. -/
def Names : List String :=
  ["Weibull", "Gamma", "Loglogistic", "Exponential", "Lognormal", "Normal", "Gumbel", "Beta", "Mixture", "Competing risks"]

end Reliability.Spec.AxesLimits

import Verif.Spec.ProbPaper
import Verif.Model.FitProbPlots

/-! # Specification of the probability plots of `Fit_Everything` (C156) -/

namespace Reliability.Spec.FitProbPlots

open Reliability Reliability.ProbPaper Reliability.FitEverythingFull Reliability.FitProbPlots
open Reliability.Fitters (Dist)

/-- The location of a fit: its Gamma, 0 for the distributions without one. -/
def location (params : List (String × ℝ)) : ℝ := valueOf params "Gamma"

/-- A curve over the times from a thousandth of the first failure to ten times the last one, through the probabilities of failure by these
times. -/
structure IsCurve (D : AnyDist) (f : List ℝ) (c : Curve) : Prop where
  points : c.xs.length = 1000 ∧ D.cdf c.xs = .ok c.ys
  inside : ∀ t ∈ c.xs, ∃ u ∈ f, ∃ v ∈ f, u / 1000 ≤ t ∧ t ≤ 10 * v
  first : ∀ u ∈ f, (∀ v ∈ f, u ≤ v) → c.xs.head? = some (u / 1000)
  last : ∀ u ∈ f, (∀ v ∈ f, v ≤ u) → c.xs.getLast? = some (10 * u)

/-- A panel shows the failures `f` (with the censored times `rc`) and the fit: the plotting positions at time minus location, all of them
visible, and the CDF of the fitted distribution at time minus location; for a mixture, competing risks or a defective subpopulation a curve
on Weibull paper instead.  `extra` is how far the points are moved aside. -/
def Shows (argsort : List ℝ → List ℕ) (f rc : List ℝ) (extra : ℝ) (o : Outcome) (p : Plot) (c : Option Curve) : Prop :=
  ShowsData argsort none f (some rc) (-location o.params + extra) p ∧ AllVisible p ∧
  match o.dist with
  | .one D => DrawsCDF D.sp.cdf (-location o.params) p ∧ c = none
  | D => p.paper = .weibull ∧ p.line = none ∧ ∃ C, c = some C ∧ IsCurve D f C

/-- A fit that can be drawn: a location before every failure (and for Exponential_2P not below 0; the other classes report no location below 0),
and positive parameters where the paper depends on them. -/
structure Drawable (f : List ℝ) (d : Dist) (params : List (String × ℝ)) : Prop where
  location_nonneg : d = .Exponential_2P → 0 ≤ location params
  before : ∀ t ∈ f, location params < t
  gamma : d = .Gamma_2P ∨ d = .Gamma_3P → 0 < valueOf params "Beta"
  beta : d = .Beta_2P → 0 < valueOf params "Alpha" ∧ 0 < valueOf params "Beta"

end Reliability.Spec.FitProbPlots

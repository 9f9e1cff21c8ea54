import Verif.Spec.CIPlot
import Verif.Spec.FitterPlots

/-! # Specification of the confidence bands on the probability plots of the fitter classes (C159) -/

namespace Reliability.Spec.ProbBand

open Reliability Reliability.InputCheck Reliability.Distributions Reliability.FunctionCI

/-- The location by which the times on the paper are less than the real times. -/
def loc : Fitted → ℝ
  | .expo d => d.gamma
  | .two d => if d.fam = .normal ∨ d.fam = .gumbel then 0 else d.gamma

/-- The caller asks for bounds on time. -/
def AsksTime (t : InputCheck.StrArg) : Prop := ∃ s, t = .str s ∧ Fitters.up s ∈ ["T", "TIME"]

/-- The caller asks for bounds on reliability. -/
def AsksReliability (t : InputCheck.StrArg) : Prop := ∃ s, t = .str s ∧ Fitters.up s ∈ ["R", "REL", "RELIABILITY"]

/-- The caller asks for no bounds. -/
def AsksNone (t : InputCheck.StrArg) : Prop := t = .none ∨ ∃ s, t = .str s ∧ Fitters.up s ∈ ["NONE", "OFF"]

/-- The point on the paper at which a point of the plane of times and probabilities is shown. -/
def shown (g : ℝ) (p : ℝ × ℝ) : ℝ × ℝ := (p.1 - g, p.2)

end Reliability.Spec.ProbBand

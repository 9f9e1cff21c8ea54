import Verif.Spec.FitProbPlots
import Verif.Spec.FitEverythingFull

/-! # Specification of the probability plots of the classes of Fitters.py (C158) -/

namespace Reliability.Spec.FitterPlots

open Reliability Reliability.ProbPaper Reliability.FitEverythingFull Reliability.Spec.FitProbPlots
open Reliability.Fitters (Dist)

/-- The times a class uses: all of them for the distributions on the whole line, those other than 0 and 1 for the Beta distribution, and
those other than 0 for the rest. -/
noncomputable def usable (d : Dist) (l : List ℝ) : List ℝ :=
  if d = .Normal_2P ∨ d = .Gumbel_2P then l
  else if d = .Beta_2P then l.filter fun t => decide (t ≠ 0 ∧ t ≠ 1)
  else l.filter fun t => decide (t ≠ 0)

/-- The paper the plot is drawn on. -/
def paperOf (d : Dist) (params : List (String × ℝ)) : Paper :=
  match d with
  | .Normal_2P => .normal
  | .Gumbel_2P => .gumbel
  | .Lognormal_2P | .Lognormal_3P => .lognormal
  | .Loglogistic_2P | .Loglogistic_3P => .loglogistic
  | .Gamma_2P | .Gamma_3P => .gamma (valueOf params "Beta")
  | .Beta_2P => .beta (valueOf params "Alpha") (valueOf params "Beta")
  | _ => .weibull

/-- A fit that can be drawn: a location before every failure (for Exponential_2P not below 0; the other classes report no location below 0);
for the Normal and Gumbel distributions either positive or at least two different failures; positive parameters where the paper depends on
them. -/
structure Plottable (f : List ℝ) (d : Dist) (params : List (String × ℝ)) : Prop where
  location_nonneg : d = .Exponential_2P → 0 ≤ location params
  before : d ≠ .Normal_2P → d ≠ .Gumbel_2P → ∀ t ∈ f, location params < t
  spread : d = .Normal_2P ∨ d = .Gumbel_2P → (∀ t ∈ f, 0 < t) ∨ ∃ v ∈ f, ∃ w ∈ f, v ≠ w
  gamma : d = .Gamma_2P ∨ d = .Gamma_3P → 0 < valueOf params "Beta"
  beta : d = .Beta_2P → 0 < valueOf params "Alpha" ∧ 0 < valueOf params "Beta"

end Reliability.Spec.FitterPlots

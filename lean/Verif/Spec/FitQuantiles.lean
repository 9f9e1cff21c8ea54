import Verif.Spec.FitGlue

/-! # Specification of the table of quantiles of a fitter object (C104) -/

namespace Reliability.Spec.FitGlue

open Reliability Reliability.InputCheck Reliability.Spec.InputCheck

/-- The attribute `quantiles` for the argument `arg` and the fitted distribution `d`: without the argument there is no table;
otherwise the table has one line for each quantile asked for, in that order, with the time at which the CDF has that value
and finite bounds on both sides of it. -/
structure IsTable (d : Distributions.Dist) (arg : QArg ℝ) (table : Option (List ℝ × List (Ext ℝ) × List (Ext ℝ) × List (Ext ℝ))) :
    Prop where
  absent : arg = .none → table = none
  present : arg ≠ .none → ∃ l, l ≠ [] ∧ QMeans arg (.array l) ∧ ∃ lo t up : ℝ → ℝ,
    table = some (l, l.map fun q => .fin (lo q), l.map fun q => .fin (t q), l.map fun q => .fin (up q)) ∧
    ∀ q ∈ l, d.sp.cdf (t q) = q ∧ lo q ≤ t q ∧ t q ≤ up q

end Reliability.Spec.FitGlue

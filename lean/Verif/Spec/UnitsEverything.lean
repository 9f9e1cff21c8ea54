import Verif.Spec.UnitsReport
import Verif.Spec.FitEverythingFull

/-! # Specification of `Fit_Everything` in another unit of time (C169) -/

namespace Reliability.Spec.FitEverythingFull

open Reliability Reliability.InputCheck Reliability.FitGlue Reliability.FitEverythingFull Reliability.Spec
open Reliability.Fitters (Dist)

/-- The distributions without a location, for times from 0 (or from minus infinity) to infinity. -/
def scaleDists : List Dist :=
  [.Weibull_2P, .Gamma_2P, .Lognormal_2P, .Exponential_1P, .Normal_2P, .Gumbel_2P, .Loglogistic_2P]

/-- The sorting routine sorts, `least_squares` keeps a forced shape and the optimizers of the fits of `scaleDists` are exact. -/
structure ExactAnswers (A : Answers) : Prop where
  sorts : IsArgsort A.argsort
  keeps : ∀ num ∈ [A.w2, A.n2, A.l2, A.gu2, A.lo2], ∀ s m, ((num (some s)).ls m).2 = s
  exact2 : ∀ num ∈ [A.w2, A.n2, A.l2, A.gu2, A.lo2], ∀ fo, Exact (num fo).minimize ∧ Exact (num fo).minimize1
  exactGamma : Exact A.ga2.minimize
  exactExpo : Exact A.e1.minimize

/-- The row of the table is from an optimizer, and its estimates (except Mu) are positive. -/
def Admissible (r : FRow) : Prop := r.optimizer ≠ none ∧ ∀ p ∈ r.params, p.1 ≠ "Mu" → 0 < p.2

end Reliability.Spec.FitEverythingFull

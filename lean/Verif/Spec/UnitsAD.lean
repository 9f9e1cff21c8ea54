import Verif.Spec.UnitsReport
import Verif.Spec.RankRegression

/-! # Specification of the Anderson–Darling statistic in another unit of time (C170) -/

namespace Reliability.Spec

open Reliability Reliability.Distributions Reliability.InputCheck Reliability.FitGlue
open Reliability.FunctionCI (Two Jac)

/-- `r` is the result of the fitter `fit` on the arguments `x` with the sorting routine `argsort`, found by an optimizer, and the
optimizers were exact. -/
def ExactSorted (argsort : List ℝ → List ℕ)
    (fit : (List ℝ → List ℕ) → Jac → (Option ℝ → Num2) → Args → Except Err (FitRes Two)) (x : Args) (r : FitRes Two) : Prop :=
  r.optimizer ≠ none ∧ ∃ J num, (∀ fo, Exact (num fo).minimize) ∧ (∀ fo, Exact (num fo).minimize1) ∧ fit argsort J num x = .ok r

end Reliability.Spec

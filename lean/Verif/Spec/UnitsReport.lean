import Verif.Spec.UniqueFit
import Verif.Spec.PlottingPositions

/-! # Specification of how the criteria of a fit depend on the unit of time (C168) -/

namespace Reliability.Spec

open Reliability Reliability.Distributions Reliability.InputCheck Reliability.FitGlue
open Reliability.FunctionCI (Two Jac)

/-- `r` is the result of the fitter `fit` on the arguments `x`, found by an optimizer; the optimizers were exact, the sorting
routine sorts and `least_squares` keeps a forced shape. -/
def ExactRun (fit : (List ℝ → List ℕ) → Jac → (Option ℝ → Num2) → Args → Except Err (FitRes Two)) (x : Args) (r : FitRes Two) : Prop :=
  r.optimizer ≠ none ∧ ∃ argsort J num, IsArgsort argsort ∧ (∀ s m, ((num (some s)).ls m).2 = s) ∧
    (∀ fo, Exact (num fo).minimize) ∧ (∀ fo, Exact (num fo).minimize1) ∧ fit argsort J num x = .ok r

/-- The criteria `g'` are the criteria `g` after `n` failure times were multiplied by `k`: each density is divided by `k`, so the
log-likelihood falls by `n ln k` and the three criteria built on it rise by `2 n ln k`.  (`AICc` is reported for both or for
neither.) -/
structure Shifted (n : ℕ) (k : ℝ) (g g' : GoF) : Prop where
  loglik : g'.loglik = g.loglik - n * Real.log k
  loglik2 : g'.loglik2 = g.loglik2 + 2 * n * Real.log k
  AICc : g'.AICc = g.AICc.map (· + 2 * n * Real.log k)
  BIC : g'.BIC = g.BIC + 2 * n * Real.log k

end Reliability.Spec

import Verif.Model.FitGlue
import Verif.Spec.Optimizer

/-! # Specification of a maximum likelihood run of a fitter (C161-C163) -/

namespace Reliability.Spec

open Reliability Reliability.Distributions Reliability.InputCheck Reliability.FitGlue
open Reliability.FunctionCI (Two Jac)

/-- `F` and `C` are the failures and the right censored times handed to the fitter (leaving `right_censored` out hands over
none). -/
def Units (x : Args) (F C : List ℝ) : Prop :=
  x.failures = .array F ∧ (x.right_censored = .none ∧ C = [] ∨ x.right_censored = .array C)

/-- `r` is the result of the fitter `fit` on the arguments `x`, found by an optimizer, and the optimizers were exact.  Which
sorting routine, initial guess and optimizers were used is left open. -/
def ExactML (fit : (List ℝ → List ℕ) → Jac → (Option ℝ → Num2) → Args → Except Err (FitRes Two)) (x : Args) (r : FitRes Two) : Prop :=
  r.optimizer ≠ none ∧ ∃ argsort J num, (∀ fo, Exact (num fo).minimize) ∧ (∀ fo, Exact (num fo).minimize1) ∧
    fit argsort J num x = .ok r

/-- The optimizer succeeds, with an answer inside the bounds, whenever the objective has a minimum inside the bounds. -/
def Finds {P : Type} [Coords P] (m : Minimizer P) : Prop :=
  ∀ ob b n p, (∃ x : P, Inside x b ∧ ∀ y, Inside y b → ob x ≤ ob y) → (m ob b n p).success = true ∧ Inside (m ob b n p).x b

end Reliability.Spec

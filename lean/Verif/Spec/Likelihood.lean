import Mathlib.Analysis.SpecialFunctions.Exp
import Mathlib.Algebra.BigOperators.Group.List.Basic

/-!
# Specification of a log-likelihood (independent of the model)
-/

namespace Reliability.Spec

/-- `L` is the log-likelihood of failures `Tf` and right censored times `Trc` under the density `f` and survival
function `S`: its exponential is the product of the densities at the failures and the survival probabilities at
the censored times (which is then positive). -/
def IsLogLik (f S : ℝ → ℝ) (Tf Trc : List ℝ) (L : ℝ) : Prop :=
  Real.exp L = (Tf.map f).prod * (Trc.map S).prod

/-- The likelihood of failures `Tf` and right censored times `Trc` under the density `f` and survival function `S`. -/
noncomputable def likelihood (f S : ℝ → ℝ) (Tf Trc : List ℝ) : ℝ := (Tf.map f).prod * (Trc.map S).prod

end Reliability.Spec

import Mathlib.Analysis.SpecialFunctions.Pow.Real

/-! # Specification for C91: nonlinear least squares for `(t/α)^β` -/

namespace Reliability.Spec

/-- Sum of the squared distances of the points from the curve `(t/a)^b`. -/
noncomputable def powerSS (times mcf : List ℝ) (a b : ℝ) : ℝ :=
  ((times.zip mcf).map fun p => (p.2 - (p.1 / a) ^ b) ^ 2).sum

/-- `(a, b)` is a least-squares estimate among positive `a`. -/
def IsPowerFit (times mcf : List ℝ) (a b : ℝ) : Prop :=
  0 < a ∧ ∀ a' b', 0 < a' → powerSS times mcf a b ≤ powerSS times mcf a' b'

end Reliability.Spec

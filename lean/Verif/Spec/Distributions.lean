import Mathlib.Analysis.Calculus.Deriv.Basic
import Mathlib.Topology.Order.Basic
import Mathlib.Topology.Instances.Real.Lemmas
import Mathlib.Analysis.SpecialFunctions.Exp

/-!
# Specifications for probability distributions (independent of the model)
-/

namespace Reliability.Spec

open Filter Topology

/-- `F` is a continuous cumulative distribution function and `S` its survival function. -/
structure SurvivalLaw (F S : ℝ → ℝ) : Prop where
  mono : Monotone F
  cont : Continuous F
  bot : Tendsto F atBot (𝓝 0)
  top : Tendsto F atTop (𝓝 1)
  range : ∀ x, 0 ≤ F x ∧ F x ≤ 1
  compl : ∀ x, F x + S x = 1

/-- On the open set `x ∈ D`: `f` is the density of `F`, `h = f / S` the hazard, `H = -log S` the cumulative
hazard, and `h` is the derivative of `H`. -/
structure HazardLaw (D : Set ℝ) (f F S h H : ℝ → ℝ) : Prop where
  density : ∀ x ∈ D, HasDerivAt F (f x) x
  sf_pos : ∀ x ∈ D, 0 < S x
  hazard : ∀ x ∈ D, h x = f x / S x
  cumhazard : ∀ x ∈ D, Real.exp (-H x) = S x
  deriv : ∀ x ∈ D, HasDerivAt H (h x) x

/-- `Q` inverts `F` on the support `D`, and `R` inverts `S`. -/
structure QuantileLaw (D : Set ℝ) (F S Q R : ℝ → ℝ) : Prop where
  mem : ∀ q, 0 < q → q < 1 → Q q ∈ D
  cdf_quantile : ∀ q, 0 < q → q < 1 → F (Q q) = q
  range : ∀ x ∈ D, 0 < F x ∧ F x < 1
  quantile_cdf : ∀ x ∈ D, Q (F x) = x
  isf : ∀ q, 0 < q → q < 1 → R q = Q (1 - q) ∧ S (R q) = q

end Reliability.Spec

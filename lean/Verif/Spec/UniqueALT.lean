import Verif.Spec.ALTGlue
import Verif.Spec.Optimizer

/-! # Specification of a maximum likelihood run of an ALT fitter (C165-C167) -/

namespace Reliability.Spec.ALTGlue

open Reliability Reliability.ALT Reliability.InputCheck Reliability.FitGlue Reliability.ALTGlue
open Reliability.FunctionCI (Two Jac)
open Reliability.Spec

/-- `res` is the result of the single-stress class `c` on the arguments `x`, found by an optimizer, and the optimizer was exact.
Which sorting routine, initial guess and optimizer were used is left open. -/
def ExactALT1 (c : Cls ℝ) (x : ALTArgs) (res : ALTRes ℝ) : Prop :=
  res.optimizer ≠ none ∧ ∃ argsort J num noise minimize, Exact minimize ∧
    fitALT c singleKind argsort J num noise minimize x = .ok res

/-- The same for a dual-stress class; the type of the keys of the groups, from which the two stresses can be read back, is left
open. -/
def ExactALT2 (c : Cls (ℝ × ℝ)) (x : ALTArgs) (res : ALTRes (ℝ × ℝ)) : Prop :=
  res.optimizer ≠ none ∧ ∃ (κ : Type) (_ : LinearOrder κ) (key : ℝ → Option ℝ → κ) (stress : κ → ℝ × ℝ) (argsort : List ℝ → List ℕ)
    (J : Jac) (num : ℕ → Option ℝ → Num2) (noise : Matrix (Fin 3) (Fin 3) ℝ) (minimize : Minimizer (Fin c.n → ℝ)),
    (∀ a b, stress (key a (some b)) = (a, b)) ∧ Exact minimize ∧
    fitALT c (dualKind key stress) argsort J num noise minimize x = .ok res

/-- The estimates in the results table. -/
def estimates {σ : Type} (res : ALTRes σ) : List ℝ := res.rows.map Row.point

/-- The same life-stress relation when times are measured in units `k` times smaller and the stresses in units `k₁` and `k₂` times
smaller, so that all numbers are multiplied by these factors. -/
noncomputable def convert (k k₁ k₂ : ℝ) : LifeStress → LifeStress
  | .exponential a b => .exponential (k₁ * a) (k * b)
  | .eyring a c => .eyring (k₁ * a) (c - Real.log k - Real.log k₁)
  | .power a n => .power (k * a / k₁ ^ n) n
  | .dualExponential a b c => .dualExponential (k₁ * a) (k₂ * b) (k * c)
  | .powerExponential a c n => .powerExponential (k₁ * a) (k * c / k₂ ^ n) n
  | .dualPower c m n => .dualPower (k * c / k₁ ^ m / k₂ ^ n) m n

end Reliability.Spec.ALTGlue

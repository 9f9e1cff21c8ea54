import Verif.Model.ALT
import Verif.Spec.OtherFunctions

/-!
# Specification of an ALT fit (independent of the likelihood formulas of ALT_fitters.py)

A unit at stress `s` lives according to the base distribution `ld` (Weibull, Lognormal, Normal, Exponential) whose
life is `life s`; `LifeDist` and `LifeStress` are in Verif/Spec/OtherFunctions.lean.
-/

namespace Reliability.Spec

open ALT

/-- The shape parameter is admissible. -/
def LifeDist.Valid : LifeDist → Prop
  | .weibull beta => 0 < beta
  | .lognormal sigma => 0 < sigma
  | .normal sigma => 0 < sigma
  | .exponential => True

/-- The scale parameter shown in the change-of-parameters table. -/
noncomputable def LifeDist.scale : LifeDist → ℝ → ℝ
  | .weibull _, life => life
  | .lognormal _, life => Real.log life
  | .normal _, life => life
  | .exponential, life => life

/-- What a user relies on in the results of an ALT fit with `k` parameters, failures `F` and right censored units `C`
(each a time and a stress). -/
structure IsALTFit {σ : Type} (ld : LifeDist) (k : ℕ) (life : σ → ℝ) (F C : List (ℝ × σ)) (use : Option σ)
    (groups : List σ) (fit : Fit) : Prop where
  /-- The reported log-likelihood is that of the data when each unit follows the base distribution at its own stress. -/
  loglik : Real.exp fit.loglik = (F.map fun i => (ld.dist (life i.2)).sp.pdf i.1).prod *
    (C.map fun i => (ld.dist (life i.2)).sp.sf i.1).prod
  /-- Information criteria. -/
  AICc : fit.AICc = if k + 1 < F.length + C.length then
      some (2 * k - 2 * fit.loglik + (2 * k ^ 2 + 2 * k) / ((F.length + C.length : ℕ) - k - 1 : ℝ)) else none
  BIC : fit.BIC = k * Real.log ((F.length + C.length : ℕ) : ℝ) - 2 * fit.loglik
  /-- The use-level distribution is the same family at the use-level life. -/
  useDist : fit.useDist = use.map fun u => ld.dist (life u)
  /-- The scale of each stress group. -/
  newScale : fit.newScale = groups.map fun g => ld.scale (life g)
  /-- The acceleration factor of each stress group: how many times longer life is at use level. -/
  AF : ∀ u, use = some u → List.Forall₂ (fun g a => life u = a * life g) groups fit.AF

/-- Parameters are real or positive. -/
inductive ParamKind where
  | real
  | positive

/-- The estimate is admissible. -/
def ParamKind.Ok : ParamKind → ℝ → Prop
  | .real, _ => True
  | .positive, x => 0 < x

/-- Bounds of an estimate: they enclose it; for a real parameter symmetrically, for a positive parameter they are
positive and their geometric mean is the estimate. -/
def ParamKind.Encloses : ParamKind → ℝ → ℝ × ℝ → Prop
  | .real, x, b => b.1 ≤ x ∧ x ≤ b.2 ∧ b.1 + b.2 = 2 * x
  | .positive, x, b => 0 < b.1 ∧ b.1 ≤ x ∧ x ≤ b.2 ∧ b.1 * b.2 = x ^ 2

/-- Each estimate is enclosed by its bounds, in order. -/
def EnclosedBy (xs : List (ParamKind × ℝ)) (bounds : List (ℝ × ℝ)) : Prop :=
  List.Forall₂ (fun x b => x.1.Encloses x.2 b) xs bounds

end Reliability.Spec

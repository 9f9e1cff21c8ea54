import Mathlib.Analysis.Calculus.Deriv.Basic
import Verif.Model.FunctionCI

/-!
# Specification for the confidence bounds on CDF, SF, CHF (uses the model only for its data types and the
distribution functions of C33–C35)
-/

namespace Reliability.Spec

open Reliability.Distributions Reliability.FunctionCI

/-- Legal parameters: second parameter positive, `alpha` positive. -/
def ParamsOK (f : CFam) (a b : ℝ) : Prop := 0 < b ∧ (f = .weibull ∨ f = .loglogistic → 0 < a)

/-- The interior of the support of the fitted distribution. -/
def InSupport (f : CFam) (gamma x : ℝ) : Prop :=
  match f with
  | .normal => True
  | .gumbel => True
  | _ => gamma < x

/-- Finite standard errors and a covariance they allow (Cauchy–Schwarz), as from a covariance matrix. -/
def ErrorsOK (d : Two) (sa sb c : ℝ) : Prop :=
  d.SEa = some (.fin sa) ∧ d.SEb = some (.fin sb) ∧ d.Cov = some (.fin c) ∧ (∃ z, d.Z = some (.fin z)) ∧
    c ^ 2 ≤ sa ^ 2 * sb ^ 2

/-- `z` is the two-sided standard normal quantile of the confidence level `CI`. -/
def TwoSidedZ (CI z : ℝ) : Prop := 0 < z ∧ normStd.cdf z - normStd.cdf (-z) = CI

/-- The value of CDF, SF or CHF that belongs to a reliability. -/
noncomputable def ofReliability (fn : Func) (R : ℝ) : ℝ :=
  match fn with
  | .CDF => 1 - R
  | .SF => R
  | .CHF => -Real.log R

/-- The scale on which bounds on reliability are symmetric: ln(-ln R), the normal quantile, or the log odds. -/
noncomputable def relScale (f : CFam) (R : ℝ) : ℝ :=
  match f with
  | .weibull => Real.log (-Real.log R)
  | .gumbel => Real.log (-Real.log R)
  | .normal => normStd.ppf R
  | .lognormal => normStd.ppf R
  | .loglogistic => Real.log ((1 - R) / R)
  | .gamma => Real.log ((1 - R) / R)

/-- The scale on which bounds on time are symmetric: time, or its logarithm above gamma. -/
noncomputable def timeScale (f : CFam) (gamma t : ℝ) : ℝ :=
  match f with
  | .normal => t
  | .gumbel => t
  | _ => Real.log (t - gamma)

/-- `V` is the delta-method variance of `F(a,b)`: gradient times covariance matrix times gradient. -/
def DeltaVariance (F : ℝ → ℝ → ℝ) (a b sa sb c V : ℝ) : Prop :=
  ∃ g₁ g₂, HasDerivAt (fun a' => F a' b) g₁ a ∧ HasDerivAt (fun b' => F a b') g₂ b ∧
    V = (g₁ * sa) ^ 2 + (g₂ * sb) ^ 2 + 2 * c * (g₁ * g₂)

end Reliability.Spec

namespace Reliability.Spec

open Reliability.Distributions Reliability.FunctionCI

/-- A legal value of CDF, SF (strictly between 0 and 1) or CHF (positive). -/
def LegalValue (fn : Func) (y : ℝ) : Prop := 0 < y ∧ (fn = .CHF ∨ y < 1)

/-- The lower end of the interval for CDF, SF or CHF that belongs to an interval for the reliability. -/
noncomputable def lowerOf (fn : Func) (Rlo Rup : ℝ) : ℝ := min (ofReliability fn Rlo) (ofReliability fn Rup)

/-- The upper end. -/
noncomputable def upperOf (fn : Func) (Rlo Rup : ℝ) : ℝ := max (ofReliability fn Rlo) (ofReliability fn Rup)

/-- The reliability at which CDF, SF or CHF has the value `y`. -/
noncomputable def toReliability (fn : Func) (y : ℝ) : ℝ :=
  match fn with
  | .CDF => 1 - y
  | .SF => y
  | .CHF => Real.exp (-y)

/-- The derivatives computed numerically for the Gamma distribution are exact: of its SF at `x` … -/
def GammaJacSF (J : Jac) (d : Two) (x : ℝ) : Prop :=
  d.fam = .gamma → HasDerivAt (fun a => (gammaDist (Real.exp a) d.b d.gamma).sp.sf x) (J.du (x - d.gamma) d.a d.b).1 d.a ∧
    HasDerivAt (fun b => (gammaDist (Real.exp d.a) b d.gamma).sp.sf x) (J.du (x - d.gamma) d.a d.b).2 d.b

/-- … and of the logarithm of its inverse SF (without threshold) at `R`. -/
def GammaJacTime (J : Jac) (d : Two) (R : ℝ) : Prop :=
  d.fam = .gamma → HasDerivAt (fun a => Real.log ((gammaDist (Real.exp a) d.b 0).sp.isf R)) (J.dv R d.a d.b).1 d.a ∧
    HasDerivAt (fun b => Real.log ((gammaDist (Real.exp d.a) b 0).sp.isf R)) (J.dv R d.a d.b).2 d.b

/-- A fitted Exponential distribution: positive Lambda, finite standard error, `Z` set. -/
def ExpoOK (d : Expo) (se : ℝ) : Prop := 0 < d.Lambda ∧ 0 ≤ se ∧ d.SE = some (.fin se) ∧ ∃ z, d.Z = some z

/-- The reliability at `x` of an Exponential distribution with rate `L` and threshold `g`, for `x` above `g`. -/
noncomputable def expoSF (L g x : ℝ) : ℝ := Real.exp (-(L * (x - g)))

/-- The time at which that reliability is `R`. -/
noncomputable def expoTimeAt (L g R : ℝ) : ℝ := g + -Real.log R / L

/-- `xs'` is `xs` with everything after its first largest value replaced by this value. -/
def HeldAtMax (xs xs' : List ℝ) : Prop :=
  ∃ i m, xs[i]? = some m ∧ (∀ v ∈ xs, v ≤ m) ∧ (∀ (j : ℕ) v, j < i → xs[j]? = some v → v ≠ m) ∧
    xs' = xs.take i ++ List.replicate (xs.length - i) m

/-- The times the bounds of an Exponential distribution are reported for. -/
def ReportedFor (xs xs' : List ℝ) : Prop := (xs.length ≤ 2 ∧ xs' = xs) ∨ (2 < xs.length ∧ HeldAtMax xs xs')

end Reliability.Spec

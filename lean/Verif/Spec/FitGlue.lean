import Mathlib.Analysis.Calculus.Deriv.Basic
import Mathlib.Data.Matrix.Mul
import Verif.Spec.AndersonDarling
import Verif.Spec.FunctionCI
import Verif.Spec.InputCheck
import Verif.Spec.Likelihood
import Verif.Model.FitGlue

/-!
# Specification of what a fitter object reports (C99-C105)

Only the attributes of the object (`FitRes`), the arguments (`Args`), the distribution functions and the specifications of
earlier properties are used, none of the functions that compute the report.
-/

namespace Reliability.Spec.FitGlue

open Reliability Reliability.Distributions Reliability.InputCheck Reliability.FitGlue
open Reliability.FunctionCI (CFam Two Expo Fitted distOf)
open Reliability.Spec Reliability.Spec.InputCheck

/-- `F` and `C` are the failures and the right censored times the fit uses: the caller's, without those at the end of the
support. -/
def Used (dist : String) (x : Args) (F C : List ℝ) : Prop :=
  ∃ F₀ C₀, x.failures = .array F₀ ∧ (x.right_censored = .none ∧ C₀ = [] ∨ x.right_censored = .array C₀) ∧
    F = F₀.filter (fun t => decide (Usable dist t)) ∧ C = C₀.filter (fun t => decide (Usable dist t))

/-- The report `g` is about the distribution `d` with `k` free parameters and the data `F`, `C`. -/
structure Describes (argsort : List ℝ → List ℕ) (d : Dist) (F C : List ℝ) (k : ℕ) (g : GoF) : Prop where
  /-- the log-likelihood of the data under `d` -/
  loglik : IsLogLik d.sp.pdf d.sp.sf F C g.loglik
  loglik2 : g.loglik2 = -2 * g.loglik
  /-- Akaike's criterion with the small sample correction -/
  AICc : k + 1 < F.length + C.length →
    g.AICc = some (2 * k - 2 * g.loglik + 2 * k * (k + 1) / ((F.length + C.length : ℝ) - k - 1))
  AICc_none : F.length + C.length ≤ k + 1 → g.AICc = none
  BIC : g.BIC = k * Real.log (F.length + C.length) - 2 * g.loglik
  /-- the Anderson–Darling distance of `d` from the plotting positions of the data -/
  AD : ∃ xs ps, PP.plottingPositions argsort F (some C) none true = .ok (xs, ps) ∧ xs.Perm F ∧
    ((∀ t ∈ F, 0 < d.sp.cdf t ∧ d.sp.cdf t ≤ 1 - 1e-12) → g.AD = adIntegral (xs.map d.sp.cdf) ps (1 - 1e-12))

/-- The second partial derivatives of `f` at `p`. -/
noncomputable def secondPartials {n : ℕ} (f : (Fin n → ℝ) → ℝ) (p : Fin n → ℝ) : Matrix (Fin n) (Fin n) ℝ :=
  Matrix.of fun i j =>
    deriv (fun x => deriv (fun y => f (Function.update (Function.update p i x) j y)) (Function.update p i x j)) (p i)

/-- `V` is the inverse of the observed information at the parameters `p` of the family `D` (`legal` parameters): the matrix of
second derivatives of minus the log-likelihood; `none` if it has no inverse. -/
def InverseInformation {n : ℕ} (legal : (Fin n → ℝ) → Prop) (D : (Fin n → ℝ) → Dist) (F C : List ℝ) (p : Fin n → ℝ)
    (V : Option (Matrix (Fin n) (Fin n) ℝ)) : Prop :=
  ∀ ℓ : (Fin n → ℝ) → ℝ, (∀ v, legal v → IsLogLik (D v).sp.pdf (D v).sp.sf F C (ℓ v)) →
    match V with
    | some V => secondPartials (fun v => -ℓ v) p * V = 1
    | none => ¬ ∃ V, secondPartials (fun v => -ℓ v) p * V = 1

/-- The kinds of interval: on the scale of the logarithm (positive parameters), and on the scale of the parameter. -/
inductive Scale where
  | log | linear

/-- The bounds of the row are those of a normal approximation at `z` standard errors; without a standard error they are the
estimate.  (On the log scale an estimate of 0 has no bounds.) -/
def Interval (z : ℝ) (w : Row) : Scale → Prop
  | .log => w.point ≠ 0 → w.lower = w.point * Real.exp (-(z * w.SE / w.point)) ∧
      w.upper = w.point * Real.exp (z * w.SE / w.point) ∧ w.lower ≤ w.point ∧ w.point ≤ w.upper
  | .linear => w.lower = w.point - z * w.SE ∧ w.upper = w.point + z * w.SE ∧ w.lower ≤ w.point ∧ w.point ≤ w.upper

/-- The standard error of component `i`. -/
noncomputable def stdErr {n : ℕ} (V : Option (Matrix (Fin n) (Fin n) ℝ)) (i : Fin n) : ℝ :=
  match V with
  | some V => Real.sqrt |V i i|
  | none => 0

/-- The covariance of two components. -/
def covar {n : ℕ} (V : Option (Matrix (Fin n) (Fin n) ℝ)) (i j : Fin n) : ℝ :=
  match V with
  | some V => V i j
  | none => 0

/-- The rows of a fit of the two-parameter family `fam` (location `g` known) to `F`, `C`: names and estimates, standard errors
and covariance from the observed information, bounds at the confidence level `CI`; the same numbers are in the distribution
object.  A forced second parameter has no uncertainty and the information is that of the first parameter alone. -/
def Rows2 (fam : CFam) (g : ℝ) (nameA nameB : String) (scaleA : Scale) (F C : List ℝ) (CI : ℝ) (force : Option ℝ)
    (rows : List Row) (Cov : ℝ) (d : Two) : Prop :=
  rows.map (fun w => (w.name, w.point)) = [(nameA, d.a), (nameB, d.b)] ∧
  (∃ z, TwoSidedZ CI z ∧ d.Z = some (.fin z) ∧ List.Forall₂ (Interval z) rows [scaleA, .log]) ∧
  (force = none → ∃ V, (ParamsOK fam d.a d.b →
      InverseInformation (fun v : Fin 2 → ℝ => ParamsOK fam (v 0) (v 1)) (fun v => distOf fam (v 0) (v 1) g) F C
        ![d.a, d.b] V) ∧
    rows.map Row.SE = [stdErr V 0, stdErr V 1] ∧ Cov = covar V 0 1 ∧
    d.SEa = some (.fin (stdErr V 0)) ∧ d.SEb = some (.fin (stdErr V 1)) ∧ d.Cov = some (.fin (covar V 0 1))) ∧
  (∀ s, force = some s → ∃ V, (ParamsOK fam d.a d.b →
      InverseInformation (fun v : Fin 1 → ℝ => ParamsOK fam (v 0) s) (fun v => distOf fam (v 0) s g) F C ![d.a] V) ∧
    rows.map Row.SE = [stdErr V 0, 0] ∧ Cov = 0 ∧
    d.SEa = some (.fin (stdErr V 0)) ∧ d.SEb = some (.fin 0) ∧ d.Cov = some (.fin 0))

/-- The rows of a Gamma fit with scale `α` (location `g` known): alpha and beta from the information in (alpha, beta); mu, kept
as an attribute, from that in (mu, beta); the distribution object gets the numbers of (mu, beta) except that the standard
error of beta is that of (alpha, beta).  If either information matrix is singular there are no standard errors. -/
def GammaRows (F C : List ℝ) (CI α g : ℝ) (rows extra : List Row) (Cov : ℝ) (d : Two) : Prop :=
  rows.map (fun w => (w.name, w.point)) = [("Alpha", α), ("Beta", d.b)] ∧
  extra.map (fun w => (w.name, w.point)) = [("Mu", Real.log α)] ∧
  (∃ z, TwoSidedZ CI z ∧ d.Z = some (.fin z) ∧ List.Forall₂ (Interval z) rows [.log, .log] ∧
    List.Forall₂ (Interval z) extra [.log]) ∧
  ∃ V W : Option (Matrix (Fin 2) (Fin 2) ℝ), (0 < α → 0 < d.b →
      InverseInformation (fun v : Fin 2 → ℝ => 0 < v 0 ∧ 0 < v 1) (fun v => gammaDist (v 0) (v 1) g) F C ![α, d.b] V ∧
      InverseInformation (fun v : Fin 2 → ℝ => 0 < v 1) (fun v => gammaDist (Real.exp (v 0)) (v 1) g) F C
        ![Real.log α, d.b] W) ∧
    if V.isSome = true ∧ W.isSome = true then
      rows.map Row.SE = [stdErr V 0, stdErr V 1] ∧ extra.map Row.SE = [stdErr W 0] ∧ Cov = covar V 0 1 ∧
      d.SEa = some (.fin (stdErr W 0)) ∧ d.SEb = some (.fin (stdErr V 1)) ∧ d.Cov = some (.fin (covar W 0 1))
    else
      rows.map Row.SE = [0, 0] ∧ extra.map Row.SE = [0] ∧ Cov = 0 ∧
      d.SEa = some (.fin 0) ∧ d.SEb = some (.fin 0) ∧ d.Cov = some (.fin 0)

/-- All the data are above `g`. -/
def Above (F C : List ℝ) (g : ℝ) : Prop := (∀ t ∈ F, g < t) ∧ ∀ t ∈ C, g < t

/-- The rows of a fit of the family `fam` with an estimated location: the standard errors of the first two parameters and their
covariance are those for a known location, the standard error of the location is that of the full model; if either
information matrix is singular there are no standard errors. -/
def Rows3 (fam : CFam) (nameA nameB : String) (scaleA : Scale) (F C : List ℝ) (CI : ℝ) (rows : List Row) (Cov : ℝ)
    (d : Two) : Prop :=
  rows.map (fun w => (w.name, w.point)) = [(nameA, d.a), (nameB, d.b), ("Gamma", d.gamma)] ∧
  (∃ z, TwoSidedZ CI z ∧ d.Z = some (.fin z) ∧ List.Forall₂ (Interval z) rows [scaleA, .log, .log]) ∧
  ∃ (V : Option (Matrix (Fin 2) (Fin 2) ℝ)) (W : Option (Matrix (Fin 3) (Fin 3) ℝ)),
    (ParamsOK fam d.a d.b → Above F C d.gamma →
      InverseInformation (fun v : Fin 2 → ℝ => ParamsOK fam (v 0) (v 1)) (fun v => distOf fam (v 0) (v 1) d.gamma) F C
        ![d.a, d.b] V ∧
      InverseInformation (fun v : Fin 3 → ℝ => ParamsOK fam (v 0) (v 1) ∧ Above F C (v 2))
        (fun v => distOf fam (v 0) (v 1) (v 2)) F C ![d.a, d.b, d.gamma] W) ∧
    if V.isSome = true ∧ W.isSome = true then
      rows.map Row.SE = [stdErr V 0, stdErr V 1, stdErr W 2] ∧ Cov = covar V 0 1 ∧
      d.SEa = some (.fin (stdErr V 0)) ∧ d.SEb = some (.fin (stdErr V 1)) ∧ d.Cov = some (.fin (covar V 0 1))
    else
      rows.map Row.SE = [0, 0, 0] ∧ Cov = 0 ∧ d.SEa = some (.fin 0) ∧ d.SEb = some (.fin 0) ∧ d.Cov = some (.fin 0)

/-- The same for a Gamma fit with scale `α` and estimated location. -/
def GammaRows3 (F C : List ℝ) (CI α : ℝ) (rows extra : List Row) (Cov : ℝ) (d : Two) : Prop :=
  rows.map (fun w => (w.name, w.point)) = [("Alpha", α), ("Beta", d.b), ("Gamma", d.gamma)] ∧
  extra.map (fun w => (w.name, w.point)) = [("Mu", Real.log α)] ∧
  (∃ z, TwoSidedZ CI z ∧ d.Z = some (.fin z) ∧ List.Forall₂ (Interval z) rows [.log, .log, .log] ∧
    List.Forall₂ (Interval z) extra [.log]) ∧
  ∃ (V W : Option (Matrix (Fin 2) (Fin 2) ℝ)) (X : Option (Matrix (Fin 3) (Fin 3) ℝ)),
    (0 < α → 0 < d.b → Above F C d.gamma →
      InverseInformation (fun v : Fin 2 → ℝ => 0 < v 0 ∧ 0 < v 1) (fun v => gammaDist (v 0) (v 1) d.gamma) F C ![α, d.b] V ∧
      InverseInformation (fun v : Fin 2 → ℝ => 0 < v 1) (fun v => gammaDist (Real.exp (v 0)) (v 1) d.gamma) F C
        ![Real.log α, d.b] W ∧
      InverseInformation (fun v : Fin 3 → ℝ => (0 < v 0 ∧ 0 < v 1) ∧ Above F C (v 2))
        (fun v => gammaDist (v 0) (v 1) (v 2)) F C ![α, d.b, d.gamma] X) ∧
    if V.isSome = true ∧ W.isSome = true ∧ X.isSome = true then
      rows.map Row.SE = [stdErr V 0, stdErr V 1, stdErr X 2] ∧ extra.map Row.SE = [stdErr W 0] ∧ Cov = covar V 0 1 ∧
      d.SEa = some (.fin (stdErr W 0)) ∧ d.SEb = some (.fin (stdErr V 1)) ∧ d.Cov = some (.fin (covar W 0 1))
    else
      rows.map Row.SE = [0, 0, 0] ∧ extra.map Row.SE = [0] ∧ Cov = 0 ∧
      d.SEa = some (.fin 0) ∧ d.SEb = some (.fin 0) ∧ d.Cov = some (.fin 0)

/-- `method` and `optimizer` of the object say what was asked for: maximum likelihood with the optimizer that succeeded (None if
none did), or least squares with the regression used, which is the one asked for where there is a choice; `nlls` when the
class has only non-linear least squares. -/
def Labels (nlls : Bool) (asked : StrArg) (method : String) (optimizer : Option String) : Prop :=
  ∃ m, Means methodNames asked (some m) ∧
    (m = "MLE" ∧ method = "Maximum Likelihood Estimation (MLE)" ∧
        (optimizer = none ∨ ∃ o ∈ ["TNC", "L-BFGS-B", "nelder-mead", "powell"], optimizer = some o) ∨
      nlls = true ∧ m ∈ ["LS", "RRX", "RRY"] ∧ method = "Least Squares Estimation (NLLS)" ∧ optimizer = none ∨
      nlls = false ∧ m ∈ ["RRX", "RRY"] ∧ method = "Least Squares Estimation (" ++ m ++ ")" ∧ optimizer = none ∨
      nlls = false ∧ m = "LS" ∧ (method = "Least Squares Estimation (RRX)" ∨ method = "Least Squares Estimation (RRY)") ∧
        optimizer = none)

end Reliability.Spec.FitGlue

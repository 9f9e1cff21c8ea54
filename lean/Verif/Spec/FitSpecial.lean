import Verif.Spec.FitGlue
import Verif.Model.FitSpecial

/-!
# Specification of what the special Weibull fitters report (C106-C109)

Only the attributes of the object, the arguments, the Weibull distribution functions and the specifications of earlier
properties are used.
-/

namespace Reliability.Spec.FitSpecial

open Reliability Reliability.Distributions Reliability.InputCheck Reliability.FitGlue Reliability.FitSpecial
open Reliability.Spec Reliability.Spec.InputCheck Reliability.Spec.FitGlue

/-- `F` and `C` are the positive times among the failures and the right censored data given. -/
def UsedData (failures right_censored : DataArg ℝ) (F C : List ℝ) : Prop :=
  ∃ F₀ C₀, failures = .array F₀ ∧ (right_censored = .none ∧ C₀ = [] ∨ right_censored = .array C₀) ∧
    F = F₀.filter (fun t => decide (0 < t)) ∧ C = C₀.filter (fun t => decide (0 < t))

/-- The data of a zero inflated fit: nothing negative, `zeros` failures at time 0, the failures `T` at positive times, the
positive right censored times `C`. -/
def ZeroData (failures : List ℝ) (right_censored : DataArg ℝ) (zeros : ℕ) (T C : List ℝ) : Prop :=
  (∀ t ∈ failures, 0 ≤ t) ∧ zeros = failures.count 0 ∧ T = failures.filter (fun t => decide (0 < t)) ∧
  ∃ C₀, (right_censored = .none ∧ C₀ = [] ∨ right_censored = .array C₀) ∧ C = C₀.filter (fun t => decide (0 < t))

/-! ### The models -/

/-- A Weibull CDF, survival function and density. -/
noncomputable def F (a b t : ℝ) : ℝ := (weibull a b 0).sp.cdf t
/-- See `F`. -/
noncomputable def S (a b t : ℝ) : ℝ := (weibull a b 0).sp.sf t
/-- See `F`. -/
noncomputable def f (a b t : ℝ) : ℝ := (weibull a b 0).sp.pdf t

/-- The likelihood of failures `T` and right censored times `C` under a density and a survival function. -/
noncomputable def lik (pdf sf : ℝ → ℝ) (T C : List ℝ) : ℝ := (T.map pdf).prod * (C.map sf).prod

/-- The likelihood of a mixture with shares `p` and `1 - p`; parameters alpha_1, beta_1, alpha_2, beta_2, p. -/
noncomputable def likMixture (T C : List ℝ) (v : Fin 5 → ℝ) : ℝ :=
  lik (fun t => v 4 * f (v 0) (v 1) t + (1 - v 4) * f (v 2) (v 3) t)
    (fun t => v 4 * S (v 0) (v 1) t + (1 - v 4) * S (v 2) (v 3) t) T C

/-- The likelihood of the smaller of two independent Weibull times. -/
noncomputable def likCR (T C : List ℝ) (v : Fin 4 → ℝ) : ℝ :=
  lik (fun t => f (v 0) (v 1) t * S (v 2) (v 3) t + f (v 2) (v 3) t * S (v 0) (v 1) t)
    (fun t => S (v 0) (v 1) t * S (v 2) (v 3) t) T C

/-- The probability of a failure up to `t` when a share `zi` is dead on arrival and a share `1 - ds` never fails. -/
noncomputable def cdfDSZI (a b ds zi t : ℝ) : ℝ := zi + (ds - zi) * F a b t

/-- The likelihood of that model: `zeros` dead on arrival, `T` failing at positive times, `C` right censored. -/
noncomputable def likDSZI (zeros : ℕ) (T C : List ℝ) (v : Fin 4 → ℝ) : ℝ :=
  v 3 ^ zeros * lik (fun t => (v 2 - v 3) * f (v 0) (v 1) t) (fun t => 1 - cdfDSZI (v 0) (v 1) (v 2) (v 3) t) T C

/-- Parameters at which the likelihood of the zero inflated defective subpopulation model is positive (the optimizer may leave
the region where they are probabilities). -/
def LegalDSZI (zeros : ℕ) (C : List ℝ) (a b ds zi : ℝ) : Prop :=
  0 < a ∧ 0 < b ∧ zi < ds ∧ (0 < zi ∨ zeros = 0) ∧ ∀ t ∈ C, cdfDSZI a b ds zi t < 1

/-! ### Goodness of fit -/

/-- The report `g` is about a model with the given CDF, `k` free parameters, the likelihood `L` and the data `T`, `C`;
`pos x p` is the empirical probability used at a time `x` with plotting position `p`. -/
structure ReportOf (argsort : List ℝ → List ℕ) (cdf : ℝ → ℝ) (pos : ℝ → ℝ → ℝ) (L : ℝ) (T C : List ℝ) (k : ℕ) (g : GoF) :
    Prop where
  loglik : Real.exp g.loglik = L
  loglik2 : g.loglik2 = -2 * g.loglik
  AICc : k + 1 < T.length + C.length →
    g.AICc = some (2 * k - 2 * g.loglik + 2 * k * (k + 1) / ((T.length + C.length : ℝ) - k - 1))
  AICc_none : T.length + C.length ≤ k + 1 → g.AICc = none
  BIC : g.BIC = k * Real.log (T.length + C.length) - 2 * g.loglik
  AD : ∃ xs ps, PP.plottingPositions argsort T (some C) none true = .ok (xs, ps) ∧ xs.Perm T ∧
    ((∀ t ∈ T, 0 < cdf t ∧ cdf t ≤ 1 - 1e-12) →
      g.AD = adIntegral (xs.map cdf) (List.zipWith pos xs ps) (1 - 1e-12))

/-! ### The rows -/

/-- `V` is the inverse of the observed information for the likelihood `L`, `none` if there is none. -/
def InverseInformationOf {n : ℕ} (legal : (Fin n → ℝ) → Prop) (L : (Fin n → ℝ) → ℝ) (p : Fin n → ℝ)
    (V : Option (Matrix (Fin n) (Fin n) ℝ)) : Prop :=
  ∀ ℓ : (Fin n → ℝ) → ℝ, (∀ v, legal v → Real.exp (ℓ v) = L v) →
    match V with
    | some V => secondPartials (fun v => -ℓ v) p * V = 1
    | none => ¬ ∃ V, secondPartials (fun v => -ℓ v) p * V = 1

/-- How the bounds of a row are made: on the log scale (`none`), or on the scale of the log odds, with the bounds of an
estimate at the edge `e` equal to it (`some (some e)`). -/
abbrev SScale := Option (Option ℝ)

/-- See `SScale`. -/
def SInterval (z : ℝ) (w : Row) : SScale → Prop
  | none => Interval z w .log
  | some e =>
    (0 < w.point → w.point < 1 →
      w.lower / (1 - w.lower) = w.point / (1 - w.point) * Real.exp (-(z * w.SE / (w.point * (1 - w.point)))) ∧
      w.upper / (1 - w.upper) = w.point / (1 - w.point) * Real.exp (z * w.SE / (w.point * (1 - w.point))) ∧
      0 < w.lower ∧ w.lower ≤ w.point ∧ w.point ≤ w.upper ∧ w.upper < 1) ∧
    (e = some w.point → w.lower = w.point ∧ w.upper = w.point)

/-- The rows for the estimates `p`: names, estimates, standard errors from the observed information of the likelihood `L` at
`p`, bounds at the confidence level `CI`. -/
def SRows {n : ℕ} (names : Fin n → String) (scales : Fin n → SScale) (legal : (Fin n → ℝ) → Prop) (L : (Fin n → ℝ) → ℝ)
    (CI : ℝ) (p : Fin n → ℝ) (rows : List Row) : Prop :=
  rows.map (fun w => (w.name, w.point)) = List.ofFn (fun i => (names i, p i)) ∧
  (∃ z, TwoSidedZ CI z ∧ List.Forall₂ (SInterval z) rows (List.ofFn scales)) ∧
  ∃ V : Option (Matrix (Fin n) (Fin n) ℝ), (legal p → InverseInformationOf legal L p V) ∧
    rows.map Row.SE = List.ofFn (stdErr V)

end Reliability.Spec.FitSpecial

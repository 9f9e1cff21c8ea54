import Mathlib.Analysis.SpecialFunctions.Pow.Real
import Mathlib.Analysis.SpecialFunctions.Sqrt
import Verif.Model.MCF

/-!
# Model of `MCF_parametric` (Repairable_systems.py:1168-1266)

Exact real arithmetic.  `np.polyfit` (degree 1), scipy's `curve_fit` and `norm.ppf` are arbitrary functions; the
covariances `curve_fit` returns are finite (with only two repairs scipy reports infinite ones: not modelled).
Of the printed text only the verdict is modelled; the plot is not.
-/

namespace Reliability.MCFP

open Reliability

/-- What `curve_fit` returns: the two parameters and the entries of the covariance matrix. -/
structure Fit where
  a : ℝ
  b : ℝ
  varA : ℝ
  varB : ℝ
  cov : ℝ

/-- The printed verdict (Repairable_systems.py:1254-1266). -/
inductive Verdict where
  | improving
  | constant
  | worsening
deriving DecidableEq

/-- The attributes of the result. -/
structure Result where
  times : List ℝ
  MCF : List ℝ
  alpha : ℝ
  beta : ℝ
  alpha_SE : ℝ
  beta_SE : ℝ
  cov_alpha_beta : ℝ
  alpha_upper : ℝ
  alpha_lower : ℝ
  beta_upper : ℝ
  beta_lower : ℝ
  verdict : Verdict

/-- Repairable_systems.py:1198-1199 — `__MCF_eqn`. -/
noncomputable def eqn (t a b : ℝ) : ℝ := (t / a) ^ b

/-- Repairable_systems.py:1186-1195 — the initial guess `[alpha_guess, beta_guess]`; `polyfit x y` is the list
[slope, intercept] as a pair. -/
noncomputable def guess (polyfit : List ℝ → List ℝ → ℝ × ℝ) (times mcf : List ℝ) : ℝ × ℝ :=
  let g := polyfit (times.map Real.log) (mcf.map Real.log)
  let beta_guess := g.1
  (Real.exp (-g.2 / beta_guess), beta_guess)

/-- Repairable_systems.py:1254-1266. -/
noncomputable def verdictOf (beta_lower beta_upper : ℝ) : Verdict :=
  if beta_upper ≤ 1 then .improving
  else if beta_lower < 1 ∧ beta_upper > 1 then .constant
  else .worsening

/-- Repairable_systems.py:1168-1266 — `MCF_parametric(data, CI)`.  `MCF_nonparametric` is called with its default
CI = 0.95 (1178-1180).  `curve_fit f xs ys p0`. -/
noncomputable def mcfParametric (ppf : ℝ → ℝ) (polyfit : List ℝ → List ℝ → ℝ × ℝ)
    (curveFit : (ℝ → ℝ → ℝ → ℝ) → List ℝ → List ℝ → ℝ × ℝ → Except Err Fit)
    (data : MCF.Data ℝ) (CI : ℝ) : Except Err Result :=
  if CI ≤ 0 ∨ CI ≥ 1 then valueErr
  else match (MCF.mcfNonparametric Real.exp Real.sqrt ppf data 0.95).2 with
  | .error e => .error e
  | .ok rows =>
    let times := rows.map (·.time)
    let mcf := rows.map (·.MCF)
    match curveFit eqn times mcf (guess polyfit times mcf) with
    | .error e => .error e
    | .ok fit =>
      let Z := -ppf ((1 - CI) / 2)
      let alpha_SE := Real.sqrt fit.varA
      let beta_SE := Real.sqrt fit.varB
      let beta_upper := fit.b * Real.exp (Z * (beta_SE / fit.b))
      let beta_lower := fit.b * Real.exp (-Z * (beta_SE / fit.b))
      .ok { times, MCF := mcf, alpha := fit.a, beta := fit.b, alpha_SE, beta_SE, cov_alpha_beta := fit.cov
            alpha_upper := fit.a * Real.exp (Z * (alpha_SE / fit.a))
            alpha_lower := fit.a * Real.exp (-Z * (alpha_SE / fit.a))
            beta_upper, beta_lower, verdict := verdictOf beta_lower beta_upper }

end Reliability.MCFP

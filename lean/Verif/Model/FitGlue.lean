import Mathlib.Analysis.Calculus.Deriv.Basic
import Mathlib.LinearAlgebra.Matrix.NonsingularInverse
import Verif.Model.Likelihood
import Verif.Model.InputCheck
import Verif.Model.FunctionCI
import Verif.Model.AndersonDarling
import Verif.Model.PlottingPositions

/-!
# Model of the fitter classes `Fit_<distribution>` (/repo/reliability/Fitters.py:1938-9996)

What each class does between its arguments and its attributes: input checks, least squares guess, choice of the method,
optimisation, standard errors, confidence bounds of the parameters, the distribution object, the table of quantiles and
the goodness of fit.  `least_squares` and scipy's `minimize` are arbitrary functions (their results are finite real
numbers; an exception raised inside them is not represented).  autograd's `hessian` is the matrix of the second partial
derivatives, `np.linalg.inv` is the exact inverse and raises LinAlgError exactly for a singular matrix.
Printing and plotting are not represented, except that building the text of a warning can raise (see `warned`).
-/

namespace Reliability.FitGlue

open Reliability Reliability.Distributions Reliability.Likelihood Reliability.Fitters Reliability.InputCheck
open Reliability.FunctionCI (CFam Two Expo Fitted Jac extractCI zOf)

/-! ## The common pieces -/

/-- `hessian(f)(p)` (autograd): the second partial derivatives. -/
noncomputable def hessian {n : ℕ} (f : (Fin n → ℝ) → ℝ) (p : Fin n → ℝ) : Matrix (Fin n) (Fin n) ℝ :=
  Matrix.of fun i j =>
    deriv (fun x => deriv (fun y => f (Function.update (Function.update p i x) j y)) (Function.update p i x j)) (p i)

/-- `np.linalg.inv`; `none` is `LinAlgError`. -/
noncomputable def npInv {n : ℕ} (M : Matrix (Fin n) (Fin n) ℝ) : Option (Matrix (Fin n) (Fin n) ℝ) :=
  if M.det = 0 then none else some M⁻¹

/-- `abs(c) ** 0.5` (e.g. Fitters.py:2140-2141). -/
noncomputable def seOf (c : ℝ) : ℝ := Real.sqrt |c|

/-- One row of `results`: Parameter, Point Estimate, Standard Error, Lower CI, Upper CI (e.g. Fitters.py:2213-2229). -/
structure Row where
  name : String
  point : ℝ
  SE : ℝ
  lower : ℝ
  upper : ℝ

/-- `goodness_of_fit` and the attributes behind it (e.g. Fitters.py:2264-2291); `AICc = none` is the string
"Insufficient data". -/
structure GoF where
  loglik2 : ℝ
  loglik : ℝ
  AICc : Option ℝ
  BIC : ℝ
  AD : ℝ

/-- The attributes of a fitter object.  `D` is the type of the attribute `distribution`; `extra` holds the estimates that
are attributes but not rows of `results` (`mu` of the Gamma fitters); `quantiles` holds the columns Quantile, Lower, Point
and Upper Estimate. -/
structure FitRes (D : Type) where
  rows : List Row
  extra : List Row
  Cov : ℝ
  dist : D
  method : String
  optimizer : Option String
  gof : GoF
  quantiles : Option (List ℝ × List (Ext ℝ) × List (Ext ℝ) × List (Ext ℝ))

/-- scipy's `minimize`: the objective, the bounds, the name of the optimizer, the guess. -/
abbrev Minimizer (P : Type) := (P → ℝ) → List (Bound ℝ) → String → P → OptResult P

/-- The bounds of `MLE_optimization` (Utils.py:5591-5625).  It raises only without any data or for an unknown name, which do not
occur. -/
noncomputable def boundsOf (name : String) (f rc : List ℝ) : List (Bound ℝ) :=
  match mleBounds name f rc with
  | .ok b => b
  | .error _ => []

/-- What `least_squares` and `minimize` answer for one call of a fitter: `ls m` for `least_squares(method=m)`, `nlls` for
the call without a method, `minimize` for scipy's function. -/
structure Num (P : Type) where
  ls : String → P
  nlls : P
  minimize : Minimizer P

/-- A row with bounds from the interval formula `ci` (`ciPositive` or `ciReal`). -/
noncomputable def ciRow (ci : ℝ → ℝ → ℝ → ℝ × ℝ) (name : String) (x SE Z : ℝ) : Row :=
  ⟨name, x, SE, (ci x SE Z).1, (ci x SE Z).2⟩

/-- A row without uncertainty: `SE = 0`, `lower = upper = point` (the `except LinAlgError` branches, e.g.
Fitters.py:2166-2172, and forced parameters, e.g. 2184-2192). -/
def fixedRow (name : String) (x : ℝ) : Row := ⟨name, x, 0, x, x⟩

/-- The warning of the `except LinAlgError` branches: its text is built with `+ self.optimizer +`, which raises TypeError
when `self.optimizer` is None (e.g. Fitters.py:2152-2165). -/
def warned {α : Type} (optimizer : Option String) (x : α) : Except Err α :=
  match optimizer with
  | none => .error .typeError
  | some _ => .ok x

/-- The standard errors `s`, or the warning after a LinAlgError (`none`). -/
def orWarn {α : Type} (s : Option α) (optimizer : Option String) : Except Err (Option α) :=
  match s with
  | some s => .ok (some s)
  | none => warned optimizer none

/-- What `self.distribution.CDF(xvals=x)` returns: an array, but a number for a single time (Distributions.py:501-506). -/
def cdfArg : List ℝ → AD.Arg
  | [x] => .number x
  | F => .array F

/-- The goodness of fit (e.g. Fitters.py:2264-2291) from the negative log-likelihood `LL` at the estimates, the number `n`
of observations and the number `k` of parameters. -/
noncomputable def gof (argsort : List ℝ → List ℕ) (CDF : List ℝ → Except Err (List ℝ)) (failures rc : List ℝ) (n k : ℕ)
    (LL : ℝ) : Except Err GoF := do
  let xy ← PP.plottingPositions argsort failures (some rc) none true
  let F ← CDF xy.1
  let ad ← AD.andersonDarling (cdfArg F) xy.2
  pure ⟨2 * LL, loglik LL, AICc n k (2 * LL), BIC n k (2 * LL), ad⟩

/-- The least squares estimates and the choice of the method (e.g. Fitters.py:2092-2131), `lsArg` being the method passed
to `LS_optimization`: estimates, `self.method`, `self.optimizer`.  A method other than LS, RRX, RRY and MLE (that is, None)
leaves the estimates undefined: AttributeError at their first use. -/
noncomputable def estimate {P : Type} (name : String) (LL : P → ℝ) (num : Num P)
    (mle : P → Except Err (MLEOut P)) (method lsArg : Option String) : Except Err (P × String × Option String) :=
  match lsArg with
  | none => valueErr
  | some m => do
    let r ← lsOptimization name LL num.ls num.nlls m
    if method = some "LS" ∨ method = some "RRX" ∨ method = some "RRY" then
      pure (r.1, "Least Squares Estimation (" ++ r.2 ++ ")", none)
    else if method = some "MLE" then do
      let o ← mle r.1
      pure (o.params, "Maximum Likelihood Estimation (MLE)", o.optimizer)
    else .error .attributeError

/-- `LS_method` (e.g. Fitters.py:2093-2096). -/
def lsMethod (method : Option String) : Option String := if method = some "MLE" then some "LS" else method

/-- The table of quantiles (e.g. Fitters.py:2240-2262).  A checked `quantiles` that is neither None nor an array (`False`, or
an unknown string) is refused by `distribution.quantile` (Distributions.py:926-933). -/
noncomputable def quantileTable (J : Jac) (d : Fitted) (CI : ℝ) (q : QArg ℝ) :
    Except Err (Option (List ℝ × List (Ext ℝ) × List (Ext ℝ) × List (Ext ℝ))) :=
  match q with
  | .none => .ok none
  | .array l => do
    let p ← quantile d.dist l
    match extractCI J d .CDF (some "time") CI (some l) none with
    | .error e => .error e
    | .ok none => .ok (some (l, [], p, []))
    | .ok (some b) => .ok (some (l, b.1, p, b.2))
  | _ => valueErr

/-! ## The two-parameter fitters -/

/-- What distinguishes the classes Fit_Weibull_2P, Fit_Normal_2P, Fit_Lognormal_2P, Fit_Gumbel_2P and Fit_Loglogistic_2P. -/
structure Fam2 where
  name : String
  nameA : String
  nameB : String
  cfam : CFam
  LL : ℝ → ℝ → List ℝ → List ℝ → ℝ
  ciA : ℝ → ℝ → ℝ → ℝ × ℝ
  ciB : ℝ → ℝ → ℝ → ℝ × ℝ

/-- Fitters.py:2071-2364. -/
noncomputable def weibull2 : Fam2 := ⟨"Weibull_2P", "Alpha", "Beta", .weibull, weibull2P_LL, ciPositive, ciPositive⟩

/-- Fitters.py:6381-6676. -/
noncomputable def normal2 : Fam2 := ⟨"Normal_2P", "Mu", "Sigma", .normal, normal2P_LL, ciReal, ciPositive⟩

/-- Fitters.py:7180-7473. -/
noncomputable def lognormal2 : Fam2 :=
  ⟨"Lognormal_2P", "Mu", "Sigma", .lognormal, fun m s => lognormal_LL m s 0, ciReal, ciPositive⟩

/-- Fitters.py:6812-7044. -/
noncomputable def gumbel2 : Fam2 := ⟨"Gumbel_2P", "Mu", "Sigma", .gumbel, gumbel2P_LL, ciReal, ciPositive⟩

/-- Fitters.py:9319-9552. -/
noncomputable def loglogistic2 : Fam2 :=
  ⟨"Loglogistic_2P", "Alpha", "Beta", .loglogistic, fun a b => loglogistic_LL a b 0, ciPositive, ciPositive⟩

/-- The answers for a two-parameter fitter; `minimize1` is `minimize` over the scale alone (forced shape). -/
structure Num2 extends Num (ℝ × ℝ) where
  minimize1 : Minimizer ℝ

/-- `MLE_optimization` of a two-parameter fitter with or without a forced shape (only the first bound is used then,
Utils.py:5567). -/
noncomputable def mle2 (LL : ℝ → ℝ → ℝ) (bounds : List (Bound ℝ)) (num : Num2) (optimizer : Option String) (force : Option ℝ) (guess : ℝ × ℝ) :
    Except Err (MLEOut (ℝ × ℝ)) :=
  match force with
  | none => mleOptimization (num.minimize (fun p => LL p.1 p.2) bounds) (fun p => |2 * LL p.1 p.2|) guess optimizer
  | some s => mleForced (num.minimize1 (fun a => LL a s) (bounds.take 1)) (fun a => |2 * LL a s|) guess s optimizer

/-- The standard errors and the covariance (Fitters.py:2134-2211, 6440-6519, 7240-7314; 6865-6901 and 9373-9407 without a
forced shape): `none` after a LinAlgError. -/
noncomputable def se2 (LL : ℝ → ℝ → ℝ) (a b : ℝ) (force : Option ℝ) (optimizer : Option String) :
    Except Err (Option (ℝ × ℝ × ℝ)) :=
  match force with
  | none =>
    match npInv (hessian (fun v : Fin 2 → ℝ => LL (v 0) (v 1)) ![a, b]) with
    | some C => .ok (some (seOf (C 0 0), seOf (C 1 1), C 0 1))
    | none => warned optimizer none
  | some s =>
    match npInv (hessian (fun v : Fin 1 → ℝ => LL (v 0) s) ![a]) with
    | some C => .ok (some (seOf (C 0 0), 0, 0))
    | none => warned optimizer none

/-- The two rows of `results` (Fitters.py:2142-2229). -/
noncomputable def rows2 (F : Fam2) (a b Z : ℝ) (forced : Bool) : Option (ℝ × ℝ × ℝ) → List Row
  | none => [fixedRow F.nameA a, fixedRow F.nameB b]
  | some s =>
    [ciRow F.ciA F.nameA a s.1 Z, if forced then fixedRow F.nameB b else ciRow F.ciB F.nameB b s.2.1 Z]

/-- The distribution object of a fit (Fitters.py:2230-2238). -/
noncomputable def two (cfam : CFam) (a b gamma CI : ℝ) (s : Option (ℝ × ℝ × ℝ)) : Two :=
  let s' := s.getD (0, 0, 0)
  ⟨cfam, a, b, gamma, some (.fin s'.1), some (.fin s'.2.1), some (.fin s'.2.2), some (.fin (zOf CI))⟩

/-- The likelihood used, `LL` or `LL_fb` / `LL_fs` (Fitters.py:2264-2267 and alike): the latter ignores the second estimate. -/
noncomputable def LLf2 (F : Fam2) (force : Option ℝ) (f rc : List ℝ) (p : ℝ × ℝ) : ℝ :=
  match force with
  | none => F.LL p.1 p.2 f rc
  | some s => F.LL p.1 s f rc

/-- The class after `fitters_input_checking` (Fitters.py:2082-2295 for Weibull; 6392-6602, 6822-6978, 7191-7397,
9329-9484). -/
noncomputable def fit2 (F : Fam2) (argsort : List ℝ → List ℕ) (J : Jac) (num : Option ℝ → Num2) (inp : Checked ℝ)
    (force : Option ℝ) : Except Err (FitRes Two) := do
  let f := inp.failures
  let rc := inp.right_censored
  let LLf : ℝ × ℝ → ℝ := LLf2 F force f rc
  let e ← estimate F.name LLf (num force).toNum
    (mle2 (fun a b => F.LL a b f rc) (boundsOf F.name f rc) (num force) inp.optimizer force) inp.method (lsMethod inp.method)
  let a := e.1.1
  let b := e.1.2
  let s ← se2 (fun a b => F.LL a b f rc) a b force e.2.2
  let d := two F.cfam a b 0 inp.CI s
  let q ← quantileTable J (.two d) inp.CI inp.quantiles
  let g ← gof argsort (CDF (Fitted.two d).dist) f rc (f.length + rc.length) (kForced 2 force.isSome) (LLf (a, b))
  pure ⟨rows2 F a b (zOf inp.CI) force.isSome s, [], (s.getD (0, 0, 0)).2.2, d, e.2.1, e.2.2, g, q⟩

/-- The arguments of a fitter. -/
structure Args where
  failures : DataArg ℝ
  right_censored : DataArg ℝ := .none
  CI : CIArg ℝ := .float 0.95
  quantiles : QArg ℝ := .none
  CI_type : StrArg := .str "time"
  method : StrArg := .str "MLE"
  optimizer : StrArg := .none
  force : Option ℝ := none

/-- `Fit_Weibull_2P(...)` (Fitters.py:2055-2295). -/
noncomputable def fitWeibull2P (argsort : List ℝ → List ℕ) (J : Jac) (num : Option ℝ → Num2) (x : Args) :
    Except Err (FitRes Two) := do
  let inp ← fittersCheck "Weibull_2P" x.failures x.right_censored x.method x.optimizer x.CI x.quantiles x.force none x.CI_type
  fit2 weibull2 argsort J num inp inp.force_beta

/-- `Fit_Normal_2P(...)` (Fitters.py:6365-6602). -/
noncomputable def fitNormal2P (argsort : List ℝ → List ℕ) (J : Jac) (num : Option ℝ → Num2) (x : Args) :
    Except Err (FitRes Two) := do
  let inp ← fittersCheck "Normal_2P" x.failures x.right_censored x.method x.optimizer x.CI x.quantiles none x.force x.CI_type
  fit2 normal2 argsort J num inp inp.force_sigma

/-- `Fit_Lognormal_2P(...)` (Fitters.py:7164-7397). -/
noncomputable def fitLognormal2P (argsort : List ℝ → List ℕ) (J : Jac) (num : Option ℝ → Num2) (x : Args) :
    Except Err (FitRes Two) := do
  let inp ← fittersCheck "Lognormal_2P" x.failures x.right_censored x.method x.optimizer x.CI x.quantiles none x.force x.CI_type
  fit2 lognormal2 argsort J num inp inp.force_sigma

/-- `Fit_Gumbel_2P(...)` (Fitters.py:6797-6978). -/
noncomputable def fitGumbel2P (argsort : List ℝ → List ℕ) (J : Jac) (num : Option ℝ → Num2) (x : Args) :
    Except Err (FitRes Two) := do
  let inp ← fittersCheck "Gumbel_2P" x.failures x.right_censored x.method x.optimizer x.CI x.quantiles none none x.CI_type
  fit2 gumbel2 argsort J num inp none

/-- `Fit_Loglogistic_2P(...)` (Fitters.py:9304-9484). -/
noncomputable def fitLoglogistic2P (argsort : List ℝ → List ℕ) (J : Jac) (num : Option ℝ → Num2) (x : Args) :
    Except Err (FitRes Two) := do
  let inp ← fittersCheck "Loglogistic_2P" x.failures x.right_censored x.method x.optimizer x.CI x.quantiles none none x.CI_type
  fit2 loglogistic2 argsort J num inp none

/-! ## Gamma_2P -/

/-- The standard errors of Gamma_2P for data `f`, `rc` (Fitters.py:8125-8175): SE of alpha and beta, their covariance, SE of
mu, covariance of mu and beta. -/
noncomputable def seGamma (a m b : ℝ) (f rc : List ℝ) : Option (ℝ × ℝ × ℝ × ℝ × ℝ) :=
  match npInv (hessian (fun v : Fin 2 → ℝ => gamma_LL_ab (v 0) (v 1) 0 f rc) ![a, b]),
      npInv (hessian (fun v : Fin 2 → ℝ => gamma_LL_mb (v 0) (v 1) 0 f rc) ![m, b]) with
  | some C, some D => some (seOf (C 0 0), seOf (C 1 1), C 0 1, seOf (D 0 0), D 0 1)
  | _, _ => none

/-- `Fit_Gamma_2P(...)` (Fitters.py:8055-8255).  `LS_optimization` is called with `method="LS"` whatever the method.  The
distribution object is described by mu and beta, which its confidence bounds use. -/
noncomputable def fitGamma2P (argsort : List ℝ → List ℕ) (J : Jac) (num : Num (ℝ × ℝ)) (x : Args) :
    Except Err (FitRes Two) := do
  let inp ← fittersCheck "Gamma_2P" x.failures x.right_censored x.method x.optimizer x.CI x.quantiles none none x.CI_type
  let f := inp.failures
  let rc := inp.right_censored
  let LLf : ℝ × ℝ → ℝ := fun p => gamma_LL_ab p.1 p.2 0 f rc
  let e ← estimate "Gamma_2P" LLf num
    (fun g => mleOptimization (num.minimize LLf (boundsOf "Gamma_2P" f rc)) (fun p => |2 * LLf p|) g inp.optimizer)
    inp.method (some "LS")
  let a := e.1.1
  let b := e.1.2
  let m := Real.log a
  let Z := zOf inp.CI
  let s ← orWarn (seGamma a m b f rc) e.2.2
  let d := two .gamma m b 0 inp.CI (s.map fun s => (s.2.2.2.1, s.2.1, s.2.2.2.2))
  let q ← quantileTable J (.two d) inp.CI inp.quantiles
  let g ← gof argsort (CDF (Fitted.two d).dist) f rc (f.length + rc.length) 2 (LLf (a, b))
  pure ⟨match s with
      | none => [fixedRow "Alpha" a, fixedRow "Beta" b]
      | some s => [ciRow ciPositive "Alpha" a s.1 Z, ciRow ciPositive "Beta" b s.2.1 Z],
    match s with
      | none => [fixedRow "Mu" m]
      | some s => [ciRow ciPositive "Mu" m s.2.2.2.1 Z],
    match s with | none => 0 | some s => s.2.2.1, d, e.2.1, e.2.2, g, q⟩

/-! ## Beta_2P -/

/-- The table of quantiles of Fit_Beta_2P: point estimates only (Fitters.py:9087-9099). -/
noncomputable def quantileTableBeta (d : Distributions.Dist) (q : QArg ℝ) :
    Except Err (Option (List ℝ × List (Ext ℝ) × List (Ext ℝ) × List (Ext ℝ))) :=
  match q with
  | .none => .ok none
  | .array l => (quantile d l).map fun p => some (l, [], p, [])
  | _ => valueErr

/-- `Fit_Beta_2P(...)` (Fitters.py:8961-9124).  The distribution object gets no standard errors; the table of quantiles has
only the point estimates (9087-9099). -/
noncomputable def fitBeta2P (argsort : List ℝ → List ℕ) (num : Num (ℝ × ℝ)) (x : Args) : Except Err (FitRes Distributions.Dist) := do
  let inp ← fittersCheck "Beta_2P" x.failures x.right_censored x.method x.optimizer x.CI x.quantiles none none .none
  let f := inp.failures
  let rc := inp.right_censored
  let LLf : ℝ × ℝ → ℝ := fun p => beta2P_LL p.1 p.2 f rc
  let e ← estimate "Beta_2P" LLf num
    (fun g => mleOptimization (num.minimize LLf (boundsOf "Beta_2P" f rc)) (fun p => |2 * LLf p|) g inp.optimizer)
    inp.method (lsMethod inp.method)
  let a := e.1.1
  let b := e.1.2
  let Z := zOf inp.CI
  let s ← se2 (fun a b => beta2P_LL a b f rc) a b none e.2.2
  let d := betaDist a b
  let q ← quantileTableBeta d inp.quantiles
  let g ← gof argsort (CDF d) f rc (f.length + rc.length) 2 (LLf (a, b))
  pure ⟨match s with
      | none => [fixedRow "Alpha" a, fixedRow "Beta" b]
      | some s => [ciRow ciPositive "Alpha" a s.1 Z, ciRow ciPositive "Beta" b s.2.1 Z],
    [], (s.getD (0, 0, 0)).2.2, d, e.2.1, e.2.2, g, q⟩

/-! ## Exponential -/

/-- The standard error of Lambda for data `f`, `rc` (Fitters.py:5664-5704, 6048-6095). -/
noncomputable def seExp (L : ℝ) (f rc : List ℝ) (optimizer : Option String) : Except Err (Option ℝ) :=
  match npInv (hessian (fun v : Fin 1 → ℝ => exponential1P_LL (v 0) f rc) ![L]) with
  | some C => .ok (some (seOf (C 0 0)))
  | none => warned optimizer none

/-- The rows Lambda and 1/Lambda (Fitters.py:5673-5712, 6058-6103). -/
noncomputable def rowsExp (L Z : ℝ) : Option ℝ → List Row
  | none => [fixedRow "Lambda" L, ⟨"1/Lambda", 1 / L, 0, 1 / L, 1 / L⟩]
  | some s =>
    let up := L * Real.exp (Z * (s / L))
    let lo := L * Real.exp (-Z * (s / L))
    [⟨"Lambda", L, s, lo, up⟩, ⟨"1/Lambda", 1 / L, |1 / L * Real.log (L / up) / Z|, 1 / up, 1 / lo⟩]

/-- `Fit_Exponential_1P(...)` (Fitters.py:5600-5775). -/
noncomputable def fitExponential1P (argsort : List ℝ → List ℕ) (J : Jac) (num : Num ℝ) (x : Args) :
    Except Err (FitRes Expo) := do
  let inp ← fittersCheck "Exponential_1P" x.failures x.right_censored x.method x.optimizer x.CI x.quantiles none none .none
  let f := inp.failures
  let rc := inp.right_censored
  let LLf : ℝ → ℝ := fun L => exponential1P_LL L f rc
  let e ← estimate "Exponential_1P" LLf num
    (fun g => mleOptimization (num.minimize LLf (boundsOf "Exponential_1P" f rc)) (fun p => |2 * LLf p|) g inp.optimizer)
    inp.method (lsMethod inp.method)
  let L := e.1
  let s ← seExp L f rc e.2.2
  let d : Expo := ⟨L, 0, some (.fin (s.getD 0)), some (.fin (zOf inp.CI))⟩
  let q ← quantileTable J (.expo d) inp.CI inp.quantiles
  let g ← gof argsort (CDF (Fitted.expo d).dist) f rc (f.length + rc.length) 1 (LLf L)
  pure ⟨rowsExp L (zOf inp.CI) s, [], 0, d, e.2.1, e.2.2, g, q⟩

/-- The optimisation of Exponential_2P: over 1/Lambda when the guess of Lambda is below 1, with the objective LL_inv
(Fitters.py:6020-6045). -/
noncomputable def mleExp2 (LLf LLinv : ℝ × ℝ → ℝ) (bounds : List (Bound ℝ)) (num : Num (ℝ × ℝ))
    (optimizer : Option String) (g : ℝ × ℝ) : Except Err (MLEOut (ℝ × ℝ)) :=
  if g.1 < 1 then
    (mleOptimization (num.minimize LLinv bounds) (fun p => |2 * LLinv p|) (1 / g.1, g.2) optimizer).map fun o =>
      ⟨o.success, o.optimizer, (1 / o.params.1, o.params.2)⟩
  else mleOptimization (num.minimize LLf bounds) (fun p => |2 * LLf p|) g optimizer

/-- `Fit_Exponential_2P(...)` (Fitters.py:5970-6167). -/
noncomputable def fitExponential2P (argsort : List ℝ → List ℕ) (J : Jac) (num : Num (ℝ × ℝ)) (x : Args) : Except Err (FitRes Expo) := do
  let inp ← fittersCheck "Exponential_2P" x.failures x.right_censored x.method x.optimizer x.CI x.quantiles none none .none
  let f := inp.failures
  let rc := inp.right_censored
  let LLf : ℝ × ℝ → ℝ := fun p => exponential2P_LL p.1 p.2 f rc
  let e ← estimate "Exponential_2P" LLf num
    (mleExp2 LLf (fun p => exponential2P_LL_inv p.1 p.2 f rc) (boundsOf "Exponential_2P" f rc) num inp.optimizer) inp.method
    (lsMethod inp.method)
  let L := e.1.1
  let γ := e.1.2
  let s ← seExp L (f.map (· - γ)) (rc.map (· - γ)) e.2.2
  let d : Expo := ⟨L, γ, some (.fin (s.getD 0)), some (.fin (zOf inp.CI))⟩
  let q ← quantileTable J (.expo d) inp.CI inp.quantiles
  let g ← gof argsort (CDF (Fitted.expo d).dist) f rc (f.length + rc.length) 2 (LLf (L, γ))
  pure ⟨rowsExp L (zOf inp.CI) s ++ [fixedRow "Gamma" γ], [], 0, d, e.2.1, e.2.2, g, q⟩

/-! ## The three-parameter fitters -/

/-- What distinguishes Fit_Weibull_3P, Fit_Lognormal_3P and Fit_Loglogistic_3P. -/
structure Fam3 where
  name : String
  F2 : Fam2
  LL : ℝ → ℝ → ℝ → List ℝ → List ℝ → ℝ

/-- Fitters.py:3177-3476. -/
noncomputable def weibull3 : Fam3 := ⟨"Weibull_3P", weibull2, weibull3P_LL⟩

/-- Fitters.py:7615-7919. -/
noncomputable def lognormal3 : Fam3 := ⟨"Lognormal_3P", lognormal2, lognormal_LL⟩

/-- Fitters.py:9694-9996. -/
noncomputable def loglogistic3 : Fam3 := ⟨"Loglogistic_3P", loglogistic2, loglogistic_LL⟩

/-- The standard errors when gamma >= 0.01 (Fitters.py:3249-3326, 7698-7759, 9777-9835): those of the first two parameters
from the two-parameter likelihood of the shifted data, that of gamma from the three-parameter likelihood. -/
noncomputable def se3 (F : Fam3) (a b γ : ℝ) (f rc : List ℝ) : Option (ℝ × ℝ × ℝ × ℝ) :=
  match npInv (hessian (fun v : Fin 2 → ℝ => F.F2.LL (v 0) (v 1) (f.map (· - γ)) (rc.map (· - γ))) ![a, b]),
      npInv (hessian (fun v : Fin 3 → ℝ => F.LL (v 0) (v 1) (v 2) f rc) ![a, b, γ]) with
  | some C, some D => some (seOf (C 0 0), seOf (C 1 1), C 0 1, seOf (D 2 2))
  | _, _ => none

/-- The class (Fitters.py:3188-3400, 7625-7837, 9704-9916) with `fallback` the call of the two-parameter class on the same
data and CI with all other arguments at their defaults, made when gamma < 0.01. -/
noncomputable def fit3 (F : Fam3) (argsort : List ℝ → List ℕ) (J : Jac) (num : Num (ℝ × ℝ × ℝ))
    (fallback : Args → Except Err (FitRes Two)) (inp : Checked ℝ) : Except Err (FitRes Two) := do
  let f := inp.failures
  let rc := inp.right_censored
  let LLf : ℝ × ℝ × ℝ → ℝ := fun p => F.LL p.1 p.2.1 p.2.2 f rc
  let e ← estimate F.name LLf num
    (fun g => mleOptimization (num.minimize LLf (boundsOf F.name f rc)) (fun p => |2 * LLf p|) g inp.optimizer)
    inp.method (lsMethod inp.method)
  let γ := e.1.2.2
  let Z := zOf inp.CI
  if γ < 0.01 then do
    let r ← fallback { failures := .array f, right_censored := .array rc, CI := .float inp.CI }
    let d : Two := { r.dist with Z := some (.fin Z) }
    let q ← quantileTable J (.two d) inp.CI inp.quantiles
    let g ← gof argsort (CDF (Fitted.two d).dist) f rc (f.length + rc.length) 3 (LLf (d.a, d.b, 0))
    pure ⟨r.rows ++ [fixedRow "Gamma" 0], [], r.Cov, d, e.2.1, e.2.2, g, q⟩
  else do
    let a := e.1.1
    let b := e.1.2.1
    let s ← orWarn (se3 F a b γ f rc) e.2.2
    let d := two F.F2.cfam a b γ inp.CI (s.map fun s => (s.1, s.2.1, s.2.2.1))
    let q ← quantileTable J (.two d) inp.CI inp.quantiles
    let g ← gof argsort (CDF (Fitted.two d).dist) f rc (f.length + rc.length) 3 (LLf (a, b, γ))
    pure ⟨match s with
        | none => [fixedRow F.F2.nameA a, fixedRow F.F2.nameB b, fixedRow "Gamma" γ]
        | some s => [ciRow F.F2.ciA F.F2.nameA a s.1 Z, ciRow F.F2.ciB F.F2.nameB b s.2.1 Z,
            ciRow ciPositive "Gamma" γ s.2.2.2 Z],
      [], match s with | none => 0 | some s => s.2.2.1, d, e.2.1, e.2.2, g, q⟩

/-- `Fit_Weibull_3P(...)` (Fitters.py:3162-3400). -/
noncomputable def fitWeibull3P (argsort : List ℝ → List ℕ) (J : Jac) (num : Num (ℝ × ℝ × ℝ)) (num2 : Option ℝ → Num2)
    (x : Args) : Except Err (FitRes Two) := do
  let inp ← fittersCheck "Weibull_3P" x.failures x.right_censored x.method x.optimizer x.CI x.quantiles none none x.CI_type
  fit3 weibull3 argsort J num (fitWeibull2P argsort J num2) inp

/-- `Fit_Lognormal_3P(...)` (Fitters.py:7600-7837). -/
noncomputable def fitLognormal3P (argsort : List ℝ → List ℕ) (J : Jac) (num : Num (ℝ × ℝ × ℝ)) (num2 : Option ℝ → Num2)
    (x : Args) : Except Err (FitRes Two) := do
  let inp ← fittersCheck "Lognormal_3P" x.failures x.right_censored x.method x.optimizer x.CI x.quantiles none none x.CI_type
  fit3 lognormal3 argsort J num (fitLognormal2P argsort J num2) inp

/-- `Fit_Loglogistic_3P(...)` (Fitters.py:9679-9916). -/
noncomputable def fitLoglogistic3P (argsort : List ℝ → List ℕ) (J : Jac) (num : Num (ℝ × ℝ × ℝ)) (num2 : Option ℝ → Num2)
    (x : Args) : Except Err (FitRes Two) := do
  let inp ← fittersCheck "Loglogistic_3P" x.failures x.right_censored x.method x.optimizer x.CI x.quantiles none none x.CI_type
  fit3 loglogistic3 argsort J num (fitLoglogistic2P argsort J num2) inp

/-- The standard errors of Gamma_3P when gamma >= 0.01 (Fitters.py:8596-8670). -/
noncomputable def seGamma3 (a m b γ : ℝ) (f rc : List ℝ) : Option (ℝ × ℝ × ℝ × ℝ × ℝ × ℝ) :=
  match seGamma a m b (f.map (· - γ)) (rc.map (· - γ)),
      npInv (hessian (fun v : Fin 3 → ℝ => gamma_LL_ab (v 0) (v 1) (v 2) f rc) ![a, b, γ]) with
  | some s, some D => some (s.1, s.2.1, s.2.2.1, s.2.2.2.1, s.2.2.2.2, seOf (D 2 2))
  | _, _ => none

/-- `self.alpha` of the Gamma_2P fit: the point estimate of the first row. -/
def firstPoint : List Row → ℝ
  | w :: _ => w.point
  | [] => 0

/-- `Fit_Gamma_3P(...)` (Fitters.py:8490-8751). -/
noncomputable def fitGamma3P (argsort : List ℝ → List ℕ) (J : Jac) (num : Num (ℝ × ℝ × ℝ)) (num2 : Num (ℝ × ℝ))
    (x : Args) : Except Err (FitRes Two) := do
  let inp ← fittersCheck "Gamma_3P" x.failures x.right_censored x.method x.optimizer x.CI x.quantiles none none x.CI_type
  let f := inp.failures
  let rc := inp.right_censored
  let LLf : ℝ × ℝ × ℝ → ℝ := fun p => gamma_LL_ab p.1 p.2.1 p.2.2 f rc
  let e ← estimate "Gamma_3P" LLf num
    (fun g => mleOptimization (num.minimize LLf (boundsOf "Gamma_3P" f rc)) (fun p => |2 * LLf p|) g inp.optimizer)
    inp.method (lsMethod inp.method)
  let γ := e.1.2.2
  let Z := zOf inp.CI
  if γ < 0.01 then do
    let r ← fitGamma2P argsort J num2 { failures := .array f, right_censored := .array rc, CI := .float inp.CI }
    let d : Two := { r.dist with Z := some (.fin Z) }
    let q ← quantileTable J (.two d) inp.CI inp.quantiles
    let g ← gof argsort (CDF (Fitted.two d).dist) f rc (f.length + rc.length) 3 (LLf (firstPoint r.rows, d.b, 0))
    pure ⟨r.rows ++ [fixedRow "Gamma" 0], r.extra, r.Cov, d, e.2.1, e.2.2, g, q⟩
  else do
    let a := e.1.1
    let b := e.1.2.1
    let m := Real.log a
    let s ← orWarn (seGamma3 a m b γ f rc) e.2.2
    let d := two .gamma m b γ inp.CI (s.map fun s => (s.2.2.2.1, s.2.1, s.2.2.2.2.1))
    let q ← quantileTable J (.two d) inp.CI inp.quantiles
    let g ← gof argsort (CDF (Fitted.two d).dist) f rc (f.length + rc.length) 3 (LLf (a, b, γ))
    pure ⟨match s with
        | none => [fixedRow "Alpha" a, fixedRow "Beta" b, fixedRow "Gamma" γ]
        | some s => [ciRow ciPositive "Alpha" a s.1 Z, ciRow ciPositive "Beta" b s.2.1 Z,
            ciRow ciPositive "Gamma" γ s.2.2.2.2.2 Z],
      match s with
        | none => [fixedRow "Mu" m]
        | some s => [ciRow ciPositive "Mu" m s.2.2.2.1 Z],
      match s with | none => 0 | some s => s.2.2.1, d, e.2.1, e.2.2, g, q⟩

end Reliability.FitGlue

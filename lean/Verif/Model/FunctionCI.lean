import Mathlib.Analysis.Calculus.Deriv.Basic
import Mathlib.Analysis.SpecialFunctions.Sqrt
import Verif.Model.Basic
import Verif.Model.Ext
import Verif.Model.Distributions
import Verif.Model.Utils

/-!
# Model of the confidence bounds on CDF, SF and CHF

Utils.py: `validate_CI_params`, the seven functions of `distribution_confidence_intervals`, `extract_CI`; and the
last lines of the `CDF`, `SF` and `CHF` methods of Distributions.py that use them, for calls with `CI_x` or `CI_y`.
The functions are called by `extract_CI` with `func="CDF"` (their default) and without `plot_CI`; plotting is not
modelled.  Exact real arithmetic.
-/

namespace Reliability.FunctionCI

open Reliability Reliability.Distributions Reliability.Utils

/-- The families with two parameters that have confidence bounds (`self.name`; Utils.py:7365-7460). -/
inductive CFam where
  | weibull | gamma | normal | lognormal | loglogistic | gumbel
deriving DecidableEq

/-- What the bounds read from a two-parameter distribution object.  `a` and `b` are `alpha, beta` (Weibull,
Loglogistic), `mu, beta` (Gamma; `alpha = exp(mu)`, Distributions.py:4020-4026) or `mu, sigma`; `SEa, SEb, Cov` the
standard errors and covariance of these two, `Z` the attribute `Z`; `none` is Python's None. -/
structure Two where
  fam : CFam
  a : ℝ
  b : ℝ
  gamma : ℝ
  SEa : Option (Ext ℝ)
  SEb : Option (Ext ℝ)
  Cov : Option (Ext ℝ)
  Z : Option (Ext ℝ)

/-- What the bounds read from an Exponential distribution object. -/
structure Expo where
  Lambda : ℝ
  gamma : ℝ
  SE : Option (Ext ℝ)
  Z : Option (Ext ℝ)

/-- A distribution object. -/
inductive Fitted where
  | two (d : Two)
  | expo (d : Expo)

/-- The distribution functions of a two-parameter object (Distributions.py). -/
noncomputable def distOf (f : CFam) (a b gamma : ℝ) : Dist :=
  match f with
  | .weibull => Distributions.weibull a b gamma
  | .gamma => gammaDist (Real.exp a) b gamma
  | .normal => Distributions.normal a b
  | .lognormal => Distributions.lognormal a b gamma
  | .loglogistic => Distributions.loglogistic a b gamma
  | .gumbel => Distributions.gumbel a b

/-- The distribution functions of the object. -/
noncomputable def Fitted.dist : Fitted → Dist
  | .two d => distOf d.fam d.a d.b d.gamma
  | .expo d => Distributions.exponential d.Lambda d.gamma

/-- `validate_CI_params` for one argument: its value if it is neither None nor inf or nan (Utils.py:2399-2402). -/
def finiteArg : Option (Ext ℝ) → Option ℝ
  | some (.fin x) => some x
  | _ => none

/-- `validate_CI_params(SEa, SEb, Cov, Z)` (Utils.py:2382-2403), with the three values when it is True. -/
def validParams (d : Two) : Option (ℝ × ℝ × ℝ) :=
  match finiteArg d.SEa, finiteArg d.SEb, finiteArg d.Cov, finiteArg d.Z with
  | some sa, some sb, some c, some _ => some (sa, sb, c)
  | _, _, _, _ => none

/-- `Z = -ss.norm.ppf((1 - CI) / 2)` (Utils.py:2695, 2883, 3170, 3463, 3738, 4020, 4304). -/
noncomputable def zOf (CI : ℝ) : ℝ := -(normStd.ppf ((1 - CI) / 2))

/-- The inner functions `u` (Utils.py:2902-2903, 3189-3190, 3482-3483, 3757-3758, 4039-4040, 4323-4324):
`agammaincc(beta, x)` is the survival function of `ss.gamma(beta)`. -/
noncomputable def u (f : CFam) (t a b : ℝ) : ℝ :=
  match f with
  | .weibull => b * (Real.log t - Real.log a)
  | .gamma => (ofDensity (gammaStdPdf b)).sf (t / Real.exp a)
  | .normal => (a - t) / b
  | .lognormal => (a - Real.log t) / b
  | .loglogistic => b * (Real.log t - Real.log a)
  | .gumbel => (t - a) / b

/-- The inner functions `v` (Utils.py:2905-2908, 3192-3193, 3485-3486, 3760-3761, 4042-4045, 4326-4327):
`agammainccinv(beta, R)` is the inverse survival function of `ss.gamma(beta)`. -/
noncomputable def v (f : CFam) (R a b : ℝ) : ℝ :=
  match f with
  | .weibull => (1 / b) * Real.log (-Real.log R) + Real.log a
  | .gamma => Real.log ((ofDensity (gammaStdPdf b)).isf R) + a
  | .normal => a - b * normStd.ppf R
  | .lognormal => a - b * normStd.ppf R
  | .loglogistic => (1 / b) * Real.log (1 / R - 1) + Real.log a
  | .gumbel => a + b * Real.log (-Real.log R)

/-- autograd's derivatives of `u` and `v` for the Gamma distribution, with respect to mu and beta: autograd_gamma
differentiates the incomplete gamma functions numerically, so they are arbitrary here. -/
structure Jac where
  du : ℝ → ℝ → ℝ → ℝ × ℝ
  dv : ℝ → ℝ → ℝ → ℝ × ℝ

/-- `du_da`, `du_db`: `jac(u, 1)`, `jac(u, 2)` (Utils.py:2910-2911, 3489-3490, …), the exact derivatives except for Gamma. -/
noncomputable def gradU (J : Jac) (f : CFam) (t a b : ℝ) : ℝ × ℝ :=
  if f = .gamma then J.du t a b
  else (deriv (fun a' => u f t a' b) a, deriv (fun b' => u f t a b') b)

/-- `dv_da`, `dv_db`: `jac(v, 1)`, `jac(v, 2)` (Utils.py:2912-2913, 3491-3492, …). -/
noncomputable def gradV (J : Jac) (f : CFam) (R a b : ℝ) : ℝ × ℝ :=
  if f = .gamma then J.dv R a b
  else (deriv (fun a' => v f R a' b) a, deriv (fun b' => v f R a b') b)

/-- `var_u`, `var_v` from the two derivatives (Utils.py:2915-2933, …). -/
def varOf (g : ℝ × ℝ) (sa sb c : ℝ) : ℝ := g.1 ^ 2 * sa ^ 2 + g.2 ^ 2 * sb ^ 2 + 2 * g.1 * g.2 * c

/-- Families with a threshold `gamma` and support above it. -/
def positive : CFam → Bool
  | .normal => false
  | .gumbel => false
  | _ => true

/-- `(Y_lower, Y_upper)` at one time `t` (already shifted by gamma): Utils.py:3015-3021 (Weibull), 3308-3315
(Gamma), 3585-3589 (Normal), 3868-3872 (Lognormal), 4151-4157 (Loglogistic), 4426-4430 (Gumbel).  A negative variance
has a nan root; for `t ≤ 0` a family with support above gamma gives nan (the logarithm or incomplete gamma function
of a negative number; at `t = 0` the sum `-inf + inf` or quotient `0/0`). -/
noncomputable def relRow (J : Jac) (f : CFam) (a b sa sb c Z t : ℝ) : Ext ℝ × Ext ℝ :=
  let w := varOf (gradU J f t a b) sa sb c
  if (positive f = true ∧ t ≤ 0) ∨ w < 0 then (.nan, .nan)
  else
    let s := Z * Real.sqrt w
    match f with
    | .weibull => (.fin (Real.exp (-Real.exp (u f t a b + s))), .fin (Real.exp (-Real.exp (u f t a b - s))))
    | .gumbel => (.fin (Real.exp (-Real.exp (u f t a b + s))), .fin (Real.exp (-Real.exp (u f t a b - s))))
    | .normal => (.fin (normStd.cdf (u f t a b + s)), .fin (normStd.cdf (u f t a b - s)))
    | .lognormal => (.fin (normStd.cdf (u f t a b + s)), .fin (normStd.cdf (u f t a b - s)))
    | .loglogistic => (.fin (1 / (Real.exp (u f t a b + s) + 1)), .fin (1 / (Real.exp (u f t a b - s) + 1)))
    | .gamma =>
      let R := u f t a b
      (.fin (R / (R + (1 - R) * Real.exp (s / (R * (1 - R))))),
       .fin (R / (R + (1 - R) * Real.exp (-s / (R * (1 - R))))))

/-- `(t_lower, t_upper)` at one reliability `R`: Utils.py:2950-2954 (Weibull), 3242-3246 (Gamma), 3529-3530 (Normal),
3804-3808 (Lognormal), 4086-4090 (Loglogistic), 4369-4370 (Gumbel).  Simplification: for `R` outside (0,1) numpy gives
nan or inf; such a row is removed by `clean_CI_arrays` anyway because `R` itself is out of range. -/
noncomputable def timeRow (J : Jac) (f : CFam) (a b gamma sa sb c Z R : ℝ) : Ext ℝ × Ext ℝ :=
  let w := varOf (gradV J f R a b) sa sb c
  if w < 0 then (.nan, .nan)
  else
    let s := Z * Real.sqrt w
    match f with
    | .normal => (.fin (v f R a b - s), .fin (v f R a b + s))
    | .gumbel => (.fin (v f R a b - s), .fin (v f R a b + s))
    | _ => (.fin (Real.exp (v f R a b - s) + gamma), .fin (Real.exp (v f R a b + s) + gamma))

/-- `weibull_CI`, `gamma_CI`, … with `CI_type="time"` and `q`: `(t_lower, t_upper)`, or None (Utils.py:2848-2998). -/
noncomputable def twoTime (J : Jac) (d : Two) (CI : ℝ) (q : List ℝ) :
    Except Err (Option (List (Ext ℝ) × List (Ext ℝ))) :=
  match validParams d with
  | none => .ok none
  | some (sa, sb, c) =>
    let rows := q.map (timeRow J d.fam d.a d.b d.gamma sa sb c (zOf CI))
    match cleanCI (rows.map (·.1)) (rows.map (·.2)) (q.map .fin) (q.map .fin) "CDF" false true with
    | .error e => .error e
    | .ok (tl, tu, _, _) => .ok (some (tl, tu))

/-- `t = x - self.gamma`, or `t = x` for Normal and Gumbel (Utils.py:3003, 3294, 3578, 3856, 4139, 4419). -/
def shifted (d : Two) (x : ℝ) : ℝ := if positive d.fam = true then x - d.gamma else x

/-- `weibull_CI`, `gamma_CI`, … with `CI_type="reliability"` and `x`: `(Y_lower, Y_upper)`, or None
(Utils.py:2848-2892, 3001-3066). -/
noncomputable def twoRel (J : Jac) (d : Two) (CI : ℝ) (x : List ℝ) :
    Except Err (Option (List (Ext ℝ) × List (Ext ℝ))) :=
  match validParams d with
  | none => .ok none
  | some (sa, sb, c) =>
    let t := x.map (shifted d)
    let rows := t.map (relRow J d.fam d.a d.b sa sb c (zOf CI))
    match cleanCI (t.map .fin) (t.map .fin) (rows.map (·.1)) (rows.map (·.2)) "CDF" true false with
    | .error e => .error e
    | .ok (_, _, yl, yu) => .ok (some (yl, yu))

/-- The finite values of an array. -/
def finVals (l : List (Ext ℝ)) : List ℝ := l.filterMap fun e => match e with | .fin x => some x | _ => none

/-- `no_reverse` on an array of more than two values, as called by `exponential_CI` (Utils.py:2742-2743). -/
noncomputable def noRev (l : List (Ext ℝ)) : Except Err (List (Ext ℝ)) :=
  match noReverse (finVals l) "None" "CDF" with
  | .error e => .error e
  | .ok r => .ok (r.map .fin)

/-- `Lambda_upper`, `Lambda_lower` (Utils.py:2711-2712). -/
noncomputable def lamUpper (d : Expo) (se Z : ℝ) : ℝ := d.Lambda * Real.exp (Z * (se / d.Lambda))
/-- see `lamUpper` -/
noncomputable def lamLower (d : Expo) (se Z : ℝ) : ℝ := d.Lambda * Real.exp (-Z * (se / d.Lambda))

/-- Lines 2727-2743 of `exponential_CI`: `(Y_lower, Y_upper)` on the times `t`, cleaned and corrected for reversals
(the condition `x is None or q is None` always holds for the callers). -/
noncomputable def expoY (d : Expo) (se Z : ℝ) (t : List ℝ) (xGiven qGiven : Bool) :
    Except Err (List (Ext ℝ) × List (Ext ℝ)) :=
  match cleanCI (t.map .fin) (t.map .fin) (t.map fun s => .fin (Real.exp (-(lamLower d se Z) * s)))
      (t.map fun s => .fin (Real.exp (-(lamUpper d se Z) * s))) "CDF" xGiven qGiven with
  | .error e => .error e
  | .ok (_, _, yl, yu) =>
    if yl.length > 2 ∧ yu.length > 2 then
      match noRev yl with
      | .error e => .error e
      | .ok yl' =>
        match noRev yu with
        | .error e => .error e
        | .ok yu' => .ok (yl', yu')
    else .ok (yl, yu)

/-- `exponential_CI(x=x)`: `(Y_lower, Y_upper)` or None (Utils.py:2672-2779).  A standard error that is nan or inf
makes a row unusable, which is a ValueError unless there is none. -/
noncomputable def expoRel (d : Expo) (CI : ℝ) (x : List ℝ) : Except Err (Option (List (Ext ℝ) × List (Ext ℝ))) :=
  match d.SE, d.Z with
  | some (.fin se), some _ =>
    match expoY d se (zOf CI) (x.map (· - d.gamma)) true false with
    | .error e => .error e
    | .ok r => .ok (some r)
  | some _, some _ => if x = [] then .ok (some ([], [])) else valueErr
  | _, _ => .ok none

/-- `-np.log(q)`. -/
noncomputable def negLogE (q : ℝ) : Ext ℝ := if q < 0 then .nan else if q = 0 then .pinf else .fin (-Real.log q)

/-- `-np.log(q) / lam + gamma` for `lam > 0` (Utils.py:2775-2776). -/
noncomputable def expoT (lam gamma q : ℝ) : Ext ℝ :=
  match negLogE q with
  | .fin r => .fin (r / lam + gamma)
  | e => e

/-- The grid of 200 times used when `x` is None (Utils.py:2717-2724). -/
noncomputable def expoGrid (d : Expo) : Except Err (List ℝ) :=
  let Q := (Distributions.exponential d.Lambda d.gamma).sp.ppf
  let t0 := Q (1 / 100000) - d.gamma
  let t0 := if t0 ≤ 0 then 1 / 10000 else t0
  geomspace t0 (Q (99999 / 100000) - d.gamma) 200

/-- `exponential_CI(q=q)`: `(t_lower, t_upper)` or None (Utils.py:2672-2776). -/
noncomputable def expoTime (d : Expo) (CI : ℝ) (q : List ℝ) : Except Err (Option (List (Ext ℝ) × List (Ext ℝ))) :=
  match d.SE, d.Z with
  | some (.fin se), some _ =>
    match expoGrid d with
    | .error e => .error e
    | .ok t =>
      match expoY d se (zOf CI) t false true with
      | .error e => .error e
      | .ok _ =>
        .ok (some (q.map (expoT (lamUpper d se (zOf CI)) d.gamma), q.map (expoT (lamLower d se (zOf CI)) d.gamma)))
  | some _, some _ => valueErr
  | _, _ => .ok none

/-- The `func` argument (the methods pass nothing else). -/
inductive Func where
  | CDF | SF | CHF
deriving DecidableEq

/-- `q` from `CI_y` (Utils.py:7311-7317, 7357-7362). -/
noncomputable def toQ (fn : Func) (y : ℝ) : ℝ :=
  match fn with
  | .SF => y
  | .CDF => 1 - y
  | .CHF => Real.exp (-y)

/-- `1 - Y`. -/
noncomputable def oneMinus (l : List (Ext ℝ)) : List (Ext ℝ) := l.map fun y => Ext.sub (.fin 1) y

/-- `-np.log(Y)` of a positive number. -/
noncomputable def minusLog (l : List (Ext ℝ)) : List (Ext ℝ) :=
  l.map fun y => match y with | .fin r => .fin (-Real.log r) | _ => .nan

/-- `(lower, upper)` from `SF_rel` (Utils.py:7326-7331 for Exponential, 7375-7380, 7391-7396, 7407-7412, 7423-7428,
7439-7444, 7455-7460): `SF_rel[0]` is the smaller array for Weibull, Gamma, Gumbel and Loglogistic, the larger one
for Exponential, Normal and Lognormal. -/
noncomputable def relOut (smallFirst : Bool) (fn : Func) (r : List (Ext ℝ) × List (Ext ℝ)) :
    List (Ext ℝ) × List (Ext ℝ) :=
  match smallFirst, fn with
  | true, .SF => (r.1, r.2)
  | true, .CDF => (oneMinus r.2, oneMinus r.1)
  | true, .CHF => (minusLog r.2, minusLog r.1)
  | false, .SF => (r.2, r.1)
  | false, .CDF => (oneMinus r.1, oneMinus r.2)
  | false, .CHF => (minusLog r.1, minusLog r.2)

/-- see `relOut` -/
def smallFirst : CFam → Bool
  | .normal => false
  | .lognormal => false
  | _ => true

/-- A result of a CI function used with `[0]` and `[1]`: None is not subscriptable. -/
def subscript {α : Type _} : Except Err (Option α) → Except Err α
  | .error e => .error e
  | .ok none => .error .typeError
  | .ok (some r) => .ok r

/-- `extract_CI` before the unpacking of arrays of length 1 (Utils.py:7304-7464).  `CI_type` is None, "time" or
"reliability"; it is ignored for Exponential. -/
noncomputable def extractCI (J : Jac) (d : Fitted) (fn : Func) (CI_type : Option String) (CI : ℝ)
    (CI_y CI_x : Option (List ℝ)) : Except Err (Option (List (Ext ℝ) × List (Ext ℝ))) :=
  match CI_y, CI_x with
  | some _, some _ => valueErr
  | none, none => .ok none
  | some y, none =>
    match d with
    | .expo d =>
      match subscript (expoTime d CI (y.map (toQ fn))) with
      | .error e => .error e
      | .ok r => .ok (some r)
    | .two d =>
      if CI_type = some "time" then
        match subscript (twoTime J d CI (y.map (toQ fn))) with
        | .error e => .error e
        | .ok r => .ok (some r)
      else .ok none
  | none, some x =>
    match d with
    | .expo d =>
      match subscript (expoRel d CI x) with
      | .error e => .error e
      | .ok r => .ok (some (relOut false fn r))
    | .two d =>
      if CI_type = some "reliability" then
        match subscript (twoRel J d CI x) with
        | .error e => .error e
        | .ok r => .ok (some (relOut (smallFirst d.fam) fn r))
      else .ok none

/-- The point estimates returned with bounds on time (Distributions.py:552-553, 688-689, 899-900, …). -/
noncomputable def pointTime (d : Dist) (fn : Func) (y : List ℝ) : Except Err (List (Ext ℝ)) :=
  match fn with
  | .CDF => quantile d y
  | .SF => inverseSF d y
  | .CHF => inverseSF d (y.map fun c => Real.exp (-c))

/-- The point estimates returned with bounds on reliability (Distributions.py:554-558, 690-694, 901-907, …). -/
noncomputable def pointRel (d : Dist) (fn : Func) (x : List ℝ) : List (Ext ℝ) :=
  match fn with
  | .CDF => (x.map d.sp.cdf).map .fin
  | .SF => (x.map d.sp.sf).map .fin
  | .CHF =>
    match d.zeroAt with
    | some g => (zeroise x (x.map d.chf) g).map .fin
    | none => (x.map d.chf).map .fin

/-- The end of the `CDF`, `SF` and `CHF` methods (Distributions.py:548-560, 685-695, 895-909 and the same for the other
families): the tuple `(lower, point, upper)`, or `none` when the plain function values are returned instead.
Simplification: arrays of length one are returned as numbers by the code. -/
noncomputable def funcCI (J : Jac) (d : Fitted) (fn : Func) (CI_type : Option String) (CI : ℝ)
    (CI_y CI_x : Option (List ℝ)) : Except Err (Option (List (Ext ℝ) × List (Ext ℝ) × List (Ext ℝ))) :=
  match extractCI J d fn CI_type CI CI_y CI_x with
  | .error e => .error e
  | .ok none => .ok none
  | .ok (some (lo, up)) =>
    match CI_y, CI_x with
    | some y, _ =>
      match pointTime d.dist fn y with
      | .error e => .error e
      | .ok p => .ok (some (lo, p, up))
    | none, some x => .ok (some (lo, pointRel d.dist fn x, up))
    | none, none => .ok none

end Reliability.FunctionCI

import Verif.Model.FitGlue
import Verif.Model.Testing

/-!
# Model of `likelihood_plot` (/repo/reliability/Reliability_testing.py:1297-1543)

matplotlib's `contour` is an arbitrary function; colours, the legend, the title and the warning about an existing title are
not represented.
-/

namespace Reliability.LikelihoodPlot

open Reliability Reliability.InputCheck Reliability.FitGlue Reliability.Likelihood
open Reliability.Fitters (up)
open Reliability.FunctionCI (Jac)

/-- The branches of `if distribution.upper() in ...` (1362-1472). -/
inductive LFam where
  | weibull | gamma | loglogistic | beta | normal | lognormal | gumbel
  deriving DecidableEq

/-- The branch for a name (1362, 1377, 1392, 1407, 1422, 1437, 1453); none: `raise ValueError` (1468-1472). -/
def family (s : String) : Option LFam :=
  if up s ∈ ["WEIBULL", "WEIBULL_2P", "WEIBULL2P"] then some .weibull
  else if up s ∈ ["GAMMA", "GAMMA_2P", "GAMMA2P"] then some .gamma
  else if up s ∈ ["LOGLOGISTIC", "LOGLOGISTIC_2P", "LOGLOGISTIC2P"] then some .loglogistic
  else if up s ∈ ["BETA", "BETA_2P", "BETA2P"] then some .beta
  else if up s ∈ ["NORMAL", "NORMAL_2P", "NORMAL2P"] then some .normal
  else if up s ∈ ["LOGNORMAL", "LOGNORMAL_2P", "LOGNORMAL2P"] then some .lognormal
  else if up s ∈ ["GUMBEL", "GUMBEL_2P", "GUMBEL2P"] then some .gumbel
  else none

/-- What the numerical routines answer: argsort, autograd's Jacobians, `least_squares` and `minimize` for the class that is
called, scipy's chi-squared quantiles, and `plt.contour(X, Y, LLmesh, [level])`: its paths, each a list of vertices. -/
structure Numerics where
  argsort : List ℝ → List ℕ
  J : Jac
  num2 : Option ℝ → Num2
  num : Num (ℝ × ℝ)
  chi2 : Testing.Chi2
  contour : List ℝ → List ℝ → List (List ℝ) → ℝ → List (List (ℝ × ℝ))

/-- `fit`: the rows of the class (point estimate and bounds of both parameters), called with the data and the method, all other
arguments at their defaults (1363-1369 and alike). -/
noncomputable def fitRows (N : Numerics) (fam : LFam) (failures right_censored : DataArg ℝ) (method : StrArg) :
    Except Err (List Row) :=
  let x : Args := { failures := failures, right_censored := right_censored, method := method }
  match fam with
  | .weibull => (fitWeibull2P N.argsort N.J N.num2 x).map FitRes.rows
  | .gamma => (fitGamma2P N.argsort N.J N.num x).map FitRes.rows
  | .loglogistic => (fitLoglogistic2P N.argsort N.J N.num2 x).map FitRes.rows
  | .beta => (fitBeta2P N.argsort N.num x).map FitRes.rows
  | .normal => (fitNormal2P N.argsort N.J N.num2 x).map FitRes.rows
  | .lognormal => (fitLognormal2P N.argsort N.J N.num2 x).map FitRes.rows
  | .gumbel => (fitGumbel2P N.argsort N.J N.num2 x).map FitRes.rows

/-- `xlabel`, `ylabel` (1375-1376 and alike). -/
def labels : LFam → String × String
  | .weibull | .gamma | .loglogistic | .beta => ("Alpha", "Beta")
  | .normal | .lognormal | .gumbel => ("Mu", "Sigma")

/-- `logf` (1373 and alike). -/
noncomputable def logf : LFam → ℝ → ℝ → ℝ → ℝ
  | .weibull => weibull2P_logf
  | .gamma => fun a b => gamma_logf_ab a b 0
  | .loglogistic => fun a b => loglogistic_logf a b 0
  | .beta => beta2P_logf
  | .normal => normal2P_logf
  | .lognormal => fun m s => lognormal_logf m s 0
  | .gumbel => gumbel2P_logf

/-- `logR` (1374 and alike). -/
noncomputable def logR : LFam → ℝ → ℝ → ℝ → ℝ
  | .weibull => weibull2P_logR
  | .gamma => fun a b => gamma_logR_ab a b 0
  | .loglogistic => fun a b => loglogistic_logR a b 0
  | .beta => beta2P_logR
  | .normal => normal2P_logR
  | .lognormal => fun m s => lognormal_logR m s 0
  | .gumbel => gumbel2P_logR

/-- `LLfunction` (1342-1350).  The caller's data are used as they are, also zeros, which the fit removes (`log(0)` is then -inf
in numpy and 0 here; the theorems are about data without zeros). -/
noncomputable def LLfunction (fam : LFam) (x y : ℝ) (failures right_censored : List ℝ) : ℝ :=
  (failures.map (logf fam x y)).sum + (right_censored.map (logR fam x y)).sum

/-- The grid of a parameter: 500 points from a quarter of the lower bound to four times the upper bound (1353-1355,
1370-1371 and alike). -/
noncomputable def grid (w : Row) : List ℝ := Np.linspace (w.lower * 0.25) (w.upper * 4) 500

/-- The argument `CI`: a float or a list (1357-1358). -/
inductive CIL where
  | one (c : ℝ)
  | many (l : List ℝ)

/-- `np.sort(np.asarray(CI))[::-1]` (1357-1360). -/
noncomputable def CIL.sorted : CIL → List ℝ
  | .one c => [c]
  | .many l => (Np.sort l).reverse

/-- `LLcontour` (1495). -/
noncomputable def level (N : Numerics) (LLmax ci : ℝ) : ℝ := LLmax - 0.5 * N.chi2.ppf ci 2

/-- The vertices of `contour.collections[0].get_paths()[0]` (1509): IndexError if there is no path at that level. -/
def firstPath (paths : List (List (ℝ × ℝ))) : Except Err (List (ℝ × ℝ)) :=
  match paths with
  | [] => .error .indexError
  | v :: _ => if v = [] then valueErr else .ok v

/-- The vertices of all contours (the loop 1494-1513). -/
def allVertices (paths : ℝ → List (List (ℝ × ℝ))) : List ℝ → Except Err (List (ℝ × ℝ))
  | [] => .ok []
  | l :: ls => do
    let v ← firstPath (paths l)
    let vs ← allVertices paths ls
    pure (v ++ vs)

/-- New limits of an axis (1514-1527): the extremes with a margin of 20%, together with the limits of an existing plot.
`get_axes_limits` (Utils.py:344-354) takes limits 0, 1 on both axes for an empty figure.  Without any vertex the limits are
infinite, which matplotlib refuses. -/
noncomputable def limits (prev : Option (ℝ × ℝ)) (v : List ℝ) : Except Err (ℝ × ℝ) :=
  match v.min?, v.max? with
  | some lo, some hi =>
    let d := hi - lo
    match prev with
    | none => .ok (lo - d * 0.2, hi + d * 0.2)
    | some (l, h) => .ok (min l (lo - d * 0.2), max h (hi + d * 0.2))
  | _, _ => valueErr

/-- What is drawn: the labels of the axes, the estimate, the grid of each axis, the log-likelihoods `LLmesh` (a row for each
value of the second parameter), a band (confidence level, lower and upper limit of the log-likelihood) for each level in
the order of drawing, the limits of the axes. -/
structure LPlot where
  xlabel : String
  ylabel : String
  point : ℝ × ℝ
  xs : List ℝ
  ys : List ℝ
  mesh : List (List ℝ)
  bands : List (ℝ × ℝ × ℝ)
  xlim : ℝ × ℝ
  ylim : ℝ × ℝ

/-- The times in a data argument (empty when it is None). -/
def times : DataArg ℝ → List ℝ
  | .array l => l
  | _ => []

/-- `likelihood_plot(distribution, failures, right_censored, CI, method)`; `axes`: the limits of the current axes before. -/
noncomputable def likelihoodPlot (N : Numerics) (distribution : String) (failures right_censored : DataArg ℝ) (CI : CIL)
    (method : StrArg) (axes : (ℝ × ℝ) × (ℝ × ℝ)) : Except Err LPlot :=
  match family distribution with
  | none => valueErr
  | some fam => do
    let rows ← fitRows N fam failures right_censored method
    match rows with
    | [w1, w2] => do
      let F := times failures
      let C := times right_censored
      let xs := grid w1
      let ys := grid w2
      let LLmax := LLfunction fam w1.point w2.point F C
      let mesh := ys.map fun y => xs.map fun x => LLfunction fam x y F C
      let v ← allVertices (N.contour xs ys mesh) (CI.sorted.map (level N LLmax))
      let use_prev : Prop := ¬ (axes.1 = (0, 1) ∧ axes.2 = (0, 1))
      let xlim ← limits (open Classical in if use_prev then some axes.1 else none) (v.map Prod.fst)
      let ylim ← limits (open Classical in if use_prev then some axes.2 else none) (v.map Prod.snd)
      pure ⟨(labels fam).1, (labels fam).2, (w1.point, w2.point), xs, ys, mesh,
        CI.sorted.map fun ci => (ci, level N LLmax ci, LLmax), xlim, ylim⟩
    | _ => .error .attributeError

end Reliability.LikelihoodPlot

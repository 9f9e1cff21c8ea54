import Verif.Model.FitSpecial
import Verif.Model.Fitters
import Verif.Model.Sorting

/-!
# Model of `Fit_Everything` with the fitters it calls (/repo/reliability/Fitters.py:202-1337)

Model/Fitters.lean describes how `Fit_Everything` arranges rows that are given.  Here the rows come from the models of the
sixteen fitter classes (Model/FitGlue.lean and Model/FitSpecial.lean), which may raise.  Printing and plotting are not
represented.
-/

namespace Reliability.FitEverythingFull

open Reliability Reliability.Combined Reliability.InputCheck Reliability.FitGlue Reliability.FitSpecial
open Reliability.Fitters (Dist Exclude excludedDists fitOrder effectiveSort up)
open Reliability.FunctionCI (Jac Fitted Two Expo)

/-- What numpy's argsort, autograd's Jacobians, `least_squares`, the kernel density estimate and scipy's `minimize` answer,
class by class.  The answers are those for the data at hand: every class is called with the same data, and `wPart` holds the
answers when Fit_Weibull_2P is called by Fit_Weibull_Mixture, Fit_Weibull_CR and Fit_Weibull_DS. -/
structure Answers where
  argsort : List ℝ → List ℕ
  J : Jac
  kde : List ℝ → ℝ
  w2 : Option ℝ → Num2
  n2 : Option ℝ → Num2
  l2 : Option ℝ → Num2
  gu2 : Option ℝ → Num2
  lo2 : Option ℝ → Num2
  ga2 : Num (ℝ × ℝ)
  be2 : Num (ℝ × ℝ)
  e1 : Num ℝ
  e2 : Num (ℝ × ℝ)
  w3 : Num (ℝ × ℝ × ℝ)
  l3 : Num (ℝ × ℝ × ℝ)
  lo3 : Num (ℝ × ℝ × ℝ)
  ga3 : Num (ℝ × ℝ × ℝ)
  wPart : List ℝ → List ℝ → Option ℝ → Num2
  mix : Minimizer (Fin 5 → ℝ)
  cr : Minimizer (Fin 4 → ℝ)
  ds : Minimizer (Fin 3 → ℝ)

/-- The object in the attribute `distribution`: one of the eight distributions, a Mixture_Model, a Competing_Risks_Model or
a DSZI_Model.  Simplification: the confidence attributes of the distribution are left out. -/
inductive AnyDist where
  | one (d : Distributions.Dist)
  | mixture (ds : List Distributions.Dist) (proportions : List ℝ)
  | competing (ds : List Distributions.Dist)
  | dszi (m : DSZI)

/-- `distribution.CDF(xvals=X)` (Distributions.py:468-506 and alike, 8778-8852, 8093-8160, 9989-10003). -/
noncomputable def AnyDist.cdf : AnyDist → List ℝ → Except Err (List ℝ)
  | .one d, X => Distributions.CDF d X
  | .mixture ds ps, X => (Combined.mixture ds ps X).map Arrays.cdf
  | .competing ds, X => (Combined.competing ds X).map Arrays.cdf
  | .dszi m, X => dsziCDF m X

/-- The attributes of a fitter object that `Fit_Everything` reads: the point estimates by name (`alpha`, `beta`, ... under
the names of the rows of `results`), `distribution`, `optimizer`, `loglik`, `AICc`, `BIC` and `AD`. -/
structure Outcome where
  params : List (String × ℝ)
  dist : AnyDist
  optimizer : Option String
  gof : GoF

/-- The attributes of the fitters with two or three parameters. -/
noncomputable def ofTwo (r : FitRes Two) : Outcome :=
  ⟨r.rows.map fun w => (w.name, w.point), .one (Fitted.two r.dist).dist, r.optimizer, r.gof⟩

/-- The attributes of the Exponential fitters. -/
noncomputable def ofExpo (r : FitRes Expo) : Outcome :=
  ⟨r.rows.map fun w => (w.name, w.point), .one (Fitted.expo r.dist).dist, r.optimizer, r.gof⟩

/-- The attributes of the Beta fitter. -/
noncomputable def ofBeta (r : FitRes Distributions.Dist) : Outcome :=
  ⟨r.rows.map fun w => (w.name, w.point), .one r.dist, r.optimizer, r.gof⟩

/-- The attributes of the fitters of Model/FitSpecial.lean. -/
noncomputable def ofSpecial {D : Type} (g : D → AnyDist) (r : SRes D) : Outcome :=
  ⟨r.rows.map fun w => (w.name, w.point), g r.dist, r.optimizer, r.gof⟩

/-- `Fit_<d>(failures=failures, right_censored=right_censored, method=method, optimizer=optimizer)`, all other arguments at
their defaults; Fit_Weibull_Mixture, Fit_Weibull_CR and Fit_Weibull_DS swallow `method` in their `**kwargs`
(the calls at Fitters.py:421-1151). -/
noncomputable def individual (A : Answers) (d : Dist) (failures right_censored : DataArg ℝ) (method optimizer : StrArg) :
    Except Err Outcome :=
  let x : Args := { failures := failures, right_censored := right_censored, method := method, optimizer := optimizer }
  let y : SArgs := { right_censored := right_censored, optimizer := optimizer }
  match d with
  | .Weibull_2P => (fitWeibull2P A.argsort A.J A.w2 x).map ofTwo
  | .Weibull_3P => (fitWeibull3P A.argsort A.J A.w3 A.w2 x).map ofTwo
  | .Gamma_2P => (fitGamma2P A.argsort A.J A.ga2 x).map ofTwo
  | .Gamma_3P => (fitGamma3P A.argsort A.J A.ga3 A.ga2 x).map ofTwo
  | .Lognormal_2P => (fitLognormal2P A.argsort A.J A.l2 x).map ofTwo
  | .Lognormal_3P => (fitLognormal3P A.argsort A.J A.l3 A.l2 x).map ofTwo
  | .Exponential_1P => (fitExponential1P A.argsort A.J A.e1 x).map ofExpo
  | .Exponential_2P => (fitExponential2P A.argsort A.J A.e2 x).map ofExpo
  | .Normal_2P => (fitNormal2P A.argsort A.J A.n2 x).map ofTwo
  | .Gumbel_2P => (fitGumbel2P A.argsort A.J A.gu2 x).map ofTwo
  | .Loglogistic_2P => (fitLoglogistic2P A.argsort A.J A.lo2 x).map ofTwo
  | .Loglogistic_3P => (fitLoglogistic3P A.argsort A.J A.lo3 A.lo2 x).map ofTwo
  | .Beta_2P => (fitBeta2P A.argsort A.be2 x).map ofBeta
  | .Weibull_Mixture => (fitMixture A.argsort A.J A.kde A.wPart A.mix failures y).map (ofSpecial fun p => .mixture p.1 p.2)
  | .Weibull_CR => (fitCR A.argsort A.J A.kde A.wPart A.cr failures y).map (ofSpecial .competing)
  | .Weibull_DS => (fitDS A.argsort A.J A.wPart A.ds failures y).map (ofSpecial .dszi)

/-- The columns of a row that are filled with a parameter (the `data=` dictionaries at Fitters.py:438-1187). -/
def columns : Dist → List String
  | .Weibull_2P => ["Alpha", "Beta"]
  | .Weibull_3P => ["Alpha", "Beta", "Gamma"]
  | .Gamma_2P => ["Alpha", "Beta"]
  | .Gamma_3P => ["Alpha", "Beta", "Gamma"]
  | .Lognormal_2P => ["Mu", "Sigma"]
  | .Lognormal_3P => ["Gamma", "Mu", "Sigma"]
  | .Exponential_1P => ["Lambda"]
  | .Exponential_2P => ["Gamma", "Lambda"]
  | .Normal_2P => ["Mu", "Sigma"]
  | .Gumbel_2P => ["Mu", "Sigma"]
  | .Loglogistic_2P => ["Alpha", "Beta"]
  | .Loglogistic_3P => ["Alpha", "Beta", "Gamma"]
  | .Beta_2P => ["Alpha", "Beta"]
  | .Weibull_Mixture => ["Alpha 1", "Beta 1", "Alpha 2", "Beta 2", "Proportion 1"]
  | .Weibull_CR => ["Alpha 1", "Beta 1", "Alpha 2", "Beta 2"]
  | .Weibull_DS => ["Alpha", "Beta", "DS"]

/-- The attribute of that name; 0 stands for a missing one (never the case, see C121_parameters). -/
def valueOf (params : List (String × ℝ)) (name : String) : ℝ := (params.lookup name).getD 0

/-- One row of `results` (Fitters.py:438-1187): the distribution's name, the filled columns, the criteria, the optimizer. -/
structure FRow where
  dist : Dist
  params : List (String × ℝ)
  gof : GoF
  optimizer : Option String

/-- The criteria of a row as Model/Fitters.lean has them. -/
def FRow.toRow (r : FRow) : Fitters.Row := ⟨r.dist, r.gof.loglik, r.gof.AICc, r.gof.BIC, r.gof.AD⟩

/-- One `if "<d>" not in self.excluded_distributions:` block (e.g. Fitters.py:420-464): the fit, the CDF at all data in
ascending order, the row. -/
noncomputable def fitOne (A : Answers) (f rc : List ℝ) (method optimizer : StrArg) (d : Dist) : Except Err FRow := do
  let o ← individual A d (.array f) (.array rc) method optimizer
  let _ ← o.dist.cdf (Np.sort (f ++ rc))
  pure ⟨d, (columns d).map fun c => (c, valueOf o.params c), o.gof, o.optimizer⟩

/-- The blocks one after the other (Fitters.py:419-1190). -/
noncomputable def fitAll (A : Answers) (f rc : List ℝ) (method optimizer : StrArg) : List Dist → Except Err (List FRow)
  | [] => .ok []
  | d :: l => do
    let r ← fitOne A f rc method optimizer d
    let rs ← fitAll A f rc method optimizer l
    pure (r :: rs)

/-- The sort (Fitters.py:1191-1231); the same as `Fitters.sortRows`, with all the columns. -/
noncomputable def sortFrame (argsort : List ℝ → List Nat) (sort_by : Option String) (rows : List FRow) :
    Except Err (List FRow) :=
  match effectiveSort sort_by (rows.map FRow.toRow) with
  | Option.none => valueErr
  | some s =>
    if up s = "BIC" then .ok (sortValues argsort (fun r => r.gof.BIC) rows)
    else if up s ∈ ["AICC", "AIC"] then
      if rows.all (fun r => r.gof.AICc.isSome) = true ∨ rows.all (fun r => r.gof.AICc.isNone) = true then
        .ok (sortValues argsort (fun r => r.gof.AICc.getD 0) rows)
      else .error .typeError
    else if up s = "AD" then .ok (sortValues argsort (fun r => r.gof.AD) rows)
    else if up s ∈ ["LOGLIK", "LOG LIK", "LOG-LIKELIHOOD", "LL", "LOGLIKELIHOOD", "LOG LIKELIHOOD"] then
      .ok (sortValues argsort (fun r => |r.gof.loglik|) rows)
    else valueErr

/-- `best_distribution`, built from the parameters of the best fit (Fitters.py:1240-1337). -/
noncomputable def build (d : Dist) (p : List (String × ℝ)) : Except Err AnyDist :=
  let v := valueOf p
  match d with
  | .Weibull_2P => .ok (.one (Distributions.weibull (v "Alpha") (v "Beta") 0))
  | .Weibull_3P => .ok (.one (Distributions.weibull (v "Alpha") (v "Beta") (v "Gamma")))
  | .Weibull_Mixture =>
    let ds := [Distributions.weibull (v "Alpha 1") (v "Beta 1") 0, Distributions.weibull (v "Alpha 2") (v "Beta 2") 0]
    (mixtureInit ds (some [v "Proportion 1", 1 - v "Proportion 1"])).map (.mixture ds)
  | .Weibull_CR =>
    .ok (.competing [Distributions.weibull (v "Alpha 1") (v "Beta 1") 0, Distributions.weibull (v "Alpha 2") (v "Beta 2") 0])
  | .Weibull_DS => (dsziInit (Distributions.weibull (v "Alpha") (v "Beta") 0) (some (v "DS")) none).map .dszi
  | .Gamma_2P => .ok (.one (Distributions.gammaDist (v "Alpha") (v "Beta") 0))
  | .Gamma_3P => .ok (.one (Distributions.gammaDist (v "Alpha") (v "Beta") (v "Gamma")))
  | .Lognormal_2P => .ok (.one (Distributions.lognormal (v "Mu") (v "Sigma") 0))
  | .Lognormal_3P => .ok (.one (Distributions.lognormal (v "Mu") (v "Sigma") (v "Gamma")))
  | .Exponential_1P => .ok (.one (Distributions.exponential (v "Lambda") 0))
  | .Exponential_2P => .ok (.one (Distributions.exponential (v "Lambda") (v "Gamma")))
  | .Normal_2P => .ok (.one (Distributions.normal (v "Mu") (v "Sigma")))
  | .Beta_2P => .ok (.one (Distributions.betaDist (v "Alpha") (v "Beta")))
  | .Loglogistic_2P => .ok (.one (Distributions.loglogistic (v "Alpha") (v "Beta") 0))
  | .Loglogistic_3P => .ok (.one (Distributions.loglogistic (v "Alpha") (v "Beta") (v "Gamma")))
  | .Gumbel_2P => .ok (.one (Distributions.gumbel (v "Mu") (v "Sigma")))

/-- The arguments of `Fit_Everything` that matter here (Fitters.py:206-220); `sort_by = none` stands for a value that is not
a string. -/
structure FEArgs where
  failures : DataArg ℝ
  right_censored : DataArg ℝ := .none
  exclude : Exclude := .none
  sort_by : Option String := some "BIC"
  method : StrArg := .str "MLE"
  optimizer : StrArg := .none

/-- The attributes `results`, `best_distribution_name`, `best_distribution`, `excluded_distributions`. -/
structure FERes where
  results : List FRow
  best_name : Dist
  best : AnyDist
  excluded : List Dist

/-- The method handed to the classes (Fitters.py:234-236). -/
def feMethod (m : Option String) : Option String :=
  if m = some "RRX" ∨ m = some "RRY" ∨ m = some "LS" ∨ m = some "NLLS" then some "LS" else m

/-- `Fit_Everything(...)` (Fitters.py:222-1337). -/
noncomputable def fitEverything (A : Answers) (x : FEArgs) : Except Err FERes := do
  let inp ← fittersCheck "Everything" x.failures x.right_censored x.method x.optimizer (.float 0.95) .none none none .none
  let f := inp.failures
  let rc := inp.right_censored
  let ex ← excludedDists f.length (f ++ rc) x.exclude
  let rows ← fitAll A f rc (optArg (feMethod inp.method)) (optArg inp.optimizer) (fitOrder.filter fun d => d ∉ ex)
  let sorted ← sortFrame A.argsort x.sort_by rows
  match sorted with
  | [] => valueErr
  | r :: rs => do
    let b ← build r.dist r.params
    pure ⟨r :: rs, r.dist, b, ex⟩

end Reliability.FitEverythingFull

import Mathlib.Analysis.SpecialFunctions.Log.Basic
import Mathlib.Analysis.SpecialFunctions.Pow.Real
import Verif.Model.Distributions
import Verif.Model.Sorting
import Verif.Model.Fitters
import Verif.Model.OtherFunctions

/-!
# `Fit_Everything_ALT` (ALT_fitters.py:31-1849), after ALT_fitters_input_checking

The individual fits and numpy's argsort are oracles.  Simplifications: `exclude` is None or an iterable of items;
`print_results`, the plots and the mean life are not modelled; numbers are real (no nan).
-/

namespace Reliability.ALT

open List

/-- The parameters a model can have (the columns of the results; unused ones are blank there). -/
structure Params where
  a : ℝ := 0
  b : ℝ := 0
  c : ℝ := 0
  m : ℝ := 0
  n : ℝ := 0
  beta : ℝ := 0
  sigma : ℝ := 0

/-- A row of the results (ALT_fitters.py:390-409 etc.); `AICc = none` is the string "Insufficient data". -/
structure Row where
  model : String
  params : Params
  loglik : ℝ
  AICc : Option ℝ
  BIC : ℝ
  optimizer : Option String := none

/-- ALT_fitters.py:271-284. -/
def singleModels : List String :=
  ["Weibull_Exponential", "Weibull_Eyring", "Weibull_Power", "Lognormal_Exponential", "Lognormal_Eyring",
   "Lognormal_Power", "Normal_Exponential", "Normal_Eyring", "Normal_Power", "Exponential_Exponential",
   "Exponential_Eyring", "Exponential_Power"]

/-- ALT_fitters.py:286-299. -/
def dualModels : List String :=
  ["Weibull_Dual_Exponential", "Weibull_Power_Exponential", "Weibull_Dual_Power", "Lognormal_Dual_Exponential",
   "Lognormal_Power_Exponential", "Lognormal_Dual_Power", "Normal_Dual_Exponential", "Normal_Power_Exponential",
   "Normal_Dual_Power", "Exponential_Dual_Exponential", "Exponential_Power_Exponential", "Exponential_Dual_Power"]

/-- The loop over `exclude` (ALT_fitters.py:304-311): unrecognised strings only cause a warning; an item without
`.title()` is an AttributeError. -/
def excludedLoop : List Fitters.Item → Except Err (List String)
  | [] => .ok []
  | .other :: _ => .error .attributeError
  | .str s :: rest =>
    match excludedLoop rest with
    | .error e => .error e
    | .ok l => .ok (if OtherFunctions.title s ∈ singleModels ++ dualModels then OtherFunctions.title s :: l else l)

/-- ALT_fitters.py:304-330. -/
def excludedModels (exclude : Option (List Fitters.Item)) (dual : Bool) : Except Err (List String) :=
  match excludedLoop (exclude.getD []) with
  | .error e => .error e
  | .ok l => .ok (l ++ if dual then singleModels else dualModels)

/-- The frame: the models in the order of ALT_fitters.py:368-1543 that are not excluded, each with the numbers of its own
fitter. -/
def frameALT (fit : String → Row) (excluded : List String) : List Row :=
  ((singleModels ++ dualModels).filter fun m => m ∉ excluded).map fun m => { fit m with model := m }

/-- ALT_fitters.py:1548-1581.  `sort_by = none` is something that is not a string: `.upper()` fails before the type is
checked. -/
noncomputable def sortRowsALT (argsort : List ℝ → List Nat) (sort_by : Option String) (rows : List Row) :
    Except Err (List Row) :=
  match sort_by with
  | Option.none => .error .attributeError
  | some s0 =>
    let s := if Fitters.up s0 ∈ ["AIC", "AICC"] ∧ rows.any (fun r => r.AICc.isNone) = true then "BIC" else s0
    if Fitters.up s = "BIC" then .ok (sortValues argsort Row.BIC rows)
    else if Fitters.up s ∈ ["AICC", "AIC"] then .ok (sortValues argsort (fun r => r.AICc.getD 0) rows)
    else if Fitters.up s ∈ ["LOGLIK", "LOG LIK", "LOG-LIKELIHOOD", "LL", "LOGLIKELIHOOD", "LOG LIKELIHOOD"] then
      .ok (sortValues argsort (fun r => |r.loglik|) rows)
    else valueErr

/-- ALT_fitters.py:1589-1792 — the distribution object of the best model at the use stress: one branch per model, each with
its own copy of the formula. `u = (use_level_stress, _)` for single-stress models.  (Generated by tools/gen_fea.py,
which checks each branch against the source text.) -/
noncomputable def bestUse (best : String) (p : Params) (u : ℝ × ℝ) : Option Distributions.Dist :=
  if best = "Weibull_Exponential" then some (Distributions.weibull (p.b * Real.exp (p.a / u.1)) p.beta 0) -- 1590
  else if best = "Weibull_Eyring" then some (Distributions.weibull ((1 / u.1) * Real.exp (-(p.c - p.a / u.1))) p.beta 0) -- 1596
  else if best = "Weibull_Power" then some (Distributions.weibull (p.a * u.1 ^ p.n) p.beta 0) -- 1607
  else if best = "Lognormal_Exponential" then some (Distributions.lognormal (Real.log (p.b * Real.exp (p.a / u.1))) p.sigma 0) -- 1613
  else if best = "Lognormal_Eyring" then some (Distributions.lognormal (Real.log ((1 / u.1) * Real.exp (-(p.c - p.a / u.1)))) p.sigma 0) -- 1621
  else if best = "Lognormal_Power" then some (Distributions.lognormal (Real.log (p.a * u.1 ^ p.n)) p.sigma 0) -- 1634
  else if best = "Normal_Exponential" then some (Distributions.normal (p.b * Real.exp (p.a / u.1)) p.sigma) -- 1642
  else if best = "Normal_Eyring" then some (Distributions.normal ((1 / u.1) * Real.exp (-(p.c - p.a / u.1))) p.sigma) -- 1648
  else if best = "Normal_Power" then some (Distributions.normal (p.a * u.1 ^ p.n) p.sigma) -- 1659
  else if best = "Exponential_Exponential" then some (Distributions.exponential (1 / (p.b * Real.exp (p.a / u.1))) 0) -- 1664
  else if best = "Exponential_Eyring" then some (Distributions.exponential (1 / ((1 / u.1) * Real.exp (-(p.c - p.a / u.1)))) 0) -- 1672
  else if best = "Exponential_Power" then some (Distributions.exponential (1 / (p.a * u.1 ^ p.n)) 0) -- 1685
  else if best = "Weibull_Dual_Exponential" then some (Distributions.weibull (p.c * Real.exp (p.a / u.1 + p.b / u.2)) p.beta 0) -- 1693
  else if best = "Weibull_Power_Exponential" then some (Distributions.weibull (p.c * u.2 ^ p.n * Real.exp (p.a / u.1)) p.beta 0) -- 1702
  else if best = "Weibull_Dual_Power" then some (Distributions.weibull (p.c * u.1 ^ p.m * u.2 ^ p.n) p.beta 0) -- 1709
  else if best = "Lognormal_Dual_Exponential" then some (Distributions.lognormal (1 / (p.c * Real.exp (p.a / u.1 + p.b / u.2))) p.sigma 0) -- 1716
  else if best = "Lognormal_Power_Exponential" then some (Distributions.lognormal (1 / (p.c * u.2 ^ p.n * Real.exp (p.a / u.1))) p.sigma 0) -- 1728
  else if best = "Lognormal_Dual_Power" then some (Distributions.lognormal (1 / (p.c * u.1 ^ p.m * u.2 ^ p.n)) p.sigma 0) -- 1740
  else if best = "Normal_Dual_Exponential" then some (Distributions.normal (p.c * Real.exp (p.a / u.1 + p.b / u.2)) p.sigma) -- 1750
  else if best = "Normal_Power_Exponential" then some (Distributions.normal (p.c * u.2 ^ p.n * Real.exp (p.a / u.1)) p.sigma) -- 1759
  else if best = "Normal_Dual_Power" then some (Distributions.normal (p.c * u.1 ^ p.m * u.2 ^ p.n) p.sigma) -- 1766
  else if best = "Exponential_Dual_Exponential" then some (Distributions.exponential (p.c * Real.exp (p.a / u.1 + p.b / u.2)) 0) -- 1773
  else if best = "Exponential_Power_Exponential" then some (Distributions.exponential (p.c * u.2 ^ p.n * Real.exp (p.a / u.1)) 0) -- 1781
  else if best = "Exponential_Dual_Power" then some (Distributions.exponential (p.c * u.1 ^ p.m * u.2 ^ p.n) 0) -- 1787
  else none

/-- What `Fit_Everything_ALT` exposes. -/
structure FEAResult where
  results : List Row
  best : String
  excluded : List String
  useDist : Option Distributions.Dist

/-- ALT_fitters.py:304-1792. -/
noncomputable def fitEverythingALT (argsort : List ℝ → List Nat) (fit : String → Row) (dual : Bool)
    (exclude : Option (List Fitters.Item)) (sort_by : Option String) (use : Option (ℝ × ℝ)) : Except Err FEAResult :=
  match excludedModels exclude dual with
  | .error e => .error e
  | .ok ex =>
    match sortRowsALT argsort sort_by (frameALT fit ex) with
    | .error e => .error e
    | .ok rows =>
      match rows with
      | [] => valueErr
      | r :: rs => .ok ⟨r :: rs, r.model, ex, use.bind fun u => bestUse r.model (fit r.model).params u⟩

end Reliability.ALT

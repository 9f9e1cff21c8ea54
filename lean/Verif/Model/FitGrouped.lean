import Verif.Model.FitGlue

/-!
# Model of Fit_Weibull_2P_grouped (/repo/reliability/Fitters.py:2525-3035)

`least_squares` and scipy's `minimize` are arbitrary functions as in Model/FitGlue.lean.  A pandas dataframe is a list of
distinct column names and a list of rows; times are finite numbers and quantities integers (np.repeat refuses anything
else).  Printing and plotting are not represented, except that building the text of a warning can raise.
-/

namespace Reliability.FitGrouped

open Reliability Reliability.Distributions Reliability.Likelihood Reliability.InputCheck
open Reliability.Fitters (OptResult)
open Reliability.FitGlue
open Reliability.FunctionCI (Jac zOf Two Fitted)

/-- A row of the dataframe. -/
structure GRow where
  category : String
  time : ℝ
  quantity : ℤ

/-- The `dataframe` argument. -/
inductive Frame where
  /-- None, or not a dataframe -/
  | other
  | frame (columns : List String) (rows : List GRow)

/-- The data after the checks of the dataframe: times with their quantities (Fitters.py:2538-2569), failures first.  A
missing column shows as AttributeError (`dataframe.category`, `failures_df.quantity`) or KeyError (`dataframe0["time"]`). -/
noncomputable def groupedData : Frame → Except Err (List (ℝ × ℤ) × List (ℝ × ℤ))
  | .other => valueErr
  | .frame columns rows =>
    if columns.any (fun c => c ∉ ["category", "time", "quantity"]) then valueErr
    else if "category" ∉ columns then .error .attributeError
    else if rows.any (fun r => r.category ∉ ["F", "C"]) then valueErr
    else if "time" ∉ columns then .error .keyError
    else
      let kept := rows.filter fun r => 0 < r.time
      if "quantity" ∉ columns then .error .attributeError
      else .ok ((kept.filter fun r => r.category = "F").map fun r => (r.time, r.quantity),
        (kept.filter fun r => r.category = "C").map fun r => (r.time, r.quantity))

/-- `np.repeat` (Fitters.py:2572-2573): a negative count is a ValueError. -/
def npRepeat (l : List (ℝ × ℤ)) : Except Err (List ℝ) :=
  if l.any (fun tq => tq.2 < 0) then valueErr else .ok (l.flatMap fun tq => List.replicate tq.2.toNat tq.1)

/-- The quantities, none of which is negative any more. -/
def counts (l : List (ℝ × ℤ)) : List (ℝ × ℕ) := l.map fun tq => (tq.1, tq.2.toNat)

/-- The loop `while delta_BIC > 0.001 and runs < 10` (Fitters.py:2688-2719, 2722-2757): `left` runs remain after the one
about to be made, `prev` is the last entry of `BIC_array`; the last `result` is returned. -/
noncomputable def bicLoop {P : Type} (minimize : P → OptResult P) (bic : P → ℝ) : ℕ → ℝ → P → OptResult P
  | 0, _, guess => minimize guess
  | left + 1, prev, guess =>
    let result := minimize guess
    if |bic result.x - prev| > 0.001 then bicLoop minimize bic left (bic result.x) result.x else result

/-- The optimizer used (Fitters.py:2596-2597). -/
def optimizerG : Option String → String
  | some o => if o ∈ ["L-BFGS-B", "TNC", "powell", "nelder-mead"] then o else "TNC"
  | none => "TNC"

/-- The estimates by maximum likelihood (Fitters.py:2677-2780): `LL` is the negative log-likelihood, `n` the number of
observations, `guess` the least squares estimate; the bounds are those of 2682-2685 and 2723. -/
noncomputable def mleGrouped (LL : ℝ → ℝ → ℝ) (n : ℕ) (num : Num2) (o : String) (force : Option ℝ) (guess : ℝ × ℝ) : ℝ × ℝ :=
  match force with
  | none =>
    let result := bicLoop (num.minimize (fun p => LL p.1 p.2) [(some 0, none), (some 0, none)] o) (fun p => BIC n 2 (2 * LL p.1 p.2)) 9 1000000 guess
    if result.success = true then result.x else guess
  | some s =>
    let result := bicLoop (num.minimize1 (fun a => LL a s) [(some 0, none)] o) (fun a => BIC n 1 (2 * LL a s)) 9 1000000 guess.1
    (if result.success = true then result.x else guess.1, s)

/-- The choice between the two least squares estimates (Fitters.py:2617-2670). -/
noncomputable def betterLS (LLf : ℝ × ℝ → ℝ) (num : Num2) : (ℝ × ℝ) × String :=
  if |-LLf (num.ls "RRX")| < |-LLf (num.ls "RRY")| then (num.ls "RRX", "RRX") else (num.ls "RRY", "RRY")

/-- Estimates, `self.method` and `self.optimizer` (Fitters.py:2599-2780).  With `method=None` the estimates stay undefined
(AttributeError at their first use). -/
noncomputable def estimateG (LL : ℝ → ℝ → ℝ) (LLf : ℝ × ℝ → ℝ) (n : ℕ) (num : Num2) (o : String) (force : Option ℝ)
    (method : Option String) : Except Err ((ℝ × ℝ) × String × Option String) :=
  if method = some "RRX" ∨ method = some "RRY" then
    .ok (num.ls (method.getD ""), "Least Squares Estimation (" ++ method.getD "" ++ ")", none)
  else if method = some "LS" then
    .ok ((betterLS LLf num).1, "Least Squares Estimation (" ++ (betterLS LLf num).2 ++ ")", none)
  else if method = some "MLE" then
    .ok (mleGrouped LL n num o force (betterLS LLf num).1, "Maximum Likelihood Estimation (MLE)", some o)
  else .error .attributeError

/-- The arguments besides the dataframe. -/
structure GArgs where
  CI : CIArg ℝ := .float 0.95
  quantiles : QArg ℝ := .none
  CI_type : StrArg := .str "time"
  method : StrArg := .str "MLE"
  optimizer : StrArg := .none
  force_beta : Option ℝ := none

/-- The likelihood used, `LL` or `LL_fb` (Fitters.py:2632-2663, 2922-2940). -/
noncomputable def LLg (F C : List (ℝ × ℕ)) (force : Option ℝ) (p : ℝ × ℝ) : ℝ :=
  match force with
  | none => weibull2P_grouped_LL p.1 p.2 F C
  | some s => weibull2P_grouped_LL p.1 s F C

/-- The class after the dataframe has been split (Fitters.py:2576-2958). -/
noncomputable def fitGroupedData (argsort : List ℝ → List ℕ) (J : Jac) (num : Option ℝ → Num2) (F C : List (ℝ × ℕ))
    (inp : Checked ℝ) : Except Err (FitRes Two) := do
  let force := inp.force_beta
  let n := (F.map Prod.snd).sum + (C.map Prod.snd).sum
  let e ← estimateG (fun a b => weibull2P_grouped_LL a b F C) (LLg F C force) n (num force) (optimizerG inp.optimizer) force
    inp.method
  let s ← se2 (fun a b => weibull2P_grouped_LL a b F C) e.1.1 e.1.2 force e.2.2
  let d := two .weibull e.1.1 e.1.2 0 inp.CI s
  let q ← quantileTable J (.two d) inp.CI inp.quantiles
  let g ← gof argsort (CDF (Fitted.two d).dist) inp.failures inp.right_censored n (kForced 2 force.isSome)
    (LLg F C force (e.1.1, e.1.2))
  pure ⟨rows2 weibull2 e.1.1 e.1.2 (zOf inp.CI) force.isSome s, [], (s.getD (0, 0, 0)).2.2, d, e.2.1, e.2.2, g, q⟩

/-- `Fit_Weibull_2P_grouped(...)` (Fitters.py:2525-2958). -/
noncomputable def fitWeibull2PGrouped (argsort : List ℝ → List ℕ) (J : Jac) (num : Option ℝ → Num2) (df : Frame) (x : GArgs) :
    Except Err (FitRes Two) := do
  let d ← groupedData df
  let f ← npRepeat d.1
  let rc ← npRepeat d.2
  let inp ← fittersCheck "Weibull_2P" (.array f) (.array rc) x.method x.optimizer x.CI x.quantiles x.force_beta none x.CI_type
  fitGroupedData argsort J num (counts d.1) (counts d.2) inp

end Reliability.FitGrouped

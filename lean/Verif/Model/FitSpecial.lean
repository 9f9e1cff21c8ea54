import Verif.Model.FitGlue
import Verif.Model.Combined

/-!
# Model of Fit_Weibull_Mixture, Fit_Weibull_CR, Fit_Weibull_DSZI, Fit_Weibull_DS and Fit_Weibull_ZI
(/repo/reliability/Fitters.py:3515-5486)

scipy's `minimize` is an arbitrary function as in Model/FitGlue.lean, `num2 f rc` are the answers of the numerical routines
when Fit_Weibull_2P is called with the failures `f` and the censored times `rc`, and arbitrary is also the place where the kernel density estimate
puts the dividing line (`kde`; its result is a finite number for four distinct failures).  Printing and plotting are not
represented, except that building the text of a warning can raise.
-/

namespace Reliability.FitSpecial

open Reliability Reliability.Distributions Reliability.Combined Reliability.Likelihood Reliability.InputCheck
open Reliability.Fitters (OptResult MLEOut mleOptimization)
open Reliability.FitGlue
open Reliability.FunctionCI (Jac zOf)

/-- The arguments of these fitters besides `failures` (the others only concern printing and plotting). -/
structure SArgs where
  right_censored : DataArg ℝ := .none
  CI : CIArg ℝ := .float 0.95
  optimizer : StrArg := .none

/-- The attributes: `results`, `distribution`, `optimizer`, `goodness_of_fit`. -/
structure SRes (D : Type) where
  rows : List Row
  dist : D
  optimizer : Option String
  gof : GoF

/-! ## The two groups -/

/-- The mean of two entries of a sorted array (`none` is IndexError). -/
noncomputable def midpoint (a b : Option ℝ) : Except Err ℝ :=
  match a, b with
  | some a, some b => .ok ((a + b) / 2)
  | _, _ => .error .indexError

/-- The correction of the dividing line when fewer than two failures are on one side (Fitters.py:3688-3700, 4186-4198). -/
noncomputable def dividingLine (f : List ℝ) (line : ℝ) : Except Err ℝ := do
  let n1 := (f.filter fun x => decide (x < line)).length
  let s := Np.sort f
  let line ← if n1 < 2 then midpoint s[1]? s[2]? else .ok line
  if f.length - n1 < 2 then midpoint s.reverse[1]? s.reverse[2]? else .ok line

/-- The items of one side (Fitters.py:3703-3716, 4201-4214). -/
noncomputable def below (line : ℝ) (l : List ℝ) : List ℝ := l.filter fun x => decide (x < line)

/-- See `below`. -/
noncomputable def notBelow (line : ℝ) (l : List ℝ) : List ℝ := l.filter fun x => decide (¬ x < line)

/-- The optimizer as it is handed to Fit_Weibull_2P. -/
def optArg : Option String → StrArg
  | none => .none
  | some s => .str s

/-! ## The rows -/

/-- `alpha_SE` etc.: the square roots of the diagonal of the inverse Hessian, 0 after a LinAlgError
(e.g. Fitters.py:3785-3813). -/
noncomputable def diagSE {n : ℕ} (V : Option (Matrix (Fin n) (Fin n) ℝ)) (i : Fin n) : ℝ :=
  match V with
  | some V => seOf (V i i)
  | none => 0

/-- The bounds on DS, with the exception for DS = 1 (Fitters.py:4641-4652, 5011-5022). -/
noncomputable def ciDS (x SE Z : ℝ) : ℝ × ℝ := if x = 1 then (1, 1) else ciProportion x SE Z

/-- The bounds on ZI, with the exception for ZI = 0 (Fitters.py:4653-4664, 5334-5345). -/
noncomputable def ciZI (x SE Z : ℝ) : ℝ × ℝ := if x = 0 then (0, 0) else ciProportion x SE Z

/-! ## Mixture and competing risks -/

/-- `Fit_Weibull_Mixture(...)` (Fitters.py:3611-3908). The distribution is the pair of components and proportions of a
`Mixture_Model`; the estimates are alpha_1, beta_1, alpha_2, beta_2, proportion_1. -/
noncomputable def fitMixture (argsort : List ℝ → List ℕ) (J : Jac) (kde : List ℝ → ℝ) (num2 : List ℝ → List ℝ → Option ℝ → Num2)
    (minimize : Minimizer (Fin 5 → ℝ)) (failures : DataArg ℝ) (x : SArgs) :
    Except Err (SRes (List Dist × List ℝ)) := do
  let inp ← fittersCheck "Weibull_Mixture" failures x.right_censored .none x.optimizer x.CI .none none none .none
  let f := inp.failures
  let rc := inp.right_censored
  let line ← dividingLine f (kde f)
  let r1 ← fitWeibull2P argsort J (num2 (below line f) (below line rc)) { failures := .array (below line f), right_censored := .array (below line rc), optimizer := optArg inp.optimizer }
  let r2 ← fitWeibull2P argsort J (num2 (notBelow line f) (notBelow line rc)) { failures := .array (notBelow line f), right_censored := .array (notBelow line rc), optimizer := optArg inp.optimizer }
  let share : ℝ := ((below line f).length + (below line rc).length : ℝ) / (f.length + rc.length)
  let LLf : (Fin 5 → ℝ) → ℝ := fun v => mixture_LL (v 0) (v 1) (v 2) (v 3) (v 4) f rc
  let o ← mleOptimization (minimize LLf (boundsOf "Weibull_mixture" f rc)) (fun v => |2 * LLf v|) ![r1.dist.a, r1.dist.b, r2.dist.a, r2.dist.b, share] inp.optimizer
  let p := o.params
  let ds := [weibull (p 0) (p 1) 0, weibull (p 2) (p 3) 0]
  let props ← mixtureInit ds (some [p 4, 1 - p 4])
  let V ← orWarn (npInv (hessian LLf p)) o.optimizer
  let Z := zOf inp.CI
  let g ← gof argsort (fun X => (mixture ds props X).map Arrays.cdf) f rc (f.length + rc.length) 5 (LLf p)
  pure ⟨[ciRow ciPositive "Alpha 1" (p 0) (diagSE V 0) Z, ciRow ciPositive "Beta 1" (p 1) (diagSE V 1) Z,
      ciRow ciPositive "Alpha 2" (p 2) (diagSE V 2) Z, ciRow ciPositive "Beta 2" (p 3) (diagSE V 3) Z,
      ciRow ciProportion "Proportion 1" (p 4) (diagSE V 4) Z], (ds, props), o.optimizer, g⟩

/-- `Fit_Weibull_CR(...)` (Fitters.py:4111-4356).  Unlike Fit_Weibull_Mixture it does not hand its optimizer to
Fit_Weibull_2P. -/
noncomputable def fitCR (argsort : List ℝ → List ℕ) (J : Jac) (kde : List ℝ → ℝ) (num2 : List ℝ → List ℝ → Option ℝ → Num2)
    (minimize : Minimizer (Fin 4 → ℝ)) (failures : DataArg ℝ) (x : SArgs) : Except Err (SRes (List Dist)) := do
  let inp ← fittersCheck "Weibull_CR" failures x.right_censored .none x.optimizer x.CI .none none none .none
  let f := inp.failures
  let rc := inp.right_censored
  let line ← dividingLine f (kde f)
  let r1 ← fitWeibull2P argsort J (num2 (below line f) (below line rc)) { failures := .array (below line f), right_censored := .array (below line rc) }
  let r2 ← fitWeibull2P argsort J (num2 (notBelow line f) (notBelow line rc)) { failures := .array (notBelow line f), right_censored := .array (notBelow line rc) }
  let LLf : (Fin 4 → ℝ) → ℝ := fun v => CR_LL (v 0) (v 1) (v 2) (v 3) f rc
  let o ← mleOptimization (minimize LLf (boundsOf "Weibull_CR" f rc)) (fun v => |2 * LLf v|) ![r1.dist.a, r1.dist.b, r2.dist.a, r2.dist.b] inp.optimizer
  let p := o.params
  let ds := [weibull (p 0) (p 1) 0, weibull (p 2) (p 3) 0]
  let V ← orWarn (npInv (hessian LLf p)) o.optimizer
  let Z := zOf inp.CI
  let g ← gof argsort (fun X => (competing ds X).map Arrays.cdf) f rc (f.length + rc.length) 4 (LLf p)
  pure ⟨[ciRow ciPositive "Alpha 1" (p 0) (diagSE V 0) Z, ciRow ciPositive "Beta 1" (p 1) (diagSE V 1) Z,
      ciRow ciPositive "Alpha 2" (p 2) (diagSE V 2) Z, ciRow ciPositive "Beta 2" (p 3) (diagSE V 3) Z], ds, o.optimizer, g⟩

/-! ## Defective subpopulation and zero inflation -/

/-- The goodness of fit of the zero inflated models: the plotting position of a failure at 0 is replaced by ZI
(Fitters.py:4700-4718, 5370-5388). -/
noncomputable def gofZI (argsort : List ℝ → List ℕ) (m : DSZI) (failures rc : List ℝ) (k : ℕ) (LL : ℝ) : Except Err GoF := do
  let n := failures.length + rc.length
  let xy ← PP.plottingPositions argsort failures (some rc) none true
  let y := List.zipWith (fun x y => if x = 0 then m.ZI else y) xy.1 xy.2
  let F ← dsziCDF m xy.1
  let ad ← AD.andersonDarling (cdfArg F) y
  pure ⟨2 * LL, loglik LL, AICc n k (2 * LL), BIC n k (2 * LL), ad⟩

/-- `max(y_pts)` (Fitters.py:4576, 4952). -/
noncomputable def maxOf (l : List ℝ) : Except Err ℝ :=
  match l.max? with
  | some m => .ok m
  | none => valueErr

/-- `Fit_Weibull_DSZI(...)` (Fitters.py:4540-4726); `failures` is a list or array of numbers. -/
noncomputable def fitDSZI (argsort : List ℝ → List ℕ) (J : Jac) (num2 : List ℝ → List ℝ → Option ℝ → Num2)
    (minimize : Minimizer (Fin 4 → ℝ)) (failures : List ℝ) (x : SArgs) : Except Err (SRes DSZI) := do
  let zeros := failures.filter fun t => decide (t = 0)
  let inp ← fittersCheck "Weibull_DSZI" (.array (failures.filter fun t => decide (t ≠ 0))) x.right_censored .none x.optimizer
    x.CI .none none none .none
  let f := inp.failures
  let rc := inp.right_censored
  let xy ← PP.plottingPositions argsort failures (some rc) none true
  let DS0 ← maxOf xy.2
  let r ← fitWeibull2P argsort J (num2 f []) { failures := .array f, optimizer := optArg inp.optimizer }
  let ZI0 : ℝ := (zeros.length : ℝ) / (failures.length + rc.length)
  let LLf : (Fin 4 → ℝ) → ℝ := fun v => DSZI_LL (v 0) (v 1) (v 2) (v 3) zeros f rc
  let o ← mleOptimization (minimize LLf (boundsOf "Weibull_DSZI" failures rc)) (fun v => |2 * LLf v|) ![r.dist.a, r.dist.b, DS0, ZI0] inp.optimizer
  let p := o.params
  let V ← orWarn (npInv (hessian LLf p)) o.optimizer
  let Z := zOf inp.CI
  let m ← dsziInit (weibull (p 0) (p 1) 0) (some (p 2)) (some (p 3))
  let g ← gofZI argsort m failures rc 4 (LLf p)
  pure ⟨[ciRow ciPositive "Alpha" (p 0) (diagSE V 0) Z, ciRow ciPositive "Beta" (p 1) (diagSE V 1) Z,
      ciRow ciDS "DS" (p 2) (diagSE V 2) Z, ciRow ciZI "ZI" (p 3) (diagSE V 3) Z], m, o.optimizer, g⟩

/-- `Fit_Weibull_DS(...)` (Fitters.py:4920-5069). -/
noncomputable def fitDS (argsort : List ℝ → List ℕ) (J : Jac) (num2 : List ℝ → List ℝ → Option ℝ → Num2)
    (minimize : Minimizer (Fin 3 → ℝ)) (failures : DataArg ℝ) (x : SArgs) : Except Err (SRes DSZI) := do
  let inp ← fittersCheck "Weibull_DS" failures x.right_censored .none x.optimizer x.CI .none none none .none
  let f := inp.failures
  let rc := inp.right_censored
  let xy ← PP.plottingPositions argsort f (some rc) none true
  let DS0 ← maxOf xy.2
  let r ← fitWeibull2P argsort J (num2 f []) { failures := .array f, optimizer := optArg inp.optimizer }
  let LLf : (Fin 3 → ℝ) → ℝ := fun v => DS_LL (v 0) (v 1) (v 2) f rc
  let o ← mleOptimization (minimize LLf (boundsOf "Weibull_DS" f rc)) (fun v => |2 * LLf v|) ![r.dist.a, r.dist.b, DS0] inp.optimizer
  let p := o.params
  let V ← orWarn (npInv (hessian LLf p)) o.optimizer
  let Z := zOf inp.CI
  let m ← dsziInit (weibull (p 0) (p 1) 0) (some (p 2)) none
  let g ← gof argsort (dsziCDF m) f rc (f.length + rc.length) 3 (LLf p)
  pure ⟨[ciRow ciPositive "Alpha" (p 0) (diagSE V 0) Z, ciRow ciPositive "Beta" (p 1) (diagSE V 1) Z,
      ciRow ciDS "DS" (p 2) (diagSE V 2) Z], m, o.optimizer, g⟩

/-- `Fit_Weibull_ZI(...)` (Fitters.py:5236-5396); `failures` is a list or array of numbers. -/
noncomputable def fitZI (argsort : List ℝ → List ℕ) (J : Jac) (num2 : List ℝ → List ℝ → Option ℝ → Num2)
    (minimize : Minimizer (Fin 3 → ℝ)) (failures : List ℝ) (x : SArgs) : Except Err (SRes DSZI) := do
  let zeros := failures.filter fun t => decide (t = 0)
  let inp ← fittersCheck "Weibull_ZI" (.array (failures.filter fun t => decide (t ≠ 0))) x.right_censored .none x.optimizer
    x.CI .none none none .none
  let f := inp.failures
  let rc := inp.right_censored
  let r ← fitWeibull2P argsort J (num2 f rc) { failures := .array f, right_censored := .array rc, CI := .float inp.CI, optimizer := optArg inp.optimizer }
  let ZI0 : ℝ := (zeros.length : ℝ) / (failures.length + rc.length)
  let LLf : (Fin 3 → ℝ) → ℝ := fun v => ZI_LL (v 0) (v 1) (v 2) zeros f rc
  let o ← mleOptimization (minimize LLf (boundsOf "Weibull_ZI" failures rc)) (fun v => |2 * LLf v|) ![r.dist.a, r.dist.b, ZI0] inp.optimizer
  let p := o.params
  let V ← orWarn (npInv (hessian LLf p)) o.optimizer
  let Z := zOf inp.CI
  let m ← dsziInit (weibull (p 0) (p 1) 0) none (some (p 2))
  let g ← gofZI argsort m failures rc 3 (LLf p)
  pure ⟨[ciRow ciPositive "Alpha" (p 0) (diagSE V 0) Z, ciRow ciPositive "Beta" (p 1) (diagSE V 1) Z,
      ciRow ciZI "ZI" (p 2) (diagSE V 2) Z], m, o.optimizer, g⟩

end Reliability.FitSpecial

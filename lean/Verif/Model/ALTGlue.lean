import Verif.Model.FitGlue
import Verif.Model.ALT
import Verif.Model.ALTLeastSquares

/-!
# Model of the `__init__` of the 24 ALT fitters (/repo/reliability/ALT_fitters.py)

The classes have the same text up to the names of the parameters, the likelihood and the life function; `Cls` holds what
differs.  As in Model/FitGlue.lean scipy's `minimize` and the least squares inside the fits of the groups are arbitrary
functions, autograd is exact.  Stresses are of type `σ`: a number or a pair.  The text of the column "shape change" (rounding,
percent sign), `mean_life` (the
mean of the use level distribution), printing and plots are not represented, except that building the text of a warning can raise.
-/

namespace Reliability.ALTGlue

open Reliability Reliability.InputCheck Reliability.FitGlue Reliability.ALT
open Reliability.Fitters (OptResult mleOptimization Bound)
open Reliability.FunctionCI (Jac zOf Two)
open Reliability.ALTLeastSquares (altLeastSquares altBounds)

/-- What distinguishes the classes: names, number of parameters, initial guess (from the least squares line and the common
shape), common shape (1 for the Exponential distribution), likelihood, the results computed from the estimates
(Model/ALT.lean), and `life_func`, which is handed to the plots. -/
structure Cls (σ : Type) where
  dist : String
  model : String
  n : ℕ
  names : List String
  guess : List ℝ → ℝ → Fin n → ℝ
  shape : (Fin n → ℝ) → ℝ
  LL : (Fin n → ℝ) → List ℝ → List ℝ → List σ → List σ → ℝ
  fit : (Fin n → ℝ) → Option (List ℝ) → ℝ → List ℝ → List ℝ → List σ → List σ → Option σ → List σ → Fit
  life : (Fin n → ℝ) → σ → ℝ

/-- How the stresses are represented: `key` is the key of a group in ALT_fitters_input_checking and `stress` the stress of a
group (for two stresses the keys are strings, Utils.py:2251-2303), `join` the stresses of the items from the two columns,
`use` the use level stress. -/
structure Kind (σ κ : Type) where
  key : ℝ → Option ℝ → κ
  stress : κ → σ
  join : List ℝ → List ℝ → List σ
  use : UseArg ℝ → Option σ

/-- One stress. -/
def singleKind : Kind ℝ ℝ where
  key x _ := x
  stress := id
  join a _ := a
  use | .num u => some u | _ => none

/-- Two stresses, with any representation of the pairs as keys. -/
def dualKind {κ : Type} (key : ℝ → Option ℝ → κ) (stress : κ → ℝ × ℝ) : Kind (ℝ × ℝ) κ where
  key := key
  stress := stress
  join a b := a.zip b
  use | .array [u, v] => some (u, v) | _ => none

/-- The arguments (ALT_fitters.py:2899-2911, 4281-4295). -/
structure ALTArgs where
  failures : DataArg ℝ
  failure_stress_1 : DataArg ℝ
  failure_stress_2 : DataArg ℝ := .none
  right_censored : DataArg ℝ := .none
  right_censored_stress_1 : DataArg ℝ := .none
  right_censored_stress_2 : DataArg ℝ := .none
  use_level_stress : UseArg ℝ := .none
  CI : CIArg ℝ := .float 0.95
  optimizer : StrArg := .none

/-- `right_censored=` of the fit of one stress (ALT_fitters.py:2949-2953). -/
def rcArg : Option (List ℝ) → DataArg ℝ
  | none => .none
  | some l => .array l

/-- The fit of the data of one stress: Fit_Lognormal_2P, Fit_Normal_2P, or Fit_Weibull_2P (also for the Exponential classes),
with default arguments (ALT_fitters.py:2956-2961, 5876-5881, 8822-8827, 11735-11740). -/
noncomputable def groupFit (dist : String) (argsort : List ℝ → List ℕ) (J : Jac) (num : Option ℝ → Num2) (f : List ℝ)
    (rc : Option (List ℝ)) : Except Err (FitRes Two) :=
  let x : Args := { failures := .array f, right_censored := rcArg rc }
  if dist = "Lognormal" then fitLognormal2P argsort J num x
  else if dist = "Normal" then fitNormal2P argsort J num x
  else fitWeibull2P argsort J num x

/-- Scale and shape of one group (ALT_fitters.py:2955-2965), `none` if it has a single failure. -/
noncomputable def groupParams (dist : String) (argsort : List ℝ → List ℕ) (J : Jac) (num : Option ℝ → Num2)
    (g : List ℝ × Option (List ℝ)) : Except Err (Option (ℝ × ℝ)) :=
  if 1 < g.1.length then (groupFit dist argsort J num g.1 g.2).map fun r => some (r.dist.a, r.dist.b) else .ok none

/-- The loop over the stresses (ALT_fitters.py:2948-2967): for each group the estimates of scale and shape, `none` if it has
a single failure.  `num i` are the numerics of the fit of group `i`. -/
noncomputable def groupFits (dist : String) (argsort : List ℝ → List ℕ) (J : Jac) (num : ℕ → Option ℝ → Num2) :
    ℕ → List (List ℝ × Option (List ℝ)) → Except Err (List (Option (ℝ × ℝ)))
  | _, [] => .ok []
  | i, g :: gs => do
    let r ← groupParams dist argsort J (num i) g
    let rs ← groupFits dist argsort J num (i + 1) gs
    pure (r :: rs)

/-- The failures of each group with its right censored times (ALT_fitters.py:2949-2953). -/
def groupsOf (fg : List (List ℝ)) (cg : Option (List (List ℝ))) : List (List ℝ × Option (List ℝ)) :=
  match cg with
  | none => fg.map fun f => (f, none)
  | some c => List.zipWith (fun f r => (f, some r)) fg c

/-- `common_beta` (ALT_fitters.py:2969-2972). -/
noncomputable def commonShape (gs : List (Option (ℝ × ℝ))) : ℝ :=
  let shapes := gs.filterMap fun g => g.map Prod.snd
  if 0 < shapes.length then shapes.sum / shapes.length else 1

/-- A row of `change_of_parameters` (ALT_fitters.py:3092-3142): stress, original scale and shape, new scale, common shape,
relative change of the shape, acceleration factor. -/
structure Change (σ : Type) where
  stress : σ
  scale : Option ℝ
  shape : Option ℝ
  newScale : ℝ
  commonShape : ℝ
  change : Option ℝ
  AF : Option ℝ

/-- Row `i` of the table; an original shape of 0 is shown as missing (3102-3104). -/
noncomputable def changeRow {σ : Type} (stress : σ) (original : Option (ℝ × ℝ)) (newScale common : ℝ) (AF : Option ℝ) :
    Change σ where
  stress := stress
  scale := original.map Prod.fst
  shape := original.bind fun o => if o.2 = 0 then none else some o.2
  newScale := newScale
  commonShape := common
  change := original.bind fun o => if o.2 = 0 then none else some ((common - o.2) / o.2)
  AF := AF

/-- Row `i`, if there is a stress with this index. -/
noncomputable def changeAt {σ : Type} (stresses : List σ) (originals : List (Option (ℝ × ℝ))) (fit : Fit) (common : ℝ) (i : ℕ) :
    Option (Change σ) :=
  match stresses[i]?, originals[i]?, fit.newScale[i]? with
  | some s, some o, some m => some (changeRow s o m common fit.AF[i]?)
  | _, _, _ => none

/-- The table. -/
noncomputable def changeTable {σ : Type} (stresses : List σ) (originals : List (Option (ℝ × ℝ))) (fit : Fit) (common : ℝ) :
    List (Change σ) :=
  (List.range stresses.length).filterMap (changeAt stresses originals fit common)

/-- The attributes of an ALT fit. -/
structure ALTRes (σ : Type) where
  rows : List Row
  success : Bool
  optimizer : Option String
  loglik2 : ℝ
  fit : Fit
  change : List (Change σ)

/-- The rows of `results` (ALT_fitters.py:3041-3053). -/
noncomputable def resultRows {n : ℕ} (names : List String) (p : Fin n → ℝ) (SE : Option (List ℝ)) (bounds : List (ℝ × ℝ)) :
    List Row :=
  List.ofFn fun i : Fin n =>
    ⟨names.getD i "", p i, (SE.getD []).getD i 0, (bounds.getD i (0, 0)).1, (bounds.getD i (0, 0)).2⟩

/-- `Fit_<dist>_<model>(...)`. -/
noncomputable def fitALT {σ κ : Type} [LinearOrder κ] (c : Cls σ) (k : Kind σ κ) (argsort : List ℝ → List ℕ) (J : Jac)
    (num : ℕ → Option ℝ → Num2) (noise : Matrix (Fin 3) (Fin 3) ℝ)
    (minimize : Minimizer (Fin c.n → ℝ)) (x : ALTArgs) :
    Except Err (ALTRes σ) := do
  let inp ← altCheck k.key c.dist c.model x.failures x.failure_stress_1 x.failure_stress_2 x.right_censored
    x.right_censored_stress_1 x.right_censored_stress_2 x.CI x.use_level_stress x.optimizer
  let ls ← altLeastSquares noise c.model inp.failures inp.failure_stress_1 inp.failure_stress_2
  let gs ← groupFits c.dist argsort J num 0 (groupsOf inp.failure_groups inp.right_censored_groups)
  let bounds ← altBounds c.model c.dist
  let Fs := k.join inp.failure_stress_1 inp.failure_stress_2
  let Cs := k.join inp.right_censored_stress_1 inp.right_censored_stress_2
  let LL : (Fin c.n → ℝ) → ℝ := fun p => c.LL p inp.failures inp.right_censored Fs Cs
  let o ← mleOptimization (minimize LL bounds) (fun p => |-LL p|) (c.guess ls (commonShape gs)) inp.optimizer
  let SE ← orWarn ((npInv (hessian LL o.params)).map fun V => List.ofFn fun i => seOf (V i i)) o.optimizer
  let stresses := inp.stresses_for_groups.map k.stress
  let fit := c.fit o.params SE (zOf inp.CI) inp.failures inp.right_censored Fs Cs (k.use inp.use_level_stress) stresses
  pure ⟨resultRows c.names o.params SE fit.bounds, o.success, o.optimizer, 2 * LL o.params, fit,
    changeTable stresses gs fit (c.shape o.params)⟩

end Reliability.ALTGlue

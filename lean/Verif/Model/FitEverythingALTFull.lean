import Verif.Model.FitEverythingALT
import Verif.Model.ALTClasses
import Verif.Model.FitSpecial

/-!
# `Fit_Everything_ALT` with the calls of the classes (/repo/reliability/ALT_fitters.py:168-1792)

The flags for printing and plotting and the alternative keywords `failure_stress`, `right_censored_stress` (185-201) are not
represented.
-/

namespace Reliability.FEAFull

open Reliability Reliability.InputCheck Reliability.FitGlue Reliability.ALTGlue
open Reliability.FunctionCI (Jac)
open Reliability.FitSpecial (optArg)

/-- The arguments. -/
structure FEAArgs extends ALTArgs where
  exclude : Option (List Fitters.Item) := none
  sort_by : Option String := some "BIC"

/-- What the numerical routines answer inside the class `c`. -/
structure Oracle (σ : Type) where
  num : Cls σ → ℕ → Option ℝ → Num2
  noise : Cls σ → Matrix (Fin 3) (Fin 3) ℝ
  minimize : (c : Cls σ) → Minimizer (Fin c.n → ℝ)

/-- `Fit_Weibull_Exponential` fits the model called "Weibull_Exponential" and so on (ALT_fitters.py:368-1543). -/
def clsName {σ : Type} (c : Cls σ) : String := c.dist ++ "_" ++ c.model

/-- A class called with the arguments `x`. -/
noncomputable def call {σ κ : Type} [LinearOrder κ] (k : Kind σ κ) (argsort : List ℝ → List ℕ) (J : Jac) (O : Oracle σ)
    (x : ALTArgs) (c : Cls σ) : Except Err (ALTRes σ) :=
  fitALT c k argsort J (O.num c) (O.noise c) (O.minimize c) x

/-- The attribute `name` of a fit: the point estimate of the parameter of that name (blank, here 0, if there is none). -/
noncomputable def attr (rows : List FitGlue.Row) (name : String) : ℝ :=
  match rows.find? (fun w => w.name = name) with
  | some w => w.point
  | none => 0

/-- The row of a model (ALT_fitters.py:381-409 and alike; tools/gen_fea.py checks every column against the source). -/
noncomputable def rowOf {σ : Type} (c : Cls σ) (r : ALTRes σ) : ALT.Row where
  model := clsName c
  params := ⟨attr r.rows "a", attr r.rows "b", attr r.rows "c", attr r.rows "m", attr r.rows "n", attr r.rows "beta",
    attr r.rows "sigma"⟩
  loglik := r.fit.loglik
  AICc := r.fit.AICc
  BIC := r.fit.BIC
  optimizer := r.optimizer

/-- The fits, one after the other (ALT_fitters.py:368-1546). -/
noncomputable def frame {σ κ : Type} [LinearOrder κ] (k : Kind σ κ) (argsort : List ℝ → List ℕ) (J : Jac) (O : Oracle σ)
    (x : ALTArgs) : List (Cls σ) → Except Err (List ALT.Row)
  | [] => .ok []
  | c :: cs => do
    let r ← call k argsort J O x c
    let rs ← frame k argsort J O x cs
    pure (rowOf c r :: rs)

/-- The arguments of the classes: the checked inputs (ALT_fitters.py:218-226 and, for instance, 369-379 and 941-953). -/
def checkedArgs {κ : Type} (dual : Bool) (inp : ALTChecked ℝ κ) : ALTArgs where
  failures := .array inp.failures
  failure_stress_1 := .array inp.failure_stress_1
  failure_stress_2 := if dual then .array inp.failure_stress_2 else .none
  right_censored := .array inp.right_censored
  right_censored_stress_1 := .array inp.right_censored_stress_1
  right_censored_stress_2 := if dual then .array inp.right_censored_stress_2 else .none
  use_level_stress := inp.use_level_stress
  CI := .float inp.CI
  optimizer := optArg inp.optimizer

/-- `use_level_stress` in the formulas of the best model (the second component is not used for one stress). -/
def useOf : UseArg ℝ → Option (ℝ × ℝ)
  | .num u => some (u, 0)
  | .array [u, v] => some (u, v)
  | _ => none

/-- Sorting and the best model (ALT_fitters.py:1548-1792). -/
noncomputable def finish (argsort : List ℝ → List ℕ) (sort_by : Option String) (use : Option (ℝ × ℝ)) (ex : List String)
    (rows : List ALT.Row) : Except Err ALT.FEAResult :=
  match ALT.sortRowsALT argsort sort_by rows with
  | .error e => .error e
  | .ok [] => valueErr
  | .ok (r :: rs) => .ok ⟨r :: rs, r.model, ex, use.bind fun u => ALT.bestUse r.model r.params u⟩

/-- The part after the checks, for data with stresses of one kind: the models for the other kind are excluded
(ALT_fitters.py:323-329), so that only the classes `cs` for this kind matter. -/
noncomputable def everything {σ κ : Type} [LinearOrder κ] (k : Kind σ κ) (cs : List (Cls σ)) (dual : Bool)
    (argsort : List ℝ → List ℕ) (J : Jac) (O : Oracle σ) (x : FEAArgs) : Except Err ALT.FEAResult := do
  let inp ← altCheck k.key "Everything" "Everything" x.failures x.failure_stress_1 x.failure_stress_2 x.right_censored
    x.right_censored_stress_1 x.right_censored_stress_2 x.CI x.use_level_stress x.optimizer
  let ex ← ALT.excludedModels x.exclude (decide (0 < inp.failure_stress_2.length))
  let rows ← frame k argsort J O (checkedArgs dual inp) (cs.filter fun c => clsName c ∉ ex)
  finish argsort x.sort_by (useOf inp.use_level_stress) ex rows

/-- `Fit_Everything_ALT(...)`: whether there are two stresses is decided by `failure_stress_2` (Utils.py:1995-2001). -/
noncomputable def fitEverythingALT {κ : Type} [LinearOrder κ] (key : ℝ → Option ℝ → κ) (stress : κ → ℝ × ℝ)
    (argsort : List ℝ → List ℕ) (J : Jac) (O₁ : Oracle ℝ) (O₂ : Oracle (ℝ × ℝ)) (x : FEAArgs) : Except Err ALT.FEAResult :=
  if isDual "Everything" x.failure_stress_2 then everything (dualKind key stress) dualClasses true argsort J O₂ x
  else everything singleKind singleClasses false argsort J O₁ x

end Reliability.FEAFull

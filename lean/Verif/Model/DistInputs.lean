import Verif.Model.FunctionCI
import Verif.Model.Fitters

/-!
# Model of `distributions_input_checking` (Utils.py:7038-7264) and of a call of `CDF`, `SF`, `CHF` with bounds

Numbers are finite reals: a nan or infinite argument is not represented.
-/

namespace Reliability.FunctionCI

open Reliability Reliability.Distributions

/-- The `CI` argument; `other` is anything that is neither None, a bool nor of type `float` (so int and numpy numbers). -/
inductive CIArg where
  | none
  | bool (b : Bool)
  | float (r : ℝ)
  | other

/-- The `CI_x`, `CI_y` arguments: None, an int or float, a list or array, or anything else. -/
inductive ValArg where
  | none
  | num (r : ℝ)
  | arr (l : List ℝ)
  | other

/-- The `CI_type` argument. -/
inductive StrArg where
  | none
  | str (s : String)
  | other

/-- What the check reads from the distribution object. -/
structure SelfAttr where
  name : String
  Z : Option ℝ
  CI_type : Option String

/-- The arguments of `CDF`, `SF`, `CHF` that concern the bounds. -/
structure CIArgs where
  CI_type : StrArg
  CI : CIArg
  CI_y : ValArg
  CI_x : ValArg

/-- What the check returns of them. -/
structure Resolved where
  CI_type : Option String
  CI : ℝ
  CI_y : Option (List ℝ)
  CI_x : Option (List ℝ)

/-- `no_CI_array` (Utils.py:7179). -/
def noCI : List String := ["None", "NONE", "none", "OFF", "Off", "off"]

/-- Utils.py:7136-7144: `True` and `False` become 0.95, any other type but None and float is refused. -/
noncomputable def ciNumber : CIArg → Except Err (Option ℝ)
  | .none => .ok none
  | .bool _ => .ok (some (95 / 100))
  | .float r => .ok (some r)
  | .other => valueErr

/-- Utils.py:7165-7171. -/
noncomputable def ciLevel (self : SelfAttr) (CI : Option ℝ) : Except Err ℝ :=
  match CI, self.Z with
  | none, none => .ok (95 / 100)
  | some r, _ => if r ≤ 0 ∨ 1 ≤ r then valueErr else .ok r
  | none, some z => .ok (1 - normStd.cdf (-z) * 2)

/-- Utils.py:7203-7213. -/
def ciTypeName (s : String) : Option String :=
  if Fitters.up s ∈ ["T", "TIME"] then some "time"
  else if Fitters.up s ∈ ["R", "REL", "RELIABILITY"] then some "reliability"
  else none

/-- Utils.py:7180-7213. -/
def ciType (self : SelfAttr) (t : Option String) : Option String :=
  if self.name = "Exponential" then none
  else if self.name = "Beta" then none
  else
    let t :=
      match t with
      | none =>
        match self.CI_type with
        | none => none
        | some s => if s ∈ noCI then none else some s
      | some s => if s ∈ noCI then none else some s
    match t with
    | none => none
    | some s => ciTypeName s

/-- Utils.py:7215-7227. -/
def oneOf (t : Option String) (x y : ValArg) : ValArg × ValArg :=
  match x, y with
  | .none, _ => (x, y)
  | _, .none => (x, y)
  | _, _ => if t = some "reliability" then (x, .none) else (.none, y)

/-- Utils.py:7229-7237; `min` of an empty array is a ValueError. -/
noncomputable def checkCIx (name : String) : ValArg → Except Err (Option (List ℝ))
  | .none => .ok none
  | .num r => if r ≤ 0 ∧ name ∉ ["Normal", "Gumbel"] then valueErr else .ok (some [r])
  | .arr l =>
    match l.min? with
    | none => valueErr
    | some m => if m ≤ 0 ∧ name ∉ ["Normal", "Gumbel"] then valueErr else .ok (some l)
  | .other => valueErr

/-- Utils.py:7239-7251. -/
noncomputable def checkCIy (func : String) : ValArg → Except Err (Option (List ℝ))
  | .none => .ok none
  | .num r => if r ≤ 0 then valueErr else if 1 ≤ r ∧ func ∈ ["CDF", "SF"] then valueErr else .ok (some [r])
  | .arr l =>
    match l.min?, l.max? with
    | some m, some M => if m ≤ 0 then valueErr else if 1 ≤ M ∧ func ∈ ["CDF", "SF"] then valueErr else .ok (some l)
    | _, _ => valueErr
  | .other => valueErr

/-- `type(CI_y) not in [...]` (Utils.py:7145-7152). -/
def ValArg.typeOK : ValArg → Bool
  | .other => false
  | _ => true

/-- `distributions_input_checking` for CDF, SF, CHF; `X` is the outcome of the x-values (`generate_X_array`, or a single
number). Not represented: the type checks of xvals, xmin, xmax, show_plot, plot_CI, and the returned plot settings. -/
noncomputable def resolve (self : SelfAttr) (func : String) (X : Except Err Unit) (a : CIArgs) : Except Err Resolved :=
  if func ∉ ["PDF", "CDF", "SF", "HF", "CHF", "ALL"] then valueErr
  else
    match a.CI_type with
    | .other => valueErr
    | t =>
      let t : Option String := match t with | .str s => some s | _ => none
      match ciNumber a.CI with
      | .error e => .error e
      | .ok c =>
        if a.CI_y.typeOK = false then valueErr
        else if a.CI_x.typeOK = false then valueErr
        else
          match X with
          | .error e => .error e
          | .ok _ =>
            match ciLevel self c with
            | .error e => .error e
            | .ok CI =>
              let ct := ciType self t
              let (x, y) := oneOf ct a.CI_x a.CI_y
              match checkCIx self.name x with
              | .error e => .error e
              | .ok x =>
                match checkCIy func y with
                | .error e => .error e
                | .ok y => .ok ⟨ct, CI, y, x⟩

/-- `self.name` (Distributions.py, 101, 1102, 2031, 3010, 3962, 5677, 6726). -/
def Fitted.name : Fitted → String
  | .expo _ => "Exponential"
  | .two d =>
    match d.fam with
    | .weibull => "Weibull"
    | .gamma => "Gamma"
    | .normal => "Normal"
    | .lognormal => "Lognormal"
    | .loglogistic => "Loglogistic"
    | .gumbel => "Gumbel"

/-- `self.Z`. -/
def Fitted.Z : Fitted → Option ℝ
  | .expo d => finiteArg d.Z
  | .two d => finiteArg d.Z

/-- The name of the function, as the methods pass it. -/
def Func.str : Func → String
  | .CDF => "CDF"
  | .SF => "SF"
  | .CHF => "CHF"

/-- A call of `CDF`, `SF` or `CHF` (e.g. Distributions.py:493-560): inputs resolved, then the bounds. `ct` is the
object's attribute `CI_type`. -/
noncomputable def callCI (J : Jac) (d : Fitted) (ct : Option String) (fn : Func) (X : Except Err Unit) (a : CIArgs) :
    Except Err (Option (List (Ext ℝ) × List (Ext ℝ) × List (Ext ℝ))) :=
  match resolve ⟨d.name, d.Z, ct⟩ fn.str X a with
  | .error e => .error e
  | .ok r => funcCI J d fn r.CI_type r.CI r.CI_y r.CI_x

end Reliability.FunctionCI

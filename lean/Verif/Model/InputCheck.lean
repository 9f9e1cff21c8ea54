import Mathlib.Algebra.Order.Field.Basic
import Mathlib.Data.List.Dedup
import Verif.Model.Basic
import Verif.Model.NumPy
import Verif.Model.Fitters

/-!
# Model of the input checks of the fitters (/repo/reliability/Utils.py:1585-2425)

Data are lists of exact finite numbers (conversion by `astype(float)` and nan/inf entries are not represented).
Warnings printed to the terminal are not represented.
-/

namespace Reliability.InputCheck

open List Fitters

variable {K : Type _} [Field K] [LinearOrder K]

/-- An argument that should be a list or array of numbers. -/
inductive DataArg (K : Type _) where
  | none
  | array (l : List K)
  | other

/-- The `CI` argument: a float, or something else. -/
inductive CIArg (K : Type _) where
  | float (x : K)
  | other

/-- An argument that should be a string or None. -/
inductive StrArg where
  | none
  | str (s : String)
  | other

/-- The `quantiles` argument. -/
inductive QArg (K : Type _) where
  | none
  | bool (b : Bool)
  | str (s : String)
  | array (l : List K)
  | other

/-- What `fitters_input_checking` returns (Utils.py:1868-1877). -/
structure Checked (K : Type _) where
  failures : List K
  right_censored : List K
  CI : K
  method : Option String
  optimizer : Option String
  quantiles : QArg K
  force_beta : Option K
  force_sigma : Option K
  CI_type : Option String

/-- The names accepted (Utils.py:1599-1622). -/
def distNames : List String :=
  ["Everything", "Weibull_2P", "Weibull_3P", "Gamma_2P", "Gamma_3P", "Exponential_1P", "Exponential_2P",
   "Gumbel_2P", "Normal_2P", "Lognormal_2P", "Lognormal_3P", "Loglogistic_2P", "Loglogistic_3P", "Beta_2P",
   "Weibull_Mixture", "Weibull_CR", "Weibull_DSZI", "Weibull_DS", "Weibull_ZI"]

/-- Type checks on failures and right_censored (Utils.py:1624-1636). -/
def checkTypes (failures right_censored : DataArg K) : Except Err (List K × List K) :=
  match failures, right_censored with
  | .array F, .none => .ok (F, [])
  | .array F, .array C => .ok (F, C)
  | _, _ => valueErr

/-- Range checks and removal of zeros (and ones for Beta) (Utils.py:1638-1700). -/
def checkRange (dist : String) (F C : List K) : Except Err (List K × List K) :=
  if dist ∈ ["Normal_2P", "Gumbel_2P"] then .ok (F, C)
  else
    match (F ++ C).min?, (F ++ C).max? with
    | some lo, some hi =>
      if dist = "Beta_2P" ∧ (lo < 0 ∨ hi > 1) then valueErr
      else if lo < 0 then valueErr
      else
        let C0 := C.filter fun x => decide (x ≠ 0)
        let F0 := F.filter fun x => decide (x ≠ 0)
        if dist = "Beta_2P" then .ok (F0.filter fun x => decide (x ≠ 1), C0.filter fun x => decide (x ≠ 1))
        else .ok (F0, C0)
    | _, _ => valueErr

/-- Checks on CI (Utils.py:1702-1710). -/
def checkCI : CIArg K → Except Err K
  | .float c => if c ≤ 0 ∨ c ≥ 1 then valueErr else .ok c
  | .other => valueErr

/-- Checks on the optimizer (Utils.py:1712-1731; also 2143-2162). -/
def checkOptimizer : StrArg → Except Err (Option String)
  | .none => .ok none
  | .other => valueErr
  | .str s =>
    if up s = "TNC" then .ok (some "TNC")
    else if up s = "POWELL" then .ok (some "powell")
    else if up s ∈ ["L-BFGS-B", "LBFGSB"] then .ok (some "L-BFGS-B")
    else if up s ∈ ["NELDER-MEAD", "NELDERMEAD", "NM"] then .ok (some "nelder-mead")
    else if up s ∈ ["ALL", "BEST"] then .ok (some "best")
    else valueErr

/-- Checks on the method (Utils.py:1733-1756). -/
def checkMethod : StrArg → Except Err (Option String)
  | .none => .ok none
  | .other => valueErr
  | .str s =>
    if up s = "RRX" then .ok (some "RRX")
    else if up s = "RRY" then .ok (some "RRY")
    else if up s ∈ ["LS", "LEAST SQUARES", "LSQ", "NLRR", "NLLS"] then .ok (some "LS")
    else if up s ∈ ["MLE", "ML", "MAXIMUM LIKELIHOOD ESTIMATION", "MAXIMUM LIKELIHOOD", "MAX LIKELIHOOD"] then
      .ok (some "MLE")
    else valueErr

/-- The default quantiles (Utils.py:1762-1764). -/
def defaultQuantiles : List K :=
  [1 / 100, 5 / 100, 1 / 10, 2 / 10, 25 / 100, 5 / 10, 75 / 100, 8 / 10, 9 / 10, 95 / 100, 99 / 100]

/-- Checks on the quantiles (Utils.py:1758-1770). -/
def checkQuantiles : QArg K → Except Err (QArg K)
  | .none => .ok .none
  | .bool b => if b = true then .ok (.array defaultQuantiles) else .ok (.bool b)
  | .str s => if s ∈ ["auto", "default", "on"] then .ok (.array defaultQuantiles) else .ok (.str s)
  | .array l =>
    match l.max?, l.min? with
    | some hi, some lo => if hi ≥ 1 ∨ lo ≤ 0 then valueErr else .ok (.array l)
    | _, _ => valueErr
  | .other => valueErr

/-- Checks on force_beta and on force_sigma (Utils.py:1772-1786). -/
def checkForce : Option K → Except Err (Option K)
  | none => .ok none
  | some b => if b ≤ 0 then valueErr else .ok (some b)

/-- The number of distinct failures required (Utils.py:1788-1812); `none` if the dist is in no list. -/
def minFailures (dist : String) (force_sigma force_beta : Option K) : Option Nat :=
  if dist ∈ ["Weibull_3P", "Gamma_3P", "Lognormal_3P", "Loglogistic_3P"] then some 3
  else if dist ∈ ["Weibull_2P", "Gamma_2P", "Normal_2P", "Lognormal_2P", "Gumbel_2P", "Loglogistic_2P", "Beta_2P",
      "Exponential_2P", "Everything", "Weibull_ZI", "Weibull_DS", "Weibull_DSZI"] then
    if force_sigma.isNone ∧ force_beta.isNone then some 2 else some 1
  else if dist = "Exponential_1P" then some 1
  else if dist ∈ ["Weibull_Mixture", "Weibull_CR"] then some 4
  else none

/-- The check on the number of distinct failures (Utils.py:1814-1853).  `min_failures` unbound is a NameError. -/
def checkCount (dist : String) (force_sigma force_beta : Option K) (F : List K) : Except Err Unit :=
  match minFailures dist force_sigma force_beta with
  | none => .error .nameError
  | some m => if F.dedup.length < m then valueErr else .ok ()

/-- Checks on CI_type (Utils.py:1855-1866). -/
def checkCIType : StrArg → Except Err (Option String)
  | .none => .ok none
  | .other => valueErr
  | .str s =>
    if up s ∈ ["T", "TIME"] then .ok (some "time")
    else if up s ∈ ["R", "REL", "RELIABILITY"] then .ok (some "reliability")
    else if up s ∈ ["NONE", "OFF"] then .ok (some "none")
    else valueErr

/-- `fitters_input_checking` (Utils.py:1585-1877). -/
def fittersCheck (dist : String) (failures right_censored : DataArg K) (method optimizer : StrArg) (CI : CIArg K)
    (quantiles : QArg K) (force_beta force_sigma : Option K) (CI_type : StrArg) : Except Err (Checked K) :=
  if dist ∉ distNames then valueErr
  else do
    let fc ← checkTypes failures right_censored
    let fc ← checkRange dist fc.1 fc.2
    let ci ← checkCI CI
    let opt ← checkOptimizer optimizer
    let met ← checkMethod method
    let q ← checkQuantiles quantiles
    let fb ← checkForce force_beta
    let fs ← checkForce force_sigma
    let _ ← checkCount dist fs fb fc.1
    let ct ← checkCIType CI_type
    pure ⟨fc.1, fc.2, ci, met, opt, q, fb, fs, ct⟩

/-! ## ALT_fitters_input_checking -/

/-- The `use_level_stress` argument: a number, a list/array, or another type. -/
inductive UseArg (K : Type _) where
  | none
  | num (x : K)
  | array (l : List K)
  | other

/-- What `ALT_fitters_input_checking` returns (Utils.py:2363-2378); the stresses of the groups have the type `κ` of the
group keys. -/
structure ALTChecked (K κ : Type _) where
  failures : List K
  failure_stress_1 : List K
  failure_stress_2 : List K
  right_censored : List K
  right_censored_stress_1 : List K
  right_censored_stress_2 : List K
  CI : K
  optimizer : Option String
  use_level_stress : UseArg K
  failure_groups : List (List K)
  right_censored_groups : Option (List (List K))
  stresses_for_groups : List κ

/-- Model of pandas `DataFrame.groupby([key])`: the distinct keys in ascending order, each with its rows' values in
their original order (used at Utils.py:2183, 2226, 2266, 2324).  pandas is not part of /repo; this is its documented
meaning. -/
def groupby {κ : Type _} [LinearOrder κ] (rows : List (κ × K)) : List (κ × List K) :=
  ((rows.map (·.1)).dedup.insertionSort (· ≤ ·)).map fun k => (k, (rows.filter fun r => decide (r.1 = k)).map (·.2))

/-- `list.insert(i, x)`. -/
def pyInsert {α : Type _} (l : List α) (i : Nat) (x : α) : List α := l.take i ++ x :: l.drop i

/-- The loop adding empty lists for stresses without censored data (Utils.py:2242-2245, 2340-2343). -/
def padGroups {κ : Type _} [DecidableEq κ] (rcKeys : List κ) : Nat → List κ → List (List K) → List (List K)
  | _, [], g => g
  | i, s :: ss, g => padGroups rcKeys (i + 1) ss (if s ∉ rcKeys then pyInsert g i [] else g)

/-- The total of distinct failures over the groups (Utils.py:2191-2193, 2274-2276). -/
def totalUnique (groups : List (List K)) : Nat := (groups.map fun g => g.dedup.length).sum

/-- Grouping and the check on the number of failures (Utils.py:2175-2248 when `strict = false`, 2249-2345 when
`strict = true`).  In the dual-stress case the keys are strings `"s1_s2"`; here the keys are of any linearly ordered
type and the string order is left open. -/
def groupData {κ : Type _} [LinearOrder κ] (strict : Bool) (minReq : Nat) (fRows cRows : List (κ × K)) :
    Except Err (List (List K) × Option (List (List K)) × List κ) :=
  let fg := groupby fRows
  let keys := fg.map (·.1)
  if totalUnique (fg.map (·.2)) < minReq then valueErr
  else if 0 < cRows.length then
    let cg := groupby cRows
    if strict = true ∧ (cg.map (·.1)).any (fun k => decide (k ∉ keys)) = true then valueErr
    else .ok (fg.map (·.2), some (padGroups (cg.map (·.1)) 0 keys (cg.map (·.2))), keys)
  else .ok (fg.map (·.2), none, keys)

/-- Whether the model is a dual-stress model (Utils.py:1995-2012). -/
def isDual (model : String) (fs2 : DataArg K) : Bool :=
  if model = "Everything" then (match fs2 with | .none => false | _ => true)
  else decide (model ∈ ["Dual_Exponential", "Power_Exponential", "Dual_Power"])

/-- Failure and censored columns after the None checks and type checks (Utils.py:2014-2101). -/
def altTypes (dual : Bool) (f fs1 fs2 c cs1 cs2 : DataArg K) :
    Except Err (List K × List K × List K × List K × List K × List K) :=
  let fs2' : DataArg K := if dual then fs2 else .array []
  let (c', cs1', cs2') : DataArg K × DataArg K × DataArg K :=
    match c with
    | .none => (.array [], .array [], .array [])
    | _ => (c, cs1, if dual then cs2 else .array [])
  match f, fs1, fs2', c', cs1', cs2' with
  | .array f, .array a, .array b, .array c, .array d, .array e => .ok (f, a, b, c, d, e)
  | _, _, _, _, _, _ => valueErr

/-- Lengths (Utils.py:2103-2125). -/
def altLengths (dual : Bool) (f a b c d e : List K) : Except Err Unit :=
  if dual = false then
    if f.length ≠ a.length then valueErr else if c.length ≠ d.length then valueErr else .ok ()
  else
    if f.length ≠ a.length ∨ f.length ≠ b.length then valueErr
    else if c.length ≠ d.length ∨ c.length ≠ e.length then valueErr else .ok ()

/-- Positivity (Utils.py:2127-2131). -/
def altPositive (f c : List K) : Except Err Unit :=
  match (f ++ c).min? with
  | none => valueErr
  | some m => if m ≤ 0 then valueErr else .ok ()

/-- At least two distinct stresses (Utils.py:2164-2173). -/
def altStresses (dual : Bool) (a b : List K) : Except Err Unit :=
  if a.dedup.length < 2 then valueErr
  else if dual = true then (if b.dedup.length < 2 then valueErr else .ok ())
  else .ok ()

/-- use_level_stress (Utils.py:2347-2361). -/
def altUse (dual : Bool) (u : UseArg K) : Except Err (UseArg K) :=
  match u with
  | .none => .ok .none
  | .num x => if dual = true then valueErr else .ok (.num x)
  | .array l => if dual = false then valueErr else if l.length ≠ 2 then valueErr else .ok (.array l)
  | .other => valueErr

/-- `ALT_fitters_input_checking` (Utils.py:1966-2378).  `κ` and `key` stand for the grouping keys: the stress itself
for single-stress models, the string `"s1_s2"` for dual-stress models (`key` gets the two stresses). -/
def altCheck {κ : Type _} [LinearOrder κ] (key : K → Option K → κ) (dist model : String)
    (f fs1 fs2 c cs1 cs2 : DataArg K) (CI : CIArg K) (use : UseArg K) (optimizer : StrArg) :
    Except Err (ALTChecked K κ) :=
  if dist ∉ ["Exponential", "Weibull", "Lognormal", "Normal", "Everything"] then valueErr
  else if model ∉ ["Exponential", "Eyring", "Power", "Dual_Exponential", "Power_Exponential", "Dual_Power",
      "Everything"] then valueErr
  else
    let dual := isDual model fs2
    let minReq := if dual = true then 4 else 3
    do
      let (f, a, b, c, d, e) ← altTypes dual f fs1 fs2 c cs1 cs2
      let _ ← altLengths dual f a b c d e
      let _ ← altPositive f c
      let ci ← checkCI CI
      let opt ← checkOptimizer optimizer
      let _ ← altStresses dual a b
      let fRows := if dual = true then (List.zipWith (fun x y => key x (some y)) a b).zip f
        else (a.map fun x => key x none).zip f
      let cRows := if dual = true then (List.zipWith (fun x y => key x (some y)) d e).zip c
        else (d.map fun x => key x none).zip c
      let (fg, cg, keys) ← groupData dual minReq fRows cRows
      let u ← altUse dual use
      pure ⟨f, a, b, c, d, e, ci, opt, u, fg.reverse, cg.map List.reverse, keys.reverse⟩

end Reliability.InputCheck

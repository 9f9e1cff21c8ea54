import Mathlib.Algebra.Order.Field.Basic
import Mathlib.Algebra.Order.Archimedean.Real.Basic
import Mathlib.Data.Rat.Floor
import Verif.Model.Basic
import Verif.Model.Ext
import Verif.Model.NumPy
import Verif.Model.Distributions
import Verif.Model.Fitters

/-!
# Model of array helpers of /repo/reliability/Utils.py
-/

namespace Reliability.Utils

open List Reliability.Distributions

/-! ## clean_CI_arrays -/

section clean

variable {K : Type _} [Field K] [LinearOrder K]

/-- `np.isfinite`. -/
def isFinite : Ext K → Bool
  | .fin _ => true
  | _ => false

/-- One index of the four arrays: (xlower, xupper, ylower, yupper). -/
abbrev CIRow (K : Type _) := Ext K × Ext K × Ext K × Ext K

/-- First loop: keep the indices where all four values are finite (Utils.py:2464-2475). -/
def cleanFinite (rows : List (CIRow K)) : List (CIRow K) :=
  rows.filter fun r => isFinite r.1 && isFinite r.2.1 && isFinite r.2.2.1 && isFinite r.2.2.2

/-- Second loop: for CDF and SF keep `ylower < 1 and yupper < 1` (Utils.py:2478-2489). -/
def cleanHigh (plot_type : String) (rows : List (CIRow K)) : List (CIRow K) :=
  if Fitters.up plot_type ∈ ["CDF", "SF"] then
    rows.filter fun r => Ext.gt (.fin 1) r.2.2.1 && Ext.gt (.fin 1) r.2.2.2
  else rows

/-- Third loop: keep `ylower > 1e-50 and yupper > 1e-50` (Utils.py:2492-2499). -/
def cleanLow (rows : List (CIRow K)) : List (CIRow K) :=
  rows.filter fun r => Ext.gt r.2.2.1 (.fin (1 / 10 ^ 50)) && Ext.gt r.2.2.2 (.fin (1 / 10 ^ 50))

/-- The four arrays read at each index of `xlower`; a shorter array is an IndexError (Utils.py:2464-2470). -/
def rowsOf : List (Ext K) → List (Ext K) → List (Ext K) → List (Ext K) → Except Err (List (CIRow K))
  | [], _, _, _ => .ok []
  | a :: as, b :: bs, c :: cs, d :: ds =>
    match rowsOf as bs cs ds with
    | .error e => .error e
    | .ok rs => .ok ((a, b, c, d) :: rs)
  | _, _, _, _ => .error .indexError

/-- `clean_CI_arrays` (Utils.py:2443-2525); `xGiven`, `qGiven` say whether `x` and `q` are not None.
The printed error message is not represented. -/
def cleanCI (xl xu yl yu : List (Ext K)) (plot_type : String) (xGiven qGiven : Bool) :
    Except Err (List (Ext K) × List (Ext K) × List (Ext K) × List (Ext K)) :=
  match rowsOf xl xu yl yu with
  | .error e => .error e
  | .ok rows =>
    let out := cleanLow (cleanHigh plot_type (cleanFinite rows))
    if out.length ≠ xl.length ∧ xGiven = true then valueErr
    else if out.length ≠ yl.length ∧ qGiven = true then valueErr
    else .ok (out.map (·.1), out.map (·.2.1), out.map (·.2.2.1), out.map (·.2.2.2))

end clean

/-! ## removeNaNs -/

/-- An element of the list given to `removeNaNs`. -/
inductive Cell (K : Type _) where
  | str (s : String)
  | bool (b : Bool)
  | num (x : Ext K)
  deriving DecidableEq

/-- The test inside the loop (Utils.py:6353-6357): `"nan"` strings and nan numbers are dropped. -/
def keepCell {K : Type _} : Cell K → Bool
  | .str s => s != "nan"
  | .bool _ => true
  | .num .nan => false
  | .num _ => true

/-- `removeNaNs` on a list (Utils.py:6346-6361).  Simplification: the conversion of the result back to an array
when the input was an array is not represented. -/
def removeNaNs {K : Type _} (X : List (Cell K)) : List (Cell K) := X.filter keepCell

/-! ## no_reverse -/

section

variable {K : Type _} [Field K] [LinearOrder K]

/-- `no_reverse(x, CI_type, plot_type)` (Utils.py:764-787) on an array of finite values. -/
def noReverse (x : List K) (CI_type plot_type : String) : Except Err (List K) :=
  if x.length < 2 then valueErr
  else if CI_type = "time" ∧ plot_type = "CHF" then
    match x.max? with
    | none => valueErr
    | some m =>
      match x.findIdx? (fun v => decide (v = m)) with
      | none => .error .indexError
      | some i => .ok (if i < x.length - 1 then x.take i ++ replicate (x.length - i) m else x)
  else
    match x.min? with
    | none => valueErr
    | some m =>
      match x.findIdx? (fun v => decide (v = m)) with
      | none => .error .indexError
      | some i => .ok (if i < x.length - 1 then x.take i ++ replicate (x.length - i) m else x)

/-! ## xy_downsample -/

/-- The `downsample_factor` argument. -/
inductive Factor where
  | none
  | bool (b : Bool)
  | num (f : ℚ)
  deriving DecidableEq

/-- `downsample_factor in [None, True]`: in Python `1 == True`, so the number 1 is caught as well
(Utils.py:7016, 7019). -/
def isDefault : Factor → Bool
  | .none => true
  | .bool b => b
  | .num f => decide (f = 1)

/-- The factor used (Utils.py:7019-7020). -/
def effectiveFactor (n M : Nat) (f : Factor) : Except Err ℚ :=
  if isDefault f = true then
    if M = 0 then .error .zeroDivision else .ok ((⌊(n : ℚ) / (1 / 2 * (M : ℚ))⌋ : ℤ) : ℚ)
  else match f with
    | .num q => .ok q
    | _ => .ok 0

/-- The indices kept (Utils.py:7024-7029): `np.arange(0, n, step)` with the last one replaced by `n-1` unless
`n-1` is among them. -/
def indices (n step : Nat) : List Nat :=
  let idx := (List.range ((n + step - 1) / step)).map fun i => i * step
  if n - 1 ∉ idx then idx.set (idx.length - 1) (n - 1) else idx

/-- The loop reading the sorted array at the indices (Utils.py:7032-7034). -/
def gather (l : List K) : List Nat → Except Err (List K)
  | [] => .ok []
  | i :: is =>
    match l[i]?, gather l is with
    | some v, .ok vs => .ok (v :: vs)
    | _, _ => .error .indexError

/-- `xy_downsample` (Utils.py:7011-7035). -/
def xyDownsample (x y : List K) (factor : Factor) (M : Nat) : Except Err (List K × List K) :=
  let n := x.length
  if factor = .bool false then .ok (x, y)
  else if isDefault factor = true ∧ n < M then .ok (x, y)
  else
    match effectiveFactor n M factor with
    | .error e => .error e
    | .ok f =>
      if f = 0 then .error .zeroDivision
      else if (n : ℚ) / f < 2 then .ok (x, y)
      else if ⌊f⌋.toNat = 0 then .error .zeroDivision
      else
        match gather (Np.sort x) (indices n ⌊f⌋.toNat), gather (Np.sort y) (indices n ⌊f⌋.toNat) with
        | .ok xs, .ok ys => .ok (xs, ys)
        | _, _ => .error .indexError

end

/-! ## transform_spaced and axes_transforms -/

/-- A pair of transforms. -/
structure Transform where
  fwd : ℝ → ℝ
  inv : ℝ → ℝ

/-- The transforms chosen by `transform_spaced` (Utils.py:201-247).  `none` for an option means the argument was
not given.  Note `a=beta, b=alpha` in the beta transform. -/
noncomputable def transformOf (name : String) (alpha beta : Option ℝ) : Except Err Transform :=
  if name ∈ ["normal", "Normal", "norm", "Norm"] then .ok ⟨normStd.ppf, normStd.cdf⟩
  else if name ∈ ["gumbel", "Gumbel", "gbl", "gum", "Gum", "Gbl"] then .ok ⟨gumbelStd.ppf, gumbelStd.cdf⟩
  else if name ∈ ["weibull", "Weibull", "weib", "Weib", "wbl"] then
    .ok ⟨fun x => Real.log (-Real.log (1 - x)), fun x => 1 - Real.exp (-Real.exp x)⟩
  else if name ∈ ["loglogistic", "Loglogistic", "LL", "ll", "loglog"] then
    .ok ⟨fun x => Real.log (1 / x - 1), fun x => 1 / (Real.exp x + 1)⟩
  else if name ∈ ["exponential", "Exponential", "expon", "Expon", "exp", "Exp"] then
    .ok ⟨exponStd.ppf, exponStd.cdf⟩
  else if name ∈ ["gamma", "Gamma", "gam", "Gam"] then
    match beta with
    | none => valueErr
    | some b => .ok ⟨(ofDensity (gammaStdPdf b)).ppf, (ofDensity (gammaStdPdf b)).cdf⟩
  else if name ∈ ["beta", "Beta"] then
    match alpha, beta with
    | some a, some b => .ok ⟨(ofDensity (betaStdPdf b a)).ppf, (ofDensity (betaStdPdf b a)).cdf⟩
    | _, _ => valueErr
  else valueErr

/-- `transform_spaced` (Utils.py:194-254). -/
noncomputable def transformSpaced (name : String) (y_lower y_upper : ℝ) (num : Nat) (alpha beta : Option ℝ) :
    Except Err (List ℝ) :=
  let lo := if y_lower > y_upper then y_upper else y_lower
  let hi := if y_lower > y_upper then y_lower else y_upper
  if lo ≤ 0 ∨ hi ≥ 1 then valueErr
  else if num ≤ 2 then valueErr
  else match transformOf name alpha beta with
    | .error e => .error e
    | .ok t => .ok ((Np.linspace (t.fwd lo) (t.fwd hi) num).map t.inv)

/-- `axes_transforms` (Utils.py:265-320): the scale of the y-axis of a probability plot. -/
noncomputable def axisWeibull : Transform :=
  ⟨fun F => Real.log (-Real.log (1 - F)), fun R => 1 - Real.exp (-Real.exp R)⟩

/-- Utils.py:274-280. -/
noncomputable def axisLoglogistic : Transform :=
  ⟨fun F => Real.log (1 / (1 - F) - 1), fun R => 1 - 1 / (Real.exp R + 1)⟩

/-- Utils.py:282-288. -/
noncomputable def axisExponential : Transform := ⟨exponStd.ppf, exponStd.cdf⟩

/-- Utils.py:290-296. -/
noncomputable def axisNormal : Transform := ⟨normStd.ppf, normStd.cdf⟩

/-- Utils.py:298-304. -/
noncomputable def axisGumbel : Transform := ⟨gumbelStd.ppf, gumbelStd.cdf⟩

/-- Utils.py:306-312. -/
noncomputable def axisGamma (beta : ℝ) : Transform :=
  ⟨(ofDensity (gammaStdPdf beta)).ppf, (ofDensity (gammaStdPdf beta)).cdf⟩

/-- Utils.py:314-320. -/
noncomputable def axisBeta (alpha beta : ℝ) : Transform :=
  ⟨(ofDensity (betaStdPdf alpha beta)).ppf, (ofDensity (betaStdPdf alpha beta)).cdf⟩

/-! ## generate_X_array -/

/-- `np.geomspace(a, b, n)` for `a` and `b` of the same sign; a zero end is a ValueError. -/
noncomputable def geomspace (a b : ℝ) (n : Nat) : Except Err (List ℝ) :=
  if a = 0 ∨ b = 0 then valueErr
  else .ok ((List.range n).map fun i : Nat => a * (b / a) ^ ((i : ℝ) / ((n - 1 : Nat) : ℝ)))

/-- What `generate_X_array` reads from the distribution object: its quantile function, its `gamma`, and whether
its density at 0 is 0 (`_pdf0 == 0`). -/
structure XDist where
  fam : Fam
  q : ℝ → ℝ
  gamma : ℝ
  pdf0zero : Bool

/-- `geomspace(a-gamma, b-gamma, n) + gamma`. -/
noncomputable def geomShift (g a b : ℝ) (n : Nat) : Except Err (List ℝ) :=
  match geomspace (a - g) (b - g) n with
  | .error e => .error e
  | .ok l => .ok (l.map (· + g))

/-- The cases for Weibull, Lognormal, Loglogistic, Exponential, Gamma once `xmin ≤ xmax` are known
(Utils.py:591-700); `points = 200`, `points_right = 25`. -/
noncomputable def genPositive (d : XDist) (xmin xmax : ℝ) : Except Err (List ℝ) :=
  let QL := d.q (1 / 10000)
  let QU := d.q (99 / 100)
  if (xmin < QL ∧ xmax < QL) ∨ (xmin ≥ QL ∧ xmax ≤ QU) ∨ (xmin > QU ∧ xmax > QU) then
    .ok (Np.linspace xmin xmax 200)
  else if xmin < QL ∧ xmax > QL ∧ xmax < QU then
    if d.gamma = 0 then
      if d.pdf0zero then .ok (xmin :: Np.linspace QL xmax 199)
      else match geomspace QL xmax 199 with
        | .error e => .error e
        | .ok l => .ok (xmin :: l)
    else
      if d.pdf0zero then .ok (xmin :: (d.gamma - 1 / 10 ^ 8) :: Np.linspace QL xmax 198)
      else match geomShift d.gamma QL xmax 198 with
        | .error e => .error e
        | .ok l => .ok (xmin :: (d.gamma - 1 / 10 ^ 8) :: l)
  else if xmin > QL ∧ xmin < QU ∧ xmax > QU then
    if d.pdf0zero then .ok (Np.linspace xmin QU 175 ++ Np.linspace QU xmax 25)
    else match geomShift d.gamma xmin QU 175, geomShift d.gamma QU xmax 25 with
      | .ok a, .ok b => .ok (a ++ b)
      | _, _ => .ok (Np.linspace xmin QU 175 ++ Np.linspace QU xmax 25)
  else
    if d.gamma = 0 then
      if d.pdf0zero then
        match geomspace QU xmax 25 with
        | .error e => .error e
        | .ok r => .ok (xmin :: Np.linspace QL QU 174 ++ r)
      else
        match geomspace QL QU 174, geomspace QU xmax 25 with
        | .ok l, .ok r => .ok (xmin :: l ++ r)
        | _, _ =>
          match geomspace QU xmax 25 with
          | .error e => .error e
          | .ok r => .ok (xmin :: Np.linspace QL QU 174 ++ r)
    else
      if d.pdf0zero then
        match geomShift d.gamma QU xmax 25 with
        | .error e => .error e
        | .ok r => .ok (xmin :: (d.gamma - 1 / 10 ^ 8) :: Np.linspace QL QU 173 ++ r)
      else
        match geomShift d.gamma QL QU 173, geomShift d.gamma QU xmax 25 with
        | .ok l, .ok r => .ok (xmin :: (d.gamma - 1 / 10 ^ 8) :: l ++ r)
        | _, _ => .ok (xmin :: (d.gamma - 1 / 10 ^ 8) :: Np.linspace QL QU 173 ++ Np.linspace QU xmax 25)

/-- `generate_X_array` without xvals (Utils.py:577-735). -/
noncomputable def genX (d : XDist) (xmin xmax : Option ℝ) : Except Err (List ℝ) :=
  match d.fam with
  | .normal | .gumbel =>
    let a := xmin.getD (d.q (1 / 10000))
    let b := xmax.getD (d.q (9999 / 10000))
    let lo := if a > b then b else a
    let hi := if a > b then a else b
    if lo ≤ 0 ∨ lo > d.q (1 / 10000) then .ok (Np.linspace lo hi 200)
    else .ok (0 :: Np.linspace lo hi 199)
  | .beta =>
    let a := xmin.getD 0
    let b := xmax.getD 1
    if b > 1 then valueErr
    else
      let lo := if a > b then b else a
      let hi := if a > b then a else b
      .ok (Np.linspace lo hi 200)
  | _ =>
    let a := xmin.getD 0
    if a < 0 then valueErr
    else
      let b := xmax.getD (d.q (9999 / 10000))
      let lo := if a > b then b else a
      let hi := if a > b then a else b
      genPositive d lo hi

/-- The `xvals` argument. -/
inductive XVals where
  | scalar (x : ℝ)
  | list (l : List ℝ)
  | other

/-- `generate_X_array` with xvals (Utils.py:547-575). -/
noncomputable def genXvals (fam : Fam) : XVals → Except Err (List ℝ)
  | .scalar x =>
    if x < 0 ∧ fam ≠ .normal ∧ fam ≠ .gumbel then valueErr
    else if x > 1 ∧ fam = .beta then valueErr
    else match checkX fam [x] with
      | .error e => .error e
      | .ok _ => .ok [x]
  | .list l =>
    match checkX fam l with
    | .error e => .error e
    | .ok _ => .ok l
  | .other => valueErr

end Reliability.Utils

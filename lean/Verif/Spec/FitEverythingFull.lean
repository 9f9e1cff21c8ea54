import Verif.Model.FitEverythingFull
import Verif.Spec.Fitters

/-! # Specification of `Fit_Everything` as a whole (documentation of the class, Fitters.py:100-204) -/

namespace Reliability.Spec.FitEverythingFull

open Reliability Reliability.InputCheck Reliability.FitGlue Reliability.FitEverythingFull
open Reliability.Fitters (up)

/-- The columns of the table that hold parameters, from left to right. -/
def tableColumns : List String :=
  ["Alpha", "Beta", "Gamma", "Alpha 1", "Beta 1", "Alpha 2", "Beta 2", "Proportion 1", "DS", "Mu", "Sigma", "Lambda"]

/-- The method of the individual fits: rank regression on X or Y is not tried separately, least squares is. -/
def fitMethod : StrArg → StrArg
  | .str s => if up s = "RRX" ∨ up s = "RRY" then .str "LS" else .str s
  | a => a

/-- The data given are the failures `F` and the censored times `C`. -/
def Given (failures right_censored : DataArg ℝ) (F C : List ℝ) : Prop :=
  failures = .array F ∧ (right_censored = .none ∧ C = [] ∨ right_censored = .array C)

/-- Zero times are removed. -/
noncomputable def withoutZeros (l : List ℝ) : List ℝ := l.filter fun t => decide (t ≠ 0)

/-- Every optimizer reports success. -/
structure OptimizersSucceed (A : Answers) : Prop where
  two : ∀ num ∈ [A.w2, A.n2, A.l2, A.gu2, A.lo2], ∀ fo ob b n p,
    ((num fo).minimize ob b n p).success = true ∧ ∀ ob1 b1 p1, ((num fo).minimize1 ob1 b1 n p1).success = true
  pair : ∀ num ∈ [A.ga2, A.be2, A.e2], ∀ ob b n p, (num.minimize ob b n p).success = true
  one : ∀ ob b n p, (A.e1.minimize ob b n p).success = true
  three : ∀ num ∈ [A.w3, A.l3, A.lo3, A.ga3], ∀ ob b n p, (num.minimize ob b n p).success = true
  part : ∀ f rc fo ob b n p,
    ((A.wPart f rc fo).minimize ob b n p).success = true ∧ ∀ ob1 b1 p1, ((A.wPart f rc fo).minimize1 ob1 b1 n p1).success = true
  mixture : ∀ ob b n p, (A.mix ob b n p).success = true
  competing : ∀ ob b n p, (A.cr ob b n p).success = true
  defective : ∀ ob b n p, (A.ds ob b n p).success = true

end Reliability.Spec.FitEverythingFull

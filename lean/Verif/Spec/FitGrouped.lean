import Verif.Model.FitGrouped
import Verif.Spec.InputCheck

/-!
# Specification of Fit_Weibull_2P_grouped
-/

namespace Reliability.Spec.FitGrouped

open Reliability Reliability.FitGrouped Reliability.FitGlue
open Reliability.Fitters (OptResult)

/-- The ungrouped data of a category: each time as often as its quantity says.  Rows whose time is not positive are left
out. -/
noncomputable def expand (category : String) (rows : List GRow) : List ℝ :=
  (rows.filter fun r => r.category = category ∧ 0 < r.time).flatMap fun r => List.replicate r.quantity.toNat r.time

/-- The dataframe has exactly the three columns, every category is F or C, and no row that is used has a negative
quantity. -/
structure WellFormed (columns : List String) (rows : List GRow) : Prop where
  columns : ∀ c, c ∈ columns ↔ c = "category" ∨ c = "time" ∨ c = "quantity"
  categories : ∀ r ∈ rows, r.category = "F" ∨ r.category = "C"
  quantities : ∀ r ∈ rows, 0 < r.time → 0 ≤ r.quantity

/-- The same call on the ungrouped data. -/
noncomputable def ungrouped (rows : List GRow) (x : GArgs) : Args where
  failures := .array (expand "F" rows)
  right_censored := .array (expand "C" rows)
  CI := x.CI
  quantiles := x.quantiles
  CI_type := x.CI_type
  method := x.method
  optimizer := x.optimizer
  force := x.force_beta

/-- The same least squares routine with an optimizer that answers `p` at once. -/
def answering (num : Num2) (p : ℝ × ℝ) : Num2 :=
  ⟨⟨num.ls, num.nlls, fun _ _ _ _ => ⟨true, p⟩⟩, fun _ _ _ _ => ⟨true, p.1⟩⟩

/-- The optimizer is started at `start` and then restarted from its own answers, until the BIC changes by at most 0.001
(the first value being compared with 1000000), ten times at most; `estimate` is the last answer if that run reports
success, and `start` otherwise. -/
def Refined {P : Type} (minimize : P → OptResult P) (bic : P → ℝ) (start estimate : P) : Prop :=
  ∃ (runs : ℕ) (answers : ℕ → P), 1 ≤ runs ∧ runs ≤ 10 ∧ answers 0 = start ∧
    (∀ k, answers (k + 1) = (minimize (answers k)).x) ∧
    (∀ k, 1 ≤ k → k < runs → 0.001 < |bic (answers k) - if k = 1 then 1000000 else bic (answers (k - 1))|) ∧
    (runs = 10 ∨ |bic (answers runs) - if runs = 1 then 1000000 else bic (answers (runs - 1))| ≤ 0.001) ∧
    estimate = if (minimize (answers (runs - 1))).success then answers runs else start

/-- The number of items of a category at a time: the sum of the quantities of all its rows. -/
noncomputable def total (category : String) (t : ℝ) (rows : List GRow) : ℤ :=
  ((rows.filter fun r => r.category = category ∧ r.time = t).map fun r => r.quantity).sum

/-- Two tables of the same items: at every positive time the same number of failures and the same number of censored
items, however they are spread over the rows. -/
def SameItemsGrouped (rows rows' : List GRow) : Prop :=
  ∀ t, 0 < t → total "F" t rows = total "F" t rows' ∧ total "C" t rows = total "C" t rows'

end Reliability.Spec.FitGrouped

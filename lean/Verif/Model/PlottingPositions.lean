import Mathlib.Algebra.Order.Field.Basic
import Verif.Model.Sorting

/-!
# Model of `plotting_positions` (reliability/Probability_plotting.py:67-169)
-/

namespace Reliability.PP

open Reliability

variable {K : Type _} [Field K] [LinearOrder K]

/-- Probability_plotting.py:123-128 — the table of all items with their codes: failures (code 1 =
`true`) first, then right censored (code 0 = `false`); the row number is the dataframe index. -/
def allRows (f rc : List K) : List ((K × Bool) × Nat) :=
  (f.map (fun t => (t, true)) ++ rc.map (fun t => (t, false))).zipIdx

/-- Probability_plotting.py:141-143 and 149-152 — the rank loop, starting from the previous adjusted
rank `r`, over the remaining `reverse_i` values:
`adjusted_rank.append(adjusted_rank[-1] + (n + 1 - adjusted_rank[-1]) / (1 + reverse_i[j]))`. -/
def rankLoop (n : Nat) : K → List Nat → List K
  | _, [] => []
  | r, v :: vs =>
    let r' := r + ((n : K) + 1 - r) / (1 + (v : K))
    r' :: rankLoop n r' vs

/-- Probability_plotting.py:137-152 — the two branches: if there are censored items before the first
failure the loop starts from 0 and visits every failure (`adjusted_rank2[1:]`); otherwise it starts
from `[1]` and visits the failures after the first. (`rank_increment[0]` is never used.) -/
def adjustedRanks (n leading_cens : Nat) (reverse_i : List Nat) : List K :=
  if leading_cens > 0 then rankLoop n 0 reverse_i
  else 1 :: rankLoop n 1 reverse_i.tail

/-- Probability_plotting.py:67-169 — `plotting_positions`.
`np.where(...)[0][0]` (135) raises IndexError if there is no failure; the division at 155 is by
`n + 1 - 2a` (Python numbers, so ZeroDivisionError when it is 0).  Line 157-165 re-sorts by the
(distinct) dataframe index, which has only one possible outcome. -/
def plottingPositions (argsort : List K → List Nat) (failures : List K)
    (right_censored : Option (List K)) (a : Option K) (sort : Bool) :
    Except Err (List K × List K) :=
  let rc := right_censored.getD []
  let a' := a.getD (3 / 10)
  if a' < 0 ∨ a' > 1 then valueErr
  else
    let rows := allRows failures rc
    let n := rows.length
    let df_sorted := sortValues argsort (fun r => r.1.1) rows
    let withRev := df_sorted.zip (List.range' 1 n).reverse
    let failure_rows := withRev.filter fun r => r.1.1.2
    match df_sorted.findIdx? (fun r => r.1.2) with
    | none => .error .indexError
    | some leading_cens =>
      let ranks := adjustedRanks n leading_cens (failure_rows.map Prod.snd)
      if (n : K) + 1 - 2 * a' = 0 then .error .zeroDivision
      else
        let F := ranks.map fun i => (i - a') / ((n : K) + 1 - 2 * a')
        if sort then .ok (failure_rows.map (fun r => r.1.1.1), F)
        else
          let df2 := ((failure_rows.zip F).map fun p => (p.1.1.1.1, p.2, p.1.1.2)).insertionSort
            fun p q => p.2.2 ≤ q.2.2
          .ok (df2.map (fun p => p.1), df2.map (fun p => p.2.1))

end Reliability.PP

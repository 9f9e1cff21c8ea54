import Mathlib.Data.List.Sort
import Mathlib.Order.Basic
import Verif.Model.Basic

/-!
# `DataFrame.sort_values(by=col)` as an oracle

pandas sorts a frame by one column by computing `argsort` of that column with numpy's default
`quicksort`, which is not stable: the order of tied rows is an implementation detail.  The model
therefore takes an arbitrary function `argsort` from the key column to a list of row numbers and
the theorems assume only `IsArgsort argsort`.  Because it is a function of the key column, two
`sort_values` calls on equal columns give the same row order (as in the real code).
-/

namespace Reliability

open List

/-- Rows of a table taken in the order given by the row numbers `p`. -/
def takeRows {α : Type _} (p : List Nat) (rows : List α) : List α :=
  p.filterMap fun i => rows[i]?

/-- What is assumed of numpy's argsort: it lists every row number once, and the keys taken in that
order ascend. -/
def IsArgsort {K : Type _} [LE K] (argsort : List K → List Nat) : Prop :=
  ∀ keys : List K, argsort keys ~ List.range keys.length ∧
    (takeRows (argsort keys) keys).Pairwise (· ≤ ·)

/-- A stable argsort: moreover tied keys keep their original order. -/
def IsStableArgsort {K : Type _} [LE K] (argsort : List K → List Nat) : Prop :=
  IsArgsort argsort ∧ ∀ keys : List K,
    (argsort keys).Pairwise fun i j => keys[i]? = keys[j]? → i < j

/-- `df.sort_values(by=key)` (pandas; used at Probability_plotting.py:130, Nonparametric.py:145,
470, 801). -/
def sortValues {K α : Type _} (argsort : List K → List Nat) (key : α → K) (rows : List α) : List α :=
  takeRows (argsort (rows.map key)) rows

/-- A concrete stable argsort (used to run the model and to show `IsStableArgsort` is satisfiable). -/
def refArgsort {K : Type _} [LinearOrder K] (keys : List K) : List Nat :=
  (keys.zipIdx.insertionSort fun p q => p.1 < q.1 ∨ (p.1 = q.1 ∧ p.2 ≤ q.2)).map Prod.snd

end Reliability

import Mathlib.Algebra.Order.Field.Basic
import Mathlib.Algebra.BigOperators.Group.Finset.Basic
import Mathlib.Data.List.Sort

/-!
# Specification of the mean cumulative function (C19–C22)

A system's latest time is the end of its observation; its other times are repairs.
-/

namespace Reliability.MCF.Spec

variable {K : Type _} [Field K] [LinearOrder K]

/-- End of observation of each system. -/
def ends (systems : List (List K)) : List K := systems.filterMap fun s => s.max?

/-- All repair times. -/
def repairs (systems : List (List K)) : List K :=
  systems.flatMap fun s => match s.max? with
    | none => []
    | some m => s.erase m

/-- Number of systems still under observation at `t` (a system retiring at `t` still counts). -/
def atRisk (systems : List (List K)) (t : K) : Nat := (ends systems).countP fun e => decide (t ≤ e)

/-- All repair times in ascending order. -/
def times (systems : List (List K)) : List K := (repairs systems).insertionSort (· ≤ ·)

/-- The MCF after the `k`-th repair (from 0): sum of one over the number of systems at risk. -/
def mcf (systems : List (List K)) (k : Nat) : K :=
  (((times systems).take (k + 1)).map fun t => 1 / (atRisk systems t : K)).sum

/-- Its variance after the `k`-th repair: `∑ (1/r²)(1 - 1/r)`. -/
def variance (systems : List (List K)) (k : Nat) : K :=
  (((times systems).take (k + 1)).map fun t =>
    (1 / (atRisk systems t : K)) ^ 2 * (1 - 1 / (atRisk systems t : K))).sum

end Reliability.MCF.Spec

import Mathlib.Algebra.BigOperators.Group.Finset.Basic
import Mathlib.Algebra.Order.Field.Basic
import Mathlib.Data.Finset.Basic
import Verif.Spec.PlottingPositions

/-!
# Specification of the non-parametric estimators (C12–C18)

`S` is the data in time order as (time, failed?) pairs, rows numbered from 0.
-/

namespace Reliability.NP.Spec

variable {K : Type _} [Field K] [LinearOrder K]

/-- The user's data as (time, failed?) pairs. -/
def tagged (f rc : List K) : List (K × Bool) :=
  f.map (fun t => (t, true)) ++ rc.map (fun t => (t, false))

/-- The distinct failure times. -/
def failTimes (S : List (K × Bool)) : Finset K := ((S.filter (fun p => p.2)).map Prod.fst).toFinset

/-- Number of failures at exactly time `t`. -/
def deaths (S : List (K × Bool)) (t : K) : Nat := S.countP (fun p => p.2 && decide (p.1 = t))

/-- Number of items still under observation just before `t`. -/
def atRisk (S : List (K × Bool)) (t : K) : Nat := S.countP (fun p => decide (t ≤ p.1))

/-- The product-limit (Kaplan–Meier) estimate of survival beyond `t`. -/
def productLimit (S : List (K × Bool)) (t : K) : K :=
  ∏ s ∈ (failTimes S).filter (· ≤ t), (1 - (deaths S s : K) / (atRisk S s : K))

/-- In a time-ordered list, tied failures come before tied censorings. -/
def FailuresFirst (S : List (K × Bool)) : Prop :=
  S.Pairwise fun p q => p.1 = q.1 → q.2 = true → p.2 = true

/-- Positions of the failures among rows `0..i`. -/
def failsUpTo (S : List (K × Bool)) (i : Nat) : Finset Nat :=
  (Finset.range (i + 1)).filter (fun j => PP.Spec.isFail S j = true)

/-- Nelson–Aalen cumulative hazard after row `i`. -/
def hazardSum (S : List (K × Bool)) (i : Nat) : K :=
  ∑ j ∈ failsUpTo S i, 1 / ((S.length - j : Nat) : K)

/-- Greenwood's sum after row `i`: `∑ 1/(m(m-1))` over the failures so far, `m` the number at risk. -/
def greenwoodSum (S : List (K × Bool)) (i : Nat) : K :=
  ∑ j ∈ failsUpTo S i, 1 / (((S.length - j : Nat) : K) * (((S.length - j : Nat) : K) - 1))

/-- Rank-adjustment survival after row `i`: 1 before the first failure, then one minus the plotting
position `(rank - a)/(n + 1 - 2a)` of the latest failure. -/
def rankSF (a : K) (S : List (K × Bool)) (i : Nat) : K :=
  1 - (if failsUpTo S i = ∅ then 0 else (PP.Spec.rank S i - a) / ((S.length : K) + 1 - 2 * a))

end Reliability.NP.Spec

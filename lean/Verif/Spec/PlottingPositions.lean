import Mathlib.Algebra.Order.Field.Basic
import Mathlib.Algebra.BigOperators.Group.Finset.Basic

/-!
# Specification of the adjusted-rank plotting positions (C08–C11)

`S` is the data in time order, as (time, failed?) pairs; positions are 0-based.
-/

namespace Reliability.PP.Spec

variable {K : Type _} [Field K]

/-- Item number `i` (in time order) failed. -/
def isFail (S : List (K × Bool)) (i : Nat) : Bool := (S[i]?.map Prod.snd).getD false

/-- The positions of the failures. -/
def failPositions (S : List (K × Bool)) : List Nat := (List.range S.length).filter (isFail S)

/-- Adjusted rank of the item at position `i`: `(n+1)·(1 − ∏ m/(m+1))`, the product being over the
failures up to and including `i`, with `m` the number of items at or after that failure (the
"reverse rank").  This is the textbook (Johnson) rank-adjustment written as a product. -/
def rank (S : List (K × Bool)) (i : Nat) : K :=
  ((S.length : K) + 1) *
    (1 - ∏ j ∈ (Finset.range (i + 1)).filter (fun j => isFail S j = true),
      ((S.length - j : Nat) : K) / (((S.length - j : Nat) : K) + 1))

/-- `(rank − a)/(n + 1 − 2a)` for every failure, in time order. -/
def positions (a : K) (S : List (K × Bool)) : List K :=
  (failPositions S).map fun i => (rank S i - a) / ((S.length : K) + 1 - 2 * a)

end Reliability.PP.Spec

import Mathlib.Algebra.Order.Field.Basic
import Mathlib.Data.List.Sort
import Mathlib.Algebra.BigOperators.Group.List.Basic

/-!
# numpy primitives used by several modelled functions, in exact arithmetic

(numpy is not part of /repo; these are its documented meanings.)
-/

namespace Reliability.Np

variable {K : Type _} [Field K] [LinearOrder K]

/-- `np.linspace(a, b, n)`: `n` points, `a + i (b-a)/(n-1)`; for `n = 1` just `[a]`.
(E.g. used in /repo/reliability/Repairable_systems.py:362.) -/
def linspace (a b : K) (n : Nat) : List K :=
  (List.range n).map fun i : Nat => a + (i : K) * ((b - a) / ((n - 1 : Nat) : K))

/-- `np.sort` / `list.sort`. -/
def sort (l : List K) : List K := l.insertionSort (· ≤ ·)

/-- `np.cumsum`. -/
def cumsum : K → List K → List K
  | _, [] => []
  | s, x :: xs => (s + x) :: cumsum (s + x) xs

/-- The position and value of the first least element: `np.argmin` with the value there; `i` is the
position of the head.  (E.g. /repo/reliability/Repairable_systems.py:378-380.) -/
def argminFrom (i : Nat) (best : Nat × K) : List K → Nat × K
  | [] => best
  | x :: xs => argminFrom (i + 1) (if x < best.2 then (i, x) else best) xs

/-- `np.argmin(l)`; `none` is the ValueError on an empty array. -/
def argmin : List K → Option Nat
  | [] => none
  | x :: xs => some (argminFrom 1 (0, x) xs).1

end Reliability.Np

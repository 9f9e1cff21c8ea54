import Mathlib.Data.Real.Basic
import Mathlib.Algebra.Order.Floor.Ring
import Mathlib.Data.Rat.Floor
import Verif.Model.Utils

/-!
# What the `downsample_scatterplot` option of the plots is measured against
-/

namespace Reliability.Downsample

open Reliability.Utils

/-- Of two points, the one further to the right is not lower. -/
def Comonotone (P : List (ℝ × ℝ)) : Prop := ∀ p ∈ P, ∀ q ∈ P, p.1 < q.1 → p.2 ≤ q.2

/-- `Q` are, of the points `P` in ascending order, the first and every `s`-th after it, except that the last of `Q` is the last
point of all. -/
def EveryNth (s : ℕ) (P Q : List (ℝ × ℝ)) : Prop :=
  ∃ P' : List (ℝ × ℝ), P'.Perm P ∧ P'.Pairwise (fun p q => p.1 ≤ q.1 ∧ p.2 ≤ q.2) ∧
    Q.length = (P.length + s - 1) / s ∧ (∀ i, i + 1 < Q.length → Q[i]? = P'[i * s]?) ∧ Q.getLast? = P'.getLast?

/-- The values of the option that have a meaning: `False`, `True`, `None`, or a number of at least 1. -/
def Sensible (ds : Factor) : Prop := ∀ f, ds = .num f → 1 ≤ f

/-- What is drawn (`Q`) of the points `P`: all of them with `False`; with a factor above 1, every `⌊factor⌋`-th, unless that
leaves fewer than two; otherwise (`True`, `None` or 1) between 500 and 1000 of them if there are 1000 or more. -/
structure Thins (ds : Factor) (P Q : List (ℝ × ℝ)) : Prop where
  off : ds = .bool false → Q = P
  few : ds ∈ [Factor.none, .bool true, .num 1] → P.length < 1000 → Q = P
  many : ds ∈ [Factor.none, .bool true, .num 1] → 1000 ≤ P.length →
    ∃ s, 2 ≤ s ∧ EveryNth s P Q ∧ 500 ≤ Q.length ∧ Q.length ≤ 1000
  large : ∀ f, ds = .num f → 1 < f → (P.length : ℚ) < 2 * f → Q = P
  factor : ∀ f, ds = .num f → 1 < f → 2 * f ≤ (P.length : ℚ) → EveryNth ⌊f⌋.toNat P Q

end Reliability.Downsample

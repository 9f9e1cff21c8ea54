import Mathlib.Data.List.OfFn
import Verif.Model.FitGlue
import Verif.Spec.Likelihood

/-!
# What may be assumed of scipy's `minimize`

The optimizer is an arbitrary function of the objective, the bounds, its name and the starting point.  Some properties need one
of these assumptions about it.
-/

namespace Reliability.Spec

open Reliability.Fitters (Bound OptResult)
open Reliability.FitGlue (Minimizer)

/-- A parameter vector as the list of its numbers. -/
class Coords (P : Type) where
  coords : P → List ℝ

instance : Coords ℝ := ⟨fun x => [x]⟩
instance : Coords (ℝ × ℝ) := ⟨fun x => [x.1, x.2]⟩
instance : Coords (ℝ × ℝ × ℝ) := ⟨fun x => [x.1, x.2.1, x.2.2]⟩
instance {k : ℕ} : Coords (Fin k → ℝ) := ⟨List.ofFn⟩

/-- Every number of `x` is between its bounds. -/
def Obeys {P : Type} [Coords P] (x : P) (b : List (Bound ℝ)) : Prop :=
  ∀ (i : ℕ) c lo hi, (Coords.coords x)[i]? = some c → b[i]? = some (lo, hi) →
    (∀ l, lo = some l → l ≤ c) ∧ ∀ u, hi = some u → c ≤ u

/-- Every number of `x` is strictly between its bounds. -/
def Inside {P : Type} [Coords P] (x : P) (b : List (Bound ℝ)) : Prop :=
  ∀ (i : ℕ) c lo hi, (Coords.coords x)[i]? = some c → b[i]? = some (lo, hi) →
    (∀ l, lo = some l → l < c) ∧ ∀ u, hi = some u → c < u

/-- The optimizer answers within the bounds, if anything is within them. -/
def Respects {P : Type} [Coords P] (m : Minimizer P) : Prop :=
  ∀ ob b n p, (∃ y : P, Obeys y b) → Obeys (m ob b n p).x b

/-- The optimizer is exact: when it reports success, the objective is nowhere inside the bounds lower than at its answer. -/
def Exact {P : Type} [Coords P] (m : Minimizer P) : Prop :=
  ∀ ob b n p, (m ob b n p).success = true → ∀ y : P, Inside y b → ob (m ob b n p).x ≤ ob y

/-- The likelihood of the data under a distribution object. -/
noncomputable def likelihoodOf (d : Distributions.Dist) (F C : List ℝ) : ℝ := likelihood d.sp.pdf d.sp.sf F C

end Reliability.Spec

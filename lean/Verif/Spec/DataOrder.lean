import Verif.Model.FitGlue
import Verif.Model.Sorting
import Verif.Spec.NonparametricOrder

/-! # Specification for C176: the same data in another order -/

namespace Reliability.Spec

open Reliability InputCheck List

/-- The same argument, or a list with the same items (as often) in another order. -/
inductive SameItems : DataArg ℝ → DataArg ℝ → Prop
  | same (d : DataArg ℝ) : SameItems d d
  | reordered {l l' : List ℝ} (h : l ~ l') : SameItems (.array l) (.array l')

/-- The times in an argument. -/
def timesIn : DataArg ℝ → List ℝ
  | .array l => l
  | _ => []

/-- Two calls of a fitter that differ at most in the order of the items of `failures` and of `right_censored`. -/
structure SameCall (x x' : FitGlue.Args) : Prop where
  failures : SameItems x.failures x'.failures
  right_censored : SameItems x.right_censored x'.right_censored
  rest : x' = { x with failures := x'.failures, right_censored := x'.right_censored }

/-- The two orders of sorting leave no freedom: either both are stable, or no item is censored at the very time at which
another fails (then any correct sorting will do). -/
def NoChoice (argsort argsort' : List ℝ → List ℕ) (failures right_censored : List ℝ) : Prop :=
  (IsStableArgsort argsort ∧ IsStableArgsort argsort') ∨
    (IsArgsort argsort ∧ IsArgsort argsort' ∧ NoSharedTime failures right_censored)

/-- The answers of scipy depend on which data there are, not on their order. -/
def DataOnly (num2 : List ℝ → List ℝ → Option ℝ → FitGlue.Num2) : Prop :=
  ∀ f f' c c' : List ℝ, f ~ f' → c ~ c' → num2 f c = num2 f' c'

end Reliability.Spec

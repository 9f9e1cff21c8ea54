import Verif.Model.Nonparametric

/-! # Specification for C172: the same estimate at changed times -/

namespace Reliability.Spec

open Reliability

/-- The results of an estimator with every time `t` replaced by `g t` and nothing else changed: same censoring codes, same
estimate and bounds, same `SF` and `CDF` with their bounds, in the same order. -/
def atTimes {K : Type _} (g : K → K) (r : NP.Result K) : NP.Result K :=
  { r with data := r.data.map g, xvals := r.xvals.map g }

/-- No item is censored at the very time at which another one fails. -/
def NoSharedTime {K : Type _} (failures right_censored : List K) : Prop :=
  ∀ t ∈ failures, t ∉ right_censored

end Reliability.Spec

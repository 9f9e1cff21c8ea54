import Verif.Spec.FunctionCI
import Verif.Model.CIPlot

/-!
# Specification for the confidence bands on plots of CDF, SF, CHF (uses the model only for its data types)
-/

namespace Reliability.Spec

open Reliability.CIPlot

/-- `v'` is `v` with everything after its first smallest (`up`: largest) value replaced by this value, if there are more than two. -/
def Held (up : Bool) (v v' : List ℝ) : Prop :=
  (v.length ≤ 2 ∧ v' = v) ∨
  (2 < v.length ∧ ∃ i m, v[i]? = some m ∧ (∀ w ∈ v, if up = true then w ≤ m else m ≤ w) ∧
    (∀ (j : ℕ) w, j < i → v[j]? = some w → w ≠ m) ∧ v' = v.take i ++ List.replicate (v.length - i) m)

/-- The band has the two edges `A` and `B`, in either order. -/
def EdgesOf (b : Band) (A B : List (ℝ × ℝ)) : Prop := (b.lower = A ∧ b.upper = B) ∨ (b.lower = B ∧ b.upper = A)

/-- The filled polygon runs along one edge and back along the other. -/
def FilledBetween (b : Band) : Prop := b.polygon = b.lower ++ b.upper.reverse

/-- The first time of the band on reliability: the 1e-5 quantile; for Gamma the 1e-7 quantile, or 1e-4 without threshold. -/
noncomputable def firstTime (d : FunctionCI.Two) : ℝ :=
  if d.fam = .gamma then
    if d.gamma = 0 then 1 / 10 ^ 4 else (FunctionCI.Fitted.two d).dist.sp.ppf (1 / 10 ^ 7)
  else (FunctionCI.Fitted.two d).dist.sp.ppf (1 / 10 ^ 5)

end Reliability.Spec

import Verif.Model.Testing
import Verif.Model.ChiTest
import Verif.Model.Distributions

/-! # Specification for C174: test plans, goodness of fit and interference in other units -/

namespace Reliability.Spec

open Reliability

/-- `k` times a number that may be infinite or nan. -/
noncomputable def scaleE (k : ℝ) : Ext ℝ → Ext ℝ
  | .fin x => .fin (k * x)
  | x => x

/-- A test plan with its times in a unit of which there are `k` in the old one; number of failures and CI unchanged. -/
noncomputable def planInUnits (k : ℝ) (p : Testing.Plan) : Testing.Plan :=
  ⟨scaleE k p.test_duration, scaleE k p.MTBF, p.number_of_failures, p.CI⟩

/-- `d'` is the distribution of `k X` if `d` is that of `X`. -/
structure Rescaled (k : ℝ) (d d' : Distributions.Dist) : Prop where
  fam : d'.fam = d.fam
  ppf : ∀ p, d'.sp.ppf p = k * d.sp.ppf p
  cdf : ∀ x, d'.sp.cdf (k * x) = d.sp.cdf x
  sf : ∀ x, d'.sp.sf (k * x) = d.sp.sf x
  pdf : ∀ x, d'.sp.pdf (k * x) = d.sp.pdf x / k

/-- Bin edges in a unit of which there are `k` in the old one; the name of a method stays. -/
noncomputable def binsInUnits (k : ℝ) : ChiTest.Bins → ChiTest.Bins
  | .edges e => .edges (e.map (k * ·))
  | b => b

/-- `d'` is the distribution of `k X` if `d` is that of `X`, as `chi2test` sees them: the same type, CDF and number of parameters,
and a location that is zero in both units or in neither. Beta distributions have no unit. -/
structure RescaledTest (k : ℝ) (d d' : ChiTest.Dist) : Prop where
  type : d'.normalOrGumbel = d.normalOrGumbel
  support : d'.support = d.support
  notBeta : d.support ≠ .unit
  cdf : ∀ x, d'.F (k * x) = d.F x
  params : (∃ n, d.params = .special n ∧ d'.params = .special n) ∨
    ∃ p p', d.params = .standard p ∧ d'.params = .standard p' ∧ p'.length = p.length ∧ (p'.getLast? = some 0 ↔ p.getLast? = some 0)

end Reliability.Spec

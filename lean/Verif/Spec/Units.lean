import Verif.Model.Likelihood

/-! # Specification of a change of the unit of time in maximum likelihood fitting (C89) -/

namespace Reliability.Spec

open Reliability.Likelihood

/-- One fitter: its parameters, the function of the parameters, failures and right censored times that it minimises (minus
the log-likelihood), the legal parameters for these data, and the parameters that describe the same distribution when times
are multiplied by `k`. -/
structure LLFamily where
  P : Type
  LL : P → List ℝ → List ℝ → ℝ
  legal : P → List ℝ → List ℝ → Prop
  rescale : ℝ → P → P

/-- All times are above the threshold `g`. -/
def Above (g : ℝ) (Tf Trc : List ℝ) : Prop := (∀ t ∈ Tf, g < t) ∧ ∀ t ∈ Trc, g < t

/-- The fitters (except Fit_Beta_2P, whose data lie between 0 and 1); `T0` are the failures at time 0 of the fitters for
defective subpopulation and zero inflated data. -/
noncomputable def llFamilies (T0 : List ℝ) : List LLFamily := [
  { P := ℝ × ℝ, LL := fun p => weibull2P_LL p.1 p.2,
    legal := fun p Tf Trc => 0 < p.1 ∧ 0 < p.2 ∧ Above 0 Tf Trc, rescale := fun k p => (k * p.1, p.2) },
  { P := ℝ × ℝ × ℝ, LL := fun p => weibull3P_LL p.1 p.2.1 p.2.2,
    legal := fun p Tf Trc => 0 < p.1 ∧ 0 < p.2.1 ∧ Above p.2.2 Tf Trc, rescale := fun k p => (k * p.1, p.2.1, k * p.2.2) },
  { P := (ℝ × ℝ) × (ℝ × ℝ) × ℝ, LL := fun p => mixture_LL p.1.1 p.1.2 p.2.1.1 p.2.1.2 p.2.2,
    legal := fun p Tf Trc => 0 < p.1.1 ∧ 0 < p.1.2 ∧ 0 < p.2.1.1 ∧ 0 < p.2.1.2 ∧ 0 ≤ p.2.2 ∧ p.2.2 ≤ 1 ∧ Above 0 Tf Trc,
    rescale := fun k p => ((k * p.1.1, p.1.2), (k * p.2.1.1, p.2.1.2), p.2.2) },
  { P := (ℝ × ℝ) × (ℝ × ℝ), LL := fun p => CR_LL p.1.1 p.1.2 p.2.1 p.2.2,
    legal := fun p Tf Trc => 0 < p.1.1 ∧ 0 < p.1.2 ∧ 0 < p.2.1 ∧ 0 < p.2.2 ∧ Above 0 Tf Trc,
    rescale := fun k p => ((k * p.1.1, p.1.2), (k * p.2.1, p.2.2)) },
  { P := ℝ × ℝ × ℝ × ℝ, LL := fun p => DSZI_LL p.1 p.2.1 p.2.2.1 p.2.2.2 T0,
    legal := fun p Tf Trc => 0 < p.1 ∧ 0 < p.2.1 ∧ 0 ≤ p.2.2.2 ∧ p.2.2.2 < p.2.2.1 ∧ p.2.2.1 ≤ 1 ∧ Above 0 Tf Trc,
    rescale := fun k p => (k * p.1, p.2) },
  { P := ℝ × ℝ × ℝ, LL := fun p => DS_LL p.1 p.2.1 p.2.2,
    legal := fun p Tf Trc => 0 < p.1 ∧ 0 < p.2.1 ∧ 0 < p.2.2 ∧ p.2.2 ≤ 1 ∧ Above 0 Tf Trc,
    rescale := fun k p => (k * p.1, p.2) },
  { P := ℝ × ℝ × ℝ, LL := fun p => ZI_LL p.1 p.2.1 p.2.2 T0,
    legal := fun p Tf Trc => 0 < p.1 ∧ 0 < p.2.1 ∧ 0 ≤ p.2.2 ∧ p.2.2 < 1 ∧ Above 0 Tf Trc,
    rescale := fun k p => (k * p.1, p.2) },
  { P := ℝ, LL := fun L => exponential1P_LL L,
    legal := fun L Tf Trc => 0 < L ∧ Above 0 Tf Trc, rescale := fun k L => L / k },
  { P := ℝ × ℝ, LL := fun p => exponential2P_LL p.1 p.2,
    legal := fun p Tf Trc => 0 < p.1 ∧ Above p.2 Tf Trc, rescale := fun k p => (p.1 / k, k * p.2) },
  { P := ℝ × ℝ, LL := fun p => normal2P_LL p.1 p.2,
    legal := fun p _ _ => 0 < p.2, rescale := fun k p => (k * p.1, k * p.2) },
  { P := ℝ × ℝ, LL := fun p => gumbel2P_LL p.1 p.2,
    legal := fun p _ _ => 0 < p.2, rescale := fun k p => (k * p.1, k * p.2) },
  { P := ℝ × ℝ, LL := fun p => lognormal_LL p.1 p.2 0,
    legal := fun p Tf Trc => 0 < p.2 ∧ Above 0 Tf Trc, rescale := fun k p => (p.1 + Real.log k, p.2) },
  { P := ℝ × ℝ × ℝ, LL := fun p => lognormal_LL p.1 p.2.1 p.2.2,
    legal := fun p Tf Trc => 0 < p.2.1 ∧ Above p.2.2 Tf Trc, rescale := fun k p => (p.1 + Real.log k, p.2.1, k * p.2.2) },
  { P := ℝ × ℝ, LL := fun p => gamma_LL_ab p.1 p.2 0,
    legal := fun p Tf Trc => 0 < p.1 ∧ 0 < p.2 ∧ Above 0 Tf Trc, rescale := fun k p => (k * p.1, p.2) },
  { P := ℝ × ℝ × ℝ, LL := fun p => gamma_LL_ab p.1 p.2.1 p.2.2,
    legal := fun p Tf Trc => 0 < p.1 ∧ 0 < p.2.1 ∧ Above p.2.2 Tf Trc, rescale := fun k p => (k * p.1, p.2.1, k * p.2.2) },
  { P := ℝ × ℝ, LL := fun p => loglogistic_LL p.1 p.2 0,
    legal := fun p Tf Trc => 0 < p.1 ∧ 0 < p.2 ∧ Above 0 Tf Trc, rescale := fun k p => (k * p.1, p.2) },
  { P := ℝ × ℝ × ℝ, LL := fun p => loglogistic_LL p.1 p.2.1 p.2.2,
    legal := fun p Tf Trc => 0 < p.1 ∧ 0 < p.2.1 ∧ Above p.2.2 Tf Trc, rescale := fun k p => (k * p.1, p.2.1, k * p.2.2) }]

/-- `p` is a maximum likelihood estimate. -/
def IsMLE (F : LLFamily) (p : F.P) (Tf Trc : List ℝ) : Prop :=
  F.legal p Tf Trc ∧ ∀ q, F.legal q Tf Trc → F.LL p Tf Trc ≤ F.LL q Tf Trc

end Reliability.Spec

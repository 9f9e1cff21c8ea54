import Mathlib.MeasureTheory.Integral.IntervalIntegral.Basic
import Mathlib.Analysis.SpecialFunctions.Gamma.Basic
import Mathlib.Analysis.SpecialFunctions.Pow.Real
import Mathlib.Algebra.BigOperators.Group.List.Basic

/-!
# Model of the log-likelihood functions in Fitters.py

Exact real arithmetic.  `anp.log` of a non-positive number (nan or -inf in the code) is outside the theorems'
hypotheses.
-/

namespace Reliability.Likelihood

open MeasureTheory

/-! ## The special functions imported from scipy / autograd (Fitters.py:34-90) by their defining integrals -/

/-- `erf` (autograd.scipy.special). -/
noncomputable def erf (z : ℝ) : ℝ := 2 / Real.sqrt Real.pi * ∫ t in (0:ℝ)..z, Real.exp (-(t ^ 2))

/-- `gammaincc` (autograd_gamma): the regularised upper incomplete gamma function. -/
noncomputable def gammaincc (b x : ℝ) : ℝ := (∫ t in Set.Ioi x, t ^ (b - 1) * Real.exp (-t)) / Real.Gamma b

/-- `beta` (autograd.scipy.special). -/
noncomputable def abeta (a b : ℝ) : ℝ := Real.Gamma a * Real.Gamma b / Real.Gamma (a + b)

/-- `betainc` (autograd_gamma): the regularised incomplete beta function. -/
noncomputable def betainc (a b x : ℝ) : ℝ :=
  (∫ t in (0:ℝ)..x, t ^ (a - 1) * (1 - t) ^ (b - 1)) / abeta a b

/-! ## The common shape of `LL` -/

/-- `-(LL_f + LL_rc)` with `LL_f = logf(T_f).sum()`, `LL_rc = logR(T_rc).sum()` (e.g. Fitters.py:2353-2357; the
same lines in every class). -/
noncomputable def LL (logf logR : ℝ → ℝ) (Tf Trc : List ℝ) : ℝ := -((Tf.map logf).sum + (Trc.map logR).sum)

/-- `loglik = (2 * LL) * -0.5` (Fitters.py:2268-2273 and the same lines in every class). -/
noncomputable def loglik (LL : ℝ) : ℝ := 2 * LL * (-0.5)

/-! ## Weibull -/

/-- Fitters.py:2345-2346, 3016-3017. -/
noncomputable def weibull2P_logf (a b t : ℝ) : ℝ := (b - 1) * Real.log (t / a) + Real.log (b / a) - (t / a) ^ b

/-- Fitters.py:2349-2350, 3020-3021. -/
noncomputable def weibull2P_logR (a b t : ℝ) : ℝ := -((t / a) ^ b)

/-- Fitters.py:2353-2357 (and 2360-2364 with `b = force_beta`). -/
noncomputable def weibull2P_LL (a b : ℝ) (Tf Trc : List ℝ) : ℝ :=
  LL (weibull2P_logf a b) (weibull2P_logR a b) Tf Trc

/-- Fitters.py:3024-3028 (and 3031-3035 with `b = force_beta`): times with quantities. -/
noncomputable def weibull2P_grouped_LL (a b : ℝ) (F C : List (ℝ × ℕ)) : ℝ :=
  -((F.map fun tq => weibull2P_logf a b tq.1 * (tq.2 : ℝ)).sum + (C.map fun tq => weibull2P_logR a b tq.1 * (tq.2 : ℝ)).sum)

/-- Fitters.py:3464-3465. -/
noncomputable def weibull3P_logf (a b g t : ℝ) : ℝ :=
  (b - 1) * Real.log ((t - g) / a) + Real.log (b / a) - ((t - g) / a) ^ b

/-- Fitters.py:3468-3469. -/
noncomputable def weibull3P_logR (a b g t : ℝ) : ℝ := -(((t - g) / a) ^ b)

/-- Fitters.py:3472-3476. -/
noncomputable def weibull3P_LL (a b g : ℝ) (Tf Trc : List ℝ) : ℝ :=
  LL (weibull3P_logf a b g) (weibull3P_logR a b g) Tf Trc

/-- Fitters.py:3974-3978. -/
noncomputable def mixture_logf (a1 b1 a2 b2 p t : ℝ) : ℝ :=
  Real.log (p * ((b1 * t ^ (b1 - 1)) / (a1 ^ b1)) * Real.exp (-((t / a1) ^ b1)) +
    (1 - p) * ((b2 * t ^ (b2 - 1)) / (a2 ^ b2)) * Real.exp (-((t / a2) ^ b2)))

/-- Fitters.py:3981-3984. -/
noncomputable def mixture_logR (a1 b1 a2 b2 p t : ℝ) : ℝ :=
  Real.log (p * Real.exp (-((t / a1) ^ b1)) + (1 - p) * Real.exp (-((t / a2) ^ b2)))

/-- Fitters.py:3987-3995. -/
noncomputable def mixture_LL (a1 b1 a2 b2 p : ℝ) (Tf Trc : List ℝ) : ℝ :=
  LL (mixture_logf a1 b1 a2 b2 p) (mixture_logR a1 b1 a2 b2 p) Tf Trc

/-- Fitters.py:4419-4423. -/
noncomputable def CR_logf (a1 b1 a2 b2 t : ℝ) : ℝ :=
  Real.log (-(-(b2 * (t / a2) ^ b2) / t - (b1 * (t / a1) ^ b1) / t) *
    Real.exp (-((t / a2) ^ b2) - (t / a1) ^ b1))

/-- Fitters.py:4426-4427. -/
noncomputable def CR_logR (a1 b1 a2 b2 t : ℝ) : ℝ := -((t / a1) ^ b1) - ((t / a2) ^ b2)

/-- Fitters.py:4430-4438. -/
noncomputable def CR_LL (a1 b1 a2 b2 : ℝ) (Tf Trc : List ℝ) : ℝ :=
  LL (CR_logf a1 b1 a2 b2) (CR_logR a1 b1 a2 b2) Tf Trc

/-- Fitters.py:4804-4807. -/
noncomputable def DSZI_logf (a b ds zi t : ℝ) : ℝ :=
  (b - 1) * Real.log (t / a) + Real.log (b / a) - (t / a) ^ b + Real.log (ds - zi)

/-- Fitters.py:4810-4811. -/
noncomputable def DSZI_logR (a b ds zi t : ℝ) : ℝ :=
  Real.log (1 - ((1 - Real.exp (-((t / a) ^ b))) * (ds - zi) + zi))

/-- Fitters.py:4814-4826. -/
noncomputable def DSZI_LL (a b ds zi : ℝ) (T0 Tf Trc : List ℝ) : ℝ :=
  -((if zi > 0 then Real.log zi * (T0.length : ℝ) else 0) + (Tf.map (DSZI_logf a b ds zi)).sum +
    (Trc.map (DSZI_logR a b ds zi)).sum)

/-- Fitters.py:5130-5131. -/
noncomputable def DS_logf (a b ds t : ℝ) : ℝ :=
  (b - 1) * Real.log (t / a) + Real.log (b / a) - (t / a) ^ b + Real.log ds

/-- Fitters.py:5134-5135. -/
noncomputable def DS_logR (a b ds t : ℝ) : ℝ := Real.log (1 - ((1 - Real.exp (-((t / a) ^ b))) * ds))

/-- Fitters.py:5138-5142. -/
noncomputable def DS_LL (a b ds : ℝ) (Tf Trc : List ℝ) : ℝ := LL (DS_logf a b ds) (DS_logR a b ds) Tf Trc

/-- Fitters.py:5468-5471. -/
noncomputable def ZI_logf (a b zi t : ℝ) : ℝ :=
  (b - 1) * Real.log (t / a) + Real.log (b / a) - (t / a) ^ b + Real.log (1 - zi)

/-- Fitters.py:5474-5475. -/
noncomputable def ZI_logR (a b zi t : ℝ) : ℝ :=
  Real.log (1 - ((1 - Real.exp (-((t / a) ^ b))) * (1 - zi) + zi))

/-- Fitters.py:5478-5486. -/
noncomputable def ZI_LL (a b zi : ℝ) (T0 Tf Trc : List ℝ) : ℝ :=
  -((if zi > 0 then Real.log zi * (T0.length : ℝ) else 0) + (Tf.map (ZI_logf a b zi)).sum +
    (Trc.map (ZI_logR a b zi)).sum)

/-! ## Exponential -/

/-- Fitters.py:5830-5831. -/
noncomputable def exponential1P_logf (L t : ℝ) : ℝ := Real.log L - L * t

/-- Fitters.py:5834-5835. -/
def exponential1P_logR (L t : ℝ) : ℝ := -(L * t)

/-- Fitters.py:5838-5842. -/
noncomputable def exponential1P_LL (L : ℝ) (Tf Trc : List ℝ) : ℝ :=
  LL (exponential1P_logf L) (exponential1P_logR L) Tf Trc

/-- Fitters.py:6222-6223. -/
noncomputable def exponential2P_logf (L g t : ℝ) : ℝ := Real.log L - L * (t - g)

/-- Fitters.py:6226-6227. -/
def exponential2P_logR (L g t : ℝ) : ℝ := -(L * (t - g))

/-- Fitters.py:6230-6234. -/
noncomputable def exponential2P_LL (L g : ℝ) (Tf Trc : List ℝ) : ℝ :=
  LL (exponential2P_logf L g) (exponential2P_logR L g) Tf Trc

/-- Fitters.py:6238-6242 — the inverted form optimised when Lambda < 1. -/
noncomputable def exponential2P_LL_inv (p g : ℝ) (Tf Trc : List ℝ) : ℝ :=
  LL (exponential2P_logf (1 / p) g) (exponential2P_logR (1 / p) g) Tf Trc

/-! ## Normal, Gumbel, Lognormal -/

/-- Fitters.py:6656-6659. -/
noncomputable def normal2P_logf (mu sigma t : ℝ) : ℝ :=
  Real.log (Real.exp (-0.5 * (((t - mu) / sigma) ^ 2))) - Real.log (sigma * Real.sqrt (2 * Real.pi))

/-- Fitters.py:6662-6663. -/
noncomputable def normal2P_logR (mu sigma t : ℝ) : ℝ := Real.log ((1 + erf (((mu - t) / sigma) / Real.sqrt 2)) / 2)

/-- Fitters.py:6666-6669 (and 6672-6676 with `sigma = force_sigma`). -/
noncomputable def normal2P_LL (mu sigma : ℝ) (Tf Trc : List ℝ) : ℝ :=
  LL (normal2P_logf mu sigma) (normal2P_logR mu sigma) Tf Trc

/-- Fitters.py:7032-7033. -/
noncomputable def gumbel2P_logf (mu sigma t : ℝ) : ℝ :=
  -Real.log sigma + (t - mu) / sigma - Real.exp ((t - mu) / sigma)

/-- Fitters.py:7036-7037. -/
noncomputable def gumbel2P_logR (mu sigma t : ℝ) : ℝ := -Real.exp ((t - mu) / sigma)

/-- Fitters.py:7040-7044. -/
noncomputable def gumbel2P_LL (mu sigma : ℝ) (Tf Trc : List ℝ) : ℝ :=
  LL (gumbel2P_logf mu sigma) (gumbel2P_logR mu sigma) Tf Trc

/-- Fitters.py:7451-7455 (`g = 0`), 7904-7908. -/
noncomputable def lognormal_logf (mu sigma g t : ℝ) : ℝ :=
  Real.log (Real.exp (-0.5 * (((Real.log (t - g) - mu) / sigma) ^ 2)) /
    ((t - g) * sigma * Real.sqrt (2 * Real.pi)))

/-- Fitters.py:7458-7459 (`g = 0`), 7911-7912. -/
noncomputable def lognormal_logR (mu sigma g t : ℝ) : ℝ :=
  Real.log (0.5 - 0.5 * erf ((Real.log (t - g) - mu) / (sigma * Real.sqrt 2)))

/-- Fitters.py:7462-7473 (`g = 0`), 7915-7919. -/
noncomputable def lognormal_LL (mu sigma g : ℝ) (Tf Trc : List ℝ) : ℝ :=
  LL (lognormal_logf mu sigma g) (lognormal_logR mu sigma g) Tf Trc

/-! ## Gamma -/

/-- Fitters.py:8309-8310 (`g = 0`), 8818-8821. -/
noncomputable def gamma_logf_ab (a b g t : ℝ) : ℝ :=
  Real.log ((t - g) ^ (b - 1)) - Real.log (a ^ b * Real.Gamma b) - (t - g) / a

/-- Fitters.py:8313-8314 (`g = 0`), 8824-8825. -/
noncomputable def gamma_logR_ab (a b g t : ℝ) : ℝ := Real.log (gammaincc b ((t - g) / a))

/-- Fitters.py:8317-8321, 8828-8832. -/
noncomputable def gamma_LL_ab (a b g : ℝ) (Tf Trc : List ℝ) : ℝ :=
  LL (gamma_logf_ab a b g) (gamma_logR_ab a b g) Tf Trc

/-- Fitters.py:8324-8329 (`g = 0`), 8835-8840. -/
noncomputable def gamma_logf_mb (m b g t : ℝ) : ℝ :=
  Real.log ((t - g) ^ (b - 1)) - Real.log (Real.exp m ^ b * Real.Gamma b) - (t - g) / Real.exp m

/-- Fitters.py:8332-8333 (`g = 0`), 8843-8844. -/
noncomputable def gamma_logR_mb (m b g t : ℝ) : ℝ := Real.log (gammaincc b ((t - g) / Real.exp m))

/-- Fitters.py:8336-8340, 8847-8851. -/
noncomputable def gamma_LL_mb (m b g : ℝ) (Tf Trc : List ℝ) : ℝ :=
  LL (gamma_logf_mb m b g) (gamma_logR_mb m b g) Tf Trc

/-! ## Beta -/

/-- Fitters.py:9176-9177. -/
noncomputable def beta2P_logf (a b t : ℝ) : ℝ :=
  Real.log (t ^ (a - 1) * (1 - t) ^ (b - 1)) - Real.log (abeta a b)

/-- Fitters.py:9180-9181. -/
noncomputable def beta2P_logR (a b t : ℝ) : ℝ := Real.log (1 - betainc a b t)

/-- Fitters.py:9184-9188. -/
noncomputable def beta2P_LL (a b : ℝ) (Tf Trc : List ℝ) : ℝ := LL (beta2P_logf a b) (beta2P_logR a b) Tf Trc

/-! ## Loglogistic -/

/-- Fitters.py:9538-9541 (`g = 0`), 9980-9985. -/
noncomputable def loglogistic_logf (a b g t : ℝ) : ℝ :=
  Real.log (b / a) - (b + 1) * Real.log ((t - g) / a) - 2 * Real.log (1 + ((t - g) / a) ^ (-b))

/-- Fitters.py:9544-9545 (`g = 0`), 9988-9989. -/
noncomputable def loglogistic_logR (a b g t : ℝ) : ℝ := -Real.log (1 + ((t - g) / a) ^ b)

/-- Fitters.py:9548-9552, 9992-9996. -/
noncomputable def loglogistic_LL (a b g : ℝ) (Tf Trc : List ℝ) : ℝ :=
  LL (loglogistic_logf a b g) (loglogistic_logR a b g) Tf Trc

/-! ## Goodness of fit and parameter confidence intervals -/

/-- `AICc` and `BIC` (Fitters.py:2265-2278 and the same lines in every class); `none` is the string
"Insufficient data". -/
noncomputable def AICc (n k : ℕ) (LL2 : ℝ) : Option ℝ :=
  if (n : ℤ) - k - 1 > 0 then
    some (2 * (k : ℝ) + LL2 + (2 * (k : ℝ) ^ 2 + 2 * (k : ℝ)) / ((n : ℝ) - (k : ℝ) - 1))
  else none

/-- Fitters.py:2278. -/
noncomputable def BIC (n k : ℕ) (LL2 : ℝ) : ℝ := Real.log (n : ℝ) * (k : ℝ) + LL2

/-- The number of parameters `k` per fitter (Fitters.py:2266-2271, 3376, 3776, 4255, 4701, 5048, 5371, 5754, 6146,
6575-6580, 6957, 7370-7376, 7816, 8234, 8730, 9103, 9463, 9892): the number of free parameters. -/
def kForced (k : ℕ) (forced : Bool) : ℕ := if forced then k - 1 else k

/-- Positive parameters: `x * exp(± Z * (SE / x))` (Fitters.py:2144-2151 and the same formula elsewhere). -/
noncomputable def ciPositive (x SE Z : ℝ) : ℝ × ℝ := (x * Real.exp (-Z * (SE / x)), x * Real.exp (Z * (SE / x)))

/-- Location parameters: `x ± Z * SE` (Fitters.py:6453-6456, 6877-6880, 7253-7254, 7722-7725). -/
def ciReal (x SE Z : ℝ) : ℝ × ℝ := (x + -Z * SE, x + Z * SE)

/-- Proportions (Fitters.py:3831-3854, 4645-4664). -/
noncomputable def ciProportion (x SE Z : ℝ) : ℝ × ℝ :=
  (x / (x + (1 - x) * Real.exp (Z * SE / (x * (1 - x)))), x / (x + (1 - x) * Real.exp (-Z * SE / (x * (1 - x)))))

end Reliability.Likelihood

import Mathlib.Analysis.SpecialFunctions.Log.Basic
import Mathlib.Analysis.SpecialFunctions.Pow.Real
import Verif.Model.Likelihood
import Verif.Model.Distributions

/-!
# The 24 ALT fitters of reliability/ALT_fitters.py: likelihoods, life functions, reported results

Generated by tools/gen_alt.py, which checks that each formula is literally the one in the class's source text.
Exact real arithmetic; `x ** 0.5` of a constant is `Real.sqrt`.  The optimiser's answer (the estimates) and the
standard errors (square roots of the diagonal of the inverse Hessian; `none` when the Hessian is singular) are
arguments.  Not modelled here: initial guesses, printing, plots, the "original" columns of the change-of-parameters
table, `mean_life` (an attribute of the distribution).
-/

namespace Reliability.ALT

open Likelihood Distributions

/-- The results the fitters report. -/
structure Fit where
  loglik : ℝ
  AICc : Option ℝ
  BIC : ℝ
  bounds : List (ℝ × ℝ)
  useDist : Option Dist
  newScale : List ℝ
  AF : List ℝ

/-- The sum of a function of a time and its stress over two arrays of the same length (`.sum()` of a vectorised call;
the lengths are equal by ALT_fitters_input_checking). -/
def sum1 (g : ℝ → ℝ → ℝ) (t T : List ℝ) : ℝ := (List.zipWith g t T).sum

/-- The same for two stresses. -/
def sum2 (g : ℝ → ℝ → ℝ → ℝ) (t S1 S2 : List ℝ) : ℝ :=
  (List.zipWith (fun t (S : ℝ × ℝ) => g t S.1 S.2) t (S1.zip S2)).sum

/-- The bounds of a list of estimates: `x ± Z·SE` for a real parameter, `x·exp(±Z·SE/x)` for a positive one (flag
`true`); the estimate itself when the Hessian could not be inverted.  E.g. ALT_fitters.py:3004-3041. -/
noncomputable def ciBounds (positive : List Bool) (x : List ℝ) (SE : Option (List ℝ)) (Z : ℝ) : List (ℝ × ℝ) :=
  match SE with
  | none => x.map fun v => (v, v)
  | some se => (positive.zip (x.zip se)).map fun p => if p.1 then ciPositive p.2.1 p.2.2 Z else ciReal p.2.1 p.2.2 Z

/-! ## Fit_Weibull_Exponential -/

/-- ALT_fitters.py:3223-3227. -/
noncomputable def Weibull_Exponential.logf (t T a b beta : ℝ) : ℝ :=
  let life := b * Real.exp (a / T);
  (beta - 1) * Real.log (t / life) + Real.log (beta / life) - (t / life) ^ beta

/-- ALT_fitters.py:3230-3232. -/
noncomputable def Weibull_Exponential.logR (t T a b beta : ℝ) : ℝ :=
  let life := b * Real.exp (a / T);
  -((t / life) ^ beta)

/-- ALT_fitters.py:3235-3244. -/
noncomputable def Weibull_Exponential.LL (params t_f t_rc T_f T_rc : List ℝ) : ℝ :=
  -(sum1 (fun t T => Weibull_Exponential.logf t T (params.getD 0 0) (params.getD 1 0) (params.getD 2 0)) t_f T_f +
    sum1 (fun t T => Weibull_Exponential.logR t T (params.getD 0 0) (params.getD 1 0) (params.getD 2 0)) t_rc T_rc)

/-- ALT_fitters.py:3080-3081. -/
noncomputable def Weibull_Exponential.life_func (a b S1 : ℝ) : ℝ := b * Real.exp (a / S1)

/-- ALT_fitters.py:2995-3120: bounds, goodness of fit, use-level distribution, change of parameters. -/
noncomputable def Weibull_Exponential.fit (a b beta : ℝ) (SE : Option (List ℝ)) (Z : ℝ)
    (failures right_censored failure_stress right_censored_stress : List ℝ) (use : Option (ℝ))
    (groups : List (ℝ)) : Fit :=
  let LL2 := 2 * Weibull_Exponential.LL [a, b, beta] failures right_censored failure_stress right_censored_stress
  { loglik := LL2 * (-0.5)
    AICc := AICc (failures.length + right_censored.length) 3 LL2
    BIC := BIC (failures.length + right_censored.length) 3 LL2
    bounds := ciBounds [false, true, true] [a, b, beta] SE Z
    useDist := use.map fun u => Distributions.weibull (Weibull_Exponential.life_func a b u) beta 0
    newScale := groups.map fun g => (Weibull_Exponential.life_func a b g)
    AF := match use with
      | none => []
      | some u => groups.map fun g => (Weibull_Exponential.life_func a b u) / (Weibull_Exponential.life_func a b g) }

/-! ## Fit_Weibull_Eyring -/

/-- ALT_fitters.py:3673-3677. -/
noncomputable def Weibull_Eyring.logf (t T a c beta : ℝ) : ℝ :=
  let life := 1 / T * Real.exp (-(c - a / T));
  (beta - 1) * Real.log (t / life) + Real.log (beta / life) - (t / life) ^ beta

/-- ALT_fitters.py:3680-3682. -/
noncomputable def Weibull_Eyring.logR (t T a c beta : ℝ) : ℝ :=
  let life := 1 / T * Real.exp (-(c - a / T));
  -((t / life) ^ beta)

/-- ALT_fitters.py:3685-3692. -/
noncomputable def Weibull_Eyring.LL (params t_f t_rc T_f T_rc : List ℝ) : ℝ :=
  -(sum1 (fun t T => Weibull_Eyring.logf t T (params.getD 0 0) (params.getD 1 0) (params.getD 2 0)) t_f T_f +
    sum1 (fun t T => Weibull_Eyring.logR t T (params.getD 0 0) (params.getD 1 0) (params.getD 2 0)) t_rc T_rc)

/-- ALT_fitters.py:3539-3540. -/
noncomputable def Weibull_Eyring.life_func (a c S1 : ℝ) : ℝ := 1 / S1 * Real.exp (-(c - a / S1))

/-- ALT_fitters.py:3454-3579: bounds, goodness of fit, use-level distribution, change of parameters. -/
noncomputable def Weibull_Eyring.fit (a c beta : ℝ) (SE : Option (List ℝ)) (Z : ℝ)
    (failures right_censored failure_stress right_censored_stress : List ℝ) (use : Option (ℝ))
    (groups : List (ℝ)) : Fit :=
  let LL2 := 2 * Weibull_Eyring.LL [a, c, beta] failures right_censored failure_stress right_censored_stress
  { loglik := LL2 * (-0.5)
    AICc := AICc (failures.length + right_censored.length) 3 LL2
    BIC := BIC (failures.length + right_censored.length) 3 LL2
    bounds := ciBounds [false, false, true] [a, c, beta] SE Z
    useDist := use.map fun u => Distributions.weibull (Weibull_Eyring.life_func a c u) beta 0
    newScale := groups.map fun g => (Weibull_Eyring.life_func a c g)
    AF := match use with
      | none => []
      | some u => groups.map fun g => (Weibull_Eyring.life_func a c u) / (Weibull_Eyring.life_func a c g) }

/-! ## Fit_Weibull_Power -/

/-- ALT_fitters.py:4120-4124. -/
noncomputable def Weibull_Power.logf (t T a n beta : ℝ) : ℝ :=
  let life := a * T ^ n;
  (beta - 1) * Real.log (t / life) + Real.log (beta / life) - (t / life) ^ beta

/-- ALT_fitters.py:4127-4129. -/
noncomputable def Weibull_Power.logR (t T a n beta : ℝ) : ℝ :=
  let life := a * T ^ n;
  -((t / life) ^ beta)

/-- ALT_fitters.py:4132-4139. -/
noncomputable def Weibull_Power.LL (params t_f t_rc T_f T_rc : List ℝ) : ℝ :=
  -(sum1 (fun t T => Weibull_Power.logf t T (params.getD 0 0) (params.getD 1 0) (params.getD 2 0)) t_f T_f +
    sum1 (fun t T => Weibull_Power.logR t T (params.getD 0 0) (params.getD 1 0) (params.getD 2 0)) t_rc T_rc)

/-- ALT_fitters.py:3986-3987. -/
noncomputable def Weibull_Power.life_func (a n S1 : ℝ) : ℝ := a * S1 ^ n

/-- ALT_fitters.py:3901-4026: bounds, goodness of fit, use-level distribution, change of parameters. -/
noncomputable def Weibull_Power.fit (a n beta : ℝ) (SE : Option (List ℝ)) (Z : ℝ)
    (failures right_censored failure_stress right_censored_stress : List ℝ) (use : Option (ℝ))
    (groups : List (ℝ)) : Fit :=
  let LL2 := 2 * Weibull_Power.LL [a, n, beta] failures right_censored failure_stress right_censored_stress
  { loglik := LL2 * (-0.5)
    AICc := AICc (failures.length + right_censored.length) 3 LL2
    BIC := BIC (failures.length + right_censored.length) 3 LL2
    bounds := ciBounds [true, false, true] [a, n, beta] SE Z
    useDist := use.map fun u => Distributions.weibull (Weibull_Power.life_func a n u) beta 0
    newScale := groups.map fun g => (Weibull_Power.life_func a n g)
    AF := match use with
      | none => []
      | some u => groups.map fun g => (Weibull_Power.life_func a n u) / (Weibull_Power.life_func a n g) }

/-! ## Fit_Weibull_Dual_Exponential -/

/-- ALT_fitters.py:4639-4643. -/
noncomputable def Weibull_Dual_Exponential.logf (t S1 S2 a b c beta : ℝ) : ℝ :=
  let life := c * Real.exp (a / S1 + b / S2);
  (beta - 1) * Real.log (t / life) + Real.log (beta / life) - (t / life) ^ beta

/-- ALT_fitters.py:4646-4648. -/
noncomputable def Weibull_Dual_Exponential.logR (t S1 S2 a b c beta : ℝ) : ℝ :=
  let life := c * Real.exp (a / S1 + b / S2);
  -((t / life) ^ beta)

/-- ALT_fitters.py:4651-4660. -/
noncomputable def Weibull_Dual_Exponential.LL (params t_f t_rc S1_f S2_f S1_rc S2_rc : List ℝ) : ℝ :=
  -(sum2 (fun t S1 S2 => Weibull_Dual_Exponential.logf t S1 S2 (params.getD 0 0) (params.getD 1 0) (params.getD 2 0) (params.getD 3 0)) t_f S1_f S2_f +
    sum2 (fun t S1 S2 => Weibull_Dual_Exponential.logR t S1 S2 (params.getD 0 0) (params.getD 1 0) (params.getD 2 0) (params.getD 3 0)) t_rc S1_rc S2_rc)

/-- ALT_fitters.py:4486-4487. -/
noncomputable def Weibull_Dual_Exponential.life_func (a b c S1 S2 : ℝ) : ℝ := c * Real.exp (a / S1 + b / S2)

/-- ALT_fitters.py:4386-4539: bounds, goodness of fit, use-level distribution, change of parameters. -/
noncomputable def Weibull_Dual_Exponential.fit (a b c beta : ℝ) (SE : Option (List ℝ)) (Z : ℝ)
    (failures right_censored failure_stress_1 failure_stress_2 right_censored_stress_1 right_censored_stress_2 : List ℝ) (use : Option (ℝ × ℝ))
    (groups : List (ℝ × ℝ)) : Fit :=
  let LL2 := 2 * Weibull_Dual_Exponential.LL [a, b, c, beta] failures right_censored failure_stress_1 failure_stress_2 right_censored_stress_1 right_censored_stress_2
  { loglik := LL2 * (-0.5)
    AICc := AICc (failures.length + right_censored.length) 4 LL2
    BIC := BIC (failures.length + right_censored.length) 4 LL2
    bounds := ciBounds [false, false, true, true] [a, b, c, beta] SE Z
    useDist := use.map fun u => Distributions.weibull (Weibull_Dual_Exponential.life_func a b c u.1 u.2) beta 0
    newScale := groups.map fun g => (Weibull_Dual_Exponential.life_func a b c g.1 g.2)
    AF := match use with
      | none => []
      | some u => groups.map fun g => (Weibull_Dual_Exponential.life_func a b c u.1 u.2) / (Weibull_Dual_Exponential.life_func a b c g.1 g.2) }

/-! ## Fit_Weibull_Power_Exponential -/

/-- ALT_fitters.py:5161-5165. -/
noncomputable def Weibull_Power_Exponential.logf (t S1 S2 a c n beta : ℝ) : ℝ :=
  let life := c * S2 ^ n * Real.exp (a / S1);
  (beta - 1) * Real.log (t / life) + Real.log (beta / life) - (t / life) ^ beta

/-- ALT_fitters.py:5168-5170. -/
noncomputable def Weibull_Power_Exponential.logR (t S1 S2 a c n beta : ℝ) : ℝ :=
  let life := c * S2 ^ n * Real.exp (a / S1);
  -((t / life) ^ beta)

/-- ALT_fitters.py:5173-5180. -/
noncomputable def Weibull_Power_Exponential.LL (params t_f t_rc S1_f S2_f S1_rc S2_rc : List ℝ) : ℝ :=
  -(sum2 (fun t S1 S2 => Weibull_Power_Exponential.logf t S1 S2 (params.getD 0 0) (params.getD 1 0) (params.getD 2 0) (params.getD 3 0)) t_f S1_f S2_f +
    sum2 (fun t S1 S2 => Weibull_Power_Exponential.logR t S1 S2 (params.getD 0 0) (params.getD 1 0) (params.getD 2 0) (params.getD 3 0)) t_rc S1_rc S2_rc)

/-- ALT_fitters.py:5008-5009. -/
noncomputable def Weibull_Power_Exponential.life_func (a c n S1 S2 : ℝ) : ℝ := c * S2 ^ n * Real.exp (a / S1)

/-- ALT_fitters.py:4908-5061: bounds, goodness of fit, use-level distribution, change of parameters. -/
noncomputable def Weibull_Power_Exponential.fit (a c n beta : ℝ) (SE : Option (List ℝ)) (Z : ℝ)
    (failures right_censored failure_stress_1 failure_stress_2 right_censored_stress_1 right_censored_stress_2 : List ℝ) (use : Option (ℝ × ℝ))
    (groups : List (ℝ × ℝ)) : Fit :=
  let LL2 := 2 * Weibull_Power_Exponential.LL [a, c, n, beta] failures right_censored failure_stress_1 failure_stress_2 right_censored_stress_1 right_censored_stress_2
  { loglik := LL2 * (-0.5)
    AICc := AICc (failures.length + right_censored.length) 4 LL2
    BIC := BIC (failures.length + right_censored.length) 4 LL2
    bounds := ciBounds [false, true, false, true] [a, c, n, beta] SE Z
    useDist := use.map fun u => Distributions.weibull (Weibull_Power_Exponential.life_func a c n u.1 u.2) beta 0
    newScale := groups.map fun g => (Weibull_Power_Exponential.life_func a c n g.1 g.2)
    AF := match use with
      | none => []
      | some u => groups.map fun g => (Weibull_Power_Exponential.life_func a c n u.1 u.2) / (Weibull_Power_Exponential.life_func a c n g.1 g.2) }

/-! ## Fit_Weibull_Dual_Power -/

/-- ALT_fitters.py:5678-5682. -/
noncomputable def Weibull_Dual_Power.logf (t S1 S2 c m n beta : ℝ) : ℝ :=
  let life := c * (S1 ^ m) * (S2 ^ n);
  (beta - 1) * Real.log (t / life) + Real.log (beta / life) - (t / life) ^ beta

/-- ALT_fitters.py:5685-5687. -/
noncomputable def Weibull_Dual_Power.logR (t S1 S2 c m n beta : ℝ) : ℝ :=
  let life := c * (S1 ^ m) * (S2 ^ n);
  -((t / life) ^ beta)

/-- ALT_fitters.py:5690-5699. -/
noncomputable def Weibull_Dual_Power.LL (params t_f t_rc S1_f S2_f S1_rc S2_rc : List ℝ) : ℝ :=
  -(sum2 (fun t S1 S2 => Weibull_Dual_Power.logf t S1 S2 (params.getD 0 0) (params.getD 1 0) (params.getD 2 0) (params.getD 3 0)) t_f S1_f S2_f +
    sum2 (fun t S1 S2 => Weibull_Dual_Power.logR t S1 S2 (params.getD 0 0) (params.getD 1 0) (params.getD 2 0) (params.getD 3 0)) t_rc S1_rc S2_rc)

/-- ALT_fitters.py:5527-5528. -/
noncomputable def Weibull_Dual_Power.life_func (c m n S1 S2 : ℝ) : ℝ := c * (S1 ^ m) * (S2 ^ n)

/-- ALT_fitters.py:5427-5580: bounds, goodness of fit, use-level distribution, change of parameters. -/
noncomputable def Weibull_Dual_Power.fit (c m n beta : ℝ) (SE : Option (List ℝ)) (Z : ℝ)
    (failures right_censored failure_stress_1 failure_stress_2 right_censored_stress_1 right_censored_stress_2 : List ℝ) (use : Option (ℝ × ℝ))
    (groups : List (ℝ × ℝ)) : Fit :=
  let LL2 := 2 * Weibull_Dual_Power.LL [c, m, n, beta] failures right_censored failure_stress_1 failure_stress_2 right_censored_stress_1 right_censored_stress_2
  { loglik := LL2 * (-0.5)
    AICc := AICc (failures.length + right_censored.length) 4 LL2
    BIC := BIC (failures.length + right_censored.length) 4 LL2
    bounds := ciBounds [true, false, false, true] [c, m, n, beta] SE Z
    useDist := use.map fun u => Distributions.weibull (Weibull_Dual_Power.life_func c m n u.1 u.2) beta 0
    newScale := groups.map fun g => (Weibull_Dual_Power.life_func c m n g.1 g.2)
    AF := match use with
      | none => []
      | some u => groups.map fun g => (Weibull_Dual_Power.life_func c m n u.1 u.2) / (Weibull_Dual_Power.life_func c m n g.1 g.2) }

/-! ## Fit_Lognormal_Exponential -/

/-- ALT_fitters.py:6144-6149. -/
noncomputable def Lognormal_Exponential.logf (t T a b sigma : ℝ) : ℝ :=
  let life := b * Real.exp (a / T);
  Real.log (Real.exp (-0.5 * (((Real.log t - Real.log life) / sigma) ^ 2)) / (t * sigma * Real.sqrt (2 * Real.pi)))

/-- ALT_fitters.py:6152-6156. -/
noncomputable def Lognormal_Exponential.logR (t T a b sigma : ℝ) : ℝ :=
  let life := b * Real.exp (a / T);
  Real.log (0.5 - 0.5 * erf ((Real.log t - Real.log life) / (sigma * Real.sqrt 2)))

/-- ALT_fitters.py:6159-6168. -/
noncomputable def Lognormal_Exponential.LL (params t_f t_rc T_f T_rc : List ℝ) : ℝ :=
  -(sum1 (fun t T => Lognormal_Exponential.logf t T (params.getD 0 0) (params.getD 1 0) (params.getD 2 0)) t_f T_f +
    sum1 (fun t T => Lognormal_Exponential.logR t T (params.getD 0 0) (params.getD 1 0) (params.getD 2 0)) t_rc T_rc)

/-- ALT_fitters.py:6001-6002. -/
noncomputable def Lognormal_Exponential.life_func (a b S1 : ℝ) : ℝ := b * Real.exp (a / S1)

/-- ALT_fitters.py:5916-6041: bounds, goodness of fit, use-level distribution, change of parameters. -/
noncomputable def Lognormal_Exponential.fit (a b sigma : ℝ) (SE : Option (List ℝ)) (Z : ℝ)
    (failures right_censored failure_stress right_censored_stress : List ℝ) (use : Option (ℝ))
    (groups : List (ℝ)) : Fit :=
  let LL2 := 2 * Lognormal_Exponential.LL [a, b, sigma] failures right_censored failure_stress right_censored_stress
  { loglik := LL2 * (-0.5)
    AICc := AICc (failures.length + right_censored.length) 3 LL2
    BIC := BIC (failures.length + right_censored.length) 3 LL2
    bounds := ciBounds [false, true, true] [a, b, sigma] SE Z
    useDist := use.map fun u => Distributions.lognormal (Real.log ((Lognormal_Exponential.life_func a b u))) sigma 0
    newScale := groups.map fun g => Real.log ((Lognormal_Exponential.life_func a b g))
    AF := match use with
      | none => []
      | some u => groups.map fun g => (Lognormal_Exponential.life_func a b u) / (Lognormal_Exponential.life_func a b g) }

/-! ## Fit_Lognormal_Eyring -/

/-- ALT_fitters.py:6601-6606. -/
noncomputable def Lognormal_Eyring.logf (t T a c sigma : ℝ) : ℝ :=
  let life := 1 / T * Real.exp (-(c - a / T));
  Real.log (Real.exp (-0.5 * (((Real.log t - Real.log life) / sigma) ^ 2)) / (t * sigma * Real.sqrt (2 * Real.pi)))

/-- ALT_fitters.py:6609-6613. -/
noncomputable def Lognormal_Eyring.logR (t T a c sigma : ℝ) : ℝ :=
  let life := 1 / T * Real.exp (-(c - a / T));
  Real.log (0.5 - 0.5 * erf ((Real.log t - Real.log life) / (sigma * Real.sqrt 2)))

/-- ALT_fitters.py:6616-6625. -/
noncomputable def Lognormal_Eyring.LL (params t_f t_rc T_f T_rc : List ℝ) : ℝ :=
  -(sum1 (fun t T => Lognormal_Eyring.logf t T (params.getD 0 0) (params.getD 1 0) (params.getD 2 0)) t_f T_f +
    sum1 (fun t T => Lognormal_Eyring.logR t T (params.getD 0 0) (params.getD 1 0) (params.getD 2 0)) t_rc T_rc)

/-- ALT_fitters.py:6467-6468. -/
noncomputable def Lognormal_Eyring.life_func (a c S1 : ℝ) : ℝ := 1 / S1 * Real.exp (-(c - a / S1))

/-- ALT_fitters.py:6382-6507: bounds, goodness of fit, use-level distribution, change of parameters. -/
noncomputable def Lognormal_Eyring.fit (a c sigma : ℝ) (SE : Option (List ℝ)) (Z : ℝ)
    (failures right_censored failure_stress right_censored_stress : List ℝ) (use : Option (ℝ))
    (groups : List (ℝ)) : Fit :=
  let LL2 := 2 * Lognormal_Eyring.LL [a, c, sigma] failures right_censored failure_stress right_censored_stress
  { loglik := LL2 * (-0.5)
    AICc := AICc (failures.length + right_censored.length) 3 LL2
    BIC := BIC (failures.length + right_censored.length) 3 LL2
    bounds := ciBounds [false, false, true] [a, c, sigma] SE Z
    useDist := use.map fun u => Distributions.lognormal (Real.log ((Lognormal_Eyring.life_func a c u))) sigma 0
    newScale := groups.map fun g => Real.log ((Lognormal_Eyring.life_func a c g))
    AF := match use with
      | none => []
      | some u => groups.map fun g => (Lognormal_Eyring.life_func a c u) / (Lognormal_Eyring.life_func a c g) }

/-! ## Fit_Lognormal_Power -/

/-- ALT_fitters.py:7057-7062. -/
noncomputable def Lognormal_Power.logf (t T a n sigma : ℝ) : ℝ :=
  let life := a * T ^ n;
  Real.log (Real.exp (-0.5 * (((Real.log t - Real.log life) / sigma) ^ 2)) / (t * sigma * Real.sqrt (2 * Real.pi)))

/-- ALT_fitters.py:7065-7069. -/
noncomputable def Lognormal_Power.logR (t T a n sigma : ℝ) : ℝ :=
  let life := a * T ^ n;
  Real.log (0.5 - 0.5 * erf ((Real.log t - Real.log life) / (sigma * Real.sqrt 2)))

/-- ALT_fitters.py:7072-7079. -/
noncomputable def Lognormal_Power.LL (params t_f t_rc T_f T_rc : List ℝ) : ℝ :=
  -(sum1 (fun t T => Lognormal_Power.logf t T (params.getD 0 0) (params.getD 1 0) (params.getD 2 0)) t_f T_f +
    sum1 (fun t T => Lognormal_Power.logR t T (params.getD 0 0) (params.getD 1 0) (params.getD 2 0)) t_rc T_rc)

/-- ALT_fitters.py:6923-6924. -/
noncomputable def Lognormal_Power.life_func (a n S1 : ℝ) : ℝ := a * S1 ^ n

/-- ALT_fitters.py:6838-6963: bounds, goodness of fit, use-level distribution, change of parameters. -/
noncomputable def Lognormal_Power.fit (a n sigma : ℝ) (SE : Option (List ℝ)) (Z : ℝ)
    (failures right_censored failure_stress right_censored_stress : List ℝ) (use : Option (ℝ))
    (groups : List (ℝ)) : Fit :=
  let LL2 := 2 * Lognormal_Power.LL [a, n, sigma] failures right_censored failure_stress right_censored_stress
  { loglik := LL2 * (-0.5)
    AICc := AICc (failures.length + right_censored.length) 3 LL2
    BIC := BIC (failures.length + right_censored.length) 3 LL2
    bounds := ciBounds [true, false, true] [a, n, sigma] SE Z
    useDist := use.map fun u => Distributions.lognormal (Real.log ((Lognormal_Power.life_func a n u))) sigma 0
    newScale := groups.map fun g => Real.log ((Lognormal_Power.life_func a n g))
    AF := match use with
      | none => []
      | some u => groups.map fun g => (Lognormal_Power.life_func a n u) / (Lognormal_Power.life_func a n g) }

/-! ## Fit_Lognormal_Dual_Exponential -/

/-- ALT_fitters.py:7579-7584. -/
noncomputable def Lognormal_Dual_Exponential.logf (t S1 S2 a b c sigma : ℝ) : ℝ :=
  let life := c * Real.exp (a / S1 + b / S2);
  Real.log (Real.exp (-0.5 * (((Real.log t - Real.log life) / sigma) ^ 2)) / (t * sigma * Real.sqrt (2 * Real.pi)))

/-- ALT_fitters.py:7587-7591. -/
noncomputable def Lognormal_Dual_Exponential.logR (t S1 S2 a b c sigma : ℝ) : ℝ :=
  let life := c * Real.exp (a / S1 + b / S2);
  Real.log (0.5 - 0.5 * erf ((Real.log t - Real.log life) / (sigma * Real.sqrt 2)))

/-- ALT_fitters.py:7594-7601. -/
noncomputable def Lognormal_Dual_Exponential.LL (params t_f t_rc S1_f S2_f S1_rc S2_rc : List ℝ) : ℝ :=
  -(sum2 (fun t S1 S2 => Lognormal_Dual_Exponential.logf t S1 S2 (params.getD 0 0) (params.getD 1 0) (params.getD 2 0) (params.getD 3 0)) t_f S1_f S2_f +
    sum2 (fun t S1 S2 => Lognormal_Dual_Exponential.logR t S1 S2 (params.getD 0 0) (params.getD 1 0) (params.getD 2 0) (params.getD 3 0)) t_rc S1_rc S2_rc)

/-- ALT_fitters.py:7426-7427. -/
noncomputable def Lognormal_Dual_Exponential.life_func (a b c S1 S2 : ℝ) : ℝ := c * Real.exp (a / S1 + b / S2)

/-- ALT_fitters.py:7326-7479: bounds, goodness of fit, use-level distribution, change of parameters. -/
noncomputable def Lognormal_Dual_Exponential.fit (a b c sigma : ℝ) (SE : Option (List ℝ)) (Z : ℝ)
    (failures right_censored failure_stress_1 failure_stress_2 right_censored_stress_1 right_censored_stress_2 : List ℝ) (use : Option (ℝ × ℝ))
    (groups : List (ℝ × ℝ)) : Fit :=
  let LL2 := 2 * Lognormal_Dual_Exponential.LL [a, b, c, sigma] failures right_censored failure_stress_1 failure_stress_2 right_censored_stress_1 right_censored_stress_2
  { loglik := LL2 * (-0.5)
    AICc := AICc (failures.length + right_censored.length) 4 LL2
    BIC := BIC (failures.length + right_censored.length) 4 LL2
    bounds := ciBounds [false, false, true, true] [a, b, c, sigma] SE Z
    useDist := use.map fun u => Distributions.lognormal (Real.log ((Lognormal_Dual_Exponential.life_func a b c u.1 u.2))) sigma 0
    newScale := groups.map fun g => Real.log ((Lognormal_Dual_Exponential.life_func a b c g.1 g.2))
    AF := match use with
      | none => []
      | some u => groups.map fun g => (Lognormal_Dual_Exponential.life_func a b c u.1 u.2) / (Lognormal_Dual_Exponential.life_func a b c g.1 g.2) }

/-! ## Fit_Lognormal_Power_Exponential -/

/-- ALT_fitters.py:8102-8107. -/
noncomputable def Lognormal_Power_Exponential.logf (t S1 S2 a c n sigma : ℝ) : ℝ :=
  let life := c * S2 ^ n * Real.exp (a / S1);
  Real.log (Real.exp (-0.5 * (((Real.log t - Real.log life) / sigma) ^ 2)) / (t * sigma * Real.sqrt (2 * Real.pi)))

/-- ALT_fitters.py:8110-8114. -/
noncomputable def Lognormal_Power_Exponential.logR (t S1 S2 a c n sigma : ℝ) : ℝ :=
  let life := c * S2 ^ n * Real.exp (a / S1);
  Real.log (0.5 - 0.5 * erf ((Real.log t - Real.log life) / (sigma * Real.sqrt 2)))

/-- ALT_fitters.py:8117-8124. -/
noncomputable def Lognormal_Power_Exponential.LL (params t_f t_rc S1_f S2_f S1_rc S2_rc : List ℝ) : ℝ :=
  -(sum2 (fun t S1 S2 => Lognormal_Power_Exponential.logf t S1 S2 (params.getD 0 0) (params.getD 1 0) (params.getD 2 0) (params.getD 3 0)) t_f S1_f S2_f +
    sum2 (fun t S1 S2 => Lognormal_Power_Exponential.logR t S1 S2 (params.getD 0 0) (params.getD 1 0) (params.getD 2 0) (params.getD 3 0)) t_rc S1_rc S2_rc)

/-- ALT_fitters.py:7949-7950. -/
noncomputable def Lognormal_Power_Exponential.life_func (a c n S1 S2 : ℝ) : ℝ := c * S2 ^ n * Real.exp (a / S1)

/-- ALT_fitters.py:7849-8002: bounds, goodness of fit, use-level distribution, change of parameters. -/
noncomputable def Lognormal_Power_Exponential.fit (a c n sigma : ℝ) (SE : Option (List ℝ)) (Z : ℝ)
    (failures right_censored failure_stress_1 failure_stress_2 right_censored_stress_1 right_censored_stress_2 : List ℝ) (use : Option (ℝ × ℝ))
    (groups : List (ℝ × ℝ)) : Fit :=
  let LL2 := 2 * Lognormal_Power_Exponential.LL [a, c, n, sigma] failures right_censored failure_stress_1 failure_stress_2 right_censored_stress_1 right_censored_stress_2
  { loglik := LL2 * (-0.5)
    AICc := AICc (failures.length + right_censored.length) 4 LL2
    BIC := BIC (failures.length + right_censored.length) 4 LL2
    bounds := ciBounds [false, true, false, true] [a, c, n, sigma] SE Z
    useDist := use.map fun u => Distributions.lognormal (Real.log ((Lognormal_Power_Exponential.life_func a c n u.1 u.2))) sigma 0
    newScale := groups.map fun g => Real.log ((Lognormal_Power_Exponential.life_func a c n g.1 g.2))
    AF := match use with
      | none => []
      | some u => groups.map fun g => (Lognormal_Power_Exponential.life_func a c n u.1 u.2) / (Lognormal_Power_Exponential.life_func a c n g.1 g.2) }

/-! ## Fit_Lognormal_Dual_Power -/

/-- ALT_fitters.py:8622-8627. -/
noncomputable def Lognormal_Dual_Power.logf (t S1 S2 c m n sigma : ℝ) : ℝ :=
  let life := c * (S1 ^ m) * (S2 ^ n);
  Real.log (Real.exp (-0.5 * (((Real.log t - Real.log life) / sigma) ^ 2)) / (t * sigma * Real.sqrt (2 * Real.pi)))

/-- ALT_fitters.py:8630-8634. -/
noncomputable def Lognormal_Dual_Power.logR (t S1 S2 c m n sigma : ℝ) : ℝ :=
  let life := c * (S1 ^ m) * (S2 ^ n);
  Real.log (0.5 - 0.5 * erf ((Real.log t - Real.log life) / (sigma * Real.sqrt 2)))

/-- ALT_fitters.py:8637-8646. -/
noncomputable def Lognormal_Dual_Power.LL (params t_f t_rc S1_f S2_f S1_rc S2_rc : List ℝ) : ℝ :=
  -(sum2 (fun t S1 S2 => Lognormal_Dual_Power.logf t S1 S2 (params.getD 0 0) (params.getD 1 0) (params.getD 2 0) (params.getD 3 0)) t_f S1_f S2_f +
    sum2 (fun t S1 S2 => Lognormal_Dual_Power.logR t S1 S2 (params.getD 0 0) (params.getD 1 0) (params.getD 2 0) (params.getD 3 0)) t_rc S1_rc S2_rc)

/-- ALT_fitters.py:8469-8470. -/
noncomputable def Lognormal_Dual_Power.life_func (c m n S1 S2 : ℝ) : ℝ := c * (S1 ^ m) * (S2 ^ n)

/-- ALT_fitters.py:8369-8522: bounds, goodness of fit, use-level distribution, change of parameters. -/
noncomputable def Lognormal_Dual_Power.fit (c m n sigma : ℝ) (SE : Option (List ℝ)) (Z : ℝ)
    (failures right_censored failure_stress_1 failure_stress_2 right_censored_stress_1 right_censored_stress_2 : List ℝ) (use : Option (ℝ × ℝ))
    (groups : List (ℝ × ℝ)) : Fit :=
  let LL2 := 2 * Lognormal_Dual_Power.LL [c, m, n, sigma] failures right_censored failure_stress_1 failure_stress_2 right_censored_stress_1 right_censored_stress_2
  { loglik := LL2 * (-0.5)
    AICc := AICc (failures.length + right_censored.length) 4 LL2
    BIC := BIC (failures.length + right_censored.length) 4 LL2
    bounds := ciBounds [true, false, false, true] [c, m, n, sigma] SE Z
    useDist := use.map fun u => Distributions.lognormal (Real.log ((Lognormal_Dual_Power.life_func c m n u.1 u.2))) sigma 0
    newScale := groups.map fun g => Real.log ((Lognormal_Dual_Power.life_func c m n g.1 g.2))
    AF := match use with
      | none => []
      | some u => groups.map fun g => (Lognormal_Dual_Power.life_func c m n u.1 u.2) / (Lognormal_Dual_Power.life_func c m n g.1 g.2) }

/-! ## Fit_Normal_Exponential -/

/-- ALT_fitters.py:9089-9093. -/
noncomputable def Normal_Exponential.logf (t T a b sigma : ℝ) : ℝ :=
  let life := b * Real.exp (a / T);
  Real.log (Real.exp (-0.5 * (((t - life) / sigma) ^ 2))) - Real.log (sigma * Real.sqrt (2 * Real.pi))

/-- ALT_fitters.py:9096-9098. -/
noncomputable def Normal_Exponential.logR (t T a b sigma : ℝ) : ℝ :=
  let life := b * Real.exp (a / T);
  Real.log ((1 + erf (((life - t) / sigma) / Real.sqrt 2)) / 2)

/-- ALT_fitters.py:9101-9110. -/
noncomputable def Normal_Exponential.LL (params t_f t_rc T_f T_rc : List ℝ) : ℝ :=
  -(sum1 (fun t T => Normal_Exponential.logf t T (params.getD 0 0) (params.getD 1 0) (params.getD 2 0)) t_f T_f +
    sum1 (fun t T => Normal_Exponential.logR t T (params.getD 0 0) (params.getD 1 0) (params.getD 2 0)) t_rc T_rc)

/-- ALT_fitters.py:8948-8949. -/
noncomputable def Normal_Exponential.life_func (a b S1 : ℝ) : ℝ := b * Real.exp (a / S1)

/-- ALT_fitters.py:8863-8988: bounds, goodness of fit, use-level distribution, change of parameters. -/
noncomputable def Normal_Exponential.fit (a b sigma : ℝ) (SE : Option (List ℝ)) (Z : ℝ)
    (failures right_censored failure_stress right_censored_stress : List ℝ) (use : Option (ℝ))
    (groups : List (ℝ)) : Fit :=
  let LL2 := 2 * Normal_Exponential.LL [a, b, sigma] failures right_censored failure_stress right_censored_stress
  { loglik := LL2 * (-0.5)
    AICc := AICc (failures.length + right_censored.length) 3 LL2
    BIC := BIC (failures.length + right_censored.length) 3 LL2
    bounds := ciBounds [false, true, true] [a, b, sigma] SE Z
    useDist := use.map fun u => Distributions.normal (Normal_Exponential.life_func a b u) sigma
    newScale := groups.map fun g => (Normal_Exponential.life_func a b g)
    AF := match use with
      | none => []
      | some u => groups.map fun g => (Normal_Exponential.life_func a b u) / (Normal_Exponential.life_func a b g) }

/-! ## Fit_Normal_Eyring -/

/-- ALT_fitters.py:9543-9547. -/
noncomputable def Normal_Eyring.logf (t T a c sigma : ℝ) : ℝ :=
  let life := 1 / T * Real.exp (-(c - a / T));
  Real.log (Real.exp (-0.5 * (((t - life) / sigma) ^ 2))) - Real.log (sigma * Real.sqrt (2 * Real.pi))

/-- ALT_fitters.py:9550-9552. -/
noncomputable def Normal_Eyring.logR (t T a c sigma : ℝ) : ℝ :=
  let life := 1 / T * Real.exp (-(c - a / T));
  Real.log ((1 + erf (((life - t) / sigma) / Real.sqrt 2)) / 2)

/-- ALT_fitters.py:9555-9562. -/
noncomputable def Normal_Eyring.LL (params t_f t_rc T_f T_rc : List ℝ) : ℝ :=
  -(sum1 (fun t T => Normal_Eyring.logf t T (params.getD 0 0) (params.getD 1 0) (params.getD 2 0)) t_f T_f +
    sum1 (fun t T => Normal_Eyring.logR t T (params.getD 0 0) (params.getD 1 0) (params.getD 2 0)) t_rc T_rc)

/-- ALT_fitters.py:9409-9410. -/
noncomputable def Normal_Eyring.life_func (a c S1 : ℝ) : ℝ := 1 / S1 * Real.exp (-(c - a / S1))

/-- ALT_fitters.py:9324-9449: bounds, goodness of fit, use-level distribution, change of parameters. -/
noncomputable def Normal_Eyring.fit (a c sigma : ℝ) (SE : Option (List ℝ)) (Z : ℝ)
    (failures right_censored failure_stress right_censored_stress : List ℝ) (use : Option (ℝ))
    (groups : List (ℝ)) : Fit :=
  let LL2 := 2 * Normal_Eyring.LL [a, c, sigma] failures right_censored failure_stress right_censored_stress
  { loglik := LL2 * (-0.5)
    AICc := AICc (failures.length + right_censored.length) 3 LL2
    BIC := BIC (failures.length + right_censored.length) 3 LL2
    bounds := ciBounds [false, false, true] [a, c, sigma] SE Z
    useDist := use.map fun u => Distributions.normal (Normal_Eyring.life_func a c u) sigma
    newScale := groups.map fun g => (Normal_Eyring.life_func a c g)
    AF := match use with
      | none => []
      | some u => groups.map fun g => (Normal_Eyring.life_func a c u) / (Normal_Eyring.life_func a c g) }

/-! ## Fit_Normal_Power -/

/-- ALT_fitters.py:9994-9998. -/
noncomputable def Normal_Power.logf (t T a n sigma : ℝ) : ℝ :=
  let life := a * T ^ n;
  Real.log (Real.exp (-0.5 * (((t - life) / sigma) ^ 2))) - Real.log (sigma * Real.sqrt (2 * Real.pi))

/-- ALT_fitters.py:10001-10003. -/
noncomputable def Normal_Power.logR (t T a n sigma : ℝ) : ℝ :=
  let life := a * T ^ n;
  Real.log ((1 + erf (((life - t) / sigma) / Real.sqrt 2)) / 2)

/-- ALT_fitters.py:10006-10011. -/
noncomputable def Normal_Power.LL (params t_f t_rc T_f T_rc : List ℝ) : ℝ :=
  -(sum1 (fun t T => Normal_Power.logf t T (params.getD 0 0) (params.getD 1 0) (params.getD 2 0)) t_f T_f +
    sum1 (fun t T => Normal_Power.logR t T (params.getD 0 0) (params.getD 1 0) (params.getD 2 0)) t_rc T_rc)

/-- ALT_fitters.py:9860-9861. -/
noncomputable def Normal_Power.life_func (a n S1 : ℝ) : ℝ := a * S1 ^ n

/-- ALT_fitters.py:9775-9900: bounds, goodness of fit, use-level distribution, change of parameters. -/
noncomputable def Normal_Power.fit (a n sigma : ℝ) (SE : Option (List ℝ)) (Z : ℝ)
    (failures right_censored failure_stress right_censored_stress : List ℝ) (use : Option (ℝ))
    (groups : List (ℝ)) : Fit :=
  let LL2 := 2 * Normal_Power.LL [a, n, sigma] failures right_censored failure_stress right_censored_stress
  { loglik := LL2 * (-0.5)
    AICc := AICc (failures.length + right_censored.length) 3 LL2
    BIC := BIC (failures.length + right_censored.length) 3 LL2
    bounds := ciBounds [true, false, true] [a, n, sigma] SE Z
    useDist := use.map fun u => Distributions.normal (Normal_Power.life_func a n u) sigma
    newScale := groups.map fun g => (Normal_Power.life_func a n g)
    AF := match use with
      | none => []
      | some u => groups.map fun g => (Normal_Power.life_func a n u) / (Normal_Power.life_func a n g) }

/-! ## Fit_Normal_Dual_Exponential -/

/-- ALT_fitters.py:10511-10515. -/
noncomputable def Normal_Dual_Exponential.logf (t S1 S2 a b c sigma : ℝ) : ℝ :=
  let life := c * Real.exp (a / S1 + b / S2);
  Real.log (Real.exp (-0.5 * (((t - life) / sigma) ^ 2))) - Real.log (sigma * Real.sqrt (2 * Real.pi))

/-- ALT_fitters.py:10518-10520. -/
noncomputable def Normal_Dual_Exponential.logR (t S1 S2 a b c sigma : ℝ) : ℝ :=
  let life := c * Real.exp (a / S1 + b / S2);
  Real.log ((1 + erf (((life - t) / sigma) / Real.sqrt 2)) / 2)

/-- ALT_fitters.py:10523-10532. -/
noncomputable def Normal_Dual_Exponential.LL (params t_f t_rc S1_f S2_f S1_rc S2_rc : List ℝ) : ℝ :=
  -(sum2 (fun t S1 S2 => Normal_Dual_Exponential.logf t S1 S2 (params.getD 0 0) (params.getD 1 0) (params.getD 2 0) (params.getD 3 0)) t_f S1_f S2_f +
    sum2 (fun t S1 S2 => Normal_Dual_Exponential.logR t S1 S2 (params.getD 0 0) (params.getD 1 0) (params.getD 2 0) (params.getD 3 0)) t_rc S1_rc S2_rc)

/-- ALT_fitters.py:10358-10359. -/
noncomputable def Normal_Dual_Exponential.life_func (a b c S1 S2 : ℝ) : ℝ := c * Real.exp (a / S1 + b / S2)

/-- ALT_fitters.py:10258-10411: bounds, goodness of fit, use-level distribution, change of parameters. -/
noncomputable def Normal_Dual_Exponential.fit (a b c sigma : ℝ) (SE : Option (List ℝ)) (Z : ℝ)
    (failures right_censored failure_stress_1 failure_stress_2 right_censored_stress_1 right_censored_stress_2 : List ℝ) (use : Option (ℝ × ℝ))
    (groups : List (ℝ × ℝ)) : Fit :=
  let LL2 := 2 * Normal_Dual_Exponential.LL [a, b, c, sigma] failures right_censored failure_stress_1 failure_stress_2 right_censored_stress_1 right_censored_stress_2
  { loglik := LL2 * (-0.5)
    AICc := AICc (failures.length + right_censored.length) 4 LL2
    BIC := BIC (failures.length + right_censored.length) 4 LL2
    bounds := ciBounds [false, false, true, true] [a, b, c, sigma] SE Z
    useDist := use.map fun u => Distributions.normal (Normal_Dual_Exponential.life_func a b c u.1 u.2) sigma
    newScale := groups.map fun g => (Normal_Dual_Exponential.life_func a b c g.1 g.2)
    AF := match use with
      | none => []
      | some u => groups.map fun g => (Normal_Dual_Exponential.life_func a b c u.1 u.2) / (Normal_Dual_Exponential.life_func a b c g.1 g.2) }

/-! ## Fit_Normal_Power_Exponential -/

/-- ALT_fitters.py:11033-11037. -/
noncomputable def Normal_Power_Exponential.logf (t S1 S2 a c n sigma : ℝ) : ℝ :=
  let life := c * S2 ^ n * Real.exp (a / S1);
  Real.log (Real.exp (-0.5 * (((t - life) / sigma) ^ 2))) - Real.log (sigma * Real.sqrt (2 * Real.pi))

/-- ALT_fitters.py:11040-11042. -/
noncomputable def Normal_Power_Exponential.logR (t S1 S2 a c n sigma : ℝ) : ℝ :=
  let life := c * S2 ^ n * Real.exp (a / S1);
  Real.log ((1 + erf (((life - t) / sigma) / Real.sqrt 2)) / 2)

/-- ALT_fitters.py:11045-11054. -/
noncomputable def Normal_Power_Exponential.LL (params t_f t_rc S1_f S2_f S1_rc S2_rc : List ℝ) : ℝ :=
  -(sum2 (fun t S1 S2 => Normal_Power_Exponential.logf t S1 S2 (params.getD 0 0) (params.getD 1 0) (params.getD 2 0) (params.getD 3 0)) t_f S1_f S2_f +
    sum2 (fun t S1 S2 => Normal_Power_Exponential.logR t S1 S2 (params.getD 0 0) (params.getD 1 0) (params.getD 2 0) (params.getD 3 0)) t_rc S1_rc S2_rc)

/-- ALT_fitters.py:10880-10881. -/
noncomputable def Normal_Power_Exponential.life_func (a c n S1 S2 : ℝ) : ℝ := c * S2 ^ n * Real.exp (a / S1)

/-- ALT_fitters.py:10780-10933: bounds, goodness of fit, use-level distribution, change of parameters. -/
noncomputable def Normal_Power_Exponential.fit (a c n sigma : ℝ) (SE : Option (List ℝ)) (Z : ℝ)
    (failures right_censored failure_stress_1 failure_stress_2 right_censored_stress_1 right_censored_stress_2 : List ℝ) (use : Option (ℝ × ℝ))
    (groups : List (ℝ × ℝ)) : Fit :=
  let LL2 := 2 * Normal_Power_Exponential.LL [a, c, n, sigma] failures right_censored failure_stress_1 failure_stress_2 right_censored_stress_1 right_censored_stress_2
  { loglik := LL2 * (-0.5)
    AICc := AICc (failures.length + right_censored.length) 4 LL2
    BIC := BIC (failures.length + right_censored.length) 4 LL2
    bounds := ciBounds [false, true, false, true] [a, c, n, sigma] SE Z
    useDist := use.map fun u => Distributions.normal (Normal_Power_Exponential.life_func a c n u.1 u.2) sigma
    newScale := groups.map fun g => (Normal_Power_Exponential.life_func a c n g.1 g.2)
    AF := match use with
      | none => []
      | some u => groups.map fun g => (Normal_Power_Exponential.life_func a c n u.1 u.2) / (Normal_Power_Exponential.life_func a c n g.1 g.2) }

/-! ## Fit_Normal_Dual_Power -/

/-- ALT_fitters.py:11550-11554. -/
noncomputable def Normal_Dual_Power.logf (t S1 S2 c m n sigma : ℝ) : ℝ :=
  let life := c * (S1 ^ m) * (S2 ^ n);
  Real.log (Real.exp (-0.5 * (((t - life) / sigma) ^ 2))) - Real.log (sigma * Real.sqrt (2 * Real.pi))

/-- ALT_fitters.py:11557-11559. -/
noncomputable def Normal_Dual_Power.logR (t S1 S2 c m n sigma : ℝ) : ℝ :=
  let life := c * (S1 ^ m) * (S2 ^ n);
  Real.log ((1 + erf (((life - t) / sigma) / Real.sqrt 2)) / 2)

/-- ALT_fitters.py:11562-11569. -/
noncomputable def Normal_Dual_Power.LL (params t_f t_rc S1_f S2_f S1_rc S2_rc : List ℝ) : ℝ :=
  -(sum2 (fun t S1 S2 => Normal_Dual_Power.logf t S1 S2 (params.getD 0 0) (params.getD 1 0) (params.getD 2 0) (params.getD 3 0)) t_f S1_f S2_f +
    sum2 (fun t S1 S2 => Normal_Dual_Power.logR t S1 S2 (params.getD 0 0) (params.getD 1 0) (params.getD 2 0) (params.getD 3 0)) t_rc S1_rc S2_rc)

/-- ALT_fitters.py:11399-11400. -/
noncomputable def Normal_Dual_Power.life_func (c m n S1 S2 : ℝ) : ℝ := c * (S1 ^ m) * (S2 ^ n)

/-- ALT_fitters.py:11299-11452: bounds, goodness of fit, use-level distribution, change of parameters. -/
noncomputable def Normal_Dual_Power.fit (c m n sigma : ℝ) (SE : Option (List ℝ)) (Z : ℝ)
    (failures right_censored failure_stress_1 failure_stress_2 right_censored_stress_1 right_censored_stress_2 : List ℝ) (use : Option (ℝ × ℝ))
    (groups : List (ℝ × ℝ)) : Fit :=
  let LL2 := 2 * Normal_Dual_Power.LL [c, m, n, sigma] failures right_censored failure_stress_1 failure_stress_2 right_censored_stress_1 right_censored_stress_2
  { loglik := LL2 * (-0.5)
    AICc := AICc (failures.length + right_censored.length) 4 LL2
    BIC := BIC (failures.length + right_censored.length) 4 LL2
    bounds := ciBounds [true, false, false, true] [c, m, n, sigma] SE Z
    useDist := use.map fun u => Distributions.normal (Normal_Dual_Power.life_func c m n u.1 u.2) sigma
    newScale := groups.map fun g => (Normal_Dual_Power.life_func c m n g.1 g.2)
    AF := match use with
      | none => []
      | some u => groups.map fun g => (Normal_Dual_Power.life_func c m n u.1 u.2) / (Normal_Dual_Power.life_func c m n g.1 g.2) }

/-! ## Fit_Exponential_Exponential -/

/-- ALT_fitters.py:11990-11992. -/
noncomputable def Exponential_Exponential.logf (t T a b : ℝ) : ℝ :=
  let life := b * Real.exp (a / T);
  Real.log (1 / life) - 1 / life * t

/-- ALT_fitters.py:11995-11997. -/
noncomputable def Exponential_Exponential.logR (t T a b : ℝ) : ℝ :=
  let life := b * Real.exp (a / T);
  -(1 / life * t)

/-- ALT_fitters.py:12000-12005. -/
noncomputable def Exponential_Exponential.LL (params t_f t_rc T_f T_rc : List ℝ) : ℝ :=
  -(sum1 (fun t T => Exponential_Exponential.logf t T (params.getD 0 0) (params.getD 1 0)) t_f T_f +
    sum1 (fun t T => Exponential_Exponential.logR t T (params.getD 0 0) (params.getD 1 0)) t_rc T_rc)

/-- ALT_fitters.py:11847-11848. -/
noncomputable def Exponential_Exponential.life_func (a b S1 : ℝ) : ℝ := b * Real.exp (a / S1)

/-- ALT_fitters.py:11769-11887: bounds, goodness of fit, use-level distribution, change of parameters. -/
noncomputable def Exponential_Exponential.fit (a b : ℝ) (SE : Option (List ℝ)) (Z : ℝ)
    (failures right_censored failure_stress right_censored_stress : List ℝ) (use : Option (ℝ))
    (groups : List (ℝ)) : Fit :=
  let LL2 := 2 * Exponential_Exponential.LL [a, b] failures right_censored failure_stress right_censored_stress
  { loglik := LL2 * (-0.5)
    AICc := AICc (failures.length + right_censored.length) 2 LL2
    BIC := BIC (failures.length + right_censored.length) 2 LL2
    bounds := ciBounds [false, true] [a, b] SE Z
    useDist := use.map fun u => Distributions.exponential (1 / (Exponential_Exponential.life_func a b u)) 0
    newScale := groups.map fun g => (Exponential_Exponential.life_func a b g)
    AF := match use with
      | none => []
      | some u => groups.map fun g => (Exponential_Exponential.life_func a b u) / (Exponential_Exponential.life_func a b g) }

/-! ## Fit_Exponential_Eyring -/

/-- ALT_fitters.py:12416-12418. -/
noncomputable def Exponential_Eyring.logf (t T a c : ℝ) : ℝ :=
  let life := 1 / T * Real.exp (-(c - a / T));
  Real.log (1 / life) - 1 / life * t

/-- ALT_fitters.py:12421-12423. -/
noncomputable def Exponential_Eyring.logR (t T a c : ℝ) : ℝ :=
  let life := 1 / T * Real.exp (-(c - a / T));
  -(1 / life * t)

/-- ALT_fitters.py:12426-12431. -/
noncomputable def Exponential_Eyring.LL (params t_f t_rc T_f T_rc : List ℝ) : ℝ :=
  -(sum1 (fun t T => Exponential_Eyring.logf t T (params.getD 0 0) (params.getD 1 0)) t_f T_f +
    sum1 (fun t T => Exponential_Eyring.logR t T (params.getD 0 0) (params.getD 1 0)) t_rc T_rc)

/-- ALT_fitters.py:12280-12281. -/
noncomputable def Exponential_Eyring.life_func (a c S1 : ℝ) : ℝ := 1 / S1 * Real.exp (-(c - a / S1))

/-- ALT_fitters.py:12202-12320: bounds, goodness of fit, use-level distribution, change of parameters. -/
noncomputable def Exponential_Eyring.fit (a c : ℝ) (SE : Option (List ℝ)) (Z : ℝ)
    (failures right_censored failure_stress right_censored_stress : List ℝ) (use : Option (ℝ))
    (groups : List (ℝ)) : Fit :=
  let LL2 := 2 * Exponential_Eyring.LL [a, c] failures right_censored failure_stress right_censored_stress
  { loglik := LL2 * (-0.5)
    AICc := AICc (failures.length + right_censored.length) 2 LL2
    BIC := BIC (failures.length + right_censored.length) 2 LL2
    bounds := ciBounds [false, false] [a, c] SE Z
    useDist := use.map fun u => Distributions.exponential (1 / (Exponential_Eyring.life_func a c u)) 0
    newScale := groups.map fun g => (Exponential_Eyring.life_func a c g)
    AF := match use with
      | none => []
      | some u => groups.map fun g => (Exponential_Eyring.life_func a c u) / (Exponential_Eyring.life_func a c g) }

/-! ## Fit_Exponential_Power -/

/-- ALT_fitters.py:12841-12843. -/
noncomputable def Exponential_Power.logf (t T a n : ℝ) : ℝ :=
  let life := a * T ^ n;
  Real.log (1 / life) - 1 / life * t

/-- ALT_fitters.py:12846-12848. -/
noncomputable def Exponential_Power.logR (t T a n : ℝ) : ℝ :=
  let life := a * T ^ n;
  -(1 / life * t)

/-- ALT_fitters.py:12851-12856. -/
noncomputable def Exponential_Power.LL (params t_f t_rc T_f T_rc : List ℝ) : ℝ :=
  -(sum1 (fun t T => Exponential_Power.logf t T (params.getD 0 0) (params.getD 1 0)) t_f T_f +
    sum1 (fun t T => Exponential_Power.logR t T (params.getD 0 0) (params.getD 1 0)) t_rc T_rc)

/-- ALT_fitters.py:12705-12706. -/
noncomputable def Exponential_Power.life_func (a n S1 : ℝ) : ℝ := a * S1 ^ n

/-- ALT_fitters.py:12627-12745: bounds, goodness of fit, use-level distribution, change of parameters. -/
noncomputable def Exponential_Power.fit (a n : ℝ) (SE : Option (List ℝ)) (Z : ℝ)
    (failures right_censored failure_stress right_censored_stress : List ℝ) (use : Option (ℝ))
    (groups : List (ℝ)) : Fit :=
  let LL2 := 2 * Exponential_Power.LL [a, n] failures right_censored failure_stress right_censored_stress
  { loglik := LL2 * (-0.5)
    AICc := AICc (failures.length + right_censored.length) 2 LL2
    BIC := BIC (failures.length + right_censored.length) 2 LL2
    bounds := ciBounds [true, false] [a, n] SE Z
    useDist := use.map fun u => Distributions.exponential (1 / (Exponential_Power.life_func a n u)) 0
    newScale := groups.map fun g => (Exponential_Power.life_func a n g)
    AF := match use with
      | none => []
      | some u => groups.map fun g => (Exponential_Power.life_func a n u) / (Exponential_Power.life_func a n g) }

/-! ## Fit_Exponential_Dual_Exponential -/

/-- ALT_fitters.py:13335-13337. -/
noncomputable def Exponential_Dual_Exponential.logf (t S1 S2 a b c : ℝ) : ℝ :=
  let life := c * Real.exp (a / S1 + b / S2);
  Real.log (1 / life) - 1 / life * t

/-- ALT_fitters.py:13340-13342. -/
noncomputable def Exponential_Dual_Exponential.logR (t S1 S2 a b c : ℝ) : ℝ :=
  let life := c * Real.exp (a / S1 + b / S2);
  -(1 / life * t)

/-- ALT_fitters.py:13345-13354. -/
noncomputable def Exponential_Dual_Exponential.LL (params t_f t_rc S1_f S2_f S1_rc S2_rc : List ℝ) : ℝ :=
  -(sum2 (fun t S1 S2 => Exponential_Dual_Exponential.logf t S1 S2 (params.getD 0 0) (params.getD 1 0) (params.getD 2 0)) t_f S1_f S2_f +
    sum2 (fun t S1 S2 => Exponential_Dual_Exponential.logR t S1 S2 (params.getD 0 0) (params.getD 1 0) (params.getD 2 0)) t_rc S1_rc S2_rc)

/-- ALT_fitters.py:13182-13183. -/
noncomputable def Exponential_Dual_Exponential.life_func (a b c S1 S2 : ℝ) : ℝ := c * Real.exp (a / S1 + b / S2)

/-- ALT_fitters.py:13089-13235: bounds, goodness of fit, use-level distribution, change of parameters. -/
noncomputable def Exponential_Dual_Exponential.fit (a b c : ℝ) (SE : Option (List ℝ)) (Z : ℝ)
    (failures right_censored failure_stress_1 failure_stress_2 right_censored_stress_1 right_censored_stress_2 : List ℝ) (use : Option (ℝ × ℝ))
    (groups : List (ℝ × ℝ)) : Fit :=
  let LL2 := 2 * Exponential_Dual_Exponential.LL [a, b, c] failures right_censored failure_stress_1 failure_stress_2 right_censored_stress_1 right_censored_stress_2
  { loglik := LL2 * (-0.5)
    AICc := AICc (failures.length + right_censored.length) 3 LL2
    BIC := BIC (failures.length + right_censored.length) 3 LL2
    bounds := ciBounds [false, false, true] [a, b, c] SE Z
    useDist := use.map fun u => Distributions.exponential (1 / (Exponential_Dual_Exponential.life_func a b c u.1 u.2)) 0
    newScale := groups.map fun g => (Exponential_Dual_Exponential.life_func a b c g.1 g.2)
    AF := match use with
      | none => []
      | some u => groups.map fun g => (Exponential_Dual_Exponential.life_func a b c u.1 u.2) / (Exponential_Dual_Exponential.life_func a b c g.1 g.2) }

/-! ## Fit_Exponential_Power_Exponential -/

/-- ALT_fitters.py:13834-13836. -/
noncomputable def Exponential_Power_Exponential.logf (t S1 S2 a c n : ℝ) : ℝ :=
  let life := c * S2 ^ n * Real.exp (a / S1);
  Real.log (1 / life) - 1 / life * t

/-- ALT_fitters.py:13839-13841. -/
noncomputable def Exponential_Power_Exponential.logR (t S1 S2 a c n : ℝ) : ℝ :=
  let life := c * S2 ^ n * Real.exp (a / S1);
  -(1 / life * t)

/-- ALT_fitters.py:13844-13853. -/
noncomputable def Exponential_Power_Exponential.LL (params t_f t_rc S1_f S2_f S1_rc S2_rc : List ℝ) : ℝ :=
  -(sum2 (fun t S1 S2 => Exponential_Power_Exponential.logf t S1 S2 (params.getD 0 0) (params.getD 1 0) (params.getD 2 0)) t_f S1_f S2_f +
    sum2 (fun t S1 S2 => Exponential_Power_Exponential.logR t S1 S2 (params.getD 0 0) (params.getD 1 0) (params.getD 2 0)) t_rc S1_rc S2_rc)

/-- ALT_fitters.py:13681-13682. -/
noncomputable def Exponential_Power_Exponential.life_func (a c n S1 S2 : ℝ) : ℝ := c * S2 ^ n * Real.exp (a / S1)

/-- ALT_fitters.py:13588-13734: bounds, goodness of fit, use-level distribution, change of parameters. -/
noncomputable def Exponential_Power_Exponential.fit (a c n : ℝ) (SE : Option (List ℝ)) (Z : ℝ)
    (failures right_censored failure_stress_1 failure_stress_2 right_censored_stress_1 right_censored_stress_2 : List ℝ) (use : Option (ℝ × ℝ))
    (groups : List (ℝ × ℝ)) : Fit :=
  let LL2 := 2 * Exponential_Power_Exponential.LL [a, c, n] failures right_censored failure_stress_1 failure_stress_2 right_censored_stress_1 right_censored_stress_2
  { loglik := LL2 * (-0.5)
    AICc := AICc (failures.length + right_censored.length) 3 LL2
    BIC := BIC (failures.length + right_censored.length) 3 LL2
    bounds := ciBounds [false, true, false] [a, c, n] SE Z
    useDist := use.map fun u => Distributions.exponential (1 / (Exponential_Power_Exponential.life_func a c n u.1 u.2)) 0
    newScale := groups.map fun g => (Exponential_Power_Exponential.life_func a c n g.1 g.2)
    AF := match use with
      | none => []
      | some u => groups.map fun g => (Exponential_Power_Exponential.life_func a c n u.1 u.2) / (Exponential_Power_Exponential.life_func a c n g.1 g.2) }

/-! ## Fit_Exponential_Dual_Power -/

/-- ALT_fitters.py:14330-14332. -/
noncomputable def Exponential_Dual_Power.logf (t S1 S2 c m n : ℝ) : ℝ :=
  let life := c * (S1 ^ m) * (S2 ^ n);
  Real.log (1 / life) - 1 / life * t

/-- ALT_fitters.py:14335-14337. -/
noncomputable def Exponential_Dual_Power.logR (t S1 S2 c m n : ℝ) : ℝ :=
  let life := c * (S1 ^ m) * (S2 ^ n);
  -(1 / life * t)

/-- ALT_fitters.py:14340-14349. -/
noncomputable def Exponential_Dual_Power.LL (params t_f t_rc S1_f S2_f S1_rc S2_rc : List ℝ) : ℝ :=
  -(sum2 (fun t S1 S2 => Exponential_Dual_Power.logf t S1 S2 (params.getD 0 0) (params.getD 1 0) (params.getD 2 0)) t_f S1_f S2_f +
    sum2 (fun t S1 S2 => Exponential_Dual_Power.logR t S1 S2 (params.getD 0 0) (params.getD 1 0) (params.getD 2 0)) t_rc S1_rc S2_rc)

/-- ALT_fitters.py:14177-14178. -/
noncomputable def Exponential_Dual_Power.life_func (c m n S1 S2 : ℝ) : ℝ := c * (S1 ^ m) * (S2 ^ n)

/-- ALT_fitters.py:14084-14230: bounds, goodness of fit, use-level distribution, change of parameters. -/
noncomputable def Exponential_Dual_Power.fit (c m n : ℝ) (SE : Option (List ℝ)) (Z : ℝ)
    (failures right_censored failure_stress_1 failure_stress_2 right_censored_stress_1 right_censored_stress_2 : List ℝ) (use : Option (ℝ × ℝ))
    (groups : List (ℝ × ℝ)) : Fit :=
  let LL2 := 2 * Exponential_Dual_Power.LL [c, m, n] failures right_censored failure_stress_1 failure_stress_2 right_censored_stress_1 right_censored_stress_2
  { loglik := LL2 * (-0.5)
    AICc := AICc (failures.length + right_censored.length) 3 LL2
    BIC := BIC (failures.length + right_censored.length) 3 LL2
    bounds := ciBounds [true, false, false] [c, m, n] SE Z
    useDist := use.map fun u => Distributions.exponential (1 / (Exponential_Dual_Power.life_func c m n u.1 u.2)) 0
    newScale := groups.map fun g => (Exponential_Dual_Power.life_func c m n g.1 g.2)
    AF := match use with
      | none => []
      | some u => groups.map fun g => (Exponential_Dual_Power.life_func c m n u.1 u.2) / (Exponential_Dual_Power.life_func c m n g.1 g.2) }

end Reliability.ALT

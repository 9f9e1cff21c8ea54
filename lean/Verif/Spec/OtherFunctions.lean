import Mathlib.Data.Real.Basic
import Mathlib.Analysis.SpecialFunctions.Pow.Real
import Mathlib.Data.List.Perm.Basic
import Verif.Model.Distributions

/-!
# Specifications for data generation (independent of the model of Other_functions.py)
-/

namespace Reliability.Spec

/-- `failures` and `censored` arise from `data` by right censoring: some of the observations (`hidden`) are replaced
by times between 0 and their value, the others are failures with their own value. -/
def RightCensoring (data failures censored : List ℝ) : Prop :=
  ∃ hidden : List ℝ, (failures ++ hidden).Perm data ∧ List.Forall₂ (fun c h => 0 ≤ c ∧ c ≤ h) censored hidden

/-- Two names that differ at most in the case of their letters. -/
def SameName (s t : String) : Prop := s.toList.map Char.toLower = t.toList.map Char.toLower

instance (s t : String) : Decidable (SameName s t) := by unfold SameName; infer_instance

/-- The twelve single-stress or the twelve dual-stress ALT models: life distribution, underscore, life-stress model. -/
def altModelNames (dual : Bool) : List String :=
  ["Weibull", "Lognormal", "Normal", "Exponential"].flatMap fun d =>
    (if dual then ["Dual_Exponential", "Power_Exponential", "Dual_Power"]
      else ["Exponential", "Eyring", "Power"]).map fun m => d ++ "_" ++ m

/-- The documented life-stress models with their parameters. -/
inductive LifeStress where
  | exponential (a b : ℝ)
  | eyring (a c : ℝ)
  | power (a n : ℝ)
  | dualExponential (a b c : ℝ)
  | powerExponential (a c n : ℝ)
  | dualPower (c m n : ℝ)

/-- The life at stress `(S1, S2)` (`S2` is not used by the first three). -/
noncomputable def LifeStress.life : LifeStress → ℝ → ℝ → ℝ
  | .exponential a b, S1, _ => b * Real.exp (a / S1)
  | .eyring a c, S1, _ => Real.exp (a / S1 - c) / S1
  | .power a n, S1, _ => a * S1 ^ n
  | .dualExponential a b c, S1, S2 => c * Real.exp (a / S1 + b / S2)
  | .powerExponential a c n, S1, S2 => c * S2 ^ n * Real.exp (a / S1)
  | .dualPower c m n, S1, S2 => c * S1 ^ m * S2 ^ n

/-- The parameters that must be positive are. -/
def LifeStress.Valid : LifeStress → Prop
  | .exponential _ b => 0 < b
  | .eyring _ _ => True
  | .power a _ => 0 < a
  | .dualExponential _ _ c => 0 < c
  | .powerExponential _ c _ => 0 < c
  | .dualPower c _ _ => 0 < c

theorem LifeStress.life_pos (m : LifeStress) (h : m.Valid) {S1 S2 : ℝ} (h1 : 0 < S1) (h2 : 0 < S2) :
    0 < m.life S1 S2 := by
  cases m <;> simp only [LifeStress.Valid] at h <;> simp only [LifeStress.life] <;> positivity

/-- The distribution with the given life: `life` is the scale of a Weibull, the median of a Lognormal, the mean of a
Normal and of an Exponential distribution. -/
inductive LifeDist where
  | weibull (beta : ℝ)
  | lognormal (sigma : ℝ)
  | normal (sigma : ℝ)
  | exponential

noncomputable def LifeDist.dist : LifeDist → ℝ → Distributions.Dist
  | .weibull beta, life => Distributions.weibull life beta 0
  | .lognormal sigma, life => Distributions.lognormal (Real.log life) sigma 0
  | .normal sigma, life => Distributions.normal life sigma
  | .exponential, life => Distributions.exponential (1 / life) 0

/-- What `make_ALT_data` produced at one stress level. -/
structure Level where
  S1 : ℝ
  S2 : ℝ
  raw : List ℝ
  failures : List ℝ
  censored : List ℝ

end Reliability.Spec

import Mathlib.Analysis.SpecialFunctions.Pow.Real
import Mathlib.Analysis.SpecialFunctions.Sqrt

/-! # Specifications for the fatigue functions (C93–C96) -/

namespace Reliability.Spec

/-- Ramberg–Osgood: the strain at stress `s` under first loading. -/
noncomputable def loadingStrain (E K n s : ℝ) : ℝ := s / E + (s / K) ^ (1 / n)

/-- The change of strain for a change of stress `d` in a reversal (Masing: the loading curve doubled). -/
noncomputable def reversalStrain (E K n d : ℝ) : ℝ := d / E + 2 * (d / (2 * K)) ^ (1 / n)

/-- An idealised root finder: finds a root if there is one, and one that is not negative if there is one. -/
def RootFinder (fsolve : (ℝ → Option ℝ) → ℝ → ℝ) : Prop :=
  ∀ f x0, ((∃ x, f x = some 0) → f (fsolve f x0) = some 0) ∧ ((∃ x, 0 ≤ x ∧ f x = some 0) → 0 ≤ fsolve f x0)

end Reliability.Spec

namespace Reliability.Spec

/-- The strain-life relation between the strain amplitude and the reversals to failure `n2`, with the mean stress
correction named (none if the mean stress is 0).  `A` = sigma_f, `B` = epsilon_f. -/
def StrainLife (method : String) (E A B b c maxStress meanStress amplitude n2 : ℝ) : Prop :=
  if meanStress = 0 then amplitude = A / E * n2 ^ b + B * n2 ^ c
  else if method = "SWT" then maxStress * amplitude = A ^ 2 / E * n2 ^ (2 * b) + A * B * n2 ^ (b + c)
  else if method = "morrow" then amplitude = (A - meanStress) / E * n2 ^ b + B * n2 ^ c
  else amplitude = (A - meanStress) / E * n2 ^ b + B * ((A - meanStress) / A) ^ (c / b) * n2 ^ c

/-- The elastic and plastic parts of the amplitude are equal at `n2`. -/
def EqualParts (method : String) (E A B b c meanStress n2 : ℝ) : Prop :=
  if meanStress = 0 then A / E * n2 ^ b = B * n2 ^ c
  else if method = "SWT" then A ^ 2 / E * n2 ^ (2 * b) = A * B * n2 ^ (b + c)
  else if method = "morrow" then (A - meanStress) / E * n2 ^ b = B * n2 ^ c
  else (A - meanStress) / E * n2 ^ b = B * ((A - meanStress) / A) ^ (c / b) * n2 ^ c

end Reliability.Spec

namespace Reliability.Spec

/-- `(m, c)` is a least-squares line `y = m x + c` through the points. -/
def IsLine (xs ys : List ℝ) (f : ℝ × ℝ) : Prop :=
  ∀ m c : ℝ, (List.zipWith (fun x y => (y - (f.1 * x + f.2)) ^ 2) xs ys).sum ≤
    (List.zipWith (fun x y => (y - (m * x + c)) ^ 2) xs ys).sum

/-- Half-width of the confidence interval of a fitted line at `x0`: `t s √(1/n + (x0 - x̄)²/∑(x - x̄)²)`. -/
noncomputable def lineHalfWidth (t : ℝ) (xs ys : List ℝ) (f : ℝ × ℝ) (x0 : ℝ) : ℝ :=
  t * Real.sqrt ((List.zipWith (fun x y => (y - (f.1 * x + f.2)) ^ 2) xs ys).sum / ((xs.length : ℝ) - 2)) *
    Real.sqrt (1 / (xs.length : ℝ) + (x0 - xs.sum / xs.length) ^ 2 / (xs.map fun x => (x - xs.sum / xs.length) ^ 2).sum)

end Reliability.Spec

import Mathlib.Data.Matrix.Mul
import Verif.Spec.OtherFunctions

/-! # Specification for the ALT initial guess (C97) -/

namespace Reliability.Spec

/-- The life-stress model with the documented order of parameters. -/
def stressModel : String → List ℝ → Option LifeStress
  | "Exponential", [a, b] => some (.exponential a b)
  | "Eyring", [a, c] => some (.eyring a c)
  | "Power", [a, n] => some (.power a n)
  | "Dual_Exponential", [a, b, c] => some (.dualExponential a b c)
  | "Power_Exponential", [a, c, n] => some (.powerExponential a c n)
  | "Dual_Power", [c, m, n] => some (.dualPower c m n)
  | _, _ => none

/-- Sum of the squared differences between the logarithms of the times and of the model's lives; a point is
`(time, first stress, second stress)`. -/
noncomputable def logSSE (pts : List (ℝ × ℝ × ℝ)) (m : LifeStress) : ℝ :=
  (pts.map fun p => (Real.log p.1 - Real.log (m.life p.2.1 p.2.2)) ^ 2).sum

/-- How a model scales its stresses before it is linear. -/
noncomputable def stressScale : String → ℝ × ℝ → ℝ × ℝ
  | "Dual_Exponential", s => (1 / s.1, 1 / s.2)
  | "Power_Exponential", s => (1 / s.1, Real.log s.2)
  | _, s => (Real.log s.1, Real.log s.2)

/-- Points on one line of the plane. -/
def Collinear2 (l : List (ℝ × ℝ)) : Prop :=
  ∃ a b c : ℝ, (a, b, c) ≠ (0, 0, 0) ∧ ∀ p ∈ l, a + b * p.1 + c * p.2 = 0

/-- The regression's design matrix: a column of ones, the scaled first and the scaled second stresses. -/
noncomputable def design (model : String) (pts : List (ℝ × ℝ × ℝ)) : Matrix (Fin pts.length) (Fin 3) ℝ :=
  Matrix.of fun i => ![1, (stressScale model pts[i].2).1, (stressScale model pts[i].2).2]

/-- The log times, one for each row of the design matrix. -/
noncomputable def logTimes (pts : List (ℝ × ℝ × ℝ)) : Fin pts.length → ℝ := fun i => Real.log pts[i].1

end Reliability.Spec

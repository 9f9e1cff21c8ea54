import Verif.Spec.Fatigue

/-! # Specifications for the plots of PoF.py (C150 on) -/

namespace Reliability.Spec

/-- `y` is the elastic part of the strain amplitude at `n2` reversals (`A` = sigma_f). -/
def ElasticStrain (method : String) (E A b maxStress meanStress n2 y : ℝ) : Prop :=
  if meanStress = 0 then y = A / E * n2 ^ b
  else if method = "SWT" then maxStress * y = A ^ 2 / E * n2 ^ (2 * b)
  else y = (A - meanStress) / E * n2 ^ b

/-- `y` is the plastic part of the strain amplitude at `n2` reversals (`A` = sigma_f, `B` = epsilon_f). -/
def PlasticStrain (method : String) (A B b c maxStress meanStress n2 y : ℝ) : Prop :=
  if meanStress = 0 then y = B * n2 ^ c
  else if method = "SWT" then maxStress * y = A * B * n2 ^ (b + c)
  else if method = "morrow" then y = B * n2 ^ c
  else y = B * ((A - meanStress) / A) ^ (c / b) * n2 ^ c

/-- The point is within the axes. -/
def Visible (xlim ylim : ℝ × ℝ) (q : ℝ × ℝ) : Prop := xlim.1 ≤ q.1 ∧ q.1 ≤ xlim.2 ∧ ylim.1 ≤ q.2 ∧ q.2 ≤ ylim.2

end Reliability.Spec

import Mathlib.Analysis.SpecialFunctions.Sqrt
import Mathlib.MeasureTheory.Integral.IntervalIntegral.Basic
import Verif.Model.PoF

/-!
# Specification for PoF: crack growth by the Paris law, cycle by cycle
-/

namespace Reliability.Spec

open PoF

/-- Geometry factor of an edge crack, respectively a centre crack, of relative length `x`. -/
noncomputable def geometryFactor (edge : Prop) [Decidable edge] (x : ℝ) : ℝ :=
  if edge then 1.12 - 0.231 * x + 10.55 * x ^ 2 - 21.72 * x ^ 3 + 30.39 * x ^ 4
  else 1 / Real.sqrt (Real.cos (Real.pi * x))

/-- Stress (MPa) on the section left by two notches of depth `d` and a crack of length `a`. -/
noncomputable def netStress (p : CrackIn) (a : ℝ) : ℝ := p.P * 10 ^ 6 / (p.t * (p.W - 2 * p.d - a))

/-- Stress intensity times its geometry factor, the crack acting with length `l`. -/
noncomputable def stressIntensity (p : CrackIn) (a l : ℝ) : ℝ :=
  geometryFactor (p.crack_type = "edge") (a / p.W) * netStress p a * Real.sqrt (Real.pi * l / 1000)

/-- Length (mm) of the crack after `k` cycles: each cycle adds Paris-law growth `C ΔK^m`; past the transition length the notch
counts as part of the crack. -/
noncomputable def crackLength (p : CrackIn) (lt : ℝ) : ℕ → ℝ
  | 0 => p.a_initial
  | k + 1 =>
    let a := crackLength p lt k
    a + 1000 * (p.C * stressIntensity p a (if a < lt then a else a + p.d) ^ p.m)

/-- The crack length (mm, beyond the notch) at which stress intensity reaches the toughness, for geometry and stress at
length `a`. -/
noncomputable def criticalLength (p : CrackIn) (a : ℝ) : ℝ :=
  1000 / Real.pi * (p.Kc / (geometryFactor (p.crack_type = "edge") (a / p.W) * netStress p a)) ^ 2

/-- Cycle `k + 1` is one on which growth stops: the crack is now longer than the critical length in that cycle or than the
requested final length. -/
def StopsAfter (p : CrackIn) (lt : ℝ) (k : ℕ) : Prop :=
  criticalLength p (crackLength p lt k) < crackLength p lt (k + 1) ∨
    ∃ af, p.a_final = some af ∧ af < crackLength p lt (k + 1)

/-- The crack is within the net section (for a centre crack, within half the width, where the geometry factor is
defined). -/
def Within (p : CrackIn) (a : ℝ) : Prop :=
  0 < a ∧ a < p.W - 2 * p.d ∧ (p.crack_type ≠ "edge" → 2 * a < p.W)

/-- Physically meaningful input. -/
structure ValidCrack (p : CrackIn) : Prop where
  C : 0 < p.C
  P : 0 < p.P
  t : 0 < p.t
  W : 0 < p.W
  d : 0 ≤ p.d
  m : 0 ≤ p.m
  start : Within p p.a_initial

end Reliability.Spec

import Verif.Model.ProbPaper

/-! # Specification for the probability plots (C118) -/

namespace Reliability.ProbPaper

open Reliability

/-- The horizontal position of time `t` on the paper, up to a linear change of unit. -/
noncomputable def Paper.horizontal (p : Paper) (t : ℝ) : ℝ := if p.logx then Real.log t else t

/-- The vertical position of probability `F` on the paper. -/
noncomputable def Paper.vertical (p : Paper) (F : ℝ) : ℝ := p.axis.fwd F

/-- On the paper, the CDF over `D` is the straight line with this slope and intercept. -/
def Straight (p : Paper) (D : Set ℝ) (F : ℝ → ℝ) (slope intercept : ℝ) : Prop :=
  ∀ t ∈ D, p.vertical (F t) = slope * p.horizontal t + intercept

/-- The points drawn are the plotting positions of the data (as `plotting_positions` reports them), each moved
horizontally by `shift`. -/
def ShowsData (argsort : List ℝ → List ℕ) (a : Option ℝ) (f : List ℝ) (rc : Option (List ℝ)) (shift : ℝ) (r : Plot) : Prop :=
  ∃ x y P, PP.plottingPositions argsort f rc a true = .ok (x, y) ∧ r.scatter = some P ∧ P.1.length = P.2.length ∧
    (P.1.zip P.2).Perm ((x.zip y).map fun p => (p.1 + shift, p.2))

/-- Every point drawn lies within the limits of the axes. -/
def AllVisible (r : Plot) : Prop :=
  ∀ P, r.scatter = some P → ∀ q ∈ P.1.zip P.2,
    r.limits.1.1 ≤ q.1 ∧ q.1 ≤ r.limits.1.2 ∧ r.limits.2.1 ≤ q.2 ∧ q.2 ≤ r.limits.2.2

/-- The CDF drawn, at the horizontal position given to time `t`, is the probability `F t`. -/
def DrawsCDF (F : ℝ → ℝ) (shift : ℝ) (r : Plot) : Prop :=
  ∃ line, r.line = some line ∧ ∀ t, line.sp.cdf (t + shift) = F t

/-- The `downsample_scatterplot` arguments with which all of `n` points are drawn: False, or None or True (the default) with fewer than
1000 points. -/
def Undownsampled (factor : Utils.Factor) (n : ℕ) : Prop :=
  factor = .bool false ∨ ((factor = .none ∨ factor = .bool true) ∧ n < 1000)

end Reliability.ProbPaper

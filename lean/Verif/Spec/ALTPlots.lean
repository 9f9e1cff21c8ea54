import Verif.Model.ALTPlots
import Verif.Spec.ALTGlue

/-! # Specification for the figures of the ALT fitters (C134, C135) -/

namespace Reliability.ALTPlots

open Reliability Reliability.Spec Reliability.Spec.ALTGlue Reliability.FitGlue Reliability.ALTGlue
open Reliability.FunctionCI (Two Jac)
open Reliability.Distributions (Dist)

/-- The life distribution named by `dist` with this shape. -/
def LifeOf (dist : String) (shape : ℝ) : LifeDist → Prop
  | .weibull beta => dist = "Weibull" ∧ shape = beta
  | .lognormal sigma => dist = "Lognormal" ∧ shape = sigma
  | .normal sigma => dist = "Normal" ∧ shape = sigma
  | .exponential => dist = "Exponential"

/-- The points drawn for a stress are the plotting positions of its data. -/
def ShowsPositions {σ : Type} (argsort : List ℝ → List ℕ) (f : List ℝ) (rc : Option (List ℝ)) (g : Group σ) : Prop :=
  ∃ x y P, PP.plottingPositions argsort f rc none true = .ok (x, y) ∧ g.scatter = some P ∧ P.1.length = P.2.length ∧
    (P.1.zip P.2).Perm (x.zip y)

/-- A point of the figure. -/
def Figure.Point {σ : Type} (P : Figure σ) (q : ℝ × ℝ) : Prop := ∃ g ∈ P.groups, ∃ S, g.scatter = some S ∧ q ∈ S.1.zip S.2

/-- Everything is visible: every point, and the use level line at every probability between those of two points. -/
def Figure.Complete {σ : Type} (P : Figure σ) : Prop :=
  (∀ q, P.Point q → P.limits.1.1 ≤ q.1 ∧ q.1 ≤ P.limits.1.2 ∧ P.limits.2.1 ≤ q.2 ∧ q.2 ≤ P.limits.2.2) ∧
  ∀ d c, P.use = some (d, c) → ∀ q q', P.Point q → P.Point q' → ∀ v, q.2 ≤ v → v ≤ q'.2 →
    P.limits.1.1 ≤ d.sp.ppf v ∧ d.sp.ppf v ≤ P.limits.1.2

/-- The distribution fitted to the data of one stress; for the Exponential classes the Exponential distribution whose mean is
the scale of the fitted Weibull distribution. -/
noncomputable def originalOf (dist : String) (r : Two) : Dist :=
  match dist with
  | "Weibull" => Distributions.weibull r.a r.b 0
  | "Lognormal" => Distributions.lognormal r.a r.b 0
  | "Normal" => Distributions.normal r.a r.b
  | _ => Distributions.exponential (1 / r.a) 0

/-- Every stress and the use level have a colour of their own. -/
def Figure.Coloured {σ : Type} (P : Figure σ) : Prop := (P.groups.map Group.colour ++ P.use.toList.map Prod.snd).Nodup

/-- What is drawn for a stress, of the failures `F` and right censored units `C`: the plotting positions, the line, and the fit to
the data of this stress alone if it has more than one failure. -/
def ShowsStress {σ : Type} [DecidableEq σ] (dist : String) (argsort : List ℝ → List ℕ) (J : Jac) (num : ℕ → Option ℝ → Num2)
    (F C : List (ℝ × σ)) (line : σ → Dist) (g : Group σ) : Prop :=
  ShowsPositions argsort (unitsAt F g.stress) (if C = [] then none else some (unitsAt C g.stress)) g ∧
  g.line = some (line g.stress) ∧
  ((unitsAt F g.stress).length = 1 → g.original = none) ∧
  ((unitsAt F g.stress).length ≠ 1 → ∃ i r, FitOf dist argsort J (num i) (unitsAt F g.stress)
      (if C = [] then .none else .array (unitsAt C g.stress)) r ∧ g.original = some (originalOf dist r.dist))

/-- The figure shows the life distribution `line s` at every stress `s` of `stresses`, with its data, and at the use level; all
of it is visible and every stress has its own colour. -/
def Figure.Shows {σ : Type} [DecidableEq σ] (P : Figure σ) (dist : String) (argsort : List ℝ → List ℕ) (J : Jac)
    (num : ℕ → Option ℝ → Num2) (F C : List (ℝ × σ)) (line : σ → Dist) (stresses : List σ) (use : Option σ) : Prop :=
  P.groups.map Group.stress = stresses ∧ (∀ g ∈ P.groups, ShowsStress dist argsort J num F C line g) ∧
  P.use.map Prod.fst = use.map line ∧ P.Complete ∧ P.Coloured

end Reliability.ALTPlots

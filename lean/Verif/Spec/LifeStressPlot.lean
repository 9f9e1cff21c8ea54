import Verif.Model.ALTPlots
import Verif.Spec.ALTGlue

/-! # Specification for the life-stress plot (C135) -/

namespace Reliability.ALTPlots

/-- What the argument `ax` asks for: a life-stress plot (`false`), or one with the axes swapped (`true`): the words swap, swapped,
flip and flipped, in lower case, upper case or with a capital. -/
def Asks : AxArg → Bool → Prop
  | .bool b, swap => b = true ∧ swap = false
  | .axes, swap => swap = false
  | .str s, swap => swap = true ∧ ∃ w ∈ ["swap", "swapped", "flip", "flipped"], s = w ∨ s = w.toUpper ∨ s = w.capitalize

/-- Where a stress and a life are drawn. -/
def position : Bool → ℝ → ℝ → ℝ × ℝ
  | false, stress, life => (stress, life)
  | true, stress, life => (life, stress)

/-- Inside the limits of the axes. -/
def LSFigure.Visible (P : LSFigure) (q : ℝ × ℝ) : Prop :=
  P.xlim.1 ≤ q.1 ∧ q.1 ≤ P.xlim.2 ∧ P.ylim.1 ≤ q.2 ∧ q.2 ≤ P.ylim.2

/-- The limits of the stress axis. -/
def LSFigure.window (P : LSFigure) (swap : Bool) : ℝ × ℝ := if swap then P.ylim else P.xlim

/-- The limits of the life axis. -/
def LSFigure.lifeAxis (P : LSFigure) (swap : Bool) : ℝ × ℝ := if swap then P.xlim else P.ylim

/-- One fifth of the logarithmic range from `lo` to `hi` is added on both sides. -/
def Widened (lo hi : ℝ) (w : ℝ × ℝ) : Prop :=
  0 < w.1 ∧ 0 < w.2 ∧ Real.log lo - Real.log w.1 = (Real.log hi - Real.log lo) / 5 ∧
    Real.log w.2 - Real.log hi = (Real.log hi - Real.log lo) / 5

/-- `lo` and `hi` are the lowest and the highest value. -/
def Extremes (l : List ℝ) (lo hi : ℝ) : Prop := lo ∈ l ∧ hi ∈ l ∧ ∀ x ∈ l, lo ≤ x ∧ x ≤ hi

/-- The figure shows the failures `data s` of every stress `s` and the life-stress line `life`, with the stress axis from below
the lowest of the stresses and the use stress to above the highest of the stresses; the failures are visible; if life does not
increase with stress, then the line is visible at every stress on the axis. -/
structure LSFigure.Shows (P : LSFigure) (swap : Bool) (life : ℝ → ℝ) (stresses : List ℝ) (data : List (List ℝ)) (use : Option ℝ) :
    Prop where
  failures : List.Forall₂ (fun (i : ℝ × List ℝ) pts => pts = i.2.map fun t => position swap i.1 t) (stresses.zip data) P.failures
  failures_visible : ∀ pts ∈ P.failures, ∀ q ∈ pts, P.Visible q
  on_line : ∀ q ∈ P.line, ∃ s, 0 < s ∧ q = position swap s (life s)
  fine : ∀ s, 0 < s → s ≤ 10 * (P.window swap).2 →
    ∃ s', |s' - s| ≤ 10 * (P.window swap).2 / 999 ∧ position swap s' (life s') ∈ P.line
  window : ∃ lo hi low, Extremes stresses lo hi ∧ (∀ u, use = some u → low = min lo u) ∧ (use = none → low = lo) ∧
    Widened low hi (P.window swap)
  life_axis : ∃ lo hi, Extremes data.flatten lo hi ∧ P.lifeAxis swap = (0, 1.2 * max (life (P.window swap).1) hi)
  line_visible : (∀ s s', 0 < s → s ≤ s' → life s' ≤ life s ∧ 0 ≤ life s') →
    ∀ s, (P.window swap).1 ≤ s → s ≤ (P.window swap).2 → P.Visible (position swap s (life s))

/-- The use level is marked: from the stress axis at the use stress up to the line, and from there to the stress `left`. -/
def LSFigure.Marks (P : LSFigure) (swap : Bool) (life : ℝ → ℝ) (use : Option ℝ) (left : ℝ) : Prop :=
  match use with
  | none => P.use = none
  | some u => ∃ far, far < 0 ∧ P.use = some [position swap u far, position swap u (life u), position swap left (life u)]

/-- Inside the limits of the stress axes. -/
def LSFigure3.Visible (P : LSFigure3) (a b : ℝ) : Prop := P.xlim.1 ≤ a ∧ a ≤ P.xlim.2 ∧ P.ylim.1 ≤ b ∧ b ≤ P.ylim.2

/-- The figure of a dual-stress model. -/
structure LSFigure3.Shows (P : LSFigure3) (life : ℝ × ℝ → ℝ) (stresses : List (ℝ × ℝ)) (data : List (List ℝ))
    (use : Option (ℝ × ℝ)) : Prop where
  failures : List.Forall₂ (fun (i : (ℝ × ℝ) × List ℝ) pts => pts = i.2.map fun t => (i.1.1, i.1.2, t)) (stresses.zip data) P.failures
  visible : (∀ s ∈ stresses, P.Visible s.1 s.2) ∧ ∀ u, use = some u → P.Visible u.1 u.2
  on_surface : ∀ q ∈ P.surface, q.2.2 = life (q.1, q.2.1)
  fine : ∀ a b, P.Visible a b → ∃ q ∈ P.surface, |q.1 - a| ≤ (P.xlim.2 - P.xlim.1) / 49 ∧ |q.2.1 - b| ≤ (P.ylim.2 - P.ylim.1) / 49
  filled : ∀ q ∈ P.surface, P.Visible q.1 q.2.1
  window : ∃ lo hi lo' hi', Extremes ((stresses ++ use.toList).map Prod.fst) lo hi ∧
    Extremes ((stresses ++ use.toList).map Prod.snd) lo' hi' ∧ Widened lo hi P.xlim ∧ Widened lo' hi' P.ylim
  marked : P.use = use.map fun u => (u.1, u.2, life u)

/-- The models with one stress in which life does not increase with stress. -/
def Decreasing : Spec.LifeStress → Prop
  | .exponential a _ => 0 ≤ a
  | .eyring a _ => 0 ≤ a
  | .power _ n => n ≤ 0
  | _ => False

end Reliability.ALTPlots

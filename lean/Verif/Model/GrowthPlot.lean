import Verif.Model.Repairable
import Verif.Model.Utils
import Mathlib.Analysis.SpecialFunctions.Log.Base

/-!
# Model of the plot of reliability_growth (Repairable_systems.py:188-275)

The canvas is what is drawn, the legend and the limits of the axes. Colours, markers and tick formats are left out. A label that matplotlib hides
(one that begins with an underscore) is not considered; `label=None` makes an artist that is not in the legend. For the rank-deficient Duane
case (not in the model of `reliability_growth` either) the result is `none`.
-/

namespace Reliability.Repairable

open Reliability

/-- A line with its label; `none` is not in the legend. -/
structure GLine where
  xs : List ℝ
  ys : List (Ext ℝ)
  label : Option String

/-- The axes with what is drawn on them; `legend` is the texts in the legend, if there is one. -/
structure GCanvas where
  xlim : ℝ × ℝ
  ylim : ℝ × ℝ
  log : Bool
  lines : List GLine
  points : List (List ℝ × List ℝ)
  legend : Option (List String)
  title : String

/-- `x ** p` of numpy for `x ≥ 0`. -/
noncomputable def npPow (x p : ℝ) : Ext ℝ :=
  if x = 0 then if p = 0 then .fin 1 else if p < 0 then .pinf else .fin 0 else .fin (x ^ p)

/-- `b * y` for `b > 0`. -/
noncomputable def scale (b : ℝ) : Ext ℝ → Ext ℝ
  | .fin y => .fin (b * y)
  | .pinf => .pinf
  | .ninf => .ninf
  | .nan => .nan

/-- `1 / y` for `y ≥ 0`. -/
noncomputable def recip : Ext ℝ → Ext ℝ
  | .fin y => if y = 0 then .pinf else .fin (1 / y)
  | .pinf => .fin 0
  | .ninf => .fin 0
  | .nan => .nan

/-- `MTBF` on the x-array (Repairable_systems.py:196-199). -/
noncomputable def mtbfCurve (m : Crow ⊕ Duane) (x : ℝ) : Ext ℝ :=
  match m with
  | .inl r => recip (scale r.Lambda (npPow x (r.Beta - 1)))
  | .inr r => scale r.b (npPow x r.Alpha)

/-- `self.time_to_target`. -/
def targetTime (m : Crow ⊕ Duane) : Option ℝ :=
  match m with
  | .inl r => r.time_to_target
  | .inr r => r.time_to_target

/-- The default label of the curve (Repairable_systems.py:213-216). -/
def curveLabel (m : Crow ⊕ Duane) : String :=
  match m with
  | .inl _ => "Crow-AMSAA reliability growth curve"
  | .inr _ => "Duane reliability growth curve"

/-- `10 ** np.ceil(np.log10(x))`. -/
noncomputable def decadeUp (x : ℝ) : ℝ := (10 : ℝ) ^ (⌈Real.logb 10 x⌉ : ℤ)

/-- `10 ** np.floor(np.log10(x))`. -/
noncomputable def decadeDown (x : ℝ) : ℝ := (10 : ℝ) ^ (⌊Real.logb 10 x⌋ : ℤ)

/-- `xmax` (Repairable_systems.py:190, 193). -/
noncomputable def growthXmax (log_scale : Bool) (max_time t_target : ℝ) : ℝ :=
  if log_scale then decadeUp (max max_time t_target) else max max_time t_target * 2

/-- `x_array` (Repairable_systems.py:191, 194). -/
noncomputable def growthX (log_scale : Bool) (xmax : ℝ) : Except Err (List ℝ) :=
  if log_scale then Utils.geomspace (1 / 100000) (xmax * 100) 1000 else .ok (Np.linspace 0 xmax 1000)

/-- `target_label` (Repairable_systems.py:229-240). -/
def targetLabel (legend : Option (List String)) : Option String :=
  match legend with
  | some texts => if "Target MTBF" ∈ texts then none else some "Target MTBF"
  | none => some "Target MTBF"

/-- The red line (Repairable_systems.py:224-248). -/
noncomputable def targetLines (target : Option ℝ) (t_target : ℝ) (legend : Option (List String)) : List GLine :=
  match target with
  | none => []
  | some M => [⟨[0, t_target, t_target], [.fin M, .fin M, .fin 0], targetLabel legend⟩]

/-- The limits (Repairable_systems.py:254-273); the minima and maxima are those of `times` and `MTBF_c`. -/
noncomputable def growthLimits (log_scale : Bool) (tmin cmin cmax : ℝ) (target : Option ℝ) (xmax : ℝ) : (ℝ × ℝ) × (ℝ × ℝ) :=
  if log_scale then
    match target with
    | some M => ((decadeDown (min tmin M), xmax), (decadeDown cmin, decadeUp (max cmax M * (12 / 10))))
    | none => ((decadeDown tmin, xmax), (decadeDown cmin, decadeUp (cmax * (12 / 10))))
  else
    match target with
    | some M => ((0, xmax), (0, max cmax M * (12 / 10)))
    | none => ((0, xmax), (0, cmax * (12 / 10)))

/-- `min`, `max` of an array. -/
def minmax (l : List ℝ) : Except Err (ℝ × ℝ) :=
  match l.min?, l.max? with
  | some a, some b => .ok (a, b)
  | _, _ => .error .valueError

/-- The plot (Repairable_systems.py:188-275); `times` are sorted. -/
noncomputable def growthDraw (m : Crow ⊕ Duane) (times : List ℝ) (target : Option ℝ) (log_scale : Bool) (label : Option String) (c : GCanvas) :
    Except Err GCanvas := do
  let t ← minmax times
  let k ← minmax (mtbfC times)
  let t_target := (targetTime m).getD 0
  let xmax := growthXmax log_scale t.2 t_target
  let x_array ← growthX log_scale xmax
  let lines := c.lines ++ [⟨x_array, x_array.map (mtbfCurve m), some (label.getD (curveLabel m))⟩] ++ targetLines target t_target c.legend
  let lim := growthLimits log_scale t.1 k.1 k.2 target xmax
  .ok { xlim := lim.1, ylim := lim.2, log := log_scale || c.log, lines := lines, points := c.points ++ [(times, mtbfC times)]
        legend := some (lines.filterMap GLine.label), title := "MTBF vs Time" }

/-- The fitted model; `none` is the rank-deficient case. -/
def fitted : Crow ⊕ Option Duane → Option (Crow ⊕ Duane)
  | .inl r => some (.inl r)
  | .inr (some r) => some (.inr r)
  | .inr none => none

/-- The plot of the fitted model, if there is one. -/
noncomputable def growthDraw? (r : Crow ⊕ Option Duane) (times : List ℝ) (target : Option ℝ) (log_scale : Bool) (label : Option String) (c : GCanvas) :
    Except Err (Option GCanvas) :=
  match fitted r with
  | none => .ok none
  | some m => (growthDraw m times target log_scale label c).map some

/-- `reliability_growth` with its plot (Repairable_systems.py:90-275). -/
noncomputable def growthPlot (times : List ℝ) (target : Option ℝ) (upperName : String) (show_plot log_scale : Bool) (label : Option String)
    (c : GCanvas) : Except Err ((Crow ⊕ Option Duane) × Option GCanvas) := do
  let r ← reliabilityGrowth times target upperName
  if show_plot then do
    let c' ← growthDraw? r (Np.sort times) target log_scale label c
    .ok (r, c')
  else .ok (r, some c)

end Reliability.Repairable

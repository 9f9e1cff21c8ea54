import Verif.Model.ALTClasses
import Verif.Model.ProbPaper

/-!
# The figures of the ALT fitters

Model of /repo/reliability/Utils.py:6364-6683 (`make_fitted_dist_params_for_ALT_probplots`, `ALT_prob_plot`) and 6686-6969
(`life_stress_plot`), and of the calls at the end of the 24 classes (e.g. ALT_fitters.py:3198-3220).  Numbers are exact reals; the
colour cycle of matplotlib is the number of its colours (10 by default); labels, legends, titles, ticks and the choice of the axes
are not represented.
-/

namespace Reliability.ALTPlots

open Reliability Reliability.InputCheck Reliability.FitGlue Reliability.ALTGlue
open Reliability.ProbPaper (Plot Paper weibullPlot lognormalPlot plainPlot exponentialPlot xylims pointAt)
open Reliability.Distributions (Dist)
open Reliability.FunctionCI (Jac Two Expo)

/-! ## Probability plot -/

/-- One stress: its failures, its right censored times (`None` if nothing is censored), and scale and shape of the fit to these
data alone (`""` for a single failure). -/
structure Item (σ : Type) where
  stress : σ
  failures : List ℝ
  right_censored : Option (List ℝ)
  original : Option (ℝ × ℝ)

/-- `color_cycle[i]`. -/
def colour (colours i : ℕ) : Except Err ℕ := if i < colours then .ok i else .error .indexError

/-- `probplot(failures=f, right_censored=rc, __fitted_dist_params=make_fitted_dist_params_for_ALT_probplots(dist, [life, shape]))`
(Utils.py:6411-6438, 6501-6526, 6557-6570): the parameters are given, so no fit is made. -/
noncomputable def probplot (argsort : List ℝ → List ℕ) (dist : String) (life shape : ℝ) (f : List ℝ) (rc : Option (List ℝ)) :
    Except Err Plot :=
  let two : FunctionCI.CFam → ℝ → Two := fun fam a => ⟨fam, a, shape, 0, none, none, none, none⟩
  if dist = "Weibull" then
    weibullPlot argsort (fun _ => valueErr) (fun _ => valueErr) (.array f) (rcArg rc) (some (two .weibull life)) {}
  else if dist = "Lognormal" then
    lognormalPlot argsort (fun _ => valueErr) (fun _ => valueErr) (.array f) (rcArg rc)
      (some (two .lognormal (Real.log life))) {}
  else if dist = "Normal" then
    plainPlot .normal argsort (fun _ => valueErr) (.array f) (rcArg rc) (some (two .normal life)) {}
  else if dist = "Exponential" then
    exponentialPlot true argsort (fun _ => valueErr) (fun _ => valueErr) (.array f) (rcArg rc) (some ⟨1 / life, 0, none, none⟩) {}
  else valueErr

/-- `Distribution(a, b)`, or `Distribution(a)` for Exponential (the classes imported at Utils.py:6501-6521). -/
noncomputable def distribution (dist : String) (a b : ℝ) : Dist :=
  if dist = "Weibull" then Distributions.weibull a b 0
  else if dist = "Lognormal" then Distributions.lognormal a b 0
  else if dist = "Normal" then Distributions.normal a b
  else Distributions.exponential a 0

/-- The dashed line (Utils.py:6571-6581 = 6638-6648). -/
noncomputable def originalLine (dist : String) : Option (ℝ × ℝ) → Option Dist
  | none => none
  | some (scale, shape) => some (if dist = "Exponential" then distribution dist (1 / scale) 0 else distribution dist scale shape)

/-- `distribution_at_use_stress` (Utils.py:6584-6599 = 6651-6664). -/
noncomputable def useLine (dist : String) (life shape : ℝ) : Dist :=
  if dist = "Weibull" ∨ dist = "Normal" then distribution dist life shape
  else if dist = "Lognormal" then distribution dist (Real.log life) shape
  else distribution dist (1 / life) 0

/-- What is drawn for one stress, with the index of its colour. -/
structure Group (σ : Type) where
  stress : σ
  scatter : Option (List ℝ × List ℝ)
  line : Option Dist
  original : Option Dist
  colour : ℕ

/-- The loop over the stresses (Utils.py:6544-6581 = 6618-6648): what is drawn, and the two arrays of plotting positions.  The
limits set by each probability plot are replaced at the end. -/
noncomputable def groups {σ : Type} (argsort : List ℝ → List ℕ) (colours : ℕ) (dist : String) (life : σ → ℝ) (shape : ℝ) :
    ℕ → List (Item σ) → Except Err (List (Group σ) × List ℝ × List ℝ)
  | _, [] => .ok ([], [], [])
  | i, it :: its => do
    let xy ← PP.plottingPositions argsort it.failures it.right_censored none false
    let c ← colour colours i
    let p ← probplot argsort dist (life it.stress) shape it.failures it.right_censored
    let rest ← groups argsort colours dist life shape (i + 1) its
    pure (⟨it.stress, p.scatter, p.line, originalLine dist it.original, c⟩ :: rest.1, xy.1 ++ rest.2.1, xy.2 ++ rest.2.2)

/-- The figure: the groups, the use level line with the index of its colour, the paper and the limits. -/
structure Figure (σ : Type) where
  groups : List (Group σ)
  use : Option (Dist × ℕ)
  paper : Paper
  limits : (ℝ × ℝ) × (ℝ × ℝ)

/-- The paper (Utils.py:6675-6677). -/
def paperOf (dist : String) : Paper :=
  if dist = "Lognormal" then .lognormal else if dist = "Normal" then .normal else .weibull

/-- `ALT_prob_plot(...)` with `ax=True` (Utils.py:6441-6683).  The parallel lists of the arguments are one list of items.
`quantile` of a number strictly between 0 and 1 is scipy's `ppf`. -/
noncomputable def altProbPlot {σ : Type} (argsort : List ℝ → List ℕ) (colours : ℕ) (dist model : String) (items : List (Item σ))
    (life : σ → ℝ) (shape : ℝ) (use : Option σ) : Except Err (Figure σ) :=
  if ¬ dist ∈ ["Weibull", "Lognormal", "Normal", "Exponential"] then valueErr
  else if ¬ model ∈ ["Dual_Exponential", "Power_Exponential", "Dual_Power", "Exponential", "Eyring", "Power"] then valueErr
  else do
    let r ← groups argsort colours dist life shape 0 items
    match use with
    | none =>
      let L ← xylims (paperOf dist) r.2.1 r.2.2 (1 / 10)
      pure ⟨r.1, none, paperOf dist, L⟩
    | some u =>
      let d := useLine dist (life u) shape
      let c ← colour colours items.length
      let m ← ProbPaper.range r.2.2
      let L ← xylims (paperOf dist) (r.2.1 ++ [d.sp.ppf m.1, d.sp.ppf m.2]) r.2.2 (1 / 10)
      pure ⟨r.1, some (d, c), paperOf dist, L⟩

/-- The items that a class passes: stresses, groups and original fits side by side (e.g. ALT_fitters.py:2948-2967, 3198-3210). -/
def itemsOf {σ : Type} : List σ → List (List ℝ × Option (List ℝ)) → List (Option (ℝ × ℝ)) → List (Item σ)
  | s :: ss, g :: gs, o :: os => ⟨s, g.1, g.2, o⟩ :: itemsOf ss gs os
  | _, _, _ => []

/-- `self.probability_plot` of a fitted object `res` of the class: the data as the input check returns them, the fits of the
groups, and the estimates in `res` (e.g. ALT_fitters.py:3198-3210). -/
noncomputable def probPlotOf {σ κ : Type} [LinearOrder κ] (c : Cls σ) (k : Kind σ κ) (argsort : List ℝ → List ℕ) (J : Jac)
    (num : ℕ → Option ℝ → Num2) (colours : ℕ) (x : ALTArgs) (res : ALTRes σ) : Except Err (Figure σ) := do
  let inp ← altCheck k.key c.dist c.model x.failures x.failure_stress_1 x.failure_stress_2 x.right_censored
    x.right_censored_stress_1 x.right_censored_stress_2 x.CI x.use_level_stress x.optimizer
  let gs ← groupFits c.dist argsort J num 0 (groupsOf inp.failure_groups inp.right_censored_groups)
  let p : Fin c.n → ℝ := fun i => pointAt res.rows i
  altProbPlot argsort colours c.dist c.model
    (itemsOf (inp.stresses_for_groups.map k.stress) (groupsOf inp.failure_groups inp.right_censored_groups) gs)
    (c.life p) (c.shape p) (k.use inp.use_level_stress)

/-! ## Life-stress plot -/

/-- The argument `ax`: a Boolean, an axes object, or a string. -/
inductive AxArg where
  | bool (b : Bool)
  | axes
  | str (s : String)

/-- The spellings of Utils.py:6728. -/
def swapNames : List String :=
  ["swap", "swapped", "flip", "flipped", "SWAP", "SWAPPED", "FLIP", "FLIPPED", "Swap", "Swapped", "Flip", "Flipped"]

/-- Whether a figure is made, and whether its axes are swapped (Utils.py:6728-6734). -/
def axOf : AxArg → Option Bool
  | .bool true => some false
  | .axes => some false
  | .bool false => none
  | .str s => if s ∈ swapNames then some true else none

/-- `min(l)`, `max(l)`; ValueError for an empty sequence. -/
noncomputable def minMax (l : List ℝ) : Except Err (ℝ × ℝ) := ProbPaper.range l

/-- The lower and upper end: a fifth of the logarithmic range is added on both sides (Utils.py:6806-6820, 6898-6901). -/
noncomputable def logWindow (lo hi : ℝ) : ℝ × ℝ :=
  (Real.exp (Real.log lo - (Real.log hi - Real.log lo) * 0.2), Real.exp (Real.log hi + (Real.log hi - Real.log lo) * 0.2))

/-- Exchange the coordinates when the axes are swapped. -/
def place (swap : Bool) (stress life : ℝ) : ℝ × ℝ := if swap then (life, stress) else (stress, life)

/-- The single-stress figure: the line of the life-stress model, the failures of each stress, the polyline that marks the use
level, and the limits of the axes. -/
structure LSFigure where
  line : List (ℝ × ℝ)
  failures : List (List (ℝ × ℝ))
  use : Option (List (ℝ × ℝ))
  xlim : ℝ × ℝ
  ylim : ℝ × ℝ

/-- `life_stress_plot` for one stress (Utils.py:6728-6784, 6890-6969).  `left` is `plt.xlim()[0]` at the time the use level is
drawn.  The point of the line at stress 0 is not represented (a division by zero for most models).  In the swapped figure too
the last point of the marker gets `plt.xlim()[0]`, there as its height. -/
noncomputable def lifeStressPlot (colours : ℕ) (dist model : String) (life : ℝ → ℝ) (fg : List (List ℝ)) (stresses : List ℝ)
    (use : Option ℝ) (left : ℝ) (ax : AxArg) : Except Err (Option LSFigure) :=
  match axOf ax with
  | none => .ok none
  | some swap =>
    if ¬ model ∈ ["Exponential", "Eyring", "Power"] then valueErr
    else if ¬ dist ∈ ["Weibull", "Lognormal", "Normal", "Exponential"] then valueErr
    else do
      let m ← minMax stresses
      let lo := use.elim m.1 fun u => min m.1 u
      let w := logWindow lo m.2
      let array := (Np.linspace 0 (w.2 * 10) 1000).tail
      let _ ← (if stresses.length ≤ colours then .ok () else .error .indexError : Except Err Unit)
      let _ ← (if use.isSome ∧ colours ≤ stresses.length then .error .indexError else .ok () : Except Err Unit)
      let f ← minMax fg.flatten
      let marker := use.map fun u =>
        if swap then [(-1e20, u), (life u, u), (life u, left)] else [(u, -1e20), (u, life u), (left, life u)]
      let top := 1.2 * max (life w.1) f.2
      let scatter := List.zipWith (fun s l => l.map (place swap s)) stresses fg
      pure (some ⟨array.map fun s => place swap s (life s), scatter, marker,
        if swap then (0, top) else w, if swap then w else (0, top)⟩)

/-- The dual-stress figure: the surface, the failures of each stress, the use level point, and the limits of the two stress
axes. -/
structure LSFigure3 where
  surface : List (ℝ × ℝ × ℝ)
  failures : List (List (ℝ × ℝ × ℝ))
  use : Option (ℝ × ℝ × ℝ)
  xlim : ℝ × ℝ
  ylim : ℝ × ℝ

/-- `life_stress_plot` for two stresses (Utils.py:6786-6888); swapping has no effect. -/
noncomputable def lifeStressPlot2 (colours : ℕ) (dist model : String) (life : ℝ × ℝ → ℝ) (fg : List (List ℝ))
    (stresses : List (ℝ × ℝ)) (use : Option (ℝ × ℝ)) (ax : AxArg) : Except Err (Option LSFigure3) :=
  match axOf ax with
  | none => .ok none
  | some _ =>
    if ¬ model ∈ ["Dual_Exponential", "Power_Exponential", "Dual_Power"] then valueErr
    else if ¬ dist ∈ ["Weibull", "Lognormal", "Normal", "Exponential"] then valueErr
    else do
      let all := stresses ++ use.toList
      let m1 ← minMax (all.map Prod.fst)
      let m2 ← minMax (all.map Prod.snd)
      let w1 := logWindow m1.1 m1.2
      let w2 := logWindow m2.1 m2.2
      let s1 := Np.linspace w1.1 w1.2 50
      let s2 := Np.linspace w2.1 w2.2 50
      let surface := s2.flatMap fun b => s1.map fun a => (a, b, life (a, b))
      let _ ← (if stresses.length ≤ colours then .ok () else .error .indexError : Except Err Unit)
      let _ ← (if use.isSome ∧ colours ≤ stresses.length then .error .indexError else .ok () : Except Err Unit)
      let x ← minMax s1
      let y ← minMax s2
      let scatter := List.zipWith (fun s l => l.map fun t => (s.1, s.2, t)) stresses fg
      pure (some ⟨surface, scatter, use.map fun u => (u.1, u.2, life u), x, y⟩)

/-- `self.life_stress_plot` of a fitted object `res` of a single-stress class (e.g. ALT_fitters.py:3212-3220). -/
noncomputable def lifeStressPlotOf (c : Cls ℝ) (colours : ℕ) (x : ALTArgs) (res : ALTRes ℝ) (left : ℝ) (ax : AxArg) :
    Except Err (Option LSFigure) := do
  let inp ← altCheck singleKind.key c.dist c.model x.failures x.failure_stress_1 x.failure_stress_2 x.right_censored
    x.right_censored_stress_1 x.right_censored_stress_2 x.CI x.use_level_stress x.optimizer
  lifeStressPlot colours c.dist c.model (c.life fun i => pointAt res.rows i) inp.failure_groups
    (inp.stresses_for_groups.map singleKind.stress) (singleKind.use inp.use_level_stress) left ax

/-- `self.life_stress_plot` of a fitted object `res` of a dual-stress class. -/
noncomputable def lifeStressPlotOf2 {κ : Type} [LinearOrder κ] (c : Cls (ℝ × ℝ)) (k : Kind (ℝ × ℝ) κ) (colours : ℕ) (x : ALTArgs)
    (res : ALTRes (ℝ × ℝ)) (ax : AxArg) : Except Err (Option LSFigure3) := do
  let inp ← altCheck k.key c.dist c.model x.failures x.failure_stress_1 x.failure_stress_2 x.right_censored
    x.right_censored_stress_1 x.right_censored_stress_2 x.CI x.use_level_stress x.optimizer
  lifeStressPlot2 colours c.dist c.model (c.life fun i => pointAt res.rows i) inp.failure_groups
    (inp.stresses_for_groups.map k.stress) (k.use inp.use_level_stress) ax

end Reliability.ALTPlots

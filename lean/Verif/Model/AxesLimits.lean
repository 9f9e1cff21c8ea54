import Verif.Model.Basic
import Mathlib.Data.EReal.Operations
import Mathlib.Data.EReal.Inv

/-!
# The limits of the axes of a plot, and the conversion between data and axes coordinates

Model of `get_axes_limits`, `restore_axes_limits` (/repo/reliability/Utils.py:322-514) and `xy_transform` (Utils.py:823-914).
The five functions of every distribution (PDF, CDF, SF, HF, CHF) read the limits of the current axes, draw, and then set the
limits.  Drawing may change the limits (autoscaling); what it changes them to is not modelled, so the axes after drawing are
an argument.  Numbers are exact reals; the values of a curve may be infinite, but not `nan`.
-/

namespace Reliability.AxesLimits

/-- The state of matplotlib's current axes that is read and written. `widen` is what matplotlib sets if both limits are equal
(`Locator.nonsingular`). -/
structure Axes where
  xlim : ℝ × ℝ
  ylim : ℝ × ℝ
  xlinear : Bool
  ylinear : Bool
  widen : ℝ → ℝ × ℝ

/-- What `restore_axes_limits` reads from the distribution. -/
structure Dist where
  name : String
  gamma : ℝ
  quantile : ℝ → ℝ
  pdf0 : EReal
  hf0 : EReal

/-- The list that `get_axes_limits` returns. -/
structure Limits where
  xlims : ℝ × ℝ
  ylims : ℝ × ℝ
  usePrev : Bool

/-- `get_axes_limits` (Utils.py:344-354). -/
noncomputable def getAxesLimits (a : Axes) : Limits :=
  { xlims := a.xlim, ylims := a.ylim, usePrev := !decide (a.xlim = (0, 1) ∧ a.ylim = (0, 1)) }

/-- `plt.xlim(lower, upper)` on one of the axes. -/
noncomputable def setLim (widen : ℝ → ℝ × ℝ) (lo hi : ℝ) : ℝ × ℝ := if lo = hi then widen lo else (lo, hi)

/-- `min(X)`; a ValueError if there is nothing. -/
def minimum {α : Type} [LinearOrder α] : List α → Except Err α
  | [] => .error .valueError
  | x :: l => .ok (l.foldl min x)

/-- `max(X)`. -/
def maximum {α : Type} [LinearOrder α] : List α → Except Err α
  | [] => .error .valueError
  | x :: l => .ok (l.foldl max x)

/-- The left limit without xvals (Utils.py:399-424). -/
noncomputable def ownLower (d : Dist) (X : List ℝ) : Option ℝ → Except Err ℝ
  | none =>
    if d.name ∈ ["Weibull", "Gamma", "Loglogistic", "Exponential", "Lognormal"] then
      if d.gamma = 0 then .ok 0
      else .ok (max 0 (d.quantile 0.001 - (d.quantile 0.999 - d.quantile 0.001) * 0.1))
    else if d.name ∈ ["Normal", "Gumbel"] then .ok (d.quantile 0.001)
    else if d.name = "Beta" then .ok 0
    else if d.name ∈ ["Mixture", "Competing risks"] then minimum X
    else .error .valueError
  | some xmin => .ok xmin

/-- The right limit without xvals (Utils.py:426-432). -/
noncomputable def ownUpper (d : Dist) : Option ℝ → ℝ
  | none => if d.name = "Beta" then 1 else d.quantile 0.999
  | some xmax => xmax

/-- The limits without regard to previous ones (Utils.py:398-442). -/
noncomputable def ownX (d : Dist) (X : List ℝ) (xvals : Option (List ℝ)) (xmin xmax : Option ℝ) : Except Err (ℝ × ℝ) :=
  match xvals with
  | none => do
    let lo ← ownLower d X xmin
    let hi := ownUpper d xmax
    if lo > hi then .ok (hi, lo) else .ok (lo, hi)
  | some v => do
    let lo ← minimum v
    let hi ← maximum v
    .ok (lo, hi)

/-- `np.isfinite`, for values that are not `nan`. -/
def Finite (y : EReal) : Prop := y ≠ ⊤ ∧ y ≠ ⊥

noncomputable instance (y : EReal) : Decidable (Finite y) := Classical.propDecidable _

/-- `np.where(X >= x)[0]`: the first index, or `len(X) - 1` if there is none (Utils.py:480-484, 487-492). -/
noncomputable def firstFrom (X : List ℝ) (x : ℝ) : ℕ :=
  let i := X.findIdx (fun t => decide (x ≤ t))
  if i = X.length then X.length - 1 else i

/-- `Y[i]` for a natural index. -/
def item (Y : List EReal) (i : ℕ) : Except Err EReal :=
  match Y[i]? with
  | some y => .ok y
  | none => .error .indexError

/-- `Y[-1]`. -/
def last (Y : List EReal) : Except Err EReal :=
  match Y.getLast? with
  | some y => .ok y
  | none => .error .indexError

/-- `Y[i - 1]`: index 0 wraps around to the last value. -/
def before (Y : List EReal) (i : ℕ) : Except Err EReal := if i = 0 then last Y else item Y (i - 1)

/-- `top_spacing` (Utils.py:453). -/
noncomputable def topSpacing : EReal := ((1.1 : ℝ) : EReal)

/-- The upper limit for a PDF (Utils.py:454-464). -/
noncomputable def upperPDF (d : Dist) (Y : List EReal) : Except Err EReal := do
  let l ← last Y
  if ¬ Finite d.pdf0 ∧ ¬ Finite l then do
    let m ← minimum Y
    .ok (m * 5)
  else if ¬ Finite l ∨ d.pdf0 = ⊤ ∨ d.pdf0 > 10 then maximum Y
  else do
    let m ← maximum Y
    .ok (m * topSpacing)

/-- The upper limit for a HF (Utils.py:467-484); `right` is `plt.xlim()[1]`. -/
noncomputable def upperHF (d : Dist) (X : List ℝ) (Y : List EReal) (right : ℝ) : Except Err EReal := do
  let l ← last Y
  if ¬ Finite d.hf0 ∧ ¬ Finite l then do
    let m ← minimum Y
    .ok (m * 5)
  else if ¬ Finite l ∨ d.hf0 = ⊤ ∨ d.hf0 > 10 then maximum Y
  else do
    let m ← maximum Y
    if m > l then .ok (m * topSpacing)
    else do
      let y ← item Y (firstFrom X right)
      .ok (y * topSpacing)

/-- The upper limit for a CHF (Utils.py:485-496); `right` is the right limit without regard to previous ones. -/
noncomputable def upperCHF (X : List ℝ) (Y : List EReal) (right : ℝ) : Except Err EReal := do
  let i := firstFrom X right
  let y ← item Y i
  if Finite y then .ok (y * topSpacing)
  else do
    let z ← before Y i
    .ok (z * topSpacing)

/-- The upper limit of the vertical axis without regard to previous ones (Utils.py:453-498). -/
noncomputable def ownY (d : Dist) (func : String) (X : List ℝ) (Y : List EReal) (ownRight right : ℝ) : Except Err EReal :=
  if func ∈ ["pdf", "PDF"] then upperPDF d Y
  else if func ∈ ["cdf", "CDF", "SF", "sf"] then .ok topSpacing
  else if func ∈ ["hf", "HF"] then upperHF d X Y right
  else if func ∈ ["chf", "CHF"] then upperCHF X Y ownRight
  else .error .valueError

/-- The horizontal limits after the x part (Utils.py:444-451). -/
noncomputable def newX (l : Limits) (a : Axes) (X : List ℝ) (own : ℝ × ℝ) : ℝ × ℝ :=
  let lo := if l.usePrev then min own.1 l.xlims.1 else own.1
  let hi := if l.usePrev then max own.2 l.xlims.2 else own.2
  if a.xlinear ∧ 1 < X.length then setLim a.widen lo hi else a.xlim

/-- The vertical limits after the y part (Utils.py:499-514). -/
noncomputable def newY (l : Limits) (a : Axes) (Y : List EReal) (upper : EReal) : ℝ × ℝ :=
  let lo : ℝ := if l.usePrev then min 0 l.ylims.1 else 0
  let hi : EReal := if l.usePrev then max upper l.ylims.2 else upper
  if a.ylinear ∧ 1 < Y.length then
    if (lo : EReal) ≠ hi ∧ Finite hi then (lo, hi.toReal) else setLim a.widen lo a.ylim.2
  else a.ylim

/-- `restore_axes_limits` (Utils.py:357-514). `a` are the axes after drawing. -/
noncomputable def restoreAxesLimits (l : Limits) (a : Axes) (d : Dist) (func : String) (X : List ℝ) (Y : List EReal)
    (xvals : Option (List ℝ)) (xmin xmax : Option ℝ) : Except Err Axes := do
  let own ← ownX d X xvals xmin xmax
  let nx := newX l a X own
  let up ← ownY d func X Y own.2 nx.2
  .ok { a with xlim := nx, ylim := newY l a Y up }

/-- One call of PDF, CDF, SF, HF or CHF with a plot: what is drawn, and the limits after drawing. -/
structure Request where
  dist : Dist
  func : String
  X : List ℝ
  Y : List EReal
  xvals : Option (List ℝ)
  xmin : Option ℝ
  xmax : Option ℝ
  drawn : (ℝ × ℝ) × (ℝ × ℝ)

/-- `limits = get_axes_limits(); plt.plot(X, Y); restore_axes_limits(limits, ...)` (as in Distributions.py:398-420 and the other
functions of the distributions). -/
noncomputable def plot (a : Axes) (r : Request) : Except Err Axes :=
  restoreAxesLimits (getAxesLimits a) { a with xlim := r.drawn.1, ylim := r.drawn.2 } r.dist r.func r.X r.Y r.xvals r.xmin r.xmax

/-- Several calls one after the other, on the same axes. -/
noncomputable def plots (a : Axes) : List Request → Except Err Axes
  | [] => .ok a
  | r :: rs => do
    let b ← plot a r
    plots b rs

/-! ## xy_transform -/

/-- matplotlib's transforms of one of the two axes: from data and from axes coordinates to pixels, with their inverses. -/
structure Transforms where
  data : ℝ → ℝ
  dataInv : ℝ → ℝ
  axes : ℝ → ℝ
  axesInv : ℝ → ℝ

/-- The argument `value`: a number, a list or array, or something else. -/
inductive Value where
  | number (v : ℝ)
  | many (l : List ℝ)
  | other

/-- `xy_transform` (Utils.py:850-914).  `x`, `y` are the transforms of the two axes: matplotlib's transforms of the rectangular
axes are applied to both coordinates independently.  In the last branch the code transforms `(1, value)` for every item instead
of `(1, item)`; numpy refuses that pair (a number and a sequence) with a ValueError. -/
noncomputable def xyTransform (x y : Transforms) (value : Value) (direction axis : String) : Except Err Value :=
  if direction ∉ ["reverse", "inverse", "inv", "rev", "forward", "fwd"] then .error .valueError
  else if axis ∉ ["X", "x", "Y", "y"] then .error .valueError
  else if direction ∈ ["reverse", "inverse", "inv", "rev"] then
    match value with
    | .number v => if axis = "x" then .ok (.number (x.dataInv (x.axes v))) else .ok (.number (y.dataInv (y.axes v)))
    | .many l => if axis = "x" then .ok (.many (l.map fun v => x.dataInv (x.axes v)))
      else .ok (.many (l.map fun v => y.dataInv (y.axes v)))
    | .other => .error .valueError
  else
    match value with
    | .number v => if axis = "x" then .ok (.number (x.axesInv (x.data v))) else .ok (.number (y.axesInv (y.data v)))
    | .many l => if axis = "x" then .ok (.many (l.map fun v => x.axesInv (x.data v)))
      else if l = [] then .ok (.many []) else .error .valueError
    | .other => .error .valueError

end Reliability.AxesLimits

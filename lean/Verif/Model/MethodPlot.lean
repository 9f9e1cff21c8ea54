import Verif.Model.Distributions
import Verif.Model.Utils
import Verif.Model.AxesLimits

/-!
# Model of a call of PDF, CDF, SF, HF, CHF of one of the eight distributions, with its plot (Distributions.py)

The distribution is not fitted (no confidence bounds; those are property C140). Values are reals: infinite values are not represented.
matplotlib: `auto` are the limits that drawing sets by itself; fonts and margins are left out. An error after the curve is drawn
leaves it on the canvas; the model reports the error only.
-/

namespace Reliability.MethodPlot

open Reliability

/-- The five methods. -/
inductive Func where
  | PDF | CDF | SF | HF | CHF

/-- The argument `func` of `restore_axes_limits`. -/
def Func.name : Func → String
  | .PDF => "PDF"
  | .CDF => "CDF"
  | .SF => "SF"
  | .HF => "HF"
  | .CHF => "CHF"

/-- `plt.ylabel` (Distributions.py:402, 514, 637, 739, 841 and alike). -/
def Func.ylabel : Func → String
  | .PDF => "Probability density"
  | .CDF => "Fraction failing"
  | .SF => "Fraction surviving"
  | .HF => "Hazard"
  | .CHF => "Cumulative hazard"

/-- What the title calls the function (Distributions.py:403-408 and alike). -/
def Func.heading : Func → String
  | .PDF => "Probability Density Function"
  | .CDF => "Cumulative Distribution Function"
  | .SF => "Survival Function"
  | .HF => "Hazard Function"
  | .CHF => "Cumulative Hazard Function"

/-- What a method reads from the distribution object: scipy's functions, what `restore_axes_limits` and `generate_X_array` read, and
the texts. -/
structure Obj where
  dist : Distributions.Dist
  lim : AxesLimits.Dist
  x : Utils.XDist
  title : String
  param_title : String
  param_title_long : String

/-- A curve. -/
structure Line where
  label : Option String
  X : List ℝ
  Y : List ℝ

/-- The axes with what is drawn on them. -/
structure Canvas where
  axes : AxesLimits.Axes
  lines : List Line
  title : String
  ylabel : String

/-- What a method returns: a number or an array. -/
inductive Value where
  | single (y : ℝ)
  | array (Y : List ℝ)

/-- `unpack_single_arrays` of an array (Utils.py:7487-7494). -/
def unpack : List ℝ → Value
  | [y] => .single y
  | Y => .array Y

/-- `zeroise_below_gamma`, where the family uses it. -/
noncomputable def zeroised (d : Distributions.Dist) (X Y : List ℝ) : List ℝ :=
  match d.zeroAt with
  | some g => Distributions.zeroise X Y g
  | none => Y

/-- The values on an array `X` (Distributions.py:394, 500-503, 623-626, 733-736, 832-835 and alike). -/
noncomputable def values (d : Distributions.Dist) (X : List ℝ) : Func → List ℝ
  | .PDF => X.map d.sp.pdf
  | .CDF => X.map d.sp.cdf
  | .SF => X.map d.sp.sf
  | .HF => zeroised d X (X.map d.hf)
  | .CHF => zeroised d X (X.map d.chf)

/-- The value at a number (a Python int or float, which `distributions_input_checking` uses as it is). -/
noncomputable def valueAt (d : Distributions.Dist) (x : ℝ) : Func → Except Err ℝ
  | .PDF => .ok (d.sp.pdf x)
  | .CDF => Distributions.CDFscalar d x
  | .SF => Distributions.SFscalar d x
  | .HF => Distributions.HFscalar d x
  | .CHF => Distributions.CHFscalar d x

/-- The arguments of the call. -/
structure Call where
  xvals : Option Utils.XVals
  xmin : Option ℝ
  xmax : Option ℝ
  show_plot : Bool
  label : Option String

/-- What matplotlib's autoscaling makes of the limits when a curve is drawn. -/
abbrev Auto := AxesLimits.Axes → List ℝ → List ℝ → (ℝ × ℝ) × (ℝ × ℝ)

/-- `restore_axes_limits` with a number as `Y` (an unpacked array of one element): `Y[-1]`, `Y[idx]` are IndexErrors, and `len(Y)` is
a TypeError (which is only asked for on a linear scale; Utils.py:454-508). -/
noncomputable def restoreNumber (l : AxesLimits.Limits) (a : AxesLimits.Axes) (d : AxesLimits.Dist) (f : Func) (X : List ℝ)
    (xvals : Option (List ℝ)) (xmin xmax : Option ℝ) : Except Err AxesLimits.Axes := do
  let own ← AxesLimits.ownX d X xvals xmin xmax
  match f with
  | .CDF | .SF => if a.ylinear then .error .typeError else .ok { a with xlim := AxesLimits.newX l a X own }
  | _ => .error .indexError

/-- `restore_axes_limits` with the unpacked values `Y`. -/
noncomputable def restoreValue (l : AxesLimits.Limits) (a : AxesLimits.Axes) (d : AxesLimits.Dist) (f : Func) (X : List ℝ) (Y : Value)
    (xvals : Option (List ℝ)) (xmin xmax : Option ℝ) : Except Err AxesLimits.Axes :=
  match Y with
  | .single _ => restoreNumber l a d f X xvals xmin xmax
  | .array Y => AxesLimits.restoreAxesLimits l a d f.name X (Y.map Real.toEReal) xvals xmin xmax

/-- The `xvals` that `restore_axes_limits` is given: `min(xvals)` of a number is a TypeError (Utils.py:434). -/
def limitXvals : Option Utils.XVals → Except Err (Option (List ℝ))
  | none => .ok none
  | some (.list l) => .ok (some l)
  | some (.scalar _) => .error .typeError
  | some .other => .error .valueError

/-- `limits = get_axes_limits(); plt.plot(X, Y, **kwargs); ...; restore_axes_limits(limits, ...)` (Distributions.py:397-421 and
alike). -/
noncomputable def draw (auto : Auto) (d : AxesLimits.Dist) (f : Func) (title ylabel : String) (X Y : List ℝ) (r : Call) (c : Canvas) :
    Except Err Canvas := do
  let xv ← limitXvals r.xvals
  let b := auto c.axes X Y
  let axes ← restoreValue (AxesLimits.getAxesLimits c.axes) { c.axes with xlim := b.1, ylim := b.2 } d f X (unpack Y) xv r.xmin r.xmax
  .ok ⟨axes, c.lines ++ [⟨r.label, X, Y⟩], title, ylabel⟩

/-- `distributions_input_checking` and `generate_X_array`: the array of x-values (Utils.py:7120-7163, 516-740). -/
noncomputable def arrayOf (o : Obj) (r : Call) : Except Err (List ℝ) :=
  match r.xvals with
  | none => Utils.genX o.x r.xmin r.xmax
  | some v => Utils.genXvals o.dist.fam v

/-- The call is with a single number and no limits (Utils.py:7155-7161). -/
def Call.number (r : Call) : Option ℝ :=
  match r.xvals, r.xmin, r.xmax with
  | some (.scalar x), none, none => some x
  | _, _, _ => none

/-- The method (Distributions.py:390-423 PDF and alike). -/
noncomputable def method (auto : Auto) (o : Obj) (f : Func) (r : Call) (c : Canvas) : Except Err (Value × Canvas) :=
  match r.number with
  | some x => do
    let y ← valueAt o.dist x f
    .ok (.single y, c)
  | none => do
    let X ← arrayOf o r
    let Y := values o.dist X f
    if r.show_plot then do
      let c' ← draw auto o.lim f (o.title ++ "\n " ++ f.heading ++ " \n" ++ o.param_title) f.ylabel X Y r c
      .ok (unpack Y, c')
    else .ok (unpack Y, c)

end Reliability.MethodPlot

import Verif.Model.FunctionCI

/-!
# Model of the confidence bands that CDF, SF and CHF draw

Utils.py: the parts of the seven functions of `distribution_confidence_intervals` that run when `plot_CI` is True (then `q` and `x`
are None: Distributions.py passes neither), with `fill_no_autoscale` and `line_no_autoscale`. Exact real arithmetic; the colour and
the position of the title are left out.
-/

namespace Reliability.CIPlot

open Reliability Reliability.Distributions Reliability.Utils Reliability.FunctionCI

/-- The string `func`. -/
def funcName : Func → String
  | .CDF => "CDF"
  | .SF => "SF"
  | .CHF => "CHF"

/-- What is drawn: the two lines (invisible, for the crosshairs) and the filled polygon, as lists of points. -/
structure Band where
  lower : List (ℝ × ℝ)
  upper : List (ℝ × ℝ)
  polygon : List (ℝ × ℝ)

/-- The correction on the y-axis of a probability plot (Utils.py:2555-2557). -/
noncomputable def legal (functionScale : Bool) (y : ℝ) : ℝ :=
  let y1 := if functionScale = true ∧ 1 ≤ y then 9999999 / 10 ^ 7 else y
  if functionScale = true ∧ y1 ≤ 0 then 1 / 10 ^ 7 else y1

/-- `fill_no_autoscale(xlower, xupper, ylower, yupper)` (Utils.py:2550-2563): the polygon. -/
noncomputable def fillNoAutoscale (functionScale : Bool) (xlower xupper ylower yupper : List ℝ) : List (ℝ × ℝ) :=
  (xlower ++ xupper.reverse).zip ((ylower ++ yupper.reverse).map (legal functionScale))

/-- The three calls (Utils.py:2756-2770, 2978-2993, 3048-3062, and alike). -/
noncomputable def draw (functionScale : Bool) (xlower xupper ylower yupper : List ℝ) : Band :=
  ⟨xlower.zip ylower, xupper.zip yupper, fillNoAutoscale functionScale xlower xupper ylower yupper⟩

/-- Reliability to the function that is plotted (Utils.py:2745-2753, 2971-2976, 3040-3048, and alike). -/
noncomputable def toFunc (fn : Func) (R : ℝ) : ℝ :=
  match fn with
  | .CDF => 1 - R
  | .SF => R
  | .CHF => -Real.log R

/-- The reliabilities at which bounds on time are drawn: Utils.py:2937-2947 (Weibull), 3222-3240 (Gamma), 3516-3526 (Normal),
3791-3801 (Lognormal), 4073-4083 (Loglogistic), 4356-4366 (Gumbel). `chfEnd` is the last value of the curve, `self._chf[-1]`. -/
noncomputable def timeGrid (d : Two) (fn : Func) (chfEnd : ℝ) : Except Err (List ℝ) :=
  match fn with
  | .CHF =>
    match geomspace (1 / 10 ^ 8) (chfEnd * (3 / 2)) 200 with
    | .error e => .error e
    | .ok l => .ok (l.map fun h => Real.exp (-h))
  | _ =>
    match d.fam with
    | .weibull => transformSpaced "weibull" (1 / 10 ^ 8) (1 - 1 / 10 ^ 8) 200 none none
    | .gamma =>
      if d.b > 3 then transformSpaced "gamma" (1 / 10 ^ 8) (1 - 1 / 10 ^ 8) 200 none (some d.b)
      else .ok (Np.linspace (1 / 10 ^ 8) (1 - 1 / 10 ^ 8) 200)
    | .normal => transformSpaced "normal" (1 / 10 ^ 8) (1 - 1 / 10 ^ 8) 200 none none
    | .lognormal => transformSpaced "normal" (1 / 10 ^ 8) (1 - 1 / 10 ^ 8) 200 none none
    | .loglogistic => transformSpaced "loglogistic" (1 / 10 ^ 8) (1 - 1 / 10 ^ 8) 200 none none
    | .gumbel => transformSpaced "gumbel" (1 / 10 ^ 8) (1 - 1 / 10 ^ 8) 200 none none

/-- The times (less gamma) at which bounds on reliability are drawn: Utils.py:3005-3013 (Weibull), 3296-3304 (Gamma), 3580-3582
(Normal), 3858-3865 (Lognormal), 4141-4148 (Loglogistic), 4421-4423 (Gumbel). -/
noncomputable def relGrid (d : Two) : Except Err (List ℝ) :=
  let Q := (distOf d.fam d.a d.b d.gamma).sp.ppf
  match d.fam with
  | .normal => .ok (Np.linspace (Q (1 / 10 ^ 5)) (Q (99999 / 10 ^ 5)) 200)
  | .gumbel => .ok (Np.linspace (Q (1 / 10 ^ 5)) (Q (99999 / 10 ^ 5)) 200)
  | .gamma =>
    let t0 := if d.gamma = 0 then 1 / 10 ^ 4 else Q (1 / 10 ^ 7)
    .ok (Np.linspace (t0 - d.gamma) (Q (99999 / 10 ^ 5) - d.gamma) 200)
  | _ =>
    let t0 := Q (1 / 10 ^ 5) - d.gamma
    geomspace (if t0 ≤ 0 then 1 / 10 ^ 4 else t0) (Q (99999 / 10 ^ 5) - d.gamma) 200

/-- `if len(a) > 2 and len(b) > 2: a, b = no_reverse(a), no_reverse(b)` (Utils.py:2741-2743, 2967-2969, 3036-3038, and alike). -/
noncomputable def noReverse2 (a b : List ℝ) (CI_type : String) (fn : Func) : Except Err (List ℝ × List ℝ) :=
  if a.length > 2 ∧ b.length > 2 then
    match noReverse a CI_type (funcName fn), noReverse b CI_type (funcName fn) with
    | .ok a', .ok b' => .ok (a', b')
    | .error e, _ => .error e
    | _, .error e => .error e
  else .ok (a, b)

/-- Bounds on time (Utils.py:2935-2995, and alike). -/
noncomputable def timeBand (J : Jac) (functionScale : Bool) (d : Two) (sa sb c : ℝ) (fn : Func) (CI chfEnd : ℝ) : Except Err Band :=
  match timeGrid d fn chfEnd with
  | .error e => .error e
  | .ok Y =>
    let rows := Y.map (timeRow J d.fam d.a d.b d.gamma sa sb c (zOf CI))
    match cleanCI (rows.map (·.1)) (rows.map (·.2)) (Y.map .fin) (Y.map .fin) (funcName fn) false false with
    | .error e => .error e
    | .ok (tl, tu, _, Y) =>
      match noReverse2 (finVals tl) (finVals tu) "time" fn with
      | .error e => .error e
      | .ok (tl, tu) =>
        let yy := (finVals Y).map (toFunc fn)
        .ok (draw functionScale tl tu yy yy)

/-- Bounds on reliability (Utils.py:3001-3064, and alike). -/
noncomputable def relBand (J : Jac) (functionScale : Bool) (d : Two) (sa sb c : ℝ) (fn : Func) (CI : ℝ) : Except Err Band :=
  match relGrid d with
  | .error e => .error e
  | .ok t =>
    let rows := t.map (relRow J d.fam d.a d.b sa sb c (zOf CI))
    match cleanCI (t.map .fin) (t.map .fin) (rows.map (·.1)) (rows.map (·.2)) (funcName fn) false false with
    | .error e => .error e
    | .ok (_, t, Yl, Yu) =>
      match noReverse2 (finVals Yl) (finVals Yu) "reliability" fn with
      | .error e => .error e
      | .ok (Yl, Yu) =>
        let X := (finVals t).map fun s => if positive d.fam = true then s + d.gamma else s
        .ok (draw functionScale X X (Yl.map (toFunc fn)) (Yu.map (toFunc fn)))

/-- `exponential_CI` (Utils.py:2671-2770). -/
noncomputable def expoBand (functionScale : Bool) (d : Expo) (se : ℝ) (fn : Func) (CI : ℝ) : Except Err Band :=
  match expoGrid d with
  | .error e => .error e
  | .ok t =>
    match cleanCI (t.map .fin) (t.map .fin) (t.map fun s => .fin (Real.exp (-(lamLower d se (zOf CI)) * s)))
        (t.map fun s => .fin (Real.exp (-(lamUpper d se (zOf CI)) * s))) (funcName fn) false false with
    | .error e => .error e
    | .ok (_, t, Yl, Yu) =>
      match noReverse2 (finVals Yl) (finVals Yu) "None" fn with
      | .error e => .error e
      | .ok (Yl, Yu) =>
        let X := (finVals t).map fun s => s + d.gamma
        .ok (draw functionScale X X (Yl.map (toFunc fn)) (Yu.map (toFunc fn)))

/-- The band that a plot of CDF, SF or CHF gets; `none`: nothing is drawn (Utils.py:2672-2678, 2848-2854, and alike). `CI_type` is None,
"time" or "reliability"; a standard error of an Exponential distribution that is not finite removes all rows. -/
noncomputable def plotCI (J : Jac) (functionScale : Bool) (d : Fitted) (fn : Func) (plot_CI : Bool) (CI_type : Option String) (CI chfEnd : ℝ) :
    Except Err (Option Band) :=
  if plot_CI = false then .ok none
  else match d with
  | .expo d =>
    match d.SE, d.Z with
    | some (.fin se), some _ =>
      match expoBand functionScale d se fn CI with
      | .error e => .error e
      | .ok b => .ok (some b)
    | some _, some _ => .ok (some ⟨[], [], []⟩)
    | _, _ => .ok none
  | .two d =>
    match validParams d, CI_type with
    | some (sa, sb, c), some "time" =>
      match timeBand J functionScale d sa sb c fn CI chfEnd with
      | .error e => .error e
      | .ok b => .ok (some b)
    | some (sa, sb, c), some "reliability" =>
      match relBand J functionScale d sa sb c fn CI with
      | .error e => .error e
      | .ok b => .ok (some b)
    | _, _ => .ok none

end Reliability.CIPlot

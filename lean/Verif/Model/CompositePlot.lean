import Verif.Model.MethodPlot
import Verif.Model.Combined
import Verif.Model.CombinedInit
import Verif.Model.DistPlot

/-!
# Model of the methods PDF, CDF, SF, HF, CHF and plot of Competing_Risks_Model, Mixture_Model and DSZI_Model, with their plots

As in `Verif/Model/MethodPlot.lean` and `Verif/Model/DistPlot.lean`.
-/

namespace Reliability.CompositePlot

open Reliability Reliability.MethodPlot

/-! ## Competing_Risks_Model, Mixture_Model -/

/-- Which of the two models. -/
inductive Kind where
  | competing
  | mixture (proportions : List ℝ)

/-- The model: its components, and its `quantile` (property C41). -/
structure Composite where
  kind : Kind
  parts : List Obj
  quantile : ℝ → ℝ

/-- The components as distributions. -/
def Composite.dists (m : Composite) : List Distributions.Dist := m.parts.map Obj.dist

/-- `xmin001`, `xmax999` (Distributions.py:7708-7727, 8696-8712). -/
noncomputable def ends (ds : List Distributions.Dist) : ℝ × ℝ :=
  (ds.foldl (fun m d => min m (d.sp.ppf (1 / 1000))) (10 ^ 100), ds.foldl (fun m d => max m (d.sp.ppf (999 / 1000))) (-10 ^ 100))

/-- The lower end without `xmin` (Distributions.py:7788-7795, 8776-8783). -/
noncomputable def lowerLimit (e : ℝ × ℝ) : ℝ := if e.1 > 0 ∧ e.1 - (e.2 - e.1) * (3 / 10) < 0 then 0 else e.1

/-- The x-values (Distributions.py:7785-7811, 8773-8799). -/
noncomputable def grid (ds : List Distributions.Dist) (r : Call) : Except Err (List ℝ) :=
  match r.xvals with
  | some (.scalar x) => .ok [x]
  | some (.list l) => .ok l
  | some .other => .error .valueError
  | none =>
    let a := r.xmin.getD (lowerLimit (ends ds))
    let b := r.xmax.getD (ends ds).2
    .ok (Np.linspace (if a > b then b else a) (if a > b then a else b) 1000)

/-- `__combiner` (Distributions.py:7775-7848, 8762-8840). -/
noncomputable def arrays (m : Composite) (X : List ℝ) : Except Err Combined.Arrays :=
  match m.kind with
  | .competing => Combined.competing m.dists X
  | .mixture p => Combined.mixture m.dists p X

/-- The array of a function. -/
def curve (A : Combined.Arrays) : Func → List ℝ
  | .PDF => A.pdf
  | .CDF => A.cdf
  | .SF => A.sf
  | .HF => A.hf
  | .CHF => A.chf

/-- `Y[Y > 1e100] = 1e100` (Distributions.py:7880, 8048, ...). -/
noncomputable def cap (Y : List ℝ) : List ℝ := Y.map fun y => if y > 10 ^ 100 then 10 ^ 100 else y

/-- The array that is plotted, which replaces the model's own: large values of PDF and HF are cut (Distributions.py:7880, 7924, 8048,
8309, 8860, 8904, 9047, 9297). -/
noncomputable def shown (A : Combined.Arrays) : Func → List ℝ
  | .PDF => cap A.pdf
  | .HF => cap A.hf
  | f => curve A f

/-- What `restore_axes_limits` reads: the name, and the first values of the arrays before they are cut (Distributions.py:7847-7848,
8839-8840). -/
noncomputable def limOf (m : Composite) (A : Combined.Arrays) : AxesLimits.Dist :=
  { name := match m.kind with | .competing => "Competing risks" | .mixture _ => "Mixture"
    gamma := 0
    quantile := m.quantile
    pdf0 := ((A.pdf.headD 0 : ℝ) : EReal)
    hf0 := ((A.hf.headD 0 : ℝ) : EReal) }

/-- The label of the curve, unless one is given (Distributions.py:8042-8045, 9041-9044). -/
def ownLabel : Kind → String
  | .competing => "Competing risks model"
  | .mixture _ => "Mixture model"

/-- The title (Distributions.py:8052-8054, 9051). -/
def titleOf : Kind → Func → String
  | .competing, f => "Competing Risks Model\n " ++ f.heading
  | .mixture _, f => "Mixture Model\n " ++ f.heading

/-- The vertical label: as for the distributions, but for CHF (Distributions.py:8393, 9388). -/
def ylabelOf : Func → String
  | .CHF => "Cumulative Hazard"
  | f => f.ylabel

/-- The x-values of a component (Distributions.py:8035-8040). -/
noncomputable def partX (o : Obj) (X : List ℝ) : List ℝ :=
  if Combined.twoSided o.dist then X else X.filter fun x => decide (0 ≤ x)

/-- `plot_components` (Distributions.py:8031-8040): the components' own methods draw on the same axes. -/
noncomputable def drawParts (auto : Auto) (f : Func) (X : List ℝ) : List Obj → Canvas → Except Err Canvas
  | [], c => .ok c
  | o :: os, c => do
    let v ← method auto o f ⟨some (.list (partX o X)), none, none, true, some o.param_title_long⟩ c
    drawParts auto f X os v.2

/-- The components, if `plot_components` is True. -/
noncomputable def drawComponents (auto : Auto) (f : Func) (X : List ℝ) (parts : List Obj) (components : Bool) (c : Canvas) : Except Err Canvas :=
  if components then drawParts auto f X parts c else .ok c

/-- The method of the model (Distributions.py:8032-8075 PDF of competing risks, and alike). -/
noncomputable def compositeMethod (auto : Auto) (m : Composite) (f : Func) (r : Call) (components : Bool) (c : Canvas) :
    Except Err (Value × Canvas) := do
  let X ← grid m.dists r
  let A ← arrays m X
  if X.length < 2 then .ok (unpack (curve A f), c)
  else if r.show_plot then do
    let c1 ← drawComponents auto f X m.parts components c
    let Y := shown A f
    let c2 ← draw auto (limOf m A) f (titleOf m.kind f) (ylabelOf f) X Y { r with label := some (r.label.getD (ownLabel m.kind)) } c1
    .ok (unpack Y, c2)
  else .ok (unpack (curve A f), c)

/-- The nine lines of statistics, without any check for a message (Distributions.py:7953-7985, 8933-8965, 9829-9861). -/
def texts (fmt : ℝ → String) (a : DistPlot.Attrs) : Except Err (List String) := do
  let mean ← DistPlot.plain fmt a.mean
  let median ← DistPlot.plain fmt a.median
  let mode ← DistPlot.plain fmt a.mode
  let b5 ← DistPlot.plain fmt a.b5
  let b95 ← DistPlot.plain fmt a.b95
  let std ← DistPlot.plain fmt a.standard_deviation
  let var ← DistPlot.plain fmt a.variance
  let skew ← DistPlot.plain fmt a.skewness
  let kurt ← DistPlot.plain fmt a.excess_kurtosis
  .ok ["Mean = " ++ mean, "Median = " ++ median, "Mode = " ++ mode, "$5^{th}$ quantile = " ++ b5, "$95^{th}$ quantile = " ++ b95,
    "Standard deviation = " ++ std, "Variance = " ++ var, "Skewness = " ++ skew, "Excess kurtosis = " ++ kurt]

/-- One plot of the figure: `plt.plot(X, Y)` on new axes, then `restore_axes_limits([(0, 1), (0, 1), False], ...)`. -/
noncomputable def panelOf (auto : Auto) (a : AxesLimits.Axes) (d : AxesLimits.Dist) (title : String) (f : Func) (X Y : List ℝ) (unpacked : Bool)
    (r : Call) : Except Err DistPlot.Panel := do
  let xv ← limitXvals r.xvals
  let b := auto a X Y
  let axes ← restoreValue ⟨(0, 1), (0, 1), false⟩ { a with xlim := b.1, ylim := b.2 } d f X (if unpacked then unpack Y else .array Y) xv r.xmin r.xmax
  .ok ⟨title, X, Y, axes⟩

/-- The headings of the five plots. -/
def Func.panelTitle : Func → String
  | .PDF => "Probability Density\nFunction"
  | .CDF => "Cumulative Distribution\nFunction"
  | .SF => "Survival Function"
  | .HF => "Hazard Function"
  | .CHF => "Cumulative Hazard\nFunction"

/-- The five plots one after the other. -/
noncomputable def panelsOf (auto : Auto) (a : AxesLimits.Axes) (d : AxesLimits.Dist) (X : List ℝ) (Y : Func → List ℝ) (unpacked : Bool) (r : Call) :
    Except Err (List DistPlot.Panel) := do
  let p1 ← panelOf auto a d (Func.panelTitle .PDF) .PDF X (Y .PDF) unpacked r
  let p2 ← panelOf auto a d (Func.panelTitle .CDF) .CDF X (Y .CDF) unpacked r
  let p3 ← panelOf auto a d (Func.panelTitle .SF) .SF X (Y .SF) unpacked r
  let p4 ← panelOf auto a d (Func.panelTitle .HF) .HF X (Y .HF) unpacked r
  let p5 ← panelOf auto a d (Func.panelTitle .CHF) .CHF X (Y .CHF) unpacked r
  .ok [p1, p2, p3, p4, p5]

/-- `plot` of the two models (Distributions.py:7850-7988, 8842-8981); `a` are new axes. -/
noncomputable def compositePlot (fmt : ℝ → String) (auto : Auto) (a : AxesLimits.Axes) (m : Composite) (attrs : DistPlot.Attrs) (r : Call) :
    Except Err DistPlot.Figure := do
  let X ← grid m.dists r
  let A ← arrays m X
  let ps ← panelsOf auto a (limOf m A) X (shown A) false r
  let t ← texts fmt attrs
  .ok ⟨ps, t⟩

/-! ## DSZI_Model -/

/-- The function of a DSZI model on an array (Distributions.py:9910, 9979, 10048, 10118, 10190). -/
noncomputable def dsziValues (m : Combined.DSZI) (X : List ℝ) : Func → Except Err (List ℝ)
  | .PDF => Combined.dsziPDF m X
  | .CDF => Combined.dsziCDF m X
  | .SF => Combined.dsziSF m X
  | .HF => Combined.dsziHF m X
  | .CHF => Combined.dsziCHF m X

/-- At a number. -/
noncomputable def dsziAt (m : Combined.DSZI) (x : ℝ) : Func → ℝ
  | .PDF => m.pdfAt x
  | .CDF => m.cdfAt x
  | .SF => 1 - m.cdfAt x
  | .HF => m.pdfAt x / (1 - m.cdfAt x)
  | .CHF => -Real.log (1 - m.cdfAt x)

/-- `self.__model_title` (Distributions.py:9687-9700). -/
noncomputable def dsziTitle (m : Combined.DSZI) : String :=
  if m.ZI = 0 then "DS Model" else if m.DS = 1 then "ZI Model" else "DSZI Model"

/-- The model: the base distribution's object, with DS and ZI. -/
structure DsziObj where
  base : Obj
  DS : ℝ
  ZI : ℝ

/-- The parameters. -/
def DsziObj.model (o : DsziObj) : Combined.DSZI := ⟨o.base.dist, o.DS, o.ZI⟩

/-- The method of the model (Distributions.py:9897-9937 PDF, and alike). -/
noncomputable def dsziMethod (auto : Auto) (o : DsziObj) (f : Func) (r : Call) (c : Canvas) : Except Err (Value × Canvas) :=
  match r.number with
  | some x => .ok (.single (dsziAt o.model x f), c)
  | none => do
    let X ← arrayOf o.base r
    let Y ← dsziValues o.model X f
    if r.show_plot then do
      let c' ← draw auto o.base.lim f (dsziTitle o.model ++ "\n" ++ f.heading) f.ylabel X Y r c
      .ok (unpack Y, c')
    else .ok (unpack Y, c)

/-- `plot` (Distributions.py:9715-9861); the statistics `attrs` are attributes of the model (property C119). -/
noncomputable def dsziPlot (fmt : ℝ → String) (auto : Auto) (a : AxesLimits.Axes) (o : DsziObj) (attrs : DistPlot.Attrs) (r : Call) :
    Except Err DistPlot.Figure := do
  let X ← arrayOf o.base r
  let pdf ← Combined.dsziPDF o.model X
  let cdf ← Combined.dsziCDF o.model X
  let sf := cdf.map fun y => 1 - y
  let Y : Func → List ℝ := fun
    | .PDF => pdf
    | .CDF => cdf
    | .SF => sf
    | .HF => List.zipWith (fun a b => a / b) pdf sf
    | .CHF => sf.map fun s => -Real.log s
  let ps ← panelsOf auto a o.base.lim X Y true r
  let t ← texts fmt attrs
  .ok ⟨ps, t⟩

end Reliability.CompositePlot

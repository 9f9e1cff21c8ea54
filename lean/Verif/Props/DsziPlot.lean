import Verif.Props.CompositePlot
import Verif.Props.CombinedInit

namespace Reliability.Props.DsziPlot

open Reliability Reliability.MethodPlot Reliability.CompositePlot
open Reliability.Props (bind_ok)
open Reliability.Props.Distributions (TakesX checkX_ok checkX_err)
open Reliability.Props.MethodPlot (values_length draw_two draw_ok unpack_two name_mem arrayOf_eq genXvals_list genX_length XOf)
open Reliability.Props.CompositePlot (panelsOf_spec panelsOf_ok functions Numbers texts_written texts_ok)

/-! ## What a DSZI model is -/

/-- The defective subpopulation, zero inflated model on a base distribution with density `p` and distribution function `F`: a fraction
`ZI` fails at once, a fraction `1 - DS` never fails, and the others fail as the base distribution says. -/
noncomputable def Formula (p F : ℝ → ℝ) (DS ZI : ℝ) : Func → ℝ → ℝ
  | .PDF, x => (DS - ZI) * p x
  | .CDF, x => ZI + (DS - ZI) * F x
  | .SF, x => 1 - (ZI + (DS - ZI) * F x)
  | .HF, x => (DS - ZI) * p x / (1 - (ZI + (DS - ZI) * F x))
  | .CHF, x => -Real.log (1 - (ZI + (DS - ZI) * F x))

/-- The formula of a model object. -/
noncomputable def formula (o : DsziObj) (f : Func) (x : ℝ) : ℝ := Formula o.base.dist.sp.pdf o.base.dist.sp.cdf o.DS o.ZI f x

theorem dsziAt_formula (o : DsziObj) (x : ℝ) (f : Func) : dsziAt o.model x f = formula o f x := by
  cases f <;> simp only [dsziAt, formula, Formula, DsziObj.model, Combined.DSZI.pdfAt, Combined.DSZI.cdfAt] <;> ring_nf

theorem dsziValues_ok (o : DsziObj) {X : List ℝ} (h : TakesX o.base.dist.fam X) (f : Func) :
    dsziValues o.model X f = .ok (X.map (formula o f)) := by
  have hc := (checkX_ok _ _).2 h
  have h1 : Combined.dsziPDF o.model X = .ok (X.map (formula o .PDF)) := by
    simp only [Combined.dsziPDF, Distributions.PDF, DsziObj.model, hc, List.map_map]
    congr 1
    apply List.map_congr_left
    intro x _
    simp only [Function.comp, formula, Formula]
    ring
  have h2 : Combined.dsziCDF o.model X = .ok (X.map (formula o .CDF)) := by
    simp only [Combined.dsziCDF, Distributions.CDF, DsziObj.model, hc, List.map_map]
    congr 1
    apply List.map_congr_left
    intro x _
    simp only [Function.comp, formula, Formula]
    ring
  cases f
  · exact h1
  · exact h2
  · simp only [dsziValues, Combined.dsziSF, h2, List.map_map]
    rfl
  · simp only [dsziValues, Combined.dsziHF, h1, h2, List.zipWith_map, List.zipWith_self]
    rfl
  · simp only [dsziValues, Combined.dsziCHF, h2, List.map_map]
    rfl

theorem dsziValues_err (o : DsziObj) {X : List ℝ} (h : ¬ TakesX o.base.dist.fam X) (f : Func) :
    dsziValues o.model X f = .error .valueError := by
  have hc := checkX_err o.base.dist.fam X (mt (checkX_ok _ _).1 h)
  cases f <;> simp only [dsziValues, Combined.dsziSF, Combined.dsziHF, Combined.dsziCHF, Combined.dsziPDF, Combined.dsziCDF, Distributions.PDF,
    Distributions.CDF, DsziObj.model, hc, valueErr]

theorem dsziValues_eq {o : DsziObj} {X Y : List ℝ} {f : Func} (h : dsziValues o.model X f = .ok Y) :
    TakesX o.base.dist.fam X ∧ Y = X.map (formula o f) := by
  by_cases ht : TakesX o.base.dist.fam X
  · rw [dsziValues_ok o ht] at h
    cases h
    exact ⟨ht, rfl⟩
  · rw [dsziValues_err o ht] at h
    cases h

/-! ## The methods -/

/-- The title says which of the three models it is. -/
def Title (DS ZI : ℝ) (t : String) : Prop :=
  (ZI = 0 ∧ t = "DS Model") ∨ (ZI ≠ 0 ∧ DS = 1 ∧ t = "ZI Model") ∨ (ZI ≠ 0 ∧ DS ≠ 1 ∧ t = "DSZI Model")

theorem title_spec (o : DsziObj) : Title o.DS o.ZI (dsziTitle o.model) := by
  unfold Title dsziTitle DsziObj.model
  by_cases h1 : o.ZI = 0
  · simp [h1]
  · by_cases h2 : o.DS = 1 <;> simp [h1, h2]

/-- **C143 (what is drawn).** A call with a plot returns the values of the model at the x-values, adds exactly one curve to what is already
on the axes, through the points (x, value), and sets title and vertical label; the limits are those of property C127 for the base
distribution with this curve. -/
theorem C143_draws (auto : Auto) (o : DsziObj) (f : Func) (r : Call) (c c' : Canvas) (v : Value) (hs : r.show_plot = true)
    (hr : r.number = none) (hy : c.axes.ylinear = true) (h : dsziMethod auto o f r c = .ok (v, c')) :
    ∃ X xv t, XOf o.base r X ∧ TakesX o.base.dist.fam X ∧ 2 ≤ X.length ∧ v = .array (X.map (formula o f)) ∧
      c'.lines = c.lines ++ [⟨r.label, X, X.map (formula o f)⟩] ∧ Title o.DS o.ZI t ∧ c'.title = t ++ "\n" ++ Spec.MethodPlot.Heading f ∧ c'.ylabel = Spec.MethodPlot.Vertical f ∧
      (∀ l, r.xvals = some (.list l) → xv = some l) ∧ (r.xvals = none → xv = none) ∧
      AxesLimits.plot c.axes ⟨o.base.lim, Spec.MethodPlot.Name f, X, (X.map (formula o f)).map Real.toEReal, xv, r.xmin, r.xmax, auto c.axes X (X.map (formula o f))⟩ =
        .ok c'.axes := by
  rw [← MethodPlot.heading_eq, ← MethodPlot.ylabel_eq, ← MethodPlot.name_eq]
  unfold dsziMethod at h
  simp only [hr, hs, if_true, bind_ok] at h
  obtain ⟨X, hX, Y, hY, c1, hd, he⟩ := h
  cases he
  obtain ⟨ht, rfl⟩ := dsziValues_eq hY
  have two : 2 ≤ X.length ∧ XOf o.base r X := by
    rcases arrayOf_eq hX with ⟨h0, hl⟩ | ⟨h0, ht⟩ | ⟨x, h0, -, -⟩
    · refine ⟨by omega, .inr ⟨h0, ?_, hl⟩⟩
      simpa only [arrayOf, h0] using hX
    · refine ⟨?_, .inl ⟨X, h0, rfl⟩⟩
      by_contra hlt
      match X, ht, hlt with
      | [], ht, _ => exact ht.1 rfl
      | [x], ht, _ =>
        simp only [draw, bind_ok, List.map_cons, List.map_nil, unpack, restoreValue, restoreNumber] at hd
        obtain ⟨xv, -, ax, ⟨own, -, hax⟩, -⟩ := hd
        cases f <;> simp [hy] at hax
      | _ :: _ :: _, _, hlt => exact hlt (by simp)
    · simp only [draw, bind_ok, h0, limitXvals] at hd
      obtain ⟨xv, h1, -⟩ := hd
      cases h1
  obtain ⟨h2, hx⟩ := two
  have h2' : 2 ≤ (X.map (formula o f)).length := by rw [List.length_map]; exact h2
  obtain ⟨xv, e0, e1, e2, e3, e4⟩ := draw_two h2' hd
  refine ⟨X, xv, dsziTitle o.model, hx, ht, h2, unpack_two h2', e2, title_spec o, e3, e4, ?_, ?_, e1⟩
  · intro l hl; rw [hl] at e0; cases e0; rfl
  · intro hl; rw [hl] at e0; cases e0; rfl

/-- **C143 (a number).** With a single number, and neither xmin nor xmax, the value of the model is returned and nothing is drawn. -/
theorem C143_number (auto : Auto) (o : DsziObj) (f : Func) (r : Call) (c : Canvas) (x : ℝ) (h : r.xvals = some (.scalar x)) (h1 : r.xmin = none)
    (h2 : r.xmax = none) : dsziMethod auto o f r c = .ok (.single (formula o f x), c) := by
  have hn : r.number = some x := by unfold Call.number; rw [h, h1, h2]
  unfold dsziMethod
  simp only [hn, dsziAt_formula]

/-- **C143 (no plot).** Without a plot nothing is drawn, the axes are left as they are, and the values are the same as with one. -/
theorem C143_no_plot (auto : Auto) (o : DsziObj) (f : Func) (r : Call) (c : Canvas) :
    (∀ v c', dsziMethod auto o f { r with show_plot := false } c = .ok (v, c') → c' = c) ∧
    ∀ v c', dsziMethod auto o f { r with show_plot := true } c = .ok (v, c') → dsziMethod auto o f { r with show_plot := false } c = .ok (v, c) := by
  have e : ∀ b, ({ r with show_plot := b } : Call).number = r.number := fun _ => rfl
  have e' : ∀ b, arrayOf o.base { r with show_plot := b } = arrayOf o.base r := fun _ => rfl
  constructor
  · intro v c' h
    unfold dsziMethod at h
    rw [e] at h
    split at h
    · cases h; rfl
    · simp only [bind_ok] at h
      obtain ⟨X, -, Y, -, h⟩ := h
      simp at h
      exact h.2.symm
  · intro v c' h
    unfold dsziMethod at h ⊢
    rw [e] at h ⊢
    split at h
    · cases h; rfl
    · simp only [bind_ok, e', if_true] at h ⊢
      obtain ⟨X, hX, Y, hY, c1, -, h⟩ := h
      cases h
      exact ⟨X, hX, Y, hY, by simp⟩

/-- **C143 (accepted).** With two x-values or more in the range of the base distribution, or without x-values where the 200 points that are
made up are in its range, every function is plotted without an error. -/
theorem C143_accepts (auto : Auto) (o : DsziObj) (f : Func) (r : Call) (c : Canvas) (hn : o.base.lim.name ∈ Spec.AxesLimits.Names)
    (hx : (∃ l, r.xvals = some (.list l) ∧ 2 ≤ l.length ∧ TakesX o.base.dist.fam l) ∨
      (r.xvals = none ∧ ∃ X, Utils.genX o.base.x r.xmin r.xmax = .ok X ∧ TakesX o.base.dist.fam X)) :
    ∃ v c', dsziMethod auto o f r c = .ok (v, c') := by
  obtain ⟨X, hX, h2, ht, hv⟩ : ∃ X, arrayOf o.base r = .ok X ∧ 2 ≤ X.length ∧ TakesX o.base.dist.fam X ∧
      (r.xvals = none ∨ ∃ l, r.xvals = some (.list l) ∧ l ≠ []) := by
    rcases hx with ⟨l, h1, h2, h3⟩ | ⟨h1, X, h2, h3⟩
    · refine ⟨l, ?_, h2, h3, .inr ⟨l, h1, h3.1⟩⟩
      simp only [arrayOf, h1, genXvals_list h3]
    · refine ⟨X, ?_, by rw [genX_length h2]; norm_num, h3, .inl h1⟩
      simpa only [arrayOf, h1] using h2
  have hr : r.number = none := by
    unfold Call.number
    rcases hx with ⟨l, h1, -⟩ | ⟨h1, -⟩ <;> rw [h1]
  unfold dsziMethod
  simp only [hr, hX, dsziValues_ok o ht, bind, Except.bind]
  by_cases hs : r.show_plot = true
  · obtain ⟨c', hc⟩ := draw_ok (auto := auto) (d := o.base.lim) (f := f) (title := dsziTitle o.model ++ "\n" ++ f.heading) (ylabel := f.ylabel)
      (X := X) (Y := X.map (formula o f)) (r := r) c (by rw [List.length_map]; exact h2) (by simp) hv hn
    simp only [hs, if_true, hc]
    exact ⟨_, _, rfl⟩
  · simp only [hs]
    exact ⟨_, _, rfl⟩

/-- **C143 (errors).** A list of x-values outside the range of the base distribution, or an empty one, is a ValueError, with or without a
plot. -/
theorem C143_errors (auto : Auto) (o : DsziObj) (f : Func) (r : Call) (c : Canvas) (l : List ℝ) (h : r.xvals = some (.list l))
    (ht : ¬ TakesX o.base.dist.fam l) : dsziMethod auto o f r c = .error .valueError := by
  have hr : r.number = none := by unfold Call.number; rw [h]
  have hX : arrayOf o.base r = .error .valueError := by
    simp only [arrayOf, h, Utils.genXvals, checkX_err o.base.dist.fam l (mt (checkX_ok _ _).1 ht), valueErr]
  unfold dsziMethod
  simp only [hr, hX, bind, Except.bind]

/-- **C143 (finding).** A list or array with one x-value: without a plot the value of the model is returned; with a plot, which is the
default, every function raises an error, as for the base distribution (C141). -/
theorem C143_one_value_finding (auto : Auto) (o : DsziObj) (f : Func) (r : Call) (c : Canvas) (x : ℝ) (hx : r.xvals = some (.list [x]))
    (ht : TakesX o.base.dist.fam [x]) (hy : c.axes.ylinear = true) :
    dsziMethod auto o f { r with show_plot := false } c = .ok (.single (formula o f x), c) ∧
    dsziMethod auto o f { r with show_plot := true } c = .error (match f with | .CDF | .SF => .typeError | _ => .indexError) := by
  have hn : ∀ b, ({ r with show_plot := b } : Call).number = none := by intro b; unfold Call.number; simp only [hx]
  have hX : ∀ b, arrayOf o.base { r with show_plot := b } = .ok [x] := by intro b; unfold arrayOf; simp only [hx, genXvals_list ht]
  constructor
  · unfold dsziMethod
    simp only [hn, hX, dsziValues_ok o ht, bind, Except.bind]
    rfl
  · have e0 : limitXvals r.xvals = .ok (some [x]) := by rw [hx]; rfl
    unfold dsziMethod draw
    simp only [hn, hX, dsziValues_ok o ht, bind, Except.bind, List.map_cons, List.map_nil, if_true, e0, unpack, restoreValue, restoreNumber, AxesLimits.ownX,
      AxesLimits.minimum, AxesLimits.maximum]
    cases f <;> simp [hy]

/-- **C143 (finding).** The base distribution plots wherever 200 points can be made up; the model checks them again and raises a
ValueError where one of them is negative or, for Beta, above 1. -/
theorem C143_range_finding (auto : Auto) (o : DsziObj) (f : Func) (r : Call) (c : Canvas) (hn : o.base.lim.name ∈ Spec.AxesLimits.Names)
    (h : r.xvals = none) (X : List ℝ) (hX : Utils.genX o.base.x r.xmin r.xmax = .ok X) (ht : ¬ TakesX o.base.dist.fam X) :
    (∃ v c', method auto o.base f r c = .ok (v, c')) ∧ dsziMethod auto o f r c = .error .valueError := by
  refine ⟨MethodPlot.C141_accepts auto o.base f r c hn (.inr ⟨h, X, hX⟩), ?_⟩
  have hr : r.number = none := by unfold Call.number; rw [h]
  have hX' : arrayOf o.base r = .ok X := by simpa only [arrayOf, h] using hX
  unfold dsziMethod
  simp only [hr, hX', dsziValues_err o ht, bind, Except.bind]

/-- **C143 (finding).** So it is with a Beta base distribution for every negative xmin. -/
theorem C143_beta_finding (auto : Auto) (o : DsziObj) (f : Func) (r : Call) (c : Canvas) (hn : o.base.lim.name ∈ Spec.AxesLimits.Names)
    (hf : o.base.dist.fam = .beta) (hf' : o.base.x.fam = .beta) (h : r.xvals = none) (a : ℝ) (ha : a < 0) (hmin : r.xmin = some a)
    (hmax : r.xmax = none) : (∃ v c', method auto o.base f r c = .ok (v, c')) ∧ dsziMethod auto o f r c = .error .valueError := by
  refine C143_range_finding auto o f r c hn h (Np.linspace a 1 200) ?_ ?_
  · simp only [Utils.genX, hf', hmin, hmax, Option.getD_some, Option.getD_none, gt_iff_lt, lt_irrefl, if_false, if_neg (not_lt.2 (by linarith : a ≤ 1))]
  · intro ht
    have h0 : (Np.linspace a 1 200)[0]? = some a := by
      rw [Np.linspace_get a 1 200 0 (by norm_num)]; simp
    have := ht.2.1 (by simp [hf]) (by simp [hf]) a (List.mem_of_getElem? h0)
    linarith

/-! ## plot -/

theorem dsziPlot_eq {fmt : ℝ → String} {auto : Auto} {a : AxesLimits.Axes} {o : DsziObj} {b : DistPlot.Attrs} {r : Call} {X : List ℝ}
    (hX : arrayOf o.base r = .ok X) (ht : TakesX o.base.dist.fam X) :
    dsziPlot fmt auto a o b r = (do
      let ps ← panelsOf auto a o.base.lim X (fun f => X.map (formula o f)) true r
      let t ← texts fmt b
      .ok ⟨ps, t⟩) := by
  have h1 := dsziValues_ok o ht .PDF
  have h2 := dsziValues_ok o ht .CDF
  simp only [dsziValues] at h1 h2
  unfold dsziPlot
  simp only [hX, h1, h2, bind, Except.bind]
  have e : (fun f : Func => match f with
      | .PDF => X.map (formula o .PDF)
      | .CDF => X.map (formula o .CDF)
      | .SF => (X.map (formula o .CDF)).map fun y => 1 - y
      | .HF => List.zipWith (fun a b => a / b) (X.map (formula o .PDF)) ((X.map (formula o .CDF)).map fun y => 1 - y)
      | .CHF => ((X.map (formula o .CDF)).map fun y => 1 - y).map fun s => -Real.log s) = fun f => X.map (formula o f) := by
    funext f
    cases f
    · rfl
    · rfl
    · simp only [List.map_map]; rfl
    · simp only [List.map_map, List.zipWith_map, List.zipWith_self]; rfl
    · simp only [List.map_map]; rfl
  rw [← e]
  rfl

theorem panels_one {auto : Auto} {a : AxesLimits.Axes} {d : AxesLimits.Dist} {x : ℝ} {Y : Func → ℝ → ℝ} {r : Call} (ps : List DistPlot.Panel) :
    panelsOf auto a d [x] (fun f => [x].map (Y f)) true r ≠ .ok ps := by
  intro h
  simp only [panelsOf, panelOf, bind_ok, List.map_cons, List.map_nil, if_true, unpack, restoreValue, restoreNumber] at h
  obtain ⟨p, ⟨xv, -, ax, ⟨own, -, h1⟩, -⟩, -⟩ := h
  cases h1

theorem pick {o : Obj} {r : Call} (hx : (∃ l, r.xvals = some (.list l) ∧ 2 ≤ l.length ∧ TakesX o.dist.fam l) ∨
      (r.xvals = none ∧ ∃ X, Utils.genX o.x r.xmin r.xmax = .ok X ∧ TakesX o.dist.fam X)) :
    ∃ X, arrayOf o r = .ok X ∧ 2 ≤ X.length ∧ TakesX o.dist.fam X ∧ (r.xvals = none ∨ ∃ l, r.xvals = some (.list l) ∧ l ≠ []) := by
  rcases hx with ⟨l, h1, h2, h3⟩ | ⟨h1, X, h2, h3⟩
  · refine ⟨l, ?_, h2, h3, .inr ⟨l, h1, h3.1⟩⟩
    simp only [arrayOf, h1, genXvals_list h3]
  · refine ⟨X, ?_, by rw [genX_length h2]; norm_num, h3, .inl h1⟩
    simpa only [arrayOf, h1] using h2

theorem texts_err (fmt : ℝ → String) (b : DistPlot.Attrs) (h : ¬ Numbers b) : texts fmt b = .error .typeError := by
  have key : ∀ {β : Type} (x : DistPlot.Attr) (k : String → Except Err β), (∀ v, k v = .error .typeError) ∨ (∃ s, x = .msg s) →
      (DistPlot.plain fmt x >>= k) = .error .typeError := by
    intro β x k hk
    cases x with
    | num v =>
      rcases hk with hk | ⟨s, hk⟩
      · exact hk _
      · cases hk
    | msg s => rfl
  unfold Numbers at h
  push Not at h
  obtain ⟨x, hx, s, hs⟩ := h
  subst hs
  simp only [List.mem_cons, List.not_mem_nil, or_false] at hx
  unfold texts
  rcases hx with h | h | h | h | h | h | h | h | h
  · exact key _ _ (.inr ⟨s, h.symm⟩)
  · refine key _ _ (.inl fun _ => ?_); exact key _ _ (.inr ⟨s, h.symm⟩)
  · refine key _ _ (.inl fun _ => ?_); refine key _ _ (.inl fun _ => ?_); exact key _ _ (.inr ⟨s, h.symm⟩)
  · iterate 3 refine key _ _ (.inl fun _ => ?_)
    exact key _ _ (.inr ⟨s, h.symm⟩)
  · iterate 4 refine key _ _ (.inl fun _ => ?_)
    exact key _ _ (.inr ⟨s, h.symm⟩)
  · iterate 5 refine key _ _ (.inl fun _ => ?_)
    exact key _ _ (.inr ⟨s, h.symm⟩)
  · iterate 6 refine key _ _ (.inl fun _ => ?_)
    exact key _ _ (.inr ⟨s, h.symm⟩)
  · iterate 7 refine key _ _ (.inl fun _ => ?_)
    exact key _ _ (.inr ⟨s, h.symm⟩)
  · iterate 8 refine key _ _ (.inl fun _ => ?_)
    exact key _ _ (.inr ⟨s, h.symm⟩)

/-- **C143 (plot).** A figure has five plots, of PDF, CDF, SF, HF and CHF in this order; each shows the values of that function of the model
at the same x-values, with the limits of property C127 for the base distribution; then the nine statistics, each the attribute of the
model. -/
theorem C143_plot (fmt : ℝ → String) (auto : Auto) (a : AxesLimits.Axes) (ha : a.xlim = (0, 1) ∧ a.ylim = (0, 1)) (o : DsziObj) (b : DistPlot.Attrs)
    (r : Call) (g : DistPlot.Figure) (h : dsziPlot fmt auto a o b r = .ok g) :
    ∃ X, arrayOf o.base r = .ok X ∧ TakesX o.base.dist.fam X ∧
    List.Forall₂ (fun (p : DistPlot.Panel) f => p.title = Spec.MethodPlot.Panel f ∧ p.X = X ∧ p.Y = X.map (formula o f) ∧
      ∃ xv, limitXvals r.xvals = .ok xv ∧
      AxesLimits.plot a ⟨o.base.lim, Spec.MethodPlot.Name f, X, (X.map (formula o f)).map Real.toEReal, xv, r.xmin, r.xmax, auto a X (X.map (formula o f))⟩ = .ok p.axes)
      g.panels functions ∧
    g.texts = ["Mean = " ++ DistPlot.written fmt b.mean, "Median = " ++ DistPlot.written fmt b.median, "Mode = " ++ DistPlot.written fmt b.mode,
      "$5^{th}$ quantile = " ++ DistPlot.written fmt b.b5, "$95^{th}$ quantile = " ++ DistPlot.written fmt b.b95,
      "Standard deviation = " ++ DistPlot.written fmt b.standard_deviation, "Variance = " ++ DistPlot.written fmt b.variance,
      "Skewness = " ++ DistPlot.written fmt b.skewness, "Excess kurtosis = " ++ DistPlot.written fmt b.excess_kurtosis] := by
  simp only [← CompositePlot.panel_eq, ← MethodPlot.name_eq]
  obtain ⟨X, hX⟩ : ∃ X, arrayOf o.base r = .ok X := by
    unfold dsziPlot at h
    simp only [bind_ok] at h
    exact ⟨_, h.choose_spec.1⟩
  have ht : TakesX o.base.dist.fam X := by
    by_contra ht
    have := dsziValues_err o ht .PDF
    simp only [dsziValues] at this
    unfold dsziPlot at h
    simp only [hX, this, bind, Except.bind] at h
    cases h
  rw [dsziPlot_eq hX ht] at h
  simp only [bind_ok] at h
  obtain ⟨ps, hp, t, htx, he⟩ := h
  cases he
  have hl : X.length ≠ 1 := by
    intro h1
    obtain ⟨x, rfl⟩ := List.length_eq_one_iff.1 h1
    exact panels_one ps hp
  exact ⟨X, hX, ht, panelsOf_spec ha (by simp) (fun _ => hl) hp, texts_written htx⟩

/-- **C143 (plot is accepted).** With two x-values or more in the range of the base distribution, or where the points that are made up are in
its range, and statistics that are numbers (or infinite), the figure is made. -/
theorem C143_plot_accepts (fmt : ℝ → String) (auto : Auto) (a : AxesLimits.Axes) (o : DsziObj) (b : DistPlot.Attrs) (r : Call)
    (hn : o.base.lim.name ∈ Spec.AxesLimits.Names) (hb : Numbers b)
    (hx : (∃ l, r.xvals = some (.list l) ∧ 2 ≤ l.length ∧ TakesX o.base.dist.fam l) ∨
      (r.xvals = none ∧ ∃ X, Utils.genX o.base.x r.xmin r.xmax = .ok X ∧ TakesX o.base.dist.fam X)) :
    ∃ g, dsziPlot fmt auto a o b r = .ok g := by
  obtain ⟨X, hX, h2, ht, hv⟩ := pick hx
  rw [dsziPlot_eq hX ht]
  obtain ⟨ps, hps⟩ := panelsOf_ok (auto := auto) a hn (X := X) (Y := fun f => X.map (formula o f)) (unpacked := true) (r := r) (by simp) ht.1
    (fun _ => by omega) hv
  obtain ⟨t, ht⟩ := texts_ok fmt b hb
  simp only [hps, ht, bind, Except.bind]
  exact ⟨_, rfl⟩

/-- **C143 (finding).** Where an attribute of the base distribution is a message (the mean, variance, skewness or kurtosis of a Loglogistic
with a small beta, the mode of a Beta without one), `plot` raises a TypeError, though the base distribution's own `plot` and all five
functions of the model work. -/
theorem C143_message_finding (fmt : ℝ → String) (auto : Auto) (a : AxesLimits.Axes) (o : DsziObj) (b : DistPlot.Attrs) (r : Call)
    (hn : o.base.lim.name ∈ Spec.AxesLimits.Names) (hb : ¬ Numbers b)
    (hx : (∃ l, r.xvals = some (.list l) ∧ 2 ≤ l.length ∧ TakesX o.base.dist.fam l) ∨
      (r.xvals = none ∧ ∃ X, Utils.genX o.base.x r.xmin r.xmax = .ok X ∧ TakesX o.base.dist.fam X)) :
    dsziPlot fmt auto a o b r = .error .typeError ∧ ∀ f c, ∃ v c', dsziMethod auto o f r c = .ok (v, c') := by
  refine ⟨?_, fun f c => C143_accepts auto o f r c hn hx⟩
  obtain ⟨X, hX, h2, ht, hv⟩ := pick hx
  rw [dsziPlot_eq hX ht]
  obtain ⟨ps, hps⟩ := panelsOf_ok (auto := auto) a hn (X := X) (Y := fun f => X.map (formula o f)) (unpacked := true) (r := r) (by simp) ht.1
    (fun _ => by omega) hv
  simp only [hps, texts_err fmt b hb, bind, Except.bind]

/-- **C143 (finding).** `plot` with one x-value raises an IndexError; with a number, a TypeError. -/
theorem C143_plot_one_finding (fmt : ℝ → String) (auto : Auto) (a : AxesLimits.Axes) (o : DsziObj) (b : DistPlot.Attrs) (r : Call) (x : ℝ)
    (ht : TakesX o.base.dist.fam [x]) :
    (r.xvals = some (.list [x]) → dsziPlot fmt auto a o b r = .error .indexError) ∧
    (r.xvals = some (.scalar x) → dsziPlot fmt auto a o b r = .error .typeError) := by
  constructor
  · intro h
    have hX : arrayOf o.base r = .ok [x] := by simp only [arrayOf, h, genXvals_list ht]
    rw [dsziPlot_eq hX ht]
    have e0 : limitXvals r.xvals = .ok (some [x]) := by rw [h]; rfl
    simp only [panelsOf, panelOf, e0, List.map_cons, List.map_nil, if_true, unpack, restoreValue, restoreNumber, AxesLimits.ownX, AxesLimits.minimum,
      AxesLimits.maximum, bind, Except.bind]
  · intro h
    have hX : arrayOf o.base r = .ok [x] := by
      simp only [arrayOf, h]
      rw [(Props.C53_xvals o.base.dist.fam [x]).2.2.1 x]
      exact genXvals_list ht
    rw [dsziPlot_eq hX ht]
    have e0 : limitXvals r.xvals = .error .typeError := by rw [h]; rfl
    simp only [panelsOf, panelOf, e0, bind, Except.bind]

/-! ## Non-vacuity -/

/-- The hypotheses are met: the CDF of a model with DS = 0.8 and ZI = 0.1 on a Weibull distribution, at 1, 2 and 20. -/
example (auto : Auto) (q : ℝ → ℝ) (c : Canvas) (hc : c.axes.ylinear = true) :
    ∃ v c', dsziMethod auto ⟨MethodPlot.weibullObj q, 4 / 5, 1 / 10⟩ .CDF ⟨some (.list [1, 2, 20]), none, none, true, none⟩ c = .ok (v, c') ∧
      c'.lines.length = c.lines.length + 1 ∧ c'.ylabel = "Fraction failing" ∧
      c'.title = "DSZI Model\nCumulative Distribution Function" := by
  have ht : TakesX (MethodPlot.weibullObj q).dist.fam [1, 2, 20] := by
    simp [TakesX, MethodPlot.weibullObj, Distributions.weibull]
  obtain ⟨v, c', h⟩ := C143_accepts auto ⟨MethodPlot.weibullObj q, 4 / 5, 1 / 10⟩ .CDF ⟨some (.list [1, 2, 20]), none, none, true, none⟩ c
    (by simp [MethodPlot.weibullObj, Spec.AxesLimits.Names]) (.inl ⟨[1, 2, 20], rfl, by simp, ht⟩)
  obtain ⟨X, xv, t, -, -, -, -, h1, h2, h3, h4, -⟩ := C143_draws auto _ _ _ c c' v rfl rfl hc h
  refine ⟨v, c', h, by rw [h1]; simp, h4, ?_⟩
  rw [h3]
  rcases h2 with ⟨h, -⟩ | ⟨-, h, -⟩ | ⟨-, -, h⟩
  · norm_num at h
  · norm_num at h
  · rw [h]; rfl

end Reliability.Props.DsziPlot

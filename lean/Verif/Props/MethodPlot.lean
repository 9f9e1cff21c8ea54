import Verif.Model.MethodPlot
import Verif.Spec.MethodPlot
import Verif.Props.DistPlot
import Verif.Props.Distributions
import Verif.Props.GenX

namespace Reliability.Props.MethodPlot

open Reliability Reliability.MethodPlot
open Reliability.Props (bind_ok)
open Reliability.Props.Distributions (TakesX checkX_ok)

/-! ## The array of x-values -/

theorem geomspace_length {a b : ℝ} {n : ℕ} {l : List ℝ} (h : Utils.geomspace a b n = .ok l) : l.length = n := by
  unfold Utils.geomspace at h
  split_ifs at h
  · cases h
    simp

theorem geomShift_length {g a b : ℝ} {n : ℕ} {l : List ℝ} (h : Utils.geomShift g a b n = .ok l) : l.length = n := by
  unfold Utils.geomShift at h
  split at h
  · cases h
  · next l' hl =>
    cases h
    simp [geomspace_length hl]

theorem genPositive_length {d : Utils.XDist} {a b : ℝ} {X : List ℝ} (h : Utils.genPositive d a b = .ok X) : X.length = 200 := by
  unfold Utils.genPositive at h
  simp only at h
  repeat' (first | split at h)
  all_goals
    first
      | cases h
      | skip
  all_goals
    first
      | (simp [Np.linspace_length]; done)
      | (rename_i h1 h2; simp [Np.linspace_length, geomspace_length h1, geomspace_length h2]; done)
      | (rename_i h1 h2; simp [Np.linspace_length, geomShift_length h1, geomShift_length h2]; done)
      | (rename_i h1; simp [Np.linspace_length, geomspace_length h1]; done)
      | (rename_i h1; simp [Np.linspace_length, geomShift_length h1]; done)

theorem genX_length {d : Utils.XDist} {xmin xmax : Option ℝ} {X : List ℝ} (h : Utils.genX d xmin xmax = .ok X) : X.length = 200 := by
  unfold Utils.genX at h
  split at h
  · simp only [Props.swap_min, Props.swap_max] at h; split at h <;> cases h <;> simp [Np.linspace_length]
  · simp only [Props.swap_min, Props.swap_max] at h; split at h <;> cases h <;> simp [Np.linspace_length]
  · simp only [Props.swap_min, Props.swap_max] at h; split at h <;> cases h; simp [Np.linspace_length]
  · simp only at h
    split at h
    · cases h
    · exact genPositive_length h

theorem genXvals_eq {fam : Distributions.Fam} {v : Utils.XVals} {X : List ℝ} (h : Utils.genXvals fam v = .ok X) :
    (v = .list X ∨ ∃ x, v = .scalar x ∧ X = [x]) ∧ TakesX fam X := by
  cases v with
  | other => cases h
  | list l =>
    have h' := h
    simp only [Utils.genXvals] at h
    split at h
    · cases h
    · next hc =>
      cases h
      exact ⟨.inl rfl, (checkX_ok _ _).1 hc⟩
  | scalar x =>
    simp only [Utils.genXvals] at h
    split_ifs at h
    split at h
    · cases h
    · next hc =>
      cases h
      exact ⟨.inr ⟨x, rfl, rfl⟩, (checkX_ok _ _).1 hc⟩

theorem genXvals_list {fam : Distributions.Fam} {l : List ℝ} (h : TakesX fam l) : Utils.genXvals fam (.list l) = .ok l := by
  simp only [Utils.genXvals, (checkX_ok fam l).2 h]

/-- The x-values of a call: those given, or 200 points. -/
theorem arrayOf_eq {o : Obj} {r : Call} {X : List ℝ} (h : arrayOf o r = .ok X) :
    (r.xvals = none ∧ X.length = 200) ∨ (r.xvals = some (.list X) ∧ TakesX o.dist.fam X) ∨
      ∃ x, r.xvals = some (.scalar x) ∧ X = [x] ∧ TakesX o.dist.fam X := by
  unfold arrayOf at h
  split at h
  · next h0 => exact .inl ⟨h0, genX_length h⟩
  · next v hv =>
    obtain ⟨h1 | ⟨x, h1, h2⟩, h3⟩ := genXvals_eq h
    · exact .inr (.inl ⟨by rw [hv, h1], h3⟩)
    · exact .inr (.inr ⟨x, by rw [hv, h1], h2, h3⟩)

theorem zeroised_length (d : Distributions.Dist) (X Y : List ℝ) : (zeroised d X Y).length = Y.length := by
  unfold zeroised
  split
  · unfold Distributions.zeroise
    split_ifs
    · split <;> simp
    · rfl
  · rfl

theorem values_length (d : Distributions.Dist) (X : List ℝ) (f : Func) : (values d X f).length = X.length := by
  cases f <;> simp [values, zeroised_length]

/-- The values are those of the method without a plot, wherever the x-values are in the range of the distribution. -/
theorem values_method {d : Distributions.Dist} {X : List ℝ} (h : TakesX d.fam X) (f : Func) :
    DistPlot.method d X f.name = .ok (values d X f) := by
  have hc := (checkX_ok _ _).2 h
  cases f
  · simp only [Func.name, DistPlot.method, Distributions.PDF, hc, values]
  · simp only [Func.name, DistPlot.method, Distributions.CDF, hc, values]
  · simp only [Func.name, DistPlot.method, Distributions.SF, hc, values]
  · simp only [Func.name, DistPlot.method, Distributions.HF, hc, values, zeroised]
    rfl
  · change Distributions.CHF d X = _
    simp only [Distributions.CHF, hc, values, zeroised]
    rfl

theorem name_eq (f : Func) : f.name = Spec.MethodPlot.Name f := by cases f <;> rfl

theorem heading_eq (f : Func) : f.heading = Spec.MethodPlot.Heading f := by cases f <;> rfl

theorem ylabel_eq (f : Func) : f.ylabel = Spec.MethodPlot.Vertical f := by cases f <;> rfl

theorem name_mem (f : Func) : f.name ∈ Spec.AxesLimits.Functions := by
  cases f <;> simp [Func.name, Spec.AxesLimits.Functions]

theorem unpack_two {Y : List ℝ} (h : 2 ≤ Y.length) : unpack Y = .array Y := by
  match Y, h with
  | _ :: _ :: _, _ => rfl

/-- What is drawn by `draw` with two points or more, and the limits it leaves. -/
theorem draw_two {auto : Auto} {d : AxesLimits.Dist} {f : Func} {title ylabel : String} {X Y : List ℝ} {r : Call} {c c' : Canvas}
    (hY : 2 ≤ Y.length) (h : draw auto d f title ylabel X Y r c = .ok c') :
    ∃ xv, limitXvals r.xvals = .ok xv ∧
      AxesLimits.plot c.axes ⟨d, f.name, X, Y.map Real.toEReal, xv, r.xmin, r.xmax, auto c.axes X Y⟩ = .ok c'.axes ∧
      c'.lines = c.lines ++ [⟨r.label, X, Y⟩] ∧ c'.title = title ∧ c'.ylabel = ylabel := by
  simp only [draw, bind_ok] at h
  obtain ⟨xv, h1, ax, h2, h3⟩ := h
  cases h3
  refine ⟨xv, h1, ?_, rfl, rfl, rfl⟩
  rw [unpack_two hY] at h2
  exact h2

theorem draw_ok {auto : Auto} {d : AxesLimits.Dist} {f : Func} {title ylabel : String} {X Y : List ℝ} {r : Call} (c : Canvas)
    (hY : 2 ≤ Y.length) (hl : X.length = Y.length) (hv : r.xvals = none ∨ ∃ l, r.xvals = some (.list l) ∧ l ≠ [])
    (hn : d.name ∈ Spec.AxesLimits.Names) : ∃ c', draw auto d f title ylabel X Y r c = .ok c' := by
  obtain ⟨xv, h1, h2⟩ : ∃ xv, limitXvals r.xvals = .ok xv ∧ xv ≠ some [] := by
    rcases hv with h | ⟨l, h, h'⟩
    · rw [h]; exact ⟨none, rfl, by simp⟩
    · rw [h]; exact ⟨some l, rfl, by simpa using h'⟩
  obtain ⟨b, hb⟩ := (Props.AxesLimits.C127_errors c.axes ⟨d, f.name, X, Y.map Real.toEReal, xv, r.xmin, r.xmax, auto c.axes X Y⟩
    (by intro h; simp only [List.map_eq_nil_iff] at h; rw [h] at hY; simp at hY) (by simp [hl])).1.2
    ⟨name_mem f, h2, fun _ _ => hn⟩
  unfold draw
  simp only [h1, bind, Except.bind, unpack_two hY, restoreValue]
  unfold AxesLimits.plot at hb
  simp only [hb]
  exact ⟨_, rfl⟩

/-! ## The theorems -/

/-- The part of the x-values in a call: the caller's list, or (without one) the 200 points that are made up. -/
def XOf (o : Obj) (r : Call) (X : List ℝ) : Prop :=
  (∃ l, r.xvals = some (.list l) ∧ X = l) ∨ (r.xvals = none ∧ Utils.genX o.x r.xmin r.xmax = .ok X ∧ X.length = 200)

/-- **C141 (what is drawn).** A call with a plot returns the values at the x-values, adds exactly one curve to what is already on the
axes, through the points (x, value), with the caller's label, and sets the title and the label of the vertical axis. -/
theorem C141_draws (auto : Auto) (o : Obj) (f : Func) (r : Call) (c c' : Canvas) (v : Value) (hs : r.show_plot = true)
    (hr : r.number = none) (hy : c.axes.ylinear = true) (h : method auto o f r c = .ok (v, c')) :
    ∃ X, XOf o r X ∧ 2 ≤ X.length ∧ (∀ Y, DistPlot.method o.dist X (Spec.MethodPlot.Name f) = .ok Y → Y = values o.dist X f) ∧
      v = .array (values o.dist X f) ∧ c'.lines = c.lines ++ [⟨r.label, X, values o.dist X f⟩] ∧
      c'.title = o.title ++ "\n " ++ Spec.MethodPlot.Heading f ++ " \n" ++ o.param_title ∧ c'.ylabel = Spec.MethodPlot.Vertical f := by
  rw [← heading_eq, ← ylabel_eq, ← name_eq]
  unfold method at h
  simp only [hr, hs, if_true, bind_ok] at h
  obtain ⟨X, hX, c1, hd, he⟩ := h
  cases he
  have hm : ∀ Y, DistPlot.method o.dist X f.name = .ok Y → Y = values o.dist X f := by
    intro Y hY
    by_cases hc : TakesX o.dist.fam X
    · rw [values_method hc] at hY
      cases hY; rfl
    · exfalso
      have := mt (checkX_ok o.dist.fam X).1 hc
      have e := Props.Distributions.checkX_err _ _ this
      cases f <;> simp [Func.name, DistPlot.method, Distributions.PDF, Distributions.CDF, Distributions.SF, Distributions.HF, Distributions.CHF, e, valueErr] at hY
  have two : 2 ≤ X.length ∧ XOf o r X := by
    rcases arrayOf_eq hX with ⟨h0, hl⟩ | ⟨h0, ht⟩ | ⟨x, h0, -, -⟩
    · refine ⟨by omega, .inr ⟨h0, ?_, hl⟩⟩
      simpa only [arrayOf, h0] using hX
    · refine ⟨?_, .inl ⟨X, h0, rfl⟩⟩
      by_contra hlt
      match X, ht, hlt with
      | [], ht, _ => exact ht.1 rfl
      | [x], ht, _ =>
        have hl1 := values_length o.dist [x] f
        obtain ⟨y, hy1⟩ := List.length_eq_one_iff.1 hl1
        simp only [draw, bind_ok, hy1, unpack, restoreValue, restoreNumber] at hd
        obtain ⟨xv, -, ax, ⟨own, -, hax⟩, -⟩ := hd
        cases f <;> simp [hy] at hax
      | _ :: _ :: _, _, hlt => exact hlt (by simp)
    · simp only [draw, bind_ok, h0, limitXvals] at hd
      obtain ⟨xv, h1, -⟩ := hd
      cases h1
  obtain ⟨h2, hx⟩ := two
  have h2' : 2 ≤ (values o.dist X f).length := by rw [values_length]; exact h2
  obtain ⟨xv, -, -, e1, e2, e3⟩ := draw_two h2' hd
  exact ⟨X, hx, h2, hm, unpack_two h2', e1, e2, e3⟩

/-- **C141 (limits).** The limits of the axes after the call are those of property C127 for this curve. -/
theorem C141_limits (auto : Auto) (o : Obj) (f : Func) (r : Call) (c c' : Canvas) (v : Value) (hs : r.show_plot = true)
    (hr : r.number = none) (hy : c.axes.ylinear = true) (h : method auto o f r c = .ok (v, c')) :
    ∃ X xv, XOf o r X ∧ (∀ l, r.xvals = some (.list l) → xv = some l) ∧ (r.xvals = none → xv = none) ∧
      AxesLimits.plot c.axes ⟨o.lim, Spec.MethodPlot.Name f, X, (values o.dist X f).map Real.toEReal, xv, r.xmin, r.xmax, auto c.axes X (values o.dist X f)⟩ =
        .ok c'.axes := by
  rw [← name_eq]
  obtain ⟨X, hX, h2, -, -, -⟩ := C141_draws auto o f r c c' v hs hr hy h
  have hX' : arrayOf o r = .ok X := by
    unfold method at h
    simp only [hr, hs, if_true, bind_ok] at h
    obtain ⟨X', hX', -⟩ := h
    rcases hX with ⟨l, h1, rfl⟩ | ⟨h1, h2, h3⟩
    · unfold arrayOf at hX' ⊢
      simp only [h1] at hX' ⊢
      obtain ⟨h | ⟨x, h, -⟩, ht⟩ := genXvals_eq hX'
      · cases h; exact hX'
      · cases h
    · simpa only [arrayOf, h1] using h2
  unfold method at h
  simp only [hr, hs, if_true, bind_ok, hX'] at h
  obtain ⟨X', hE, c1, hd, he⟩ := h
  cases hE; cases he
  obtain ⟨xv, e0, e1, -⟩ := draw_two (by rw [values_length]; exact h2) hd
  refine ⟨X, xv, hX, ?_, ?_, e1⟩
  · intro l hl; rw [hl] at e0; cases e0; rfl
  · intro hl; rw [hl] at e0; cases e0; rfl

/-- **C141 (no plot).** Without a plot nothing is drawn and the axes are left as they are; and the values returned are the same as
with one. -/
theorem C141_no_plot (auto : Auto) (o : Obj) (f : Func) (r : Call) (c : Canvas) :
    (∀ v c', method auto o f { r with show_plot := false } c = .ok (v, c') → c' = c) ∧
    ∀ v c', method auto o f { r with show_plot := true } c = .ok (v, c') → method auto o f { r with show_plot := false } c = .ok (v, c) := by
  have e : ∀ b, ({ r with show_plot := b } : Call).number = r.number := fun _ => rfl
  have e' : ∀ b, arrayOf o { r with show_plot := b } = arrayOf o r := fun _ => rfl
  constructor
  · intro v c' h
    unfold method at h
    rw [e] at h
    split at h
    · simp only [bind_ok] at h
      obtain ⟨y, -, h⟩ := h
      cases h; rfl
    · simp only [bind_ok] at h
      obtain ⟨X, -, h⟩ := h
      simp at h
      exact h.2.symm
  · intro v c' h
    unfold method at h ⊢
    rw [e] at h ⊢
    split at h
    · simp only [bind_ok] at h ⊢
      obtain ⟨y, hy, h⟩ := h
      cases h
      exact ⟨y, hy, rfl⟩
    · simp only [bind_ok, e', if_true] at h ⊢
      obtain ⟨X, hX, c1, -, h⟩ := h
      cases h
      exact ⟨X, hX, by simp⟩

/-- **C141 (accepted).** With two x-values or more in the range of the distribution, or without x-values where 200 points can be made
up, every one of the five functions is plotted without an error. -/
theorem C141_accepts (auto : Auto) (o : Obj) (f : Func) (r : Call) (c : Canvas) (hn : o.lim.name ∈ Spec.AxesLimits.Names)
    (hx : (∃ l, r.xvals = some (.list l) ∧ 2 ≤ l.length ∧ TakesX o.dist.fam l) ∨
      (r.xvals = none ∧ ∃ X, Utils.genX o.x r.xmin r.xmax = .ok X)) :
    ∃ v c', method auto o f r c = .ok (v, c') := by
  obtain ⟨X, hX, h2, hv⟩ : ∃ X, arrayOf o r = .ok X ∧ 2 ≤ X.length ∧ (r.xvals = none ∨ ∃ l, r.xvals = some (.list l) ∧ l ≠ []) := by
    rcases hx with ⟨l, h1, h2, h3⟩ | ⟨h1, X, h2⟩
    · refine ⟨l, ?_, h2, .inr ⟨l, h1, h3.1⟩⟩
      simp only [arrayOf, h1, genXvals_list h3]
    · refine ⟨X, ?_, by rw [genX_length h2]; norm_num, .inl h1⟩
      simpa only [arrayOf, h1] using h2
  have hr : r.number = none := by
    unfold Call.number
    rcases hx with ⟨l, h1, -⟩ | ⟨h1, -⟩ <;> rw [h1]
  unfold method
  simp only [hr, hX, bind, Except.bind]
  by_cases hs : r.show_plot = true
  · obtain ⟨c', hc⟩ := draw_ok (auto := auto) (d := o.lim) (f := f) (title := o.title ++ "\n " ++ f.heading ++ " \n" ++ o.param_title) (ylabel := f.ylabel)
      (X := X) (Y := values o.dist X f) (r := r) c (by rw [values_length]; exact h2) (values_length _ _ _).symm hv hn
    simp only [hs, if_true, hc]
    exact ⟨_, _, rfl⟩
  · simp only [hs]
    exact ⟨_, _, rfl⟩

/-- **C141 (a number).** With a single number, and neither xmin nor xmax, nothing is drawn, whatever show_plot is; PDF, CDF and SF
return the value. -/
theorem C141_number (auto : Auto) (o : Obj) (f : Func) (r : Call) (c : Canvas) (x : ℝ) (h : r.xvals = some (.scalar x)) (h1 : r.xmin = none)
    (h2 : r.xmax = none) :
    (∀ v c', method auto o f r c = .ok (v, c') → c' = c ∧ ∃ y, v = .single y) ∧
    method auto o .PDF r c = .ok (.single (o.dist.sp.pdf x), c) ∧ method auto o .CDF r c = .ok (.single (o.dist.sp.cdf x), c) ∧
    method auto o .SF r c = .ok (.single (o.dist.sp.sf x), c) := by
  have hn : r.number = some x := by unfold Call.number; rw [h, h1, h2]
  refine ⟨?_, ?_, ?_, ?_⟩
  · intro v c' hm
    unfold method at hm
    simp only [hn, bind_ok] at hm
    obtain ⟨y, -, hm⟩ := hm
    cases hm
    exact ⟨rfl, y, rfl⟩
  all_goals
    unfold method
    simp only [hn, valueAt, Distributions.CDFscalar, Distributions.SFscalar]
    rfl

/-- **C141 (finding).** A list or array with one x-value in the range of the distribution: without a plot the value is returned; with
a plot, which is the default, every function raises an error (PDF, HF and CHF an IndexError, CDF and SF a TypeError), because the
single value is unpacked before it is given to `restore_axes_limits`. -/
theorem C141_one_value_finding (auto : Auto) (o : Obj) (f : Func) (r : Call) (c : Canvas) (x : ℝ) (hx : r.xvals = some (.list [x]))
    (ht : TakesX o.dist.fam [x]) (hy : c.axes.ylinear = true) :
    (∃ y, method auto o f { r with show_plot := false } c = .ok (.single y, c)) ∧
    method auto o f { r with show_plot := true } c = .error (match f with | .CDF | .SF => .typeError | _ => .indexError) := by
  have hn : ∀ b, ({ r with show_plot := b } : Call).number = none := by intro b; unfold Call.number; simp only [hx]
  have hX : ∀ b, arrayOf o { r with show_plot := b } = .ok [x] := by intro b; unfold arrayOf; simp only [hx, genXvals_list ht]
  obtain ⟨y, hy1⟩ := List.length_eq_one_iff.1 (values_length o.dist [x] f)
  constructor
  · refine ⟨y, ?_⟩
    unfold method
    simp only [hn, hX, bind, Except.bind, hy1]
    rfl
  · have e0 : limitXvals r.xvals = .ok (some [x]) := by rw [hx]; rfl
    unfold method draw
    simp only [hn, hX, bind, Except.bind, hy1, if_true, e0, unpack, restoreValue, restoreNumber, AxesLimits.ownX, AxesLimits.minimum, AxesLimits.maximum]
    cases f <;> simp [hy]

/-- **C141 (finding).** A number with xmin or xmax: with a plot, which is the default, a TypeError (`min` of a number). -/
theorem C141_number_limit_finding (auto : Auto) (o : Obj) (f : Func) (r : Call) (c : Canvas) (x : ℝ) (hx : r.xvals = some (.scalar x))
    (hl : r.xmin ≠ none ∨ r.xmax ≠ none) (ht : TakesX o.dist.fam [x]) (hs : r.show_plot = true) :
    method auto o f r c = .error .typeError := by
  have hn : r.number = none := by
    unfold Call.number
    rw [hx]
    cases h1 : r.xmin <;> cases h2 : r.xmax <;> simp_all
  have hX : arrayOf o r = .ok [x] := by
    unfold arrayOf
    simp only [hx]
    rw [(Props.C53_xvals o.dist.fam [x]).2.2.1 x]
    exact genXvals_list ht
  unfold method draw
  simp only [hn, hX, bind, Except.bind, hs, if_true, hx, limitXvals]

/-! ## Non-vacuity -/

/-- The object of a Weibull distribution with alpha = 10 and beta = 2. -/
noncomputable def weibullObj (q : ℝ → ℝ) : Obj :=
  { dist := Distributions.weibull 10 2 0
    lim := ⟨"Weibull", 0, q, 0, 0⟩
    x := ⟨.weibull, q, 0, true⟩
    title := "Weibull Distribution"
    param_title := "α=10,β=2"
    param_title_long := "Weibull Distribution (α=10,β=2)" }

/-- The hypotheses are met: the SF of a Weibull distribution at 1, 2 and 20, drawn on axes that already have a curve. -/
example (auto : Auto) (q : ℝ → ℝ) (c : Canvas) (hc : c.axes.ylinear = true) :
    ∃ v c', method auto (weibullObj q) .SF ⟨some (.list [1, 2, 20]), none, none, true, some "mine"⟩ c = .ok (v, c') ∧
      c'.lines.length = c.lines.length + 1 ∧ c'.ylabel = "Fraction surviving" ∧
      c'.title = "Weibull Distribution\n Survival Function \nα=10,β=2" := by
  have ht : TakesX (weibullObj q).dist.fam [1, 2, 20] := by
    simp [TakesX, weibullObj, Distributions.weibull]
  obtain ⟨v, c', h⟩ := C141_accepts auto (weibullObj q) .SF ⟨some (.list [1, 2, 20]), none, none, true, some "mine"⟩ c
    (by simp [weibullObj, Spec.AxesLimits.Names]) (.inl ⟨[1, 2, 20], rfl, by simp, ht⟩)
  obtain ⟨X, -, -, -, -, h1, h2, h3⟩ := C141_draws auto _ _ _ c c' v rfl rfl hc h
  refine ⟨v, c', h, by rw [h1]; simp, h3, ?_⟩
  rw [h2]
  rfl

end Reliability.Props.MethodPlot

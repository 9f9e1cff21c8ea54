import Verif.Model.CompositePlot
import Verif.Props.MethodPlot
import Verif.Props.CombinedInit

namespace Reliability.Props.CompositePlot

open Reliability Reliability.MethodPlot Reliability.CompositePlot
open Reliability.Props (bind_ok)
open Reliability.Props.Distributions (TakesX checkX_ok)
open Reliability.Props.MethodPlot (values_length draw_two draw_ok unpack_two name_mem)
open Reliability.Props.Combined (Lib Component Half Accepts quant_nonneg)

/-! ## Lengths -/

theorem collect_length {α : Type} {f : α → Except Err (List ℝ)} {n : ℕ} (hf : ∀ a Y, f a = .ok Y → Y.length = n) :
    ∀ {as : List α} {Ys : List (List ℝ)}, Combined.collect f as = .ok Ys → ∀ Y ∈ Ys, Y.length = n := by
  intro as
  induction as with
  | nil =>
    intro Ys h Y hY
    simp only [Combined.collect, Except.ok.injEq] at h
    subst h
    simp at hY
  | cons a as ih =>
    intro Ys h Y hY
    simp only [Combined.collect] at h
    cases h1 : f a with
    | error e => rw [h1] at h; cases h
    | ok Z =>
      rw [h1] at h
      cases h2 : Combined.collect f as with
      | error e => rw [h2] at h; cases h
      | ok Zs =>
        rw [h2] at h
        simp only [Except.ok.injEq] at h
        subst h
        rcases List.mem_cons.1 hY with rfl | hY
        · exact hf a _ h1
        · exact ih h2 Y hY

theorem foldl_zip_length (op : ℝ → ℝ → ℝ) {n : ℕ} : ∀ (Ys : List (List ℝ)) (Z : List ℝ), Z.length = n → (∀ Y ∈ Ys, Y.length = n) →
    (Ys.foldl (List.zipWith op) Z).length = n
  | [], _, hZ, _ => hZ
  | Y :: Ys, Z, hZ, h => by
    simp only [List.foldl_cons]
    exact foldl_zip_length op Ys _ (by simp [hZ, h Y (by simp)]) fun W hW => h W (by simp [hW])

theorem filter_length (X : List ℝ) : (X.filter fun x => decide (x < 0)).length + (X.filter fun x => decide (0 ≤ x)).length = X.length := by
  induction X with
  | nil => rfl
  | cons x X ih =>
    by_cases h : x < 0
    · have h' : ¬ 0 ≤ x := not_le.2 h
      simp only [List.filter_cons, h, h', decide_true, decide_false, if_true, List.length_cons]
      simp only [Bool.false_eq_true, if_false]
      omega
    · have h' : 0 ≤ x := not_lt.1 h
      simp only [List.filter_cons, h, h', decide_true, decide_false, if_true, List.length_cons]
      simp only [Bool.false_eq_true, if_false]
      omega

theorem dist_lengths (d : Distributions.Dist) (X Y : List ℝ) :
    (Distributions.PDF d X = .ok Y → Y.length = X.length) ∧ (Distributions.CDF d X = .ok Y → Y.length = X.length) ∧
    (Distributions.SF d X = .ok Y → Y.length = X.length) ∧ (Distributions.HF d X = .ok Y → Y.length = X.length) := by
  refine ⟨fun h => ?_, fun h => ?_, fun h => ?_, fun h => ?_⟩
  · unfold Distributions.PDF at h; split at h <;> cases h; simp
  · unfold Distributions.CDF at h; split at h <;> cases h; simp
  · unfold Distributions.SF at h; split at h <;> cases h; simp
  · unfold Distributions.HF at h; split at h <;> cases h
    have := MethodPlot.zeroised_length d X (X.map d.hf)
    rw [List.length_map] at this
    exact this

theorem contribution_length {f : Distributions.Dist → List ℝ → Except Err (List ℝ)} (hf : ∀ d X Y, f d X = .ok Y → Y.length = X.length)
    {neg : ℝ} {X : List ℝ} (d : Distributions.Dist) (Y : List ℝ) (h : Combined.contribution f neg X d = .ok Y) : Y.length = X.length := by
  unfold Combined.contribution at h
  split_ifs at h with ht
  · exact hf _ _ _ h
  · split at h
    · cases h
    · next Z hZ =>
      cases h
      have := filter_length X
      simp only [List.length_append, List.length_map, hf _ _ _ hZ]
      exact this

theorem weighted_length {f : Distributions.Dist → List ℝ → Except Err (List ℝ)} (hf : ∀ d X Y, f d X = .ok Y → Y.length = X.length)
    {X : List ℝ} (dp : Distributions.Dist × ℝ) (Y : List ℝ) (h : Combined.weighted f X dp = .ok Y) : Y.length = X.length := by
  unfold Combined.weighted at h
  split_ifs at h with ht
  · split at h
    · cases h
    · next Z hZ =>
      cases h
      simp [hf _ _ _ hZ]
  · split at h
    · cases h
    · next Z hZ =>
      cases h
      have := filter_length X
      simp only [List.length_append, List.length_map, hf _ _ _ hZ]
      exact this

theorem curve_length {m : Composite} {X : List ℝ} {A : Combined.Arrays} (h : arrays m X = .ok A) (f : Func) : (curve A f).length = X.length := by
  unfold arrays at h
  cases hk : m.kind with
  | competing =>
    simp only [hk, Combined.competing] at h
    split at h
    · cases h
    · split at h
      · next ss hs h1 h2 =>
        have l1 := foldl_zip_length (· * ·) ss (X.map fun _ => 1) (by simp)
          (collect_length (contribution_length fun d X Y => (dist_lengths d X Y).2.2.1) h1)
        have l2 := foldl_zip_length (· + ·) hs (X.map fun _ => 0) (by simp)
          (collect_length (contribution_length fun d X Y => (dist_lengths d X Y).2.2.2) h2)
        cases h
        cases f <;> simp only [curve, List.length_map, List.length_zipWith, l1, l2, min_self]
      · cases h
      · cases h
  | mixture p =>
    simp only [hk, Combined.mixture] at h
    split at h
    · cases h
    · split at h
      · next ss hs h1 h2 =>
        have l1 := foldl_zip_length (· + ·) ss (X.map fun _ => 0) (by simp)
          (collect_length (weighted_length fun d X Y => (dist_lengths d X Y).2.1) h1)
        have l2 := foldl_zip_length (· + ·) hs (X.map fun _ => 0) (by simp)
          (collect_length (weighted_length fun d X Y => (dist_lengths d X Y).1) h2)
        cases h
        cases f <;> simp only [curve, List.length_map, List.length_zipWith, l1, l2, min_self]
      · cases h
      · cases h

theorem curve_eq (A : Combined.Arrays) (f : Func) : curve A f = Spec.MethodPlot.Column A f := by cases f <;> rfl

theorem title_eq (k : Kind) (f : Func) : titleOf k f = Spec.MethodPlot.Title (match k with | .competing => true | .mixture _ => false) f := by
  cases k <;> cases f <;> rfl

theorem label_eq (k : Kind) : ownLabel k = Spec.MethodPlot.Label (match k with | .competing => true | .mixture _ => false) := by
  cases k <;> rfl

theorem cut_id (Y : List ℝ) : Y.map (Spec.MethodPlot.Cut .CDF) = Y ∧ Y.map (Spec.MethodPlot.Cut .SF) = Y ∧ Y.map (Spec.MethodPlot.Cut .CHF) = Y := by
  refine ⟨?_, ?_, ?_⟩ <;>
  · conv_rhs => rw [← List.map_id Y]
    rfl

theorem panel_eq (f : Func) : Func.panelTitle f = Spec.MethodPlot.Panel f := by cases f <;> rfl

theorem cap_length (Y : List ℝ) : (cap Y).length = Y.length := by simp [cap]

theorem shown_length {m : Composite} {X : List ℝ} {A : Combined.Arrays} (h : arrays m X = .ok A) (f : Func) : (shown A f).length = X.length := by
  have := curve_length h f
  cases f
  · simpa only [shown, cap_length, curve] using this
  · exact this
  · exact this
  · simpa only [shown, cap_length, curve] using this
  · exact this

theorem cap_eq {Y : List ℝ} (h : ∀ y ∈ Y, y ≤ 10 ^ 100) : cap Y = Y := by
  unfold cap
  conv_rhs => rw [← List.map_id Y]
  apply List.map_congr_left
  intro y hy
  rw [if_neg (not_lt.2 (h y hy))]
  rfl

/-! ## The x-values -/

/-- The quantiles are within the values -1e100 and 1e100 the constructors start from. -/
def Within (ds : List Distributions.Dist) : Prop := ∀ d ∈ ds, d.sp.ppf (1 / 1000) ≤ 10 ^ 100 ∧ -10 ^ 100 ≤ d.sp.ppf (999 / 1000)

theorem quant_le {d : Distributions.Dist} (h : Component d) : d.sp.ppf (1 / 1000) < d.sp.ppf (999 / 1000) := by
  by_contra hc
  rw [not_lt] at hc
  have h1 := h.proper.law.mono hc
  rw [h.quant _ (by norm_num) (by norm_num), h.quant _ (by norm_num) (by norm_num)] at h1
  norm_num at h1

theorem ends_spec {ds : List Distributions.Dist} (hne : ds ≠ []) (hr : Within ds) :
    ((∃ d ∈ ds, (ends ds).1 = d.sp.ppf (1 / 1000)) ∧ ∀ d ∈ ds, (ends ds).1 ≤ d.sp.ppf (1 / 1000)) ∧
    (∃ d ∈ ds, (ends ds).2 = d.sp.ppf (999 / 1000)) ∧ ∀ d ∈ ds, d.sp.ppf (999 / 1000) ≤ (ends ds).2 :=
  ⟨Combined.foldl_min (fun d : Distributions.Dist => d.sp.ppf (1 / 1000)) ds (10 ^ 100) (fun d h => (hr d h).1) hne,
    Combined.foldl_max (fun d : Distributions.Dist => d.sp.ppf (999 / 1000)) ds (-10 ^ 100) (fun d h => (hr d h).2) hne⟩

/-- `X` are `n` points from `a` up to `b`, at equal steps. -/
def Steps (X : List ℝ) (n : ℕ) (a b : ℝ) : Prop :=
  X.length = n ∧ ∀ i < n, X[i]? = some (a + i * ((b - a) / ((n - 1 : ℕ) : ℝ)))

theorem steps_linspace (a b : ℝ) (n : ℕ) : Steps (Np.linspace a b n) n a b := by
  refine ⟨Np.linspace_length _ _ _, fun i hi => ?_⟩
  rw [Np.linspace_get a b n i hi]

/-- **C142 (the x-values).** The x-values that are given are used. Without them there are 1000 points at equal steps from the smaller to
the larger of xmin and xmax; the default of xmax is the largest 99.9% quantile of the components; that of xmin is their smallest 0.1%
quantile, or 0 if that is positive but below three tenths of the distance between the two. -/
theorem C142_grid (ds : List Distributions.Dist) (hne : ds ≠ []) (hr : Within ds) (r : Call) :
    (∀ x, r.xvals = some (.scalar x) → grid ds r = .ok [x]) ∧ (∀ l, r.xvals = some (.list l) → grid ds r = .ok l) ∧
    (r.xvals = some .other → grid ds r = .error .valueError) ∧
    (r.xvals = none → ∃ X lo hi d1 d2, d1 ∈ ds ∧ d2 ∈ ds ∧
      (∀ d ∈ ds, d1.sp.ppf (1 / 1000) ≤ d.sp.ppf (1 / 1000) ∧ d.sp.ppf (999 / 1000) ≤ d2.sp.ppf (999 / 1000)) ∧
      (∀ x, r.xmin = some x → lo = x) ∧ (∀ x, r.xmax = some x → hi = x) ∧ (r.xmax = none → hi = d2.sp.ppf (999 / 1000)) ∧
      (r.xmin = none → let q := d1.sp.ppf (1 / 1000)
        (0 < q ∧ q < 3 / 10 * (d2.sp.ppf (999 / 1000) - q) ∧ lo = 0) ∨ (¬ (0 < q ∧ q < 3 / 10 * (d2.sp.ppf (999 / 1000) - q)) ∧ lo = q)) ∧
      grid ds r = .ok X ∧ Steps X 1000 (min lo hi) (max lo hi)) := by
  refine ⟨fun x h => ?_, fun l h => ?_, fun h => ?_, fun h => ?_⟩
  · simp only [grid, h]
  · simp only [grid, h]
  · simp only [grid, h]
  · obtain ⟨⟨⟨d1, m1, e1⟩, l1⟩, ⟨d2, m2, e2⟩, l2⟩ := ends_spec hne hr
    refine ⟨Np.linspace (min (r.xmin.getD (lowerLimit (ends ds))) (r.xmax.getD (ends ds).2))
        (max (r.xmin.getD (lowerLimit (ends ds))) (r.xmax.getD (ends ds).2)) 1000,
      r.xmin.getD (lowerLimit (ends ds)), r.xmax.getD (ends ds).2, d1, d2, m1, m2, ?_, ?_, ?_, ?_, ?_, ?_, ?_⟩
    · intro d hd
      rw [← e1, ← e2]
      exact ⟨l1 d hd, l2 d hd⟩
    · intro x hx; rw [hx]; rfl
    · intro x hx; rw [hx]; rfl
    · intro hx; rw [hx, ← e2]; rfl
    · intro hx
      simp only [hx, Option.getD_none, lowerLimit, ← e1, ← e2]
      by_cases hc : (ends ds).1 > 0 ∧ (ends ds).1 - ((ends ds).2 - (ends ds).1) * (3 / 10) < 0
      · rw [if_pos hc]
        exact .inl ⟨hc.1, by linarith [hc.2], rfl⟩
      · rw [if_neg hc]
        refine .inr ⟨fun hc' => hc ⟨hc'.1, by linarith [hc'.2]⟩, rfl⟩
    · simp only [grid, h, Props.swap_min, Props.swap_max]
    · exact steps_linspace _ _ _

/-- **C142 (finding).** The documentation says that an array with 200 elements is made; it has 1000. -/
theorem C142_points_finding (ds : List Distributions.Dist) (r : Call) (h : r.xvals = none) :
    ∃ X, grid ds r = .ok X ∧ X.length = 1000 ∧ X.length ≠ 200 := by
  simp only [grid, h]
  exact ⟨_, rfl, Np.linspace_length _ _ _, by rw [Np.linspace_length]; norm_num⟩

/-- The proportions of a mixture: as many as components. -/
def Fits (m : Composite) : Prop := match m.kind with | .competing => True | .mixture p => p.length = m.dists.length

theorem arrays_iff {m : Composite} (hm : Fits m) (X : List ℝ) :
    ((∃ A, arrays m X = .ok A) ∧ Accepts m.dists X) ∨ (arrays m X = .error .valueError ∧ ¬ Accepts m.dists X) := by
  unfold arrays
  unfold Fits at hm
  cases hk : m.kind with
  | competing => exact Combined.C37_accepts _ _
  | mixture p =>
    rw [hk] at hm
    exact Combined.C38_accepts _ p hm _

/-- **C142 (default).** Without x-values and limits every model whose components are library distributions, and either all Beta or
none, is evaluated without an error. -/
theorem C142_default (m : Composite) (hm : Fits m) (hne : m.dists ≠ []) (hr : Within m.dists) (hl : ∀ d ∈ m.dists, Lib d)
    (hb : (∀ d ∈ m.dists, d.fam ≠ .beta) ∨ ∀ d ∈ m.dists, d.fam = .beta) (r : Call) (h : r.xvals = none) (h1 : r.xmin = none)
    (h2 : r.xmax = none) : ∃ X A, grid m.dists r = .ok X ∧ arrays m X = .ok A := by
  obtain ⟨⟨⟨d1, m1, e1⟩, l1⟩, ⟨d2, m2, e2⟩, l2⟩ := ends_spec hne hr
  have hle : lowerLimit (ends m.dists) ≤ (ends m.dists).2 := by
    have h3 : (ends m.dists).1 ≤ (ends m.dists).2 := (l1 d1 m1).trans ((quant_le (hl d1 m1).component).le.trans (l2 d1 m1))
    unfold lowerLimit
    split_ifs with hc
    · linarith [hc.1]
    · exact h3
  have hX : grid m.dists r = .ok (Np.linspace (lowerLimit (ends m.dists)) (ends m.dists).2 1000) := by
    simp only [grid, h, h1, h2, Option.getD_none, Props.swap_min, Props.swap_max, min_eq_left hle, max_eq_right hle]
  refine ⟨Np.linspace (lowerLimit (ends m.dists)) (ends m.dists).2 1000, ?_⟩
  rcases arrays_iff hm (Np.linspace (lowerLimit (ends m.dists)) (ends m.dists).2 1000) with ⟨⟨A, hA⟩, -⟩ | ⟨-, hno⟩
  · exact ⟨A, hX, hA⟩
  · exfalso
    apply hno
    refine ⟨Combined.linspace_ne (by norm_num), fun hh x hx => ?_, fun d hd hh => ⟨⟨(ends m.dists).2, Combined.mem_linspace_last (by norm_num), ?_⟩, ?_⟩⟩
    · have h0 : 0 ≤ lowerLimit (ends m.dists) := by
        unfold lowerLimit
        split_ifs
        · exact le_rfl
        · rw [e1]
          exact quant_nonneg (hl d1 m1).component (hh d1 m1) (by norm_num) (by norm_num)
      exact h0.trans (Np.linspace_mem hle hx).1
    · exact (quant_nonneg (hl d hd).component hh (by norm_num) (by norm_num)).trans (l2 d hd)
    · intro hf x hx
      rcases hb with hb | hb
      · exact absurd hf (hb d hd)
      · refine (Np.linspace_mem hle hx).2.trans ?_
        rw [e2]
        exact (hl d2 m2).component.beta_le (hb d2 m2) _ (by norm_num) (by norm_num)

/-! ## The methods -/

/-- **C142 (no plot).** Without a plot, and with a single x-value whatever show_plot is, the method returns the value of the model's function
and leaves the axes as they are. -/
theorem C142_no_plot (auto : Auto) (m : Composite) (f : Func) (r : Call) (components : Bool) (c : Canvas) (X : List ℝ) (A : Combined.Arrays)
    (hX : grid m.dists r = .ok X) (hA : arrays m X = .ok A) (h : r.show_plot = false ∨ X.length < 2) :
    compositeMethod auto m f r components c = .ok (unpack (Spec.MethodPlot.Column A f), c) := by
  rw [← curve_eq]
  unfold compositeMethod
  simp only [hX, hA, bind, Except.bind]
  by_cases hl : X.length < 2
  · rw [if_pos hl]
  · rw [if_neg hl]
    rw [if_neg]
    rcases h with h | h
    · simp [h]
    · exact absurd h hl

theorem plot_linear {a b : AxesLimits.Axes} {q : AxesLimits.Request} (h : AxesLimits.plot a q = .ok b) : b.ylinear = a.ylinear := by
  unfold AxesLimits.plot AxesLimits.restoreAxesLimits at h
  simp only [bind_ok] at h
  obtain ⟨own, -, up, -, h⟩ := h
  cases h
  rfl

/-- The curve of a component: its own function, at the x-values that are not negative (at all of them for Normal and Gumbel), with its
name and parameters as the label. -/
noncomputable def partLine (f : Func) (X : List ℝ) (o : Obj) : Line :=
  ⟨some o.param_title_long, if Combined.twoSided o.dist then X else X.filter fun x => decide (0 ≤ x),
    values o.dist (if Combined.twoSided o.dist then X else X.filter fun x => decide (0 ≤ x)) f⟩

theorem drawParts_lines {auto : Auto} {f : Func} {X : List ℝ} : ∀ {os : List Obj} {c c' : Canvas}, c.axes.ylinear = true →
    drawParts auto f X os c = .ok c' → c'.lines = c.lines ++ os.map (partLine f X) ∧ c'.axes.ylinear = true := by
  intro os
  induction os with
  | nil =>
    intro c c' hc h
    rw [drawParts] at h
    cases h
    simp [hc]
  | cons o os ih =>
    intro c c' hc h
    rw [drawParts] at h
    simp only [bind_ok] at h
    obtain ⟨⟨v, c1⟩, h1, h2⟩ := h
    obtain ⟨Z, hZ, -, -, -, e1, -, -⟩ := MethodPlot.C141_draws auto o f _ c c1 v rfl rfl hc h1
    obtain ⟨Z', xv, -, -, -, hp⟩ := MethodPlot.C141_limits auto o f _ c c1 v rfl rfl hc h1
    have hl := plot_linear hp
    obtain ⟨i1, i2⟩ := ih (by rw [hl]; exact hc) h2
    refine ⟨?_, i2⟩
    have hZ' : Z = partX o X := by
      rcases hZ with ⟨l, h3, h4⟩ | ⟨h3, -⟩
      · simp only [Option.some.injEq, Utils.XVals.list.injEq] at h3
        rw [h4, ← h3]
      · cases h3
    rw [i1, e1, hZ', List.append_assoc]
    rfl

/-- **C142 (what is drawn).** With a plot (two x-values or more) the components are drawn first, if asked for, each with its own function,
and then the model, labelled as the caller wants or as the model; what was on the axes before stays. The values returned are those of the
curve; they are the values of the model's function, but that PDF and HF are cut at 1e100. -/
theorem C142_draws (auto : Auto) (m : Composite) (f : Func) (r : Call) (components : Bool) (c c' : Canvas) (v : Value) (X : List ℝ)
    (A : Combined.Arrays) (hX : grid m.dists r = .ok X) (hA : arrays m X = .ok A) (hs : r.show_plot = true) (h2 : 2 ≤ X.length)
    (hy : c.axes.ylinear = true) (h : compositeMethod auto m f r components c = .ok (v, c')) :
    ∃ Y, v = .array Y ∧
      c'.lines = c.lines ++ (if components then m.parts.map (partLine f X) else []) ++ [⟨some (r.label.getD (Spec.MethodPlot.Label (match m.kind with | .competing => true | .mixture _ => false))), X, Y⟩] ∧
      Y = (Spec.MethodPlot.Column A f).map (Spec.MethodPlot.Cut f) ∧
      ((∀ y ∈ Spec.MethodPlot.Column A f, y ≤ 10 ^ 100) → Y = Spec.MethodPlot.Column A f) ∧ c'.title = Spec.MethodPlot.Title (match m.kind with | .competing => true | .mixture _ => false) f ∧ 
      c'.ylabel = Spec.MethodPlot.Vertical' f := by
  have hyl : ylabelOf f = Spec.MethodPlot.Vertical' f := by cases f <;> rfl
  rw [← curve_eq, ← title_eq, ← label_eq, ← hyl]
  unfold compositeMethod at h
  simp only [bind_ok] at h
  obtain ⟨X', hX', A', hA', h⟩ := h
  rw [hX] at hX'
  cases hX'
  rw [hA] at hA'
  cases hA'
  rw [if_neg (by omega)] at h
  simp only [hs, if_true, bind_ok] at h
  obtain ⟨c1, hp, c2, hd, he⟩ := h
  cases he
  have hlen : 2 ≤ (shown A f).length := by rw [shown_length hA]; exact h2
  obtain ⟨xv, -, -, e1, e2, e3⟩ := draw_two hlen hd
  have hc1 : c1.lines = c.lines ++ (if components then m.parts.map (partLine f X) else []) := by
    cases components with
    | true => exact (drawParts_lines hy (by simpa [drawComponents] using hp)).1
    | false =>
      simp only [drawComponents, Bool.false_eq_true, if_false, Except.ok.injEq] at hp
      subst hp
      simp
  have hcap : ∀ Z : List ℝ, cap Z = Z.map fun y => min y (10 ^ 100) := by
    intro Z
    unfold cap
    apply List.map_congr_left
    intro y _
    split_ifs with h
    · exact (min_eq_right h.le).symm
    · exact (min_eq_left (not_lt.1 h)).symm
  refine ⟨shown A f, unpack_two hlen, ?_, ?_, ?_, e2, e3⟩
  · rw [e1, hc1]
  · cases f
    · exact hcap _
    · simp [shown, curve, cut_id]
    · simp [shown, curve, cut_id]
    · exact hcap _
    · simp [shown, curve, cut_id]
  · intro hb
    cases f
    · exact cap_eq hb
    · rfl
    · rfl
    · exact cap_eq hb
    · rfl

theorem limOf_name (m : Composite) (A : Combined.Arrays) : (limOf m A).name ∈ Spec.AxesLimits.Names := by
  unfold limOf
  cases m.kind <;> simp [Spec.AxesLimits.Names]

theorem grid_xvals {ds : List Distributions.Dist} {r : Call} {X : List ℝ} (hX : grid ds r = .ok X) (h2 : 2 ≤ X.length) :
    r.xvals = none ∨ ∃ l, r.xvals = some (.list l) ∧ l ≠ [] := by
  unfold grid at hX
  split at hX
  · cases hX; simp at h2
  · next l hl =>
    cases hX
    refine .inr ⟨X, hl, ?_⟩
    rintro rfl
    simp at h2
  · cases hX
  · next h => exact .inl h

theorem drawParts_ok {auto : Auto} {f : Func} {X : List ℝ} (h2 : 2 ≤ (X.filter fun x => decide (0 ≤ x)).length) :
    ∀ {os : List Obj} (c : Canvas), (∀ o ∈ os, o.lim.name ∈ Spec.AxesLimits.Names) → Accepts (os.map Obj.dist) X ∨ (X ≠ [] ∧ ∀ o ∈ os, Half o.dist →
      o.dist.fam = .beta → ∀ x ∈ X, x ≤ 1) → ∃ c', drawParts auto f X os c = .ok c' := by
  intro os
  induction os with
  | nil => intro c _ _; exact ⟨c, by rw [drawParts]⟩
  | cons o os ih =>
    intro c hn ha
    have ha' : X ≠ [] ∧ ∀ p ∈ o :: os, Half p.dist → p.dist.fam = .beta → ∀ x ∈ X, x ≤ 1 := by
      rcases ha with ha | ha
      · exact ⟨ha.1, fun p hp hh => (ha.2.2 p.dist (List.mem_map_of_mem hp) hh).2⟩
      · exact ha
    have hlen : 2 ≤ (partX o X).length := by
      unfold partX
      split_ifs
      · exact h2.trans (List.length_filter_le _ _)
      · exact h2
    have ht : TakesX o.dist.fam (partX o X) := by
      refine ⟨?_, ?_, ?_⟩
      · intro h; rw [h] at hlen; simp at hlen
      · intro g1 g2 x hx
        have : Combined.twoSided o.dist = false := Combined.half_iff.2 ⟨g1, g2⟩
        simp only [partX, this, Bool.false_eq_true, if_false] at hx
        simpa using (List.mem_filter.1 hx).2
      · intro hb x hx
        have hx' : x ∈ X := by
          unfold partX at hx
          split_ifs at hx
          · exact hx
          · exact (List.mem_filter.1 hx).1
        exact ha'.2 o (by simp) ⟨by rw [hb]; simp, by rw [hb]; simp⟩ hb x hx'
    obtain ⟨v, c1, h1⟩ := MethodPlot.C141_accepts auto o f ⟨some (.list (partX o X)), none, none, true, some o.param_title_long⟩ c
      (hn o (by simp)) (.inl ⟨_, rfl, hlen, ht⟩)
    obtain ⟨c', h'⟩ := ih c1 (fun p hp => hn p (by simp [hp])) (.inr ⟨ha'.1, fun p hp => ha'.2 p (by simp [hp])⟩)
    refine ⟨c', ?_⟩
    rw [drawParts]
    simp only [h1, bind, Except.bind, h']

/-- **C142 (accepted).** What the model's functions accept (property C37, C38) is plotted without an error; with the components, if two of the
x-values or more are not negative. -/
theorem C142_accepts (auto : Auto) (m : Composite) (hm : Fits m) (f : Func) (r : Call) (components : Bool) (c : Canvas) (X : List ℝ)
    (hX : grid m.dists r = .ok X) (ha : Accepts m.dists X)
    (hc : components = true → 2 ≤ (X.filter fun x => decide (0 ≤ x)).length ∧ ∀ o ∈ m.parts, o.lim.name ∈ Spec.AxesLimits.Names) :
    ∃ v c', compositeMethod auto m f r components c = .ok (v, c') := by
  obtain ⟨A, hA⟩ : ∃ A, arrays m X = .ok A := by
    rcases arrays_iff hm X with ⟨h, -⟩ | ⟨-, h⟩
    · exact h
    · exact absurd ha h
  by_cases hno : r.show_plot = false ∨ X.length < 2
  · exact ⟨_, _, C142_no_plot auto m f r components c X A hX hA hno⟩
  · rw [not_or] at hno
    have hs : r.show_plot = true := by simpa using hno.1
    have h2 : 2 ≤ X.length := by omega
    obtain ⟨c1, h1⟩ : ∃ c1, drawComponents auto f X m.parts components c = .ok c1 := by
      cases components with
      | false => exact ⟨c, by simp [drawComponents]⟩
      | true =>
        obtain ⟨c1, h1⟩ := drawParts_ok (auto := auto) (f := f) (hc rfl).1 c (hc rfl).2 (.inl ha)
        exact ⟨c1, by simpa [drawComponents] using h1⟩
    obtain ⟨c2, hd⟩ := draw_ok (auto := auto) (d := limOf m A) (f := f) (title := titleOf m.kind f) (ylabel := ylabelOf f) (X := X) (Y := shown A f)
      (r := { r with label := some (r.label.getD (ownLabel m.kind)) }) c1 (by rw [shown_length hA]; exact h2) (shown_length hA f).symm
      (grid_xvals hX h2) (limOf_name m A)
    simp only [hs] at hd
    refine ⟨unpack (shown A f), c2, ?_⟩
    unfold compositeMethod
    simp only [hX, hA, bind, Except.bind]
    rw [if_neg (by omega)]
    simp only [hs, if_true, h1, hd]

/-- **C142 (errors).** What the model's functions do not accept is a ValueError, with or without a plot. -/
theorem C142_errors (auto : Auto) (m : Composite) (hm : Fits m) (f : Func) (r : Call) (components : Bool) (c : Canvas) :
    (r.xvals = some .other → compositeMethod auto m f r components c = .error .valueError) ∧
    ∀ X, grid m.dists r = .ok X → ¬ Accepts m.dists X → compositeMethod auto m f r components c = .error .valueError := by
  refine ⟨fun h => ?_, fun X hX ha => ?_⟩
  · unfold compositeMethod grid
    simp only [h, bind, Except.bind]
  · rcases arrays_iff hm X with ⟨-, h⟩ | ⟨h, -⟩
    · exact absurd h ha
    · unfold compositeMethod
      simp only [hX, h, bind, Except.bind]

/-! ## Findings about the methods -/

theorem exp_arrays (q : ℝ → ℝ) (o : Obj) (l : ℝ) (hl : 0 < l) (ho : o.dist = Distributions.exponential l 0) :
    ∃ A, arrays ⟨.competing, [o], q⟩ [1, 2] = .ok A ∧ A.hf = [l, l] := by
  rcases arrays_iff (m := ⟨.competing, [o], q⟩) trivial [1, 2] with ⟨⟨A, hA⟩, -⟩ | ⟨-, h⟩
  · refine ⟨A, hA, ?_⟩
    have hA' : Combined.competing [Distributions.exponential l 0] [1, 2] = .ok A := by
      rw [← ho]; exact hA
    have := (Combined.competing_sorted (by simp) hA').2.1
    rw [this]
    simp [Combined.hfValue, Combined.hfOwn, Distributions.exponential]
  · exfalso
    apply h
    simp only [Composite.dists, List.map_cons, List.map_nil, ho]
    refine ⟨by simp, fun _ => by simp, fun d hd _ => ⟨⟨1, by simp, by norm_num⟩, ?_⟩⟩
    simp only [List.mem_cons, List.not_mem_nil, or_false] at hd
    subst hd
    intro h
    simp [Distributions.exponential] at h

/-- **C142 (finding).** What a method returns depends on show_plot: the hazard function of an exponential distribution with Lambda = 1e200 is
1e200 without a plot and 1e100 with one. -/
theorem C142_cap_finding (auto : Auto) (q : ℝ → ℝ) (o : Obj) (ho : o.dist = Distributions.exponential (10 ^ 200) 0) (c : Canvas)
    (hy : c.axes.ylinear = true) :
    ∃ c', compositeMethod auto ⟨.competing, [o], q⟩ .HF ⟨some (.list [1, 2]), none, none, false, none⟩ false c = .ok (.array [10 ^ 200, 10 ^ 200], c) ∧
      compositeMethod auto ⟨.competing, [o], q⟩ .HF ⟨some (.list [1, 2]), none, none, true, none⟩ false c = .ok (.array [10 ^ 100, 10 ^ 100], c') := by
  obtain ⟨A, hA, hh⟩ := exp_arrays q o (10 ^ 200) (by positivity) ho
  have ha : Accepts (Composite.dists ⟨.competing, [o], q⟩) [1, 2] := by
    rcases arrays_iff (m := ⟨.competing, [o], q⟩) trivial [1, 2] with ⟨-, h⟩ | ⟨h, -⟩
    · exact h
    · rw [hA] at h; cases h
  obtain ⟨v, c', h⟩ := C142_accepts auto ⟨.competing, [o], q⟩ trivial .HF ⟨some (.list [1, 2]), none, none, true, none⟩ false c [1, 2] rfl ha
    (by simp)
  obtain ⟨Y, hv, -, hY, -, -, -⟩ := C142_draws auto ⟨.competing, [o], q⟩ .HF ⟨some (.list [1, 2]), none, none, true, none⟩ false c c' v [1, 2] A
    rfl hA rfl (by simp) hy h
  have h0 := C142_no_plot auto ⟨.competing, [o], q⟩ .HF ⟨some (.list [1, 2]), none, none, false, none⟩ false c [1, 2] A rfl hA (.inl rfl)
  refine ⟨c', ?_, ?_⟩
  · rw [h0]
    simp only [Spec.MethodPlot.Column, hh, unpack]
  · rw [h, hv, hY]
    have : min ((10 : ℝ) ^ 200) (10 ^ 100) = 10 ^ 100 := min_eq_right (by gcongr <;> norm_num)
    simp only [Spec.MethodPlot.Column, Spec.MethodPlot.Cut, hh, List.map_cons, List.map_nil, this]

/-- **C142 (finding).** With plot_components, if exactly one of the x-values is not negative and the first component is neither Normal nor
Gumbel, an error is raised (an IndexError, or a TypeError for CDF and SF), although the model's function accepts the x-values. -/
theorem C142_components_finding (auto : Auto) (m : Composite) (hm : Fits m) (f : Func) (l : List ℝ) (label : Option String) (c : Canvas)
    (hl : 2 ≤ l.length) (ha : Accepts m.dists l) (o : Obj) (os : List Obj) (ho : m.parts = o :: os) (hh : Half o.dist) (x : ℝ)
    (hx : (l.filter fun x => decide (0 ≤ x)) = [x]) (hy : c.axes.ylinear = true) :
    (∃ v, compositeMethod auto m f ⟨some (.list l), none, none, false, label⟩ true c = .ok (v, c)) ∧
    (compositeMethod auto m f ⟨some (.list l), none, none, true, label⟩ true c = .error .indexError ∨
      compositeMethod auto m f ⟨some (.list l), none, none, true, label⟩ true c = .error .typeError) := by
  obtain ⟨A, hA⟩ : ∃ A, arrays m l = .ok A := by
    rcases arrays_iff hm l with ⟨h, -⟩ | ⟨-, h⟩
    · exact h
    · exact absurd ha h
  have hX : ∀ b, grid m.dists ⟨some (.list l), none, none, b, label⟩ = .ok l := fun _ => rfl
  refine ⟨⟨_, C142_no_plot auto m f _ true c l A (hX false) hA (.inl rfl)⟩, ?_⟩
  have ht : Combined.twoSided o.dist = false := Combined.half_iff.2 hh
  have hp : partX o l = [x] := by simp only [partX, ht, Bool.false_eq_true, if_false, hx]
  have hmem : x ∈ l ∧ 0 ≤ x := by
    have : x ∈ l.filter fun x => decide (0 ≤ x) := by rw [hx]; simp
    simpa using List.mem_filter.1 this
  have htx : TakesX o.dist.fam [x] := by
    refine ⟨by simp, fun _ _ y hy => ?_, fun hb y hy => ?_⟩
    · simp only [List.mem_cons, List.not_mem_nil, or_false] at hy
      subst hy; exact hmem.2
    · simp only [List.mem_cons, List.not_mem_nil, or_false] at hy
      subst hy
      exact (ha.2.2 o.dist (by simp [Composite.dists, ho]) hh).2 hb _ hmem.1
  have key := (MethodPlot.C141_one_value_finding auto o f ⟨some (.list [x]), none, none, true, some o.param_title_long⟩ c x rfl htx hy).2
  have e : ∀ er, method auto o f ⟨some (.list [x]), none, none, true, some o.param_title_long⟩ c = .error er →
      compositeMethod auto m f ⟨some (.list l), none, none, true, label⟩ true c = .error er := by
    intro er her
    unfold compositeMethod
    simp only [hX, hA, bind, Except.bind]
    rw [if_neg (by omega)]
    simp only [drawComponents, if_true, ho]
    rw [drawParts]
    simp only [hp, bind, Except.bind, her]
  cases f
  · exact .inl (e _ key)
  · exact .inr (e _ key)
  · exact .inr (e _ key)
  · exact .inl (e _ key)
  · exact .inl (e _ key)

/-! ## plot() -/

/-- The five functions. -/
def functions : List Func := [.PDF, .CDF, .SF, .HF, .CHF]

theorem panelsOf_spec {auto : Auto} {a : AxesLimits.Axes} (ha : a.xlim = (0, 1) ∧ a.ylim = (0, 1)) {d : AxesLimits.Dist} {X : List ℝ} {Y : Func → List ℝ}
    {unpacked : Bool} {r : Call} {ps : List DistPlot.Panel} (hY : ∀ f, (Y f).length = X.length) (hu : unpacked = true → X.length ≠ 1)
    (h : panelsOf auto a d X Y unpacked r = .ok ps) :
    List.Forall₂ (fun (p : DistPlot.Panel) f => p.title = Func.panelTitle f ∧ p.X = X ∧ p.Y = Y f ∧ ∃ xv, limitXvals r.xvals = .ok xv ∧
      AxesLimits.plot a ⟨d, f.name, X, (Y f).map Real.toEReal, xv, r.xmin, r.xmax, auto a X (Y f)⟩ = .ok p.axes) ps functions := by
  have hl : AxesLimits.getAxesLimits a = ⟨(0, 1), (0, 1), false⟩ := by simp [AxesLimits.getAxesLimits, ha]
  have key : ∀ f p, panelOf auto a d (Func.panelTitle f) f X (Y f) unpacked r = .ok p → p.title = Func.panelTitle f ∧ p.X = X ∧ p.Y = Y f ∧
      ∃ xv, limitXvals r.xvals = .ok xv ∧
      AxesLimits.plot a ⟨d, f.name, X, (Y f).map Real.toEReal, xv, r.xmin, r.xmax, auto a X (Y f)⟩ = .ok p.axes := by
    intro f p hp
    simp only [panelOf, bind_ok] at hp
    obtain ⟨xv, h1, ax, h2, h3⟩ := hp
    cases h3
    refine ⟨rfl, rfl, rfl, xv, h1, ?_⟩
    have hv : (if unpacked = true then unpack (Y f) else Value.array (Y f)) = .array (Y f) := by
      split_ifs with hc
      · have h4 := hu hc
        rw [← hY f] at h4
        match Y f, h4 with
        | [], _ => rfl
        | [y], h4 => simp at h4
        | _ :: _ :: _, _ => rfl
      · rfl
    rw [hv, ← hl] at h2
    exact h2
  simp only [panelsOf, bind_ok] at h
  obtain ⟨p1, h1, p2, h2, p3, h3, p4, h4, p5, h5, h⟩ := h
  cases h
  exact .cons (key _ _ h1) (.cons (key _ _ h2) (.cons (key _ _ h3) (.cons (key _ _ h4) (.cons (key _ _ h5) .nil))))

/-- **C142 (the figure).** `plot()` shows the five functions of the model, each at the x-values, with the values the method returns when it
plots, on axes with the limits the method leaves on new axes. -/
theorem C142_plot (fmt : ℝ → String) (auto : Auto) (a : AxesLimits.Axes) (ha : a.xlim = (0, 1) ∧ a.ylim = (0, 1)) (m : Composite)
    (attrs : DistPlot.Attrs) (r : Call) (X : List ℝ) (A : Combined.Arrays) (hX : grid m.dists r = .ok X) (hA : arrays m X = .ok A)
    (g : DistPlot.Figure) (h : compositePlot fmt auto a m attrs r = .ok g) :
    List.Forall₂ (fun (p : DistPlot.Panel) f => p.title = Spec.MethodPlot.Panel f ∧ p.X = X ∧
      p.Y = (Spec.MethodPlot.Column A f).map (Spec.MethodPlot.Cut f) ∧ ∃ xv, limitXvals r.xvals = .ok xv ∧
      AxesLimits.plot a ⟨limOf m A, Spec.MethodPlot.Name f, X, p.Y.map Real.toEReal, xv, r.xmin, r.xmax, auto a X p.Y⟩ = .ok p.axes) g.panels functions := by
  simp only [← curve_eq, ← panel_eq, ← MethodPlot.name_eq]
  simp only [compositePlot, bind_ok] at h
  obtain ⟨X', hX', A', hA', ps, hp, t, -, h⟩ := h
  rw [hX] at hX'; cases hX'
  rw [hA] at hA'; cases hA'
  cases h
  have := panelsOf_spec ha (fun f => shown_length hA f) (by simp) hp
  refine this.imp ?_
  rintro p f ⟨h1, h2, h3, h4⟩
  refine ⟨h1, h2, ?_, by rw [h3]; exact h4⟩
  have hcap : ∀ Z : List ℝ, cap Z = Z.map fun y => min y (10 ^ 100) := by
    intro Z
    unfold cap
    apply List.map_congr_left
    intro y _
    split_ifs with h
    · exact (min_eq_right h.le).symm
    · exact (min_eq_left (not_lt.1 h)).symm
  rw [h3]
  cases f
  · exact hcap _
  · simp [shown, curve, cut_id]
  · simp [shown, curve, cut_id]
  · exact hcap _
  · simp [shown, curve, cut_id]

theorem texts_written {fmt : ℝ → String} {at' : DistPlot.Attrs} {t : List String} (h : texts fmt at' = .ok t) :
    t = ["Mean = " ++ DistPlot.written fmt at'.mean, "Median = " ++ DistPlot.written fmt at'.median, "Mode = " ++ DistPlot.written fmt at'.mode,
      "$5^{th}$ quantile = " ++ DistPlot.written fmt at'.b5, "$95^{th}$ quantile = " ++ DistPlot.written fmt at'.b95,
      "Standard deviation = " ++ DistPlot.written fmt at'.standard_deviation, "Variance = " ++ DistPlot.written fmt at'.variance,
      "Skewness = " ++ DistPlot.written fmt at'.skewness, "Excess kurtosis = " ++ DistPlot.written fmt at'.excess_kurtosis] := by
  have key : ∀ {b : DistPlot.Attr} {s : String}, DistPlot.plain fmt b = .ok s → s = DistPlot.written fmt b := by
    intro b s hb
    cases b with
    | num v => cases hb; rfl
    | msg s' => cases hb
  simp only [texts, bind_ok] at h
  obtain ⟨s1, h1, s2, h2, s3, h3, s4, h4, s5, h5, s6, h6, s7, h7, s8, h8, s9, h9, h⟩ := h
  cases h
  rw [key h1, key h2, key h3, key h4, key h5, key h6, key h7, key h8, key h9]

/-- All attributes are numbers. -/
def Numbers (b : DistPlot.Attrs) : Prop :=
  ∀ a ∈ [b.mean, b.median, b.mode, b.b5, b.b95, b.standard_deviation, b.variance, b.skewness, b.excess_kurtosis], ∀ s, a ≠ .msg s

theorem texts_ok (fmt : ℝ → String) (b : DistPlot.Attrs) (h : Numbers b) : ∃ t, texts fmt b = .ok t := by
  unfold Numbers at h
  simp only [List.mem_cons, List.not_mem_nil, or_false, forall_eq_or_imp, forall_eq] at h
  obtain ⟨h1, h2, h3, h4, h5, h6, h7, h8, h9⟩ := h
  simp only [texts, DistPlot.plain_ok fmt h1, DistPlot.plain_ok fmt h2, DistPlot.plain_ok fmt h3, DistPlot.plain_ok fmt h4, DistPlot.plain_ok fmt h5,
    DistPlot.plain_ok fmt h6, DistPlot.plain_ok fmt h7, DistPlot.plain_ok fmt h8, DistPlot.plain_ok fmt h9, bind, Except.bind]
  exact ⟨_, rfl⟩

/-- **C142 (the statistics).** The nine attributes are written on the figure. -/
theorem C142_texts (fmt : ℝ → String) (auto : Auto) (a : AxesLimits.Axes) (m : Composite) (b : DistPlot.Attrs) (r : Call) (g : DistPlot.Figure)
    (h : compositePlot fmt auto a m b r = .ok g) :
    g.texts = ["Mean = " ++ DistPlot.written fmt b.mean, "Median = " ++ DistPlot.written fmt b.median, "Mode = " ++ DistPlot.written fmt b.mode,
      "$5^{th}$ quantile = " ++ DistPlot.written fmt b.b5, "$95^{th}$ quantile = " ++ DistPlot.written fmt b.b95,
      "Standard deviation = " ++ DistPlot.written fmt b.standard_deviation, "Variance = " ++ DistPlot.written fmt b.variance,
      "Skewness = " ++ DistPlot.written fmt b.skewness, "Excess kurtosis = " ++ DistPlot.written fmt b.excess_kurtosis] := by
  simp only [compositePlot, bind_ok] at h
  obtain ⟨X, -, A, -, ps, -, t, ht, h⟩ := h
  cases h
  exact texts_written ht

theorem panelsOf_ok {auto : Auto} (a : AxesLimits.Axes) {d : AxesLimits.Dist} (hn : d.name ∈ Spec.AxesLimits.Names) {X : List ℝ} {Y : Func → List ℝ}
    {unpacked : Bool} {r : Call} (hY : ∀ f, (Y f).length = X.length) (hX : X ≠ []) (hu : unpacked = true → X.length ≠ 1)
    (hv : r.xvals = none ∨ ∃ l, r.xvals = some (.list l) ∧ l ≠ []) : ∃ ps, panelsOf auto a d X Y unpacked r = .ok ps := by
  obtain ⟨xv, h1, h2⟩ : ∃ xv, limitXvals r.xvals = .ok xv ∧ xv ≠ some [] := by
    rcases hv with h | ⟨l, h, h'⟩
    · rw [h]; exact ⟨none, rfl, by simp⟩
    · rw [h]; exact ⟨some l, rfl, by simpa using h'⟩
  have key : ∀ f, ∃ p, panelOf auto a d (Func.panelTitle f) f X (Y f) unpacked r = .ok p := by
    intro f
    let a' : AxesLimits.Axes := { a with xlim := (0, 1), ylim := (0, 1) }
    obtain ⟨b, hb⟩ := (Props.AxesLimits.C127_errors a' ⟨d, f.name, X, (Y f).map Real.toEReal, xv, r.xmin, r.xmax, auto a X (Y f)⟩
      (by
        intro h
        simp only [List.map_eq_nil_iff] at h
        have := hY f
        rw [h] at this
        exact hX (List.length_eq_zero_iff.1 this.symm)) (by simp [hY f])).1.2 ⟨name_mem f, h2, fun _ _ => hn⟩
    have hv : (if unpacked = true then unpack (Y f) else Value.array (Y f)) = .array (Y f) := by
      split_ifs with hc
      · have h4 := hu hc
        rw [← hY f] at h4
        match Y f, h4 with
        | [], _ => rfl
        | [y], h4 => simp at h4
        | _ :: _ :: _, _ => rfl
      · rfl
    have hb' : AxesLimits.restoreAxesLimits ⟨(0, 1), (0, 1), false⟩ { a with xlim := (auto a X (Y f)).1, ylim := (auto a X (Y f)).2 } d f.name X
        ((Y f).map Real.toEReal) xv r.xmin r.xmax = .ok b := by
      rw [← hb]
      unfold AxesLimits.plot
      simp [AxesLimits.getAxesLimits, a']
    refine ⟨⟨Func.panelTitle f, X, Y f, b⟩, ?_⟩
    unfold panelOf
    simp only [h1, bind, Except.bind, hv, restoreValue, hb']
  obtain ⟨p1, k1⟩ := key .PDF
  obtain ⟨p2, k2⟩ := key .CDF
  obtain ⟨p3, k3⟩ := key .SF
  obtain ⟨p4, k4⟩ := key .HF
  obtain ⟨p5, k5⟩ := key .CHF
  refine ⟨[p1, p2, p3, p4, p5], ?_⟩
  simp only [panelsOf, k1, k2, k3, k4, k5, bind, Except.bind]

/-- **C142 (the figure is made).** Without x-values, or with a list of x-values, that the model's functions accept, `plot()` makes the figure. -/
theorem C142_plot_accepts (fmt : ℝ → String) (auto : Auto) (a : AxesLimits.Axes) (m : Composite) (hm : Fits m) (b : DistPlot.Attrs)
    (hb : Numbers b) (r : Call) (hr : ∀ x, r.xvals ≠ some (.scalar x)) (X : List ℝ) (hX : grid m.dists r = .ok X) (ha : Accepts m.dists X) :
    ∃ g, compositePlot fmt auto a m b r = .ok g := by
  obtain ⟨A, hA⟩ : ∃ A, arrays m X = .ok A := by
    rcases arrays_iff hm X with ⟨h, -⟩ | ⟨-, h⟩
    · exact h
    · exact absurd ha h
  have hv : r.xvals = none ∨ ∃ l, r.xvals = some (.list l) ∧ l ≠ [] := by
    unfold grid at hX
    split at hX
    · next x hx => exact absurd hx (hr x)
    · next l hl =>
      cases hX
      exact .inr ⟨X, hl, ha.1⟩
    · cases hX
    · next h => exact .inl h
  obtain ⟨ps, hps⟩ := panelsOf_ok (auto := auto) a (limOf_name m A) (fun f => shown_length hA f) ha.1 (unpacked := false) (by simp) hv
  obtain ⟨t, ht⟩ := texts_ok fmt b hb
  refine ⟨⟨ps, t⟩, ?_⟩
  unfold compositePlot
  simp only [hX, hA, hps, ht, bind, Except.bind]

/-- **C142 (finding).** `plot(xvals=x)` with a number, which the methods accept, raises a TypeError. -/
theorem C142_plot_number_finding (fmt : ℝ → String) (auto : Auto) (a : AxesLimits.Axes) (m : Composite) (hm : Fits m) (b : DistPlot.Attrs)
    (r : Call) (x : ℝ) (hr : r.xvals = some (.scalar x)) (ha : Accepts m.dists [x]) : compositePlot fmt auto a m b r = .error .typeError := by
  obtain ⟨A, hA⟩ : ∃ A, arrays m [x] = .ok A := by
    rcases arrays_iff hm [x] with ⟨h, -⟩ | ⟨-, h⟩
    · exact h
    · exact absurd ha h
  have hX : grid m.dists r = .ok [x] := by simp only [grid, hr]
  unfold compositePlot panelsOf panelOf
  simp only [hX, hA, hr, limitXvals, bind, Except.bind]

/-! ## Non-vacuity -/

/-- The hypotheses are met: the CDF of a mixture of two Weibull distributions with its components, at 1, 2 and 20: three more curves. -/
example (auto : Auto) (q : ℝ → ℝ) (c : Canvas) (hc : c.axes.ylinear = true) :
    ∃ v c', compositeMethod auto ⟨.mixture [2 / 5, 3 / 5], [MethodPlot.weibullObj q, MethodPlot.weibullObj q], q⟩ .CDF
        ⟨some (.list [1, 2, 20]), none, none, true, none⟩ true c = .ok (v, c') ∧ c'.lines.length = c.lines.length + 3 ∧
      c'.title = "Mixture Model\n Cumulative Distribution Function" := by
  have ha : Accepts (Composite.dists ⟨.mixture [2 / 5, 3 / 5], [MethodPlot.weibullObj q, MethodPlot.weibullObj q], q⟩) [1, 2, 20] := by
    refine ⟨by simp, fun _ => by simp, fun d hd _ => ⟨⟨1, by simp, by norm_num⟩, fun hf => ?_⟩⟩
    simp [Composite.dists, MethodPlot.weibullObj] at hd
    rw [hd] at hf
    cases hf
  have h2 : 2 ≤ (([1, 2, 20] : List ℝ).filter fun x => decide (0 ≤ x)).length := by norm_num [List.filter_cons]
  have hm : Fits ⟨.mixture [2 / 5, 3 / 5], [MethodPlot.weibullObj q, MethodPlot.weibullObj q], q⟩ := rfl
  obtain ⟨v, c', h⟩ := C142_accepts auto ⟨.mixture [2 / 5, 3 / 5], [MethodPlot.weibullObj q, MethodPlot.weibullObj q], q⟩ hm .CDF
    ⟨some (.list [1, 2, 20]), none, none, true, none⟩ true c [1, 2, 20] rfl ha
    (fun _ => ⟨h2, by simp [MethodPlot.weibullObj, Spec.AxesLimits.Names]⟩)
  rcases arrays_iff hm [1, 2, 20] with ⟨⟨A, hA⟩, -⟩ | ⟨-, hno⟩
  · obtain ⟨Y, -, h1, -, -, h3, -⟩ := C142_draws auto _ .CDF _ true c c' v [1, 2, 20] A rfl hA rfl (by simp) hc h
    refine ⟨v, c', h, by rw [h1]; simp, by rw [h3]; rfl⟩
  · exact absurd ha hno

end Reliability.Props.CompositePlot

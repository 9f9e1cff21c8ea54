import Verif.Spec.FitProbPlots
import Verif.Props.ProbPaperPlots
import Verif.Props.FitEverythingReturns
import Verif.Props.FitPlots
import Verif.Props.Combined

/-! # C156: the probability plots of `Fit_Everything` -/

namespace Reliability.Props.FitProbPlots

open Reliability Reliability.Utils Reliability.InputCheck Reliability.FitGlue Reliability.FitSpecial Reliability.ProbPaper
open Reliability.FitEverythingFull Reliability.FitPlots Reliability.FitProbPlots
open Reliability.Spec Reliability.Spec.FitEverythingFull Reliability.Spec.FitProbPlots
open Reliability.Props.FitEverythingFull
open Reliability.FunctionCI (Two Expo Fitted)
open Reliability.Fitters (Dist)
open Reliability.Props (bind_ok)
open Reliability.Props.FitPlots (minimum_spec maximum_spec bind_ok' lift_ok C126_layout)

/-! ## The attributes against the rows of the table -/

theorem fit2_rows {argsort : List ℝ → List ℕ} {F : Fam2} {J : FunctionCI.Jac} {num : Option ℝ → Num2} {inp : Checked ℝ} {fo : Option ℝ}
    {r : FitRes Two} (h : fit2 F argsort J num inp fo = .ok r) :
    r.dist.gamma = 0 ∧ ∃ a, r.rows.map (fun w => (w.name, w.point)) = [(F.nameA, a), (F.nameB, r.dist.b)] := by
  unfold fit2 at h
  simp only [bind_ok] at h
  obtain ⟨e, he, s, hs, q, hq, g, hg, h⟩ := h
  cases h
  exact ⟨rfl, e.1.1, rows2_np ..⟩

theorem fit3_rows {argsort : List ℝ → List ℕ} {F : Fam3} {J : FunctionCI.Jac} {num : Num (ℝ × ℝ × ℝ)}
    {fb : Args → Except Err (FitRes Two)} {inp : Checked ℝ} {r : FitRes Two}
    (hfb : ∀ x r, fb x = .ok r → r.dist.gamma = 0 ∧ ∃ a, r.rows.map (fun w => (w.name, w.point)) = [(F.F2.nameA, a), (F.F2.nameB, r.dist.b)])
    (h : fit3 F argsort J num fb inp = .ok r) :
    0 ≤ r.dist.gamma ∧
      ∃ a, r.rows.map (fun w => (w.name, w.point)) = [(F.F2.nameA, a), (F.F2.nameB, r.dist.b), ("Gamma", r.dist.gamma)] := by
  unfold fit3 at h
  simp only [bind_ok] at h
  obtain ⟨e, he, h⟩ := h
  split_ifs at h with hγ
  · simp only [bind_ok] at h
    obtain ⟨r', hr', q, hq, g, hg, h⟩ := h
    cases h
    obtain ⟨h0, a, h1⟩ := hfb _ _ hr'
    refine ⟨h0.ge, a, ?_⟩
    dsimp only
    rw [List.map_append, h1]
    simp [h0, fixedRow]
  · simp only [bind_ok] at h
    obtain ⟨s, hs, q, hq, g, hg, h⟩ := h
    cases h
    refine ⟨(show (0 : ℝ) ≤ e.1.2.2 by norm_num at hγ; linarith), e.1.1, ?_⟩
    cases s <;> rfl

theorem gamma2_rows {argsort : List ℝ → List ℕ} {J : FunctionCI.Jac} {num : Num (ℝ × ℝ)} {x : Args} {r : FitRes Two}
    (h : fitGamma2P argsort J num x = .ok r) :
    r.dist.gamma = 0 ∧ ∃ a, r.rows.map (fun w => (w.name, w.point)) = [("Alpha", a), ("Beta", r.dist.b)] := by
  simp only [fitGamma2P, bind_ok] at h
  obtain ⟨inp, hi, e, he, s, hs, q, hq, g, hg, h⟩ := h
  cases h
  refine ⟨rfl, e.1.1, ?_⟩
  cases s <;> rfl

theorem gamma3_rows {argsort : List ℝ → List ℕ} {J : FunctionCI.Jac} {num : Num (ℝ × ℝ × ℝ)} {num2 : Num (ℝ × ℝ)} {x : Args}
    {r : FitRes Two} (h : fitGamma3P argsort J num num2 x = .ok r) :
    0 ≤ r.dist.gamma ∧
      ∃ a, r.rows.map (fun w => (w.name, w.point)) = [("Alpha", a), ("Beta", r.dist.b), ("Gamma", r.dist.gamma)] := by
  simp only [fitGamma3P, bind_ok] at h
  obtain ⟨inp, hi, e, he, h⟩ := h
  split_ifs at h with hγ
  · simp only [bind_ok] at h
    obtain ⟨r', hr', q, hq, g, hg, h⟩ := h
    cases h
    obtain ⟨h0, a, h1⟩ := gamma2_rows hr'
    refine ⟨h0.ge, a, ?_⟩
    dsimp only
    rw [List.map_append, h1]
    simp [h0, fixedRow]
  · simp only [bind_ok] at h
    obtain ⟨s, hs, q, hq, g, hg, h⟩ := h
    cases h
    refine ⟨(show (0 : ℝ) ≤ e.1.2.2 by norm_num at hγ; linarith), e.1.1, ?_⟩
    cases s <;> rfl

theorem exp2_rows {argsort : List ℝ → List ℕ} {J : FunctionCI.Jac} {num : Num (ℝ × ℝ)} {x : Args} {r : FitRes Expo}
    (h : fitExponential2P argsort J num x = .ok r) :
    ∃ L, r.rows.map (fun w => (w.name, w.point)) = [("Lambda", L), ("1/Lambda", 1 / L), ("Gamma", r.dist.gamma)] := by
  simp only [fitExponential2P, bind_ok] at h
  obtain ⟨inp, hi, e, he, s, hs, q, hq, g, hg, h⟩ := h
  cases h
  refine ⟨e.1.1, ?_⟩
  cases s <;> rfl

/-! ## The curve -/

theorem checkX_ok {fam : Distributions.Fam} {X : List ℝ} (hf : fam ≠ .beta) (hX : X ≠ []) (h0 : ∀ x ∈ X, 0 ≤ x) :
    Distributions.checkX fam X = .ok () := by
  unfold Distributions.checkX
  cases hlo : X.min? with
  | none => exact absurd (List.min?_eq_none_iff.1 hlo) hX
  | some lo =>
    cases hhi : X.max? with
    | none => exact absurd (List.max?_eq_none_iff.1 hhi) hX
    | some hi =>
      have := h0 lo (List.min?_mem hlo)
      dsimp only
      rw [if_neg (fun h => absurd h.1 (not_lt.2 this)), if_neg (fun h => hf h.2)]

theorem collect_ok {α : Type} {f : α → Except Err (List ℝ)} : ∀ {l : List α}, (∀ a ∈ l, ∃ Y, f a = .ok Y) →
    ∃ Ys, Combined.collect f l = .ok Ys
  | [], _ => ⟨[], rfl⟩
  | a :: l, h => by
    obtain ⟨Y, hY⟩ := h a (by simp)
    obtain ⟨Ys, hYs⟩ := collect_ok (l := l) fun b hb => h b (by simp [hb])
    exact ⟨Y :: Ys, by simp only [Combined.collect, hY, hYs]⟩

theorem checkNeg_ok' {ds : List Distributions.Dist} {X : List ℝ} (hX : X ≠ []) (h0 : ∀ x ∈ X, 0 ≤ x) :
    Combined.checkNeg ds X = .ok () := by
  unfold Combined.checkNeg
  cases hlo : X.min? with
  | none => exact absurd (List.min?_eq_none_iff.1 hlo) hX
  | some lo => exact if_neg fun h => absurd h.1 (not_lt.2 (h0 lo (List.min?_mem hlo)))

theorem filter_nonneg {X : List ℝ} (h0 : ∀ x ∈ X, 0 ≤ x) : (X.filter fun x => decide (0 ≤ x)) = X :=
  List.filter_eq_self.2 fun x hx => by simpa using h0 x hx

theorem weighted_ok {f : Distributions.Dist → List ℝ → Except Err (List ℝ)} {X : List ℝ} (h0 : ∀ x ∈ X, 0 ≤ x)
    {dp : Distributions.Dist × ℝ} (h : ∃ Y, f dp.1 X = .ok Y) : ∃ Y, Combined.weighted f X dp = .ok Y := by
  obtain ⟨Y, hY⟩ := h
  unfold Combined.weighted
  rw [filter_nonneg h0, hY]
  split_ifs <;> exact ⟨_, rfl⟩

theorem contribution_ok {f : Distributions.Dist → List ℝ → Except Err (List ℝ)} {X : List ℝ} (h0 : ∀ x ∈ X, 0 ≤ x) (neg : ℝ)
    {d : Distributions.Dist} (h : ∃ Y, f d X = .ok Y) : ∃ Y, Combined.contribution f neg X d = .ok Y := by
  obtain ⟨Y, hY⟩ := h
  unfold Combined.contribution
  rw [filter_nonneg h0, hY]
  split_ifs <;> exact ⟨_, rfl⟩

/-- Components that are not Beta distributions have a CDF everywhere on the right. -/
theorem mixture_cdf {ds : List Distributions.Dist} {ps X : List ℝ} (hd : ∀ d ∈ ds, d.fam ≠ .beta) (hX : X ≠ []) (h0 : ∀ x ∈ X, 0 ≤ x) :
    ∃ Y, (AnyDist.mixture ds ps).cdf X = .ok Y := by
  have hz : ∀ dp ∈ ds.zip ps, dp.1.fam ≠ .beta := fun dp h => hd _ (List.of_mem_zip h).1
  obtain ⟨a, ha⟩ := collect_ok (f := Combined.weighted Distributions.CDF X) (l := ds.zip ps) fun dp h =>
    weighted_ok h0 (by simp only [Distributions.CDF, checkX_ok (hz dp h) hX h0]; exact ⟨_, rfl⟩)
  obtain ⟨b, hb⟩ := collect_ok (f := Combined.weighted Distributions.PDF X) (l := ds.zip ps) fun dp h =>
    weighted_ok h0 (by simp only [Distributions.PDF, checkX_ok (hz dp h) hX h0]; exact ⟨_, rfl⟩)
  simp only [AnyDist.cdf, Combined.mixture, checkNeg_ok' hX h0, ha, hb, Except.map]
  exact ⟨_, rfl⟩

theorem competing_cdf {ds : List Distributions.Dist} {X : List ℝ} (hd : ∀ d ∈ ds, d.fam ≠ .beta) (hX : X ≠ []) (h0 : ∀ x ∈ X, 0 ≤ x) :
    ∃ Y, (AnyDist.competing ds).cdf X = .ok Y := by
  obtain ⟨a, ha⟩ := collect_ok (f := Combined.contribution Distributions.SF 1 X) (l := ds) fun d h =>
    contribution_ok h0 1 (by simp only [Distributions.SF, checkX_ok (hd d h) hX h0]; exact ⟨_, rfl⟩)
  obtain ⟨b, hb⟩ := collect_ok (f := Combined.contribution Distributions.HF 0 X) (l := ds) fun d h =>
    contribution_ok h0 0 (by simp only [Distributions.HF, checkX_ok (hd d h) hX h0]; exact ⟨_, rfl⟩)
  simp only [AnyDist.cdf, Combined.competing, checkNeg_ok' hX h0, ha, hb, Except.map]
  exact ⟨_, rfl⟩

theorem dszi_cdf {m : Combined.DSZI} {X : List ℝ} (hd : m.base.fam ≠ .beta) (hX : X ≠ []) (h0 : ∀ x ∈ X, 0 ≤ x) :
    ∃ Y, (AnyDist.dszi m).cdf X = .ok Y := by
  simp only [AnyDist.cdf, Combined.dsziCDF, Distributions.CDF, checkX_ok hd hX h0]
  exact ⟨_, rfl⟩


section Grid
attribute [local irreducible] Np.linspace

theorem curveGrid_spec {f : List ℝ} (hf : f ≠ []) (hpos : ∀ t ∈ f, 0 < t) :
    (curveGrid f).length = 1000 ∧ (∀ t ∈ curveGrid f, 0 < t) ∧
      (∀ t ∈ curveGrid f, ∃ u ∈ f, ∃ v ∈ f, u / 1000 ≤ t ∧ t ≤ 10 * v) ∧
      (∀ u ∈ f, (∀ v ∈ f, u ≤ v) → (curveGrid f).head? = some (u / 1000)) ∧
      (∀ u ∈ f, (∀ v ∈ f, v ≤ u) → (curveGrid f).getLast? = some (10 * u)) := by
  obtain ⟨m1, m2⟩ := minimum_spec hf
  obtain ⟨x1, x2⟩ := maximum_spec hf
  have pm := hpos _ m1
  have px := hpos _ x1
  have e1 : (10 : ℝ) ^ (Real.logb 10 (minimum f) - 3) = minimum f / 1000 := by
    rw [Real.rpow_sub (by norm_num), Real.rpow_logb (by norm_num) (by norm_num) pm]
    norm_num
  have e2 : (10 : ℝ) ^ (Real.logb 10 (maximum f) + 1) = 10 * maximum f := by
    rw [Real.rpow_add (by norm_num), Real.rpow_logb (by norm_num) (by norm_num) px, Real.rpow_one]
    ring
  have hle : Real.logb 10 (minimum f) - 3 ≤ Real.logb 10 (maximum f) + 1 := by
    have := Real.logb_le_logb_of_le (b := 10) (by norm_num) pm (m2 _ x1)
    linarith
  have hlen : (curveGrid f).length = 1000 := by unfold curveGrid; rw [List.length_map, Np.linspace_length]
  refine ⟨hlen, ?_, ?_, ?_, ?_⟩
  · intro t ht
    obtain ⟨u, -, rfl⟩ := List.mem_map.1 ht
    positivity
  · intro t ht
    obtain ⟨u, hu, rfl⟩ := List.mem_map.1 ht
    obtain ⟨k1, k2⟩ := Np.linspace_mem hle hu
    refine ⟨_, m1, _, x1, ?_, ?_⟩
    · rw [← e1]; exact Real.rpow_le_rpow_of_exponent_le (by norm_num) k1
    · rw [← e2]; exact Real.rpow_le_rpow_of_exponent_le (by norm_num) k2
  · intro u hu hmin
    have hum : u = minimum f := le_antisymm (hmin _ m1) (m2 u hu)
    unfold curveGrid
    rw [List.head?_map, List.head?_eq_getElem?, Np.linspace_first _ _ _ (by norm_num), hum, ← e1]
    rfl
  · intro u hu hmax
    have hum : u = maximum f := le_antisymm (x2 u hu) (hmax _ x1)
    unfold curveGrid
    rw [List.getLast?_map, List.getLast?_eq_getElem?, Np.linspace_length, Np.linspace_last _ _ _ (by norm_num), hum, ← e2]
    rfl

theorem isCurve {D : AnyDist} {f ys : List ℝ} (hf : f ≠ []) (hpos : ∀ t ∈ f, 0 < t) (h : D.cdf (curveGrid f) = .ok ys) :
    IsCurve D f ⟨curveGrid f, ys⟩ := by
  obtain ⟨h1, -, h3, h4, h5⟩ := curveGrid_spec hf hpos
  exact ⟨⟨h1, h⟩, h3, h4, h5⟩

end Grid


/-! ## One panel -/

variable {A : Answers} {f rc : List ℝ} {method optimizer : StrArg} {factor : Factor}

/-- How far the points of an Exponential_2P panel are moved aside. -/
noncomputable def aside (d : Dist) (params : List (String × ℝ)) : ℝ := if d = .Exponential_2P ∧ 0 < location params then 0.009 else 0

theorem two_panel {r : FitRes Two} {P : Except Err Plot} {p0 : Paper} {g : ℝ} (hg : location (ofTwo r).params = g)
    (h : ∃ p, P = .ok p ∧ p.paper = p0 ∧ ShowsData A.argsort none f (some rc) (-g) p ∧
      DrawsCDF (Fitted.two r.dist).dist.sp.cdf (-g) p ∧ AllVisible p) :
    ∃ p c, alone P = .ok (p, c) ∧ Shows A.argsort f rc 0 (ofTwo r) p c := by
  obtain ⟨p, rfl, -, h2, h3, h4⟩ := h
  refine ⟨p, none, rfl, ?_, h4, ?_⟩
  · rw [hg, add_zero]; exact h2
  · show DrawsCDF (Fitted.two r.dist).dist.sp.cdf _ p ∧ _
    rw [hg]; exact ⟨h3, rfl⟩

theorem shown (hu : Undownsampled factor f.length) : Shown { downsample := factor } f.length :=
  ⟨by norm_num, by norm_num, by norm_num, by norm_num, rfl, rfl, hu⟩

theorem draw_paper {argsort : List ℝ → List ℕ} {o : Opts} {p : Paper} {sh : Bool} {line : Option Distributions.Dist} {f : List ℝ}
    {rc : Option (List ℝ)} {r : Plot} (h : draw argsort o p sh line f rc = .ok r) : r.paper = p := by
  unfold draw at h
  obtain ⟨xy, -, h⟩ := bind_ok.1 h
  dsimp only at h
  split_ifs at h
  all_goals
    obtain ⟨sc, -, h⟩ := bind_ok.1 h
    obtain ⟨li, -, h⟩ := bind_ok.1 h
    cases h
    rfl

theorem curve_panel (ha : IsArgsort A.argsort) (hf : 2 ≤ f.length) (ht : ∀ t ∈ f, t ∉ rc) (hpos : ∀ t ∈ f, 0 < t)
    (hu : Undownsampled factor f.length) {o : Outcome} (ho : ∀ D, o.dist ≠ .one D) (hl : location o.params = 0)
    (hD : ∃ Y, o.dist.cdf (curveGrid f) = .ok Y) :
    ∃ p c, withCurve A f rc factor o.dist = .ok (p, c) ∧ Shows A.argsort f rc 0 o p c := by
  obtain ⟨Y, hY⟩ := hD
  have hne : f ≠ [] := by rintro rfl; simp at hf
  obtain ⟨p, h1, h2, h3, h4⟩ := C118_scatter_only ha (f := f) (rc := some rc) (o := { show_fit := false, downsample := factor }) hf
    (by norm_num) (by norm_num) ht hpos rfl rfl hu (wf2 A) (wf3 A) (fitExponential1P A.argsort A.J A.e1) (fitExponential2P A.argsort A.J A.e2)
    (plot := weibullPlot A.argsort (wf2 A) (wf3 A) (.array f) (.array rc) none { show_fit := false, downsample := factor }) (by simp [dataArg])
  have hp : p.paper = .weibull := by
    have h1' := h1
    unfold weibullPlot at h1'
    obtain ⟨d, -, h⟩ := bind_ok.1 h1'
    exact draw_paper h
  refine ⟨p, some ⟨curveGrid f, Y⟩, ?_, ?_, h4, ?_⟩
  · unfold withCurve
    rw [h1, hY]
    rfl
  · rw [hl]; simpa using h2
  · cases hd : o.dist with
    | one D => exact absurd hd (ho D)
    | mixture ds ps => rw [hd] at hY; exact ⟨hp, h3, _, rfl, isCurve hne hpos hY⟩
    | competing ds => rw [hd] at hY; exact ⟨hp, h3, _, rfl, isCurve hne hpos hY⟩
    | dszi m => rw [hd] at hY; exact ⟨hp, h3, _, rfl, isCurve hne hpos hY⟩

theorem weibull_fam (a b g : ℝ) : (Distributions.weibull a b g).fam ≠ .beta := by
  simp [Distributions.weibull]

theorem mixture_shape {y : SArgs} {r : SRes (List Distributions.Dist × List ℝ)}
    (hr : fitMixture A.argsort A.J A.kde A.wPart A.mix (.array f) y = .ok r) :
    location (ofSpecial (fun p : List Distributions.Dist × List ℝ => AnyDist.mixture p.1 p.2) r).params = 0 ∧
      ∀ d ∈ r.dist.1, d.fam ≠ .beta := by
  simp only [fitMixture, bind_ok] at hr
  obtain ⟨inp, -, line, -, r1, -, r2, -, ou, -, props, hpr, V, -, g, -, hr⟩ := hr
  cases hr
  refine ⟨rfl, ?_⟩
  simp [weibull_fam]

theorem competing_shape {y : SArgs} {r : SRes (List Distributions.Dist)}
    (hr : fitCR A.argsort A.J A.kde A.wPart A.cr (.array f) y = .ok r) :
    location (ofSpecial AnyDist.competing r).params = 0 ∧ ∀ d ∈ r.dist, d.fam ≠ .beta := by
  simp only [fitCR, bind_ok] at hr
  obtain ⟨inp, -, line, -, r1, -, r2, -, ou, -, V, -, g, -, hr⟩ := hr
  cases hr
  refine ⟨rfl, ?_⟩
  simp [weibull_fam]

theorem defective_shape {y : SArgs} {r : SRes Combined.DSZI}
    (hr : fitDS A.argsort A.J A.wPart A.ds (.array f) y = .ok r) :
    location (ofSpecial AnyDist.dszi r).params = 0 ∧ r.dist.base.fam ≠ .beta := by
  simp only [fitDS, bind_ok] at hr
  obtain ⟨inp, -, xy, -, DS0, -, r1, -, ou, -, V, -, mm, hmm, g, -, hr⟩ := hr
  cases hr
  refine ⟨rfl, ?_⟩
  unfold Combined.dsziInit at hmm
  dsimp only at hmm
  split_ifs at hmm
  all_goals
    cases hmm
    exact weibull_fam _ _ _

section Panel
attribute [local irreducible] curveGrid

/-- The panel of a distribution shows the data and the fit that the class of that name makes. -/
theorem panel_spec (ha : IsArgsort A.argsort) (hf : 2 ≤ f.length) (ht : ∀ t ∈ f, t ∉ rc) (hpos : ∀ t ∈ f, 0 < t)
    (hu : Undownsampled factor f.length) {d : Dist} {o : Outcome}
    (h : individual A d (.array f) (.array rc) method optimizer = .ok o) (hd : Drawable f d o.params) :
    ∃ p c, panelPlot A f rc method optimizer factor d = .ok (p, c) ∧ Shows A.argsort f rc (aside d o.params) o p c := by
  have hne : f ≠ [] := by rintro rfl; simp at hf
  have hsh := shown hu
  have ht' : ∀ t ∈ f, t ∉ (some rc).getD [] := ht
  obtain ⟨g1, g2⟩ := curveGrid_spec hne hpos
  have gne : curveGrid f ≠ [] := by intro h; rw [h] at g1; cases g1
  have gpos : ∀ t ∈ curveGrid f, 0 ≤ t := fun t ht => (g2.1 t ht).le
  obtain ⟨-, -, hb⟩ := individual_shape h
  have hbef := hd.before
  cases d
  case Weibull_2P =>
    obtain ⟨r, hr, rfl⟩ := map_ok h
    simp only [panelPlot, wf2, hr, bind, Except.bind]
    simp only [fitWeibull2P, bind_ok] at hr
    obtain ⟨inp, -, hr⟩ := hr
    obtain ⟨e0, a, e1⟩ := fit2_rows hr
    have hl : location (ofTwo r).params = r.dist.gamma := by
      rw [show (ofTwo r).params = _ from e1, e0]; rfl
    rw [hl] at hbef
    exact two_panel hl (C118_weibull ha A.J A.w2 A.w3 hsh hne ht' (.inl ⟨rfl, (fit2_dist hr).1, e0.ge⟩) hbef)
  case Lognormal_2P =>
    obtain ⟨r, hr, rfl⟩ := map_ok h
    simp only [panelPlot, wf2, hr, bind, Except.bind]
    simp only [fitLognormal2P, bind_ok] at hr
    obtain ⟨inp, -, hr⟩ := hr
    obtain ⟨e0, a, e1⟩ := fit2_rows hr
    have hl : location (ofTwo r).params = r.dist.gamma := by
      rw [show (ofTwo r).params = _ from e1, e0]; rfl
    rw [hl] at hbef
    exact two_panel hl (C118_lognormal ha A.J A.l2 A.l3 hsh hne ht' (.inl ⟨rfl, (fit2_dist hr).1, e0.ge⟩) hbef)
  case Loglogistic_2P =>
    obtain ⟨r, hr, rfl⟩ := map_ok h
    simp only [panelPlot, wf2, hr, bind, Except.bind]
    simp only [fitLoglogistic2P, bind_ok] at hr
    obtain ⟨inp, -, hr⟩ := hr
    obtain ⟨e0, a, e1⟩ := fit2_rows hr
    have hl : location (ofTwo r).params = r.dist.gamma := by
      rw [show (ofTwo r).params = _ from e1, e0]; rfl
    rw [hl] at hbef
    exact two_panel hl (C118_loglogistic ha A.J A.lo2 A.lo3 hsh hne ht' (.inl ⟨rfl, (fit2_dist hr).1, e0.ge⟩) hbef)
  case Normal_2P =>
    obtain ⟨r, hr, rfl⟩ := map_ok h
    simp only [panelPlot, hr, bind, Except.bind]
    simp only [fitNormal2P, bind_ok] at hr
    obtain ⟨inp, -, hr⟩ := hr
    obtain ⟨e0, a, e1⟩ := fit2_rows hr
    have hl : location (ofTwo r).params = 0 := by
      rw [show (ofTwo r).params = _ from e1]; rfl
    refine two_panel (p0 := .normal) hl ?_
    rw [neg_zero]
    exact C118_normal ha A.J A.n2 hsh hne ht' (.inl ⟨rfl, (fit2_dist hr).1⟩) (.inl hpos)
  case Gumbel_2P =>
    obtain ⟨r, hr, rfl⟩ := map_ok h
    simp only [panelPlot, hr, bind, Except.bind]
    simp only [fitGumbel2P, bind_ok] at hr
    obtain ⟨inp, -, hr⟩ := hr
    obtain ⟨e0, a, e1⟩ := fit2_rows hr
    have hl : location (ofTwo r).params = 0 := by
      rw [show (ofTwo r).params = _ from e1]; rfl
    refine two_panel (p0 := .gumbel) hl ?_
    rw [neg_zero]
    exact C118_gumbel ha A.J A.gu2 hsh hne ht' (.inl ⟨rfl, (fit2_dist hr).1⟩) (.inl hpos)
  case Weibull_3P =>
    obtain ⟨r, hr, rfl⟩ := map_ok h
    simp only [panelPlot, wf3, wf2, hr, bind, Except.bind]
    have hfam := fitWeibull3P_dist hr
    simp only [fitWeibull3P, bind_ok] at hr
    obtain ⟨inp, -, hr⟩ := hr
    obtain ⟨e0, a, e1⟩ := fit3_rows (fun x r h => by
      simp only [fitWeibull2P, bind_ok] at h
      obtain ⟨inp, -, h⟩ := h
      exact fit2_rows h) hr
    have hl : location (ofTwo r).params = r.dist.gamma := by
      rw [show (ofTwo r).params = _ from e1]; rfl
    rw [hl] at hbef
    exact two_panel hl (C118_weibull ha A.J A.w2 A.w3 hsh hne ht' (.inl ⟨rfl, hfam, e0⟩) hbef)
  case Lognormal_3P =>
    obtain ⟨r, hr, rfl⟩ := map_ok h
    simp only [panelPlot, wf3, wf2, hr, bind, Except.bind]
    have hfam := fitLognormal3P_dist hr
    simp only [fitLognormal3P, bind_ok] at hr
    obtain ⟨inp, -, hr⟩ := hr
    obtain ⟨e0, a, e1⟩ := fit3_rows (fun x r h => by
      simp only [fitLognormal2P, bind_ok] at h
      obtain ⟨inp, -, h⟩ := h
      exact fit2_rows h) hr
    have hl : location (ofTwo r).params = r.dist.gamma := by
      rw [show (ofTwo r).params = _ from e1]; rfl
    rw [hl] at hbef
    exact two_panel hl (C118_lognormal ha A.J A.l2 A.l3 hsh hne ht' (.inl ⟨rfl, hfam, e0⟩) hbef)
  case Loglogistic_3P =>
    obtain ⟨r, hr, rfl⟩ := map_ok h
    simp only [panelPlot, wf3, wf2, hr, bind, Except.bind]
    have hfam := fitLoglogistic3P_dist hr
    simp only [fitLoglogistic3P, bind_ok] at hr
    obtain ⟨inp, -, hr⟩ := hr
    obtain ⟨e0, a, e1⟩ := fit3_rows (fun x r h => by
      simp only [fitLoglogistic2P, bind_ok] at h
      obtain ⟨inp, -, h⟩ := h
      exact fit2_rows h) hr
    have hl : location (ofTwo r).params = r.dist.gamma := by
      rw [show (ofTwo r).params = _ from e1]; rfl
    rw [hl] at hbef
    exact two_panel hl (C118_loglogistic ha A.J A.lo2 A.lo3 hsh hne ht' (.inl ⟨rfl, hfam, e0⟩) hbef)
  case Gamma_2P =>
    obtain ⟨r, hr, rfl⟩ := map_ok h
    simp only [panelPlot, hr, bind, Except.bind]
    obtain ⟨e0, a, e1⟩ := gamma2_rows hr
    have hl : location (ofTwo r).params = r.dist.gamma := by
      rw [show (ofTwo r).params = _ from e1, e0]; rfl
    have hbp := hd.gamma (.inl rfl)
    rw [show valueOf (ofTwo r).params "Beta" = r.dist.b by rw [show (ofTwo r).params = _ from e1]; rfl] at hbp
    rw [hl] at hbef
    exact two_panel hl (C118_gamma ha A.J A.ga2 A.ga3 hsh hne ht' (.inl ⟨rfl, (fitGamma2P_dist hr).1, e0.ge⟩) hbp hbef)
  case Gamma_3P =>
    obtain ⟨r, hr, rfl⟩ := map_ok h
    simp only [panelPlot, hr, bind, Except.bind]
    obtain ⟨e0, a, e1⟩ := gamma3_rows hr
    have hl : location (ofTwo r).params = r.dist.gamma := by
      rw [show (ofTwo r).params = _ from e1]; rfl
    have hbp := hd.gamma (.inr rfl)
    rw [show valueOf (ofTwo r).params "Beta" = r.dist.b by rw [show (ofTwo r).params = _ from e1]; rfl] at hbp
    rw [hl] at hbef
    exact two_panel hl (C118_gamma ha A.J A.ga2 A.ga3 hsh hne ht' (.inl ⟨rfl, fitGamma3P_dist hr, e0⟩) hbp hbef)
  case Exponential_1P =>
    obtain ⟨r, hr, rfl⟩ := map_ok h
    simp only [panelPlot, hr, bind, Except.bind]
    obtain ⟨L, e1, -⟩ := exp1_shape hr
    have e0 := fitExponential1P_dist hr
    have hl : location (ofExpo r).params = 0 := by
      rw [show (ofExpo r).params = _ from e1]; rfl
    obtain ⟨p, h1, -, h3, h4, h5⟩ := C118_exponential true ha A.J A.e1 A.e2 hsh hne ht' (.inl ⟨rfl, e0.ge, fun _ => rfl⟩)
      (k := 0) (by simp [e0]) (by simpa using hpos)
    refine ⟨p, none, by simp only [dataArg] at h1; rw [h1]; rfl, ?_, h5, ?_⟩
    · rw [hl]; simpa [aside] using h3
    · show DrawsCDF (Fitted.expo r.dist).dist.sp.cdf _ p ∧ _
      rw [hl, ← e0]; exact ⟨h4, rfl⟩
  case Exponential_2P =>
    obtain ⟨r, hr, rfl⟩ := map_ok h
    simp only [panelPlot, hr, bind, Except.bind]
    obtain ⟨L, e1⟩ := exp2_rows hr
    have hl : location (ofExpo r).params = r.dist.gamma := by
      rw [show (ofExpo r).params = _ from e1]; rfl
    have h0 := hd.location_nonneg rfl
    rw [hl] at hbef h0
    obtain ⟨p, h1, -, h3, h4, h5⟩ := C118_exponential true ha A.J A.e1 A.e2 hsh hne ht' (.inl ⟨rfl, h0, fun _ => rfl⟩)
      (k := -r.dist.gamma + aside .Exponential_2P (ofExpo r).params) (by
        unfold aside
        rw [hl]
        by_cases hg : 0 < r.dist.gamma <;> simp [hg]) (by
        intro t ht
        have : 0 ≤ aside .Exponential_2P (ofExpo r).params := by unfold aside; split_ifs <;> norm_num
        linarith [hbef t ht])
    refine ⟨p, none, by simp only [dataArg] at h1; rw [h1]; rfl, ?_, h5, ?_⟩
    · rw [hl]; exact h3
    · show DrawsCDF (Fitted.expo r.dist).dist.sp.cdf _ p ∧ _
      rw [hl]; exact ⟨h4, rfl⟩
  case Beta_2P =>
    obtain ⟨r, hr, rfl⟩ := map_ok h
    simp only [panelPlot, hr, bind, Except.bind]
    obtain ⟨a, b, e1, e2⟩ := beta_shape hr
    have hl : location (ofBeta r).params = 0 := by
      rw [show (ofBeta r).params = _ from e1]; rfl
    have hab := hd.beta rfl
    rw [show valueOf (ofBeta r).params "Alpha" = a by rw [show (ofBeta r).params = _ from e1]; rfl,
      show valueOf (ofBeta r).params "Beta" = b by rw [show (ofBeta r).params = _ from e1]; rfl] at hab
    have p0 : pointAt r.rows 0 = a := by
      have := congrArg (fun l : List (String × ℝ) => l[0]?) e1
      simp only [List.getElem?_map] at this
      unfold pointAt
      cases hr0 : r.rows[0]? with
      | none => rw [hr0] at this; cases this
      | some w => rw [hr0] at this; simpa using congrArg (Option.map Prod.snd) this
    have p1 : pointAt r.rows 1 = b := by
      have := congrArg (fun l : List (String × ℝ) => l[1]?) e1
      simp only [List.getElem?_map] at this
      unfold pointAt
      cases hr0 : r.rows[1]? with
      | none => rw [hr0] at this; cases this
      | some w => rw [hr0] at this; simpa using congrArg (Option.map Prod.snd) this
    rw [p0, p1]
    obtain ⟨p, h1, -, h3, h4, h5⟩ := C118_beta ha A.be2 hsh hne ht' (.inl ⟨rfl, rfl⟩) hab.1 hab.2 hpos
    refine ⟨p, none, by simp only [dataArg] at h1; rw [h1]; rfl, ?_, h5, ?_⟩
    · rw [hl]; simpa [aside] using h3
    · show DrawsCDF r.dist.sp.cdf _ p ∧ _
      rw [hl, e2, neg_zero]; exact ⟨h4, rfl⟩
  case Weibull_Mixture =>
    obtain ⟨r, hr, rfl⟩ := map_ok h
    simp only [panelPlot, hr, bind, Except.bind]
    obtain ⟨k1, k2⟩ := mixture_shape hr
    exact curve_panel ha hf ht hpos hu (o := ofSpecial (fun p : List Distributions.Dist × List ℝ => AnyDist.mixture p.1 p.2) r)
      (fun D h => by cases h) k1 (mixture_cdf k2 gne gpos)
  case Weibull_CR =>
    obtain ⟨r, hr, rfl⟩ := map_ok h
    simp only [panelPlot, hr, bind, Except.bind]
    obtain ⟨k1, k2⟩ := competing_shape hr
    exact curve_panel ha hf ht hpos hu (o := ofSpecial AnyDist.competing r) (fun D h => by cases h) k1 (competing_cdf k2 gne gpos)
  case Weibull_DS =>
    obtain ⟨r, hr, rfl⟩ := map_ok h
    simp only [panelPlot, hr, bind, Except.bind]
    obtain ⟨k1, k2⟩ := defective_shape hr
    exact curve_panel ha hf ht hpos hu (o := ofSpecial AnyDist.dszi r) (fun D h => by cases h) k1 (dszi_cdf k2 gne gpos)

end Panel

/-! ## The figure -/

theorem lookup_names : ∀ {l : List (String × ℝ)} {c : String}, c ∉ l.map Prod.fst → l.lookup c = none
  | [], _, _ => rfl
  | (k, v) :: l, c, h => by
    simp only [List.map_cons, List.mem_cons, not_or] at h
    rw [List.lookup_cons, show (c == k) = false by simpa using h.1]
    exact lookup_names h.2

theorem lookup_map {v : String → ℝ} : ∀ {l : List String} {c : String}, c ∈ l → (l.map fun c => (c, v c)).lookup c = some (v c)
  | k :: l, c, h => by
    rw [List.map_cons, List.lookup_cons]
    by_cases hk : c = k
    · subst hk; simp
    · rw [show (c == k) = false by simpa using hk]
      exact lookup_map (by simpa [hk] using h)

/-- The columns of a row hold the attributes of the fit. -/
theorem columns_value {d : Dist} {fa ra : DataArg ℝ} {m op : StrArg} {o : Outcome} (h : individual A d fa ra m op = .ok o) {c : String}
    (hc : c ∈ tableColumns) : valueOf ((columns d).map fun c => (c, valueOf o.params c)) c = valueOf o.params c := by
  obtain ⟨-, s2, -⟩ := individual_shape h
  by_cases hcd : c ∈ columns d
  · unfold valueOf
    rw [lookup_map (v := fun c => (o.params.lookup c).getD 0) hcd]
    rfl
  · have : c ∉ o.params.map Prod.fst := by
      rw [← s2, List.mem_filter] at hcd
      simpa [hc] using hcd
    unfold valueOf
    rw [lookup_names this, lookup_names]
    simpa using hcd

theorem panels_spec {rows cols : ℕ} (P : Dist → Plot → Option Curve → Prop) :
    ∀ {l : List Dist} (k : ℕ), (∀ d ∈ l, ∃ p c, panelPlot A f rc method optimizer factor d = .ok (p, c) ∧ P d p c) →
    ∃ ps, probPanels A f rc method optimizer factor rows cols k l = .ok ps ∧ ps.length = l.length ∧
      ∀ i : ℕ, ∀ d, l[i]? = some d → ∃ p, ps[i]? = some p ∧ p.title = d ∧ p.place = k + i ∧ p.rows = rows ∧ p.cols = cols ∧
        panelPlot A f rc method optimizer factor d = .ok (p.plot, p.curve) ∧ P d p.plot p.curve
  | [], k, _ => ⟨[], rfl, rfl, by simp⟩
  | d :: l, k, h => by
    obtain ⟨p, c, h1, h2⟩ := h d (by simp)
    obtain ⟨ps, h3, h4, h5⟩ := panels_spec (rows := rows) (cols := cols) P (l := l) (k + 1) fun e he => h e (by simp [he])
    refine ⟨⟨rows, cols, k, d, p, c⟩ :: ps, ?_, by simp [h4], ?_⟩
    · simp only [probPanels, h1, FitPlots.lift, h3, bind, Except.bind, pure, Except.pure]
    · intro i e he
      cases i with
      | zero =>
        simp only [List.getElem?_cons_zero, Option.some.injEq] at he
        subst he
        exact ⟨_, rfl, rfl, rfl, rfl, rfl, h1, h2⟩
      | succ i =>
        rw [List.getElem?_cons_succ] at he
        obtain ⟨q, q1, q2, q3, q4⟩ := h5 i e he
        exact ⟨q, by simpa using q1, q2, by rw [q3]; omega, q4⟩

/-- **C156 (probability plots of Fit_Everything).** When `Fit_Everything` returns and its fits can be drawn, the figure has one panel for every
row of `results`, in the order of `results` and with the row's name as title, on a grid that has a place for each and no empty row or column;
each panel shows the failures given (without zeros) and the fit that the class of that name makes of them; the plot of the best distribution
is the first panel.  The points of an Exponential_2P panel with a location are 0.009 too far right (see C118). -/
theorem C156_panels (ha : IsArgsort A.argsort) {x : FEArgs} {res : FERes} (h : fitEverything A x = .ok res) {F C : List ℝ}
    (hg : Given x.failures x.right_censored F C) (htie : ∀ t ∈ F, t ≠ 0 → t ∉ C) (hu : Undownsampled factor F.length)
    (hd : ∀ r ∈ res.results, Drawable (withoutZeros F) r.dist r.params) :
    ∃ ps best rows cols, fitEverythingPlots A x factor = .ok (res, ps, best) ∧ ps.length = res.results.length ∧
      ps.length ≤ rows * cols ∧ (rows - 1) * cols < ps.length ∧ rows * (cols - 1) < ps.length ∧
      ∀ i : ℕ, ∀ r, res.results[i]? = some r → ∃ p o, ps[i]? = some p ∧ p.title = r.dist ∧ p.rows = rows ∧ p.cols = cols ∧
        p.place = i + 1 ∧
        individual A r.dist (.array (withoutZeros F)) (.array (withoutZeros C)) (fitMethod x.method) x.optimizer = .ok o ∧
        Shows A.argsort (withoutZeros F) (withoutZeros C) (if r.dist = .Exponential_2P ∧ 0 < location r.params then 0.009 else 0) o
          p.plot p.curve ∧
        (i = 0 → best = (p.plot, p.curve)) := by
  obtain ⟨inp, rws, hi, hex, hrow, hsort, b, hb1, -, -⟩ := run h
  obtain ⟨F', C', e1, e2, h0, e3, e4, h2, -⟩ := everything_ok hi
  obtain ⟨g1, g2⟩ := hg
  have hFF : F' = F := by rw [e1] at g1; cases g1; rfl
  have hCC : C' = C := by
    rcases e2 with ⟨k1, k2⟩ | k1 <;> rcases g2 with ⟨k3, k4⟩ | k3 <;> rw [k1] at k3 <;> cases k3
    · rw [k2, k4]
    · rfl
  subst hFF hCC
  have hin : inp.failures = withoutZeros F' := e3
  have hrc : inp.right_censored = withoutZeros C' := e4
  have hlen : 2 ≤ inp.failures.length := h2.trans (List.dedup_sublist _).length_le
  have hpos : ∀ t ∈ inp.failures, 0 < t := by
    intro t ht
    rw [e3, List.mem_filter] at ht
    exact lt_of_le_of_ne (h0 t (by simp [ht.1])) (Ne.symm (by simpa using ht.2))
  have ht : ∀ t ∈ inp.failures, t ∉ inp.right_censored := by
    intro t ht hc
    rw [e3, List.mem_filter] at ht
    rw [e4, List.mem_filter] at hc
    exact htie t ht.1 (by simpa using ht.2) hc.1
  have hu' : Undownsampled factor inp.failures.length := by
    rcases hu with hu | ⟨hu, hn⟩
    · exact .inl hu
    · exact .inr ⟨hu, lt_of_le_of_lt (by rw [e3]; exact List.length_filter_le _ _) hn⟩
  -- the rows
  obtain ⟨q1, q2⟩ := fitAll_ok hrow
  have hperm := sortFrame_perm ha hsort
  have hrowspec : ∀ r ∈ res.results, ∃ o p c,
      individual A r.dist (.array inp.failures) (.array inp.right_censored) (optArg (feMethod inp.method)) (optArg inp.optimizer) = .ok o ∧
      panelPlot A inp.failures inp.right_censored (optArg (feMethod inp.method)) (optArg inp.optimizer) factor r.dist = .ok (p, c) ∧
      Shows A.argsort inp.failures inp.right_censored (if r.dist = .Exponential_2P ∧ 0 < location r.params then 0.009 else 0) o p c := by
    intro r hr
    have hone := q2 r (hperm.mem_iff.1 hr)
    simp only [fitOne, bind_ok] at hone
    obtain ⟨o, hind, u, -, he⟩ := hone
    have hp : r.params = (columns r.dist).map fun c => (c, valueOf o.params c) := by
      have := congrArg FRow.params (Except.ok.inj he); exact this.symm
    have hv : ∀ c ∈ tableColumns, valueOf r.params c = valueOf o.params c := fun c hc => by rw [hp]; exact columns_value hind hc
    have hloc : location r.params = location o.params := hv "Gamma" (by decide)
    have hD := hd r hr
    rw [← hin] at hD
    have hD' : Drawable inp.failures r.dist o.params := by
      obtain ⟨d1, d2, d3, d4⟩ := hD
      rw [hloc] at d1 d2
      rw [hv "Beta" (by decide)] at d3 d4
      rw [hv "Alpha" (by decide)] at d4
      exact ⟨d1, d2, d3, d4⟩
    obtain ⟨p, c, k1, k2⟩ := panel_spec ha hlen ht hpos hu' hind hD'
    refine ⟨o, p, c, hind, k1, ?_⟩
    rw [hloc]
    exact k2
  -- the grid
  have hn1 : 1 ≤ res.results.length := by
    cases hres : res.results with
    | nil => rw [hres] at hb1; cases hb1
    | cons a l => simp
  have hn2 : res.results.length ≤ 16 := by
    have k1 : rws.length = (Fitters.fitOrder.filter fun d => d ∉ res.excluded).length := by rw [← q1, List.length_map]
    have k2 : (Fitters.fitOrder.filter fun d => decide (d ∉ res.excluded)).length ≤ Fitters.fitOrder.length := List.length_filter_le _ _
    have k3 : Fitters.fitOrder.length = 16 := by decide
    rw [hperm.length_eq, k1]
    omega
  obtain ⟨cols, rows, hl, l1, l2, l3⟩ := (C126_layout res.results.length).1 ⟨hn1, hn2⟩
  -- the panels
  obtain ⟨ps, p1, p2, p3⟩ := panels_spec (A := A) (f := inp.failures) (rc := inp.right_censored) (method := optArg (feMethod inp.method))
    (optimizer := optArg inp.optimizer) (factor := factor) (rows := rows) (cols := cols) (fun _ _ _ => True)
    (l := res.results.map FRow.dist) 1 (fun d hd => by
      obtain ⟨r, hr, rfl⟩ := List.mem_map.1 hd
      obtain ⟨o, p, c, -, k, -⟩ := hrowspec r hr
      exact ⟨p, c, k, trivial⟩)
  rw [List.length_map] at p2
  obtain ⟨r0, rs, hres⟩ : ∃ r0 rs, res.results = r0 :: rs := by
    cases hres : res.results with
    | nil => rw [hres] at hn1; simp at hn1
    | cons a l => exact ⟨a, l, rfl⟩
  obtain ⟨o0, pb, cb, -, kb, -⟩ := hrowspec r0 (by rw [hres]; simp)
  refine ⟨ps, (pb, cb), rows, cols, ?_, p2, by rw [p2]; exact l1, by rw [p2]; exact l2, by rw [p2]; exact l3, ?_⟩
  · have hbest : bestPlot A inp.failures inp.right_censored (optArg (feMethod inp.method)) (optArg inp.optimizer) factor res = .ok (pb, cb) := by
      unfold bestPlot
      rw [hres]
      simp only [kb, FitPlots.lift]
    have hall : allPlots A inp.failures inp.right_censored (optArg (feMethod inp.method)) (optArg inp.optimizer) factor res = .ok ps := by
      unfold allPlots
      rw [hl]
      exact p1
    simp only [fitEverythingPlots, h, hi, FitPlots.lift, bind, Except.bind, hall, hbest, pure, Except.pure]
  · intro i r hir
    obtain ⟨p, k1, k2, k3, k4, k5, k6, -⟩ := p3 i r.dist (by rw [List.getElem?_map, hir]; rfl)
    obtain ⟨o, p', c', j1, j2, j3⟩ := hrowspec r (List.mem_of_getElem? hir)
    rw [j2] at k6
    simp only [Except.ok.injEq, Prod.mk.injEq] at k6
    obtain ⟨rfl, rfl⟩ := k6
    refine ⟨p, o, k1, k2, k4, k5, by rw [k3]; omega, ?_, by rw [← hin, ← hrc]; exact j3, ?_⟩
    · rw [individual_without_zeros hi ⟨g1, g2⟩] at j1
      exact j1
    · rintro rfl
      rw [hres] at hir
      simp only [List.getElem?_cons_zero, Option.some.injEq] at hir
      subst hir
      rw [kb] at j2
      exact Except.ok.inj j2

/-- **C156 (always drawable).** The fits without a location, other than Gamma_2P and Beta_2P, can always be drawn. -/
theorem C156_drawable {x : FEArgs} {res : FERes} (h : fitEverything A x = .ok res) {F C : List ℝ}
    (hg : Given x.failures x.right_censored F C) {r : FRow} (hr : r ∈ res.results)
    (hd : r.dist ∈ [Dist.Weibull_2P, .Lognormal_2P, .Loglogistic_2P, .Normal_2P, .Gumbel_2P, .Exponential_1P, .Weibull_Mixture, .Weibull_CR,
      .Weibull_DS]) : Drawable (withoutZeros F) r.dist r.params := by
  obtain ⟨inp, -, hi, -⟩ := run h
  obtain ⟨F', C', e1, -, h0, -⟩ := everything_ok hi
  have hFF : F' = F := by have := e1.symm.trans hg.1; cases this; rfl
  subst hFF
  obtain ⟨o, k0, -, -, k3, -⟩ := row_call h hi hr
  have hl : location r.params = 0 := by
    unfold location valueOf
    rw [lookup_names]
    · rfl
    · rw [k3, (individual_shape k0).2.1]
      revert hd
      cases r.dist <;> simp [columns]
  refine ⟨fun _ => hl.ge, fun t ht => ?_, fun hc => ?_, fun hc => ?_⟩
  · rw [hl]
    unfold withoutZeros at ht
    rw [List.mem_filter] at ht
    exact lt_of_le_of_ne (h0 t (by simp [ht.1])) (Ne.symm (by simpa using ht.2))
  · rcases hc with hc | hc <;> rw [hc] at hd <;> simp at hd
  · rw [hc] at hd; simp at hd

/-! ## Example -/

/-- The arguments of the example. -/
def exArgs : FEArgs :=
  { failures := .array [1, 2], right_censored := .array [3], exclude := .list [.str "Gamma_2P", .str "Exponential_2P"] }

/-- Two failures and one censored time, eight distributions fitted: the figure is made. -/
example {argsort : List ℝ → List ℕ} (ha : IsArgsort argsort) (J : FunctionCI.Jac) :
    ∃ res ps best, fitEverythingPlots (exAnswers argsort J) exArgs (.bool true) = .ok (res, ps, best) ∧ 1 ≤ ps.length := by
  have hw : withoutZeros [1, 2] = [1, 2] := withoutZeros_pos (by
    intro t ht; simp at ht; rcases ht with rfl | rfl <;> norm_num)
  have hwc : withoutZeros [3] = [3] := withoutZeros_pos (by
    intro t ht; simp at ht; rw [ht]; norm_num)
  have hlo : ∀ d ∈ [Dist.Weibull_3P, .Gamma_3P, .Loglogistic_3P, .Lognormal_3P, .Weibull_Mixture, .Weibull_CR],
      LeftOut (withoutZeros [1, 2]).length (withoutZeros [1, 2] ++ withoutZeros [3]) (.list [.str "Gamma_2P", .str "Exponential_2P"]) d :=
    fun d hd => .inr (.inl ⟨by rw [hw]; simp, hd⟩)
  have hg : Given (.array [1, 2]) (.array [3]) [1, 2] [3] := ⟨rfl, .inr rfl⟩
  obtain ⟨res, h⟩ := C121_returns (A := exAnswers argsort J) ha (ex_succeed argsort J) (exBoxMin_respects _)
    (x := exArgs)
    (F := [1, 2]) (C := [3]) hg (by
      intro t ht
      simp at ht
      rcases ht with rfl | rfl | rfl <;> norm_num)
    (.inr ⟨"MLE", "MLE", ["MLE", "ML", "MAXIMUM LIKELIHOOD ESTIMATION", "MAXIMUM LIKELIHOOD", "MAX LIKELIHOOD"], rfl,
      rfl, by simp [InputCheck.methodNames], by decide +kernel⟩) (o' := none) (.inl ⟨rfl, rfl⟩) ⟨by simp [exArgs], by simp [listed, exArgs]⟩ rfl
    (.inl (by decide +kernel)) (by rw [hw, List.toFinset_card_of_nodup (by norm_num)]; simp)
    (fun d hd h => absurd (hlo d (by revert hd; cases d <;> simp)) h)
    (fun d hd h => absurd (hlo d (by revert hd; cases d <;> simp)) h) ⟨.Normal_2P, by
      rintro (⟨s, h, h'⟩ | ⟨-, h⟩ | ⟨h, -⟩)
      · simp [listed, exArgs] at h
        rcases h with rfl | rfl <;> revert h' <;> decide +kernel
      · simp at h
      · cases h⟩
  obtain ⟨F', C', hg', -, hrows, -⟩ := C121_rows ha h
  have hF' : F' = [1, 2] := by have := hg'.1.symm.trans hg.1; cases this; rfl
  have hC' : C' = [3] := by
    rcases hg'.2 with ⟨k, -⟩ | k <;> cases k
    rfl
  subst hF' hC'
  obtain ⟨ps, best, rows, cols, k, k1, -, k3, -⟩ := C156_panels (factor := .bool true) ha h hg (by
    intro t ht _
    simp at ht ⊢
    rcases ht with rfl | rfl <;> norm_num) (.inr ⟨.inr rfl, by simp⟩) (by
    intro r hr
    have hn := (hrows r.dist).1 (List.mem_map_of_mem hr)
    refine C156_drawable h hg hr ?_
    by_contra hc
    apply hn
    have hdd : r.dist ∈ [Dist.Weibull_3P, .Gamma_3P, .Loglogistic_3P, .Lognormal_3P] ∨ r.dist = .Gamma_2P ∨ r.dist = .Exponential_2P ∨
        r.dist = .Beta_2P := by
      revert hc
      cases r.dist <;> simp
    rcases hdd with hdd | hdd | hdd | hdd
    · exact hlo _ (by revert hdd; cases r.dist <;> simp)
    · exact .inl ⟨"Gamma_2P", by simp [listed, exArgs], by rw [hdd]; decide +kernel⟩
    · exact .inl ⟨"Exponential_2P", by simp [listed, exArgs], by rw [hdd]; decide +kernel⟩
    · exact .inr (.inr ⟨hdd, 1, by rw [hw]; simp, le_refl _⟩))
  exact ⟨res, ps, best, k, by omega⟩

end Reliability.Props.FitProbPlots

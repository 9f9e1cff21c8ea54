import Verif.Spec.FitterPlots
import Verif.Model.FitterPlots
import Verif.Props.FitProbPlots
import Verif.Props.FitGrouped
import Verif.Props.InputCheck
import Verif.Props.PlottingPositions
import Mathlib.Analysis.Complex.ExponentialBounds

/-! # C158: the probability plots of the classes of Fitters.py -/

namespace Reliability.Props.FitterPlots

open Reliability Reliability.Utils Reliability.InputCheck Reliability.FitGlue Reliability.FitSpecial Reliability.ProbPaper
open Reliability.FitEverythingFull Reliability.FitProbPlots Reliability.FitterPlots
open Reliability.Spec Reliability.Spec.FitEverythingFull Reliability.Spec.FitProbPlots Reliability.Spec.FitterPlots
open Reliability.Props.FitEverythingFull Reliability.Props.FitProbPlots
open Reliability.FunctionCI (Two Expo Fitted)
open Reliability.Fitters (Dist)
open Reliability.Props (bind_ok)
open Reliability.Spec.InputCheck

/-! ## The data after the input check -/

/-- What the check keeps. -/
noncomputable def keep (name : String) (l : List ℝ) : List ℝ :=
  if name ∈ ["Normal_2P", "Gumbel_2P"] then l
  else if name = "Beta_2P" then (l.filter fun x => decide (x ≠ 0)).filter fun x => decide (x ≠ 1)
  else l.filter fun x => decide (x ≠ 0)

theorem range_data {name : String} {F C : List ℝ} {fc : List ℝ × List ℝ} (h : checkRange name F C = .ok fc) :
    fc.1 = keep name F ∧ fc.2 = keep name C ∧ (name ∉ ["Normal_2P", "Gumbel_2P"] → ∀ t ∈ fc.1, 0 < t) := by
  unfold checkRange at h
  by_cases hN : name ∈ ["Normal_2P", "Gumbel_2P"]
  · rw [if_pos hN] at h
    cases h
    exact ⟨by rw [keep, if_pos hN], by rw [keep, if_pos hN], fun hn => absurd hN hn⟩
  · rw [if_neg hN] at h
    cases hlo : (F ++ C).min? with
    | none => simp only [hlo] at h; cases h
    | some lo =>
      cases hhi : (F ++ C).max? with
      | none => simp only [hlo, hhi] at h; cases h
      | some hi =>
        simp only [hlo, hhi] at h
        have hall : ∀ t, lo ≥ 0 → t ∈ F.filter (fun x => decide (x ≠ 0)) → 0 < t := by
          intro t hl ht
          have h0 := List.mem_filter.1 ht
          have := (List.min?_eq_some_iff.1 hlo).2 t (List.mem_append_left _ h0.1)
          exact lt_of_le_of_ne (hl.le.trans this) (Ne.symm (by simpa using h0.2))
        by_cases k1 : name = "Beta_2P" ∧ (lo < 0 ∨ hi > 1)
        · rw [if_pos k1] at h; cases h
        · rw [if_neg k1] at h
          by_cases k2 : lo < 0
          · rw [if_pos k2] at h; cases h
          · rw [if_neg k2] at h
            by_cases k3 : name = "Beta_2P"
            · rw [if_pos k3] at h
              cases h
              exact ⟨by rw [keep, if_neg hN, if_pos k3], by rw [keep, if_neg hN, if_pos k3],
                fun _ t ht => hall t (not_lt.1 k2) (List.mem_filter.1 ht).1⟩
            · rw [if_neg k3] at h
              cases h
              exact ⟨by rw [keep, if_neg hN, if_neg k3], by rw [keep, if_neg hN, if_neg k3], fun _ t ht => hall t (not_lt.1 k2) ht⟩

theorem check_data {name : String} {fa ra : DataArg ℝ} {m op ct : StrArg} {ci : CIArg ℝ} {q : QArg ℝ} {fb fs : Option ℝ} {inp : Checked ℝ}
    (h : fittersCheck name fa ra m op ci q fb fs ct = .ok inp) {F C : List ℝ} (hg : Given fa ra F C) :
    inp.failures = keep name F ∧ inp.right_censored = keep name C ∧
      (name ∉ ["Normal_2P", "Gumbel_2P"] → ∀ t ∈ inp.failures, 0 < t) ∧ inp.failures ≠ [] ∧ 0 < inp.CI ∧ inp.CI < 1 ∧
      ∀ k, minFailures name fs fb = some k → k ≤ inp.failures.length := by
  unfold fittersCheck at h
  split_ifs at h
  simp only [bind_ok] at h
  obtain ⟨fc, h1, fc', h2, c, h3, opt, -, met, -, q', -, fb', h7, fs', h8, u, h9, ct', -, he⟩ := h
  cases he
  dsimp only
  have e7 := ((Reliability.Props.checkForce_iff _ _).1 h7).1
  have e8 := ((Reliability.Props.checkForce_iff _ _).1 h8).1
  subst e7 e8
  obtain ⟨-, c0, c1⟩ := (Reliability.Props.checkCI_iff _ _).1 h3
  have hfc : fc = (F, C) := by
    obtain ⟨rfl, ⟨rfl, rfl⟩ | rfl⟩ := hg <;> (cases h1; rfl)
  subst hfc
  unfold checkCount at h9
  have hk : ∀ k, minFailures name fs' fb' = some k → k ≤ fc'.1.length := by
    intro k hk
    rw [hk] at h9
    dsimp only at h9
    split_ifs at h9 with hlt
    exact (not_lt.1 hlt).trans (List.Sublist.length_le (List.dedup_sublist _))
  have hne : fc'.1 ≠ [] := by
    intro hn
    cases hm : minFailures name fs' fb' with
    | none => rw [hm] at h9; cases h9
    | some k =>
      have := hk k hm
      rw [hn, List.length_nil, Nat.le_zero] at this
      subst this
      unfold minFailures at hm
      split_ifs at hm <;> cases hm
  obtain ⟨r1, r2, r3⟩ := range_data h2
  exact ⟨r1, r2, r3, hne, c0, c1, hk⟩

/-- `rc` as an option. -/
def rcOpt (C : List ℝ) : Option (List ℝ) := if C.length = 0 then none else some C

theorem rcArg_eq (C : List ℝ) : rcArg C = dataArg (rcOpt C) := by
  unfold rcArg rcOpt
  split_ifs <;> rfl

theorem rcOpt_getD (C : List ℝ) : (rcOpt C).getD [] = C := by
  unfold rcOpt
  split_ifs with h
  · exact (List.length_eq_zero_iff.1 h).symm
  · rfl

theorem showsData_rc {argsort : List ℝ → List ℕ} {a : Option ℝ} {f C : List ℝ} {k : ℝ} {p : Plot}
    (h : ShowsData argsort a f (rcOpt C) k p) : ShowsData argsort a f (some C) k p := by
  unfold rcOpt at h
  split_ifs at h with h0
  · obtain rfl := List.length_eq_zero_iff.1 h0
    exact h
  · exact h

/-! ## One class -/

variable {A : Answers} {factor : Factor} {x : Args} {F C : List ℝ}

theorem step {α β : Type} {P : Except Err α} {a : α} (h : P = .ok a) (k : α → Except Err β) : (P >>= k) = k a := by rw [h]; rfl

theorem aside_eq {d : Dist} (h : d ≠ .Exponential_2P) (ps : List (String × ℝ)) : aside d ps = 0 := if_neg fun k => h k.1

theorem two_fitter {r : FitRes Two} {P : Except Err Plot} {p0 : Paper} {g : ℝ} {f rc : List ℝ} (hg : location (ofTwo r).params = g)
    (h : ∃ p, P = .ok p ∧ p.paper = p0 ∧ ShowsData A.argsort none f (rcOpt rc) (-g) p ∧
      DrawsCDF (Fitted.two r.dist).dist.sp.cdf (-g) p ∧ AllVisible p) :
    ∃ p c, (alone P >>= fun p => pure (ofTwo r, p)) = (.ok (ofTwo r, p, c) : Except Err (Outcome × Plot × Option Curve)) ∧
      p.paper = p0 ∧ Shows A.argsort f rc 0 (ofTwo r) p c := by
  obtain ⟨p, rfl, h1, h2, h3, h4⟩ := h
  refine ⟨p, none, rfl, h1, ?_, h4, ?_⟩
  · rw [hg, add_zero]; exact showsData_rc h2
  · show DrawsCDF (Fitted.two r.dist).dist.sp.cdf _ p ∧ _
    rw [hg]; exact ⟨h3, rfl⟩

theorem shown_opts {inp : Checked ℝ} (h0 : 0 < inp.CI) (h1 : inp.CI < 1) {n : ℕ} (hu : Undownsampled factor n) : Shown (opts inp factor) n :=
  ⟨by norm_num [opts], by norm_num [opts], h0, h1, rfl, rfl, hu⟩

section Fitter
attribute [local irreducible] curveGrid

theorem fitter_curve (ha : IsArgsort A.argsort) {inp : Checked ℝ} (hf : 2 ≤ inp.failures.length) (ht : ∀ t ∈ inp.failures, t ∉ inp.right_censored)
    (hpos : ∀ t ∈ inp.failures, 0 < t) (hu : Undownsampled factor inp.failures.length) {o : Outcome} (ho : ∀ D, o.dist ≠ .one D)
    (hl : location o.params = 0) (hD : ∃ Y, o.dist.cdf (curveGrid inp.failures) = .ok Y) :
    ∃ p c, (scatterAndCurve A inp factor o.dist >>= fun p => pure (o, p)) = (.ok (o, p, c) : Except Err (Outcome × Plot × Option Curve)) ∧
      p.paper = .weibull ∧ Shows A.argsort inp.failures inp.right_censored 0 o p c := by
  obtain ⟨Y, hY⟩ := hD
  have hne : inp.failures ≠ [] := by intro h; simp [h] at hf
  obtain ⟨p, h1, h2, h3, h4⟩ := C118_scatter_only ha (f := inp.failures) (rc := rcOpt inp.right_censored)
    (o := { show_fit := false, downsample := factor }) hf
    (by norm_num) (by norm_num) (by rw [rcOpt_getD]; exact ht) hpos rfl rfl hu (wf2 A) (wf3 A) (fitExponential1P A.argsort A.J A.e1)
    (fitExponential2P A.argsort A.J A.e2)
    (plot := weibullPlot A.argsort (wf2 A) (wf3 A) (.array inp.failures) (dataArg (rcOpt inp.right_censored)) none
      { show_fit := false, downsample := factor }) (by simp)
  have hp : p.paper = .weibull := by
    have h1' := h1
    unfold weibullPlot at h1'
    obtain ⟨d, -, h⟩ := bind_ok.1 h1'
    exact draw_paper h
  refine ⟨p, some ⟨curveGrid inp.failures, Y⟩, ?_, hp, ?_, h4, ?_⟩
  · unfold scatterAndCurve
    rw [rcArg_eq, h1, hY]
    rfl
  · rw [hl]; simpa using showsData_rc h2
  · cases hd : o.dist with
    | one D => exact absurd hd (ho D)
    | mixture ds ps => rw [hd] at hY; exact ⟨hp, h3, _, rfl, isCurve hne hpos hY⟩
    | competing ds => rw [hd] at hY; exact ⟨hp, h3, _, rfl, isCurve hne hpos hY⟩
    | dszi m => rw [hd] at hY; exact ⟨hp, h3, _, rfl, isCurve hne hpos hY⟩

/-- **C158 (the plot of a class).** When a class returns with `show_probability_plot=True` and the fit can be drawn (`Plottable`: a location before
every failure etc.; no failure at the time of a censoring; no downsampling), its probability plot is on the paper of the distribution and shows
the data the class used (zeros, and ones for the Beta distribution, removed) and the distribution it returns: every plotting position at time
minus the location, all of them within the limits of the axes, and the CDF of the returned distribution at time minus the location; for a
mixture, competing risks or a defective subpopulation that CDF as a curve.  For Exponential_2P the points are moved aside by 0.009 (see C118). -/
theorem C158_plot (ha : IsArgsort A.argsort) {d : Dist} (hg : Given x.failures x.right_censored F C) {o : Outcome}
    (h : fitWith A d x = .ok o) (ht : ∀ t ∈ usable d F, t ∉ usable d C) (hu : Undownsampled factor (usable d F).length)
    (hd : Plottable (usable d F) d o.params) :
    ∃ p c, fitterPlot A d x factor = .ok (o, p, c) ∧ p.paper = paperOf d o.params ∧
      Shows A.argsort (usable d F) (usable d C) (aside d o.params) o p c := by
  cases d
  case Weibull_2P =>
    obtain ⟨r, hr, rfl⟩ := map_ok h
    have hr' := hr
    simp only [fitWeibull2P, bind_ok] at hr'
    obtain ⟨inp, hi, hr'⟩ := hr'
    obtain ⟨d1, d2, d3, d4, d5, d6, d7⟩ := check_data hi hg
    have u1 : usable .Weibull_2P F = inp.failures := by rw [d1]; simp [usable, keep]
    have u2 : usable .Weibull_2P C = inp.right_censored := by rw [d2]; simp [usable, keep]
    have ht' : ∀ t ∈ inp.failures, t ∉ (rcOpt inp.right_censored).getD [] := by rw [rcOpt_getD, ← u1, ← u2]; exact ht
    have hbef := hd.before
    rw [u1] at hu hbef
    rw [u1, u2]
    show ∃ p c, plotWeibull_2P A x factor = _ ∧ _
    unfold plotWeibull_2P checked
    rw [step hr, step hi]
    rw [rcArg_eq]
    have hsh := shown_opts d5 d6 hu
    obtain ⟨e0, a, e1⟩ := fit2_rows hr'
    have hl : location (ofTwo r).params = r.dist.gamma := by
      rw [show (ofTwo r).params = _ from e1, e0]; rfl
    rw [hl] at hbef
    rw [aside_eq (by decide)]
    exact two_fitter hl (C118_weibull ha A.J A.w2 A.w3 hsh d4 ht' (.inl ⟨rfl, (fit2_dist hr').1, e0.ge⟩) (hbef (by decide) (by decide)))
  case Weibull_3P =>
    obtain ⟨r, hr, rfl⟩ := map_ok h
    have hr' := hr
    simp only [fitWeibull3P, bind_ok] at hr'
    obtain ⟨inp, hi, hr'⟩ := hr'
    obtain ⟨d1, d2, d3, d4, d5, d6, d7⟩ := check_data hi hg
    have u1 : usable .Weibull_3P F = inp.failures := by rw [d1]; simp [usable, keep]
    have u2 : usable .Weibull_3P C = inp.right_censored := by rw [d2]; simp [usable, keep]
    have ht' : ∀ t ∈ inp.failures, t ∉ (rcOpt inp.right_censored).getD [] := by rw [rcOpt_getD, ← u1, ← u2]; exact ht
    have hbef := hd.before
    rw [u1] at hu hbef
    rw [u1, u2]
    show ∃ p c, plotWeibull_3P A x factor = _ ∧ _
    unfold plotWeibull_3P checked
    rw [step hr, step hi]
    rw [rcArg_eq]
    have hsh := shown_opts d5 d6 hu
    have hfam := fitWeibull3P_dist hr
    obtain ⟨e0, a, e1⟩ := fit3_rows (fun x r h => by
      simp only [fitWeibull2P, bind_ok] at h
      obtain ⟨inp, -, h⟩ := h
      exact fit2_rows h) hr'
    have hl : location (ofTwo r).params = r.dist.gamma := by
      rw [show (ofTwo r).params = _ from e1]; rfl
    rw [hl] at hbef
    rw [aside_eq (by decide)]
    exact two_fitter hl (C118_weibull ha A.J A.w2 A.w3 hsh d4 ht' (.inl ⟨rfl, hfam, e0⟩) (hbef (by decide) (by decide)))
  case Exponential_1P =>
    obtain ⟨r, hr, rfl⟩ := map_ok h
    have hr' := hr
    simp only [fitExponential1P, bind_ok] at hr'
    obtain ⟨inp, hi, hr'⟩ := hr'
    obtain ⟨d1, d2, d3, d4, d5, d6, d7⟩ := check_data hi hg
    have u1 : usable .Exponential_1P F = inp.failures := by rw [d1]; simp [usable, keep]
    have u2 : usable .Exponential_1P C = inp.right_censored := by rw [d2]; simp [usable, keep]
    have ht' : ∀ t ∈ inp.failures, t ∉ (rcOpt inp.right_censored).getD [] := by rw [rcOpt_getD, ← u1, ← u2]; exact ht
    have hbef := hd.before
    rw [u1] at hu hbef
    rw [u1, u2]
    show ∃ p c, plotExponential_1P A x factor = _ ∧ _
    unfold plotExponential_1P checked
    rw [step hr, step hi]
    rw [rcArg_eq]
    have hsh := shown_opts d5 d6 hu
    obtain ⟨L, e1, -⟩ := exp1_shape hr
    have e0 := fitExponential1P_dist hr
    have hl : location (ofExpo r).params = 0 := by
      rw [show (ofExpo r).params = _ from e1]; rfl
    rw [hl] at hbef
    obtain ⟨p, h1, h2, h3, h4, h5⟩ := C118_exponential true ha A.J A.e1 A.e2 hsh d4 ht' (.inl ⟨rfl, e0.ge, fun _ => rfl⟩)
      (k := 0) (by simp [e0, opts]) (by simpa using hbef (by decide) (by decide))
    refine ⟨p, none, by rw [h1]; rfl, h2, ?_, h5, ?_⟩
    · rw [hl]; simpa [aside, opts] using showsData_rc h3
    · show DrawsCDF (Fitted.expo r.dist).dist.sp.cdf _ p ∧ _
      rw [hl, ← e0]; exact ⟨h4, rfl⟩
  case Exponential_2P =>
    obtain ⟨r, hr, rfl⟩ := map_ok h
    have hr' := hr
    simp only [fitExponential2P, bind_ok] at hr'
    obtain ⟨inp, hi, hr'⟩ := hr'
    obtain ⟨d1, d2, d3, d4, d5, d6, d7⟩ := check_data hi hg
    have u1 : usable .Exponential_2P F = inp.failures := by rw [d1]; simp [usable, keep]
    have u2 : usable .Exponential_2P C = inp.right_censored := by rw [d2]; simp [usable, keep]
    have ht' : ∀ t ∈ inp.failures, t ∉ (rcOpt inp.right_censored).getD [] := by rw [rcOpt_getD, ← u1, ← u2]; exact ht
    have hbef := hd.before
    rw [u1] at hu hbef
    rw [u1, u2]
    show ∃ p c, plotExponential_2P A x factor = _ ∧ _
    unfold plotExponential_2P checked
    rw [step hr, step hi]
    rw [rcArg_eq]
    have hsh := shown_opts d5 d6 hu
    obtain ⟨L, e1⟩ := exp2_rows hr
    have hl : location (ofExpo r).params = r.dist.gamma := by
      rw [show (ofExpo r).params = _ from e1]; rfl
    have h0 := hd.location_nonneg rfl
    have hbef := hbef (by decide) (by decide)
    rw [hl] at hbef h0
    obtain ⟨p, h1, h2, h3, h4, h5⟩ := C118_exponential true ha A.J A.e1 A.e2 hsh d4 ht' (.inl ⟨rfl, h0, fun _ => rfl⟩)
      (k := -r.dist.gamma + aside .Exponential_2P (ofExpo r).params) (by
        unfold aside
        rw [hl]
        by_cases hg : 0 < r.dist.gamma <;> simp [hg, opts]) (by
        intro t ht
        have : 0 ≤ aside .Exponential_2P (ofExpo r).params := by unfold aside; split_ifs <;> norm_num
        linarith [hbef t ht])
    refine ⟨p, none, by rw [h1]; rfl, h2, ?_, h5, ?_⟩
    · rw [hl]; exact showsData_rc h3
    · show DrawsCDF (Fitted.expo r.dist).dist.sp.cdf _ p ∧ _
      rw [hl]; exact ⟨h4, rfl⟩
  case Normal_2P =>
    obtain ⟨r, hr, rfl⟩ := map_ok h
    have hr' := hr
    simp only [fitNormal2P, bind_ok] at hr'
    obtain ⟨inp, hi, hr'⟩ := hr'
    obtain ⟨d1, d2, d3, d4, d5, d6, d7⟩ := check_data hi hg
    have u1 : usable .Normal_2P F = inp.failures := by rw [d1]; simp [usable, keep]
    have u2 : usable .Normal_2P C = inp.right_censored := by rw [d2]; simp [usable, keep]
    have ht' : ∀ t ∈ inp.failures, t ∉ (rcOpt inp.right_censored).getD [] := by rw [rcOpt_getD, ← u1, ← u2]; exact ht
    have hbef := hd.before
    rw [u1] at hu hbef
    rw [u1, u2]
    show ∃ p c, plotNormal_2P A x factor = _ ∧ _
    unfold plotNormal_2P checked
    rw [step hr, step hi]
    rw [rcArg_eq]
    have hsh := shown_opts d5 d6 hu
    obtain ⟨e0, a, e1⟩ := fit2_rows hr'
    have hl : location (ofTwo r).params = 0 := by
      rw [show (ofTwo r).params = _ from e1]; rfl
    have hspr := hd.spread (by decide)
    rw [u1] at hspr
    rw [aside_eq (by decide)]
    refine two_fitter (p0 := .normal) hl ?_
    rw [neg_zero]
    exact C118_normal ha A.J A.n2 hsh d4 ht' (.inl ⟨rfl, (fit2_dist hr').1⟩) hspr
  case Gumbel_2P =>
    obtain ⟨r, hr, rfl⟩ := map_ok h
    have hr' := hr
    simp only [fitGumbel2P, bind_ok] at hr'
    obtain ⟨inp, hi, hr'⟩ := hr'
    obtain ⟨d1, d2, d3, d4, d5, d6, d7⟩ := check_data hi hg
    have u1 : usable .Gumbel_2P F = inp.failures := by rw [d1]; simp [usable, keep]
    have u2 : usable .Gumbel_2P C = inp.right_censored := by rw [d2]; simp [usable, keep]
    have ht' : ∀ t ∈ inp.failures, t ∉ (rcOpt inp.right_censored).getD [] := by rw [rcOpt_getD, ← u1, ← u2]; exact ht
    have hbef := hd.before
    rw [u1] at hu hbef
    rw [u1, u2]
    show ∃ p c, plotGumbel_2P A x factor = _ ∧ _
    unfold plotGumbel_2P checked
    rw [step hr, step hi]
    rw [rcArg_eq]
    have hsh := shown_opts d5 d6 hu
    obtain ⟨e0, a, e1⟩ := fit2_rows hr'
    have hl : location (ofTwo r).params = 0 := by
      rw [show (ofTwo r).params = _ from e1]; rfl
    have hspr := hd.spread (by decide)
    rw [u1] at hspr
    rw [aside_eq (by decide)]
    refine two_fitter (p0 := .gumbel) hl ?_
    rw [neg_zero]
    exact C118_gumbel ha A.J A.gu2 hsh d4 ht' (.inl ⟨rfl, (fit2_dist hr').1⟩) hspr
  case Lognormal_2P =>
    obtain ⟨r, hr, rfl⟩ := map_ok h
    have hr' := hr
    simp only [fitLognormal2P, bind_ok] at hr'
    obtain ⟨inp, hi, hr'⟩ := hr'
    obtain ⟨d1, d2, d3, d4, d5, d6, d7⟩ := check_data hi hg
    have u1 : usable .Lognormal_2P F = inp.failures := by rw [d1]; simp [usable, keep]
    have u2 : usable .Lognormal_2P C = inp.right_censored := by rw [d2]; simp [usable, keep]
    have ht' : ∀ t ∈ inp.failures, t ∉ (rcOpt inp.right_censored).getD [] := by rw [rcOpt_getD, ← u1, ← u2]; exact ht
    have hbef := hd.before
    rw [u1] at hu hbef
    rw [u1, u2]
    show ∃ p c, plotLognormal_2P A x factor = _ ∧ _
    unfold plotLognormal_2P checked
    rw [step hr, step hi]
    rw [rcArg_eq]
    have hsh := shown_opts d5 d6 hu
    obtain ⟨e0, a, e1⟩ := fit2_rows hr'
    have hl : location (ofTwo r).params = r.dist.gamma := by
      rw [show (ofTwo r).params = _ from e1, e0]; rfl
    rw [hl] at hbef
    rw [aside_eq (by decide)]
    exact two_fitter hl (C118_lognormal ha A.J A.l2 A.l3 hsh d4 ht' (.inl ⟨rfl, (fit2_dist hr').1, e0.ge⟩) (hbef (by decide) (by decide)))
  case Lognormal_3P =>
    obtain ⟨r, hr, rfl⟩ := map_ok h
    have hr' := hr
    simp only [fitLognormal3P, bind_ok] at hr'
    obtain ⟨inp, hi, hr'⟩ := hr'
    obtain ⟨d1, d2, d3, d4, d5, d6, d7⟩ := check_data hi hg
    have u1 : usable .Lognormal_3P F = inp.failures := by rw [d1]; simp [usable, keep]
    have u2 : usable .Lognormal_3P C = inp.right_censored := by rw [d2]; simp [usable, keep]
    have ht' : ∀ t ∈ inp.failures, t ∉ (rcOpt inp.right_censored).getD [] := by rw [rcOpt_getD, ← u1, ← u2]; exact ht
    have hbef := hd.before
    rw [u1] at hu hbef
    rw [u1, u2]
    show ∃ p c, plotLognormal_3P A x factor = _ ∧ _
    unfold plotLognormal_3P checked
    rw [step hr, step hi]
    rw [rcArg_eq]
    have hsh := shown_opts d5 d6 hu
    have hfam := fitLognormal3P_dist hr
    obtain ⟨e0, a, e1⟩ := fit3_rows (fun x r h => by
      simp only [fitLognormal2P, bind_ok] at h
      obtain ⟨inp, -, h⟩ := h
      exact fit2_rows h) hr'
    have hl : location (ofTwo r).params = r.dist.gamma := by
      rw [show (ofTwo r).params = _ from e1]; rfl
    rw [hl] at hbef
    rw [aside_eq (by decide)]
    exact two_fitter hl (C118_lognormal ha A.J A.l2 A.l3 hsh d4 ht' (.inl ⟨rfl, hfam, e0⟩) (hbef (by decide) (by decide)))
  case Gamma_2P =>
    obtain ⟨r, hr, rfl⟩ := map_ok h
    have hr' := hr
    simp only [fitGamma2P, bind_ok] at hr'
    obtain ⟨inp, hi, hr'⟩ := hr'
    obtain ⟨d1, d2, d3, d4, d5, d6, d7⟩ := check_data hi hg
    have u1 : usable .Gamma_2P F = inp.failures := by rw [d1]; simp [usable, keep]
    have u2 : usable .Gamma_2P C = inp.right_censored := by rw [d2]; simp [usable, keep]
    have ht' : ∀ t ∈ inp.failures, t ∉ (rcOpt inp.right_censored).getD [] := by rw [rcOpt_getD, ← u1, ← u2]; exact ht
    have hbef := hd.before
    rw [u1] at hu hbef
    rw [u1, u2]
    show ∃ p c, plotGamma_2P A x factor = _ ∧ _
    unfold plotGamma_2P checked
    rw [step hr, step hi]
    rw [rcArg_eq]
    have hsh := shown_opts d5 d6 hu
    obtain ⟨e0, a, e1⟩ := gamma2_rows hr
    have hl : location (ofTwo r).params = r.dist.gamma := by
      rw [show (ofTwo r).params = _ from e1, e0]; rfl
    have hbp := hd.gamma (by decide)
    have hv : valueOf (ofTwo r).params "Beta" = r.dist.b := by rw [show (ofTwo r).params = _ from e1]; rfl
    rw [hv] at hbp
    rw [hl] at hbef
    rw [show paperOf .Gamma_2P (ofTwo r).params = .gamma r.dist.b by rw [← hv]; rfl]
    rw [aside_eq (by decide)]
    exact two_fitter hl (C118_gamma ha A.J A.ga2 A.ga3 hsh d4 ht' (.inl ⟨rfl, (fitGamma2P_dist hr).1, e0.ge⟩) hbp (hbef (by decide) (by decide)))
  case Gamma_3P =>
    obtain ⟨r, hr, rfl⟩ := map_ok h
    have hr' := hr
    simp only [fitGamma3P, bind_ok] at hr'
    obtain ⟨inp, hi, hr'⟩ := hr'
    obtain ⟨d1, d2, d3, d4, d5, d6, d7⟩ := check_data hi hg
    have u1 : usable .Gamma_3P F = inp.failures := by rw [d1]; simp [usable, keep]
    have u2 : usable .Gamma_3P C = inp.right_censored := by rw [d2]; simp [usable, keep]
    have ht' : ∀ t ∈ inp.failures, t ∉ (rcOpt inp.right_censored).getD [] := by rw [rcOpt_getD, ← u1, ← u2]; exact ht
    have hbef := hd.before
    rw [u1] at hu hbef
    rw [u1, u2]
    show ∃ p c, plotGamma_3P A x factor = _ ∧ _
    unfold plotGamma_3P checked
    rw [step hr, step hi]
    rw [rcArg_eq]
    have hsh := shown_opts d5 d6 hu
    obtain ⟨e0, a, e1⟩ := gamma3_rows hr
    have hl : location (ofTwo r).params = r.dist.gamma := by
      rw [show (ofTwo r).params = _ from e1]; rfl
    have hbp := hd.gamma (by decide)
    have hv : valueOf (ofTwo r).params "Beta" = r.dist.b := by rw [show (ofTwo r).params = _ from e1]; rfl
    rw [hv] at hbp
    rw [hl] at hbef
    rw [show paperOf .Gamma_3P (ofTwo r).params = .gamma r.dist.b by rw [← hv]; rfl]
    rw [aside_eq (by decide)]
    exact two_fitter hl (C118_gamma ha A.J A.ga2 A.ga3 hsh d4 ht' (.inl ⟨rfl, fitGamma3P_dist hr, e0⟩) hbp (hbef (by decide) (by decide)))
  case Beta_2P =>
    obtain ⟨r, hr, rfl⟩ := map_ok h
    have hr' := hr
    simp only [fitBeta2P, bind_ok] at hr'
    obtain ⟨inp, hi, hr'⟩ := hr'
    obtain ⟨d1, d2, d3, d4, d5, d6, d7⟩ := check_data hi hg
    have u1 : usable .Beta_2P F = inp.failures := by rw [d1]; simp [usable, keep, List.filter_filter, Bool.and_comm]
    have u2 : usable .Beta_2P C = inp.right_censored := by rw [d2]; simp [usable, keep, List.filter_filter, Bool.and_comm]
    have ht' : ∀ t ∈ inp.failures, t ∉ (rcOpt inp.right_censored).getD [] := by rw [rcOpt_getD, ← u1, ← u2]; exact ht
    have hbef := hd.before
    rw [u1] at hu hbef
    rw [u1, u2]
    show ∃ p c, plotBeta_2P A x factor = _ ∧ _
    unfold plotBeta_2P checked
    rw [step hr, step hi]
    rw [rcArg_eq]
    obtain ⟨a, b, e1, e2⟩ := beta_shape hr
    have hl : location (ofBeta r).params = 0 := by
      rw [show (ofBeta r).params = _ from e1]; rfl
    have hab := hd.beta rfl
    have va : valueOf (ofBeta r).params "Alpha" = a := by rw [show (ofBeta r).params = _ from e1]; rfl
    have vb : valueOf (ofBeta r).params "Beta" = b := by rw [show (ofBeta r).params = _ from e1]; rfl
    rw [va, vb] at hab
    rw [hl] at hbef
    have p0 : pointAt r.rows 0 = a := by
      have := congrArg (fun l : List (String × ℝ) => l[0]?) e1
      simp only [List.getElem?_map] at this
      unfold pointAt
      cases hr0 : r.rows[0]? with
      | none => rw [hr0] at this; cases this
      | some w => rw [hr0] at this; simpa using congrArg (Option.map Prod.snd) this
    have p1 : pointAt r.rows 1 = b := by
      have := congrArg (fun l : List (String × ℝ) => l[1]?) e1
      simp only [List.getElem?_map] at this
      unfold pointAt
      cases hr0 : r.rows[1]? with
      | none => rw [hr0] at this; cases this
      | some w => rw [hr0] at this; simpa using congrArg (Option.map Prod.snd) this
    rw [p0, p1]
    obtain ⟨p, h1, h2, h3, h4, h5⟩ := C118_beta ha A.be2 (shown hu) d4 ht' (.inl ⟨rfl, rfl⟩) hab.1 hab.2 (hbef (by decide) (by decide))
    refine ⟨p, none, by rw [h1]; rfl, by rw [h2, ← va, ← vb]; rfl, ?_, h5, ?_⟩
    · rw [hl]; simpa [aside] using showsData_rc h3
    · show DrawsCDF r.dist.sp.cdf _ p ∧ _
      rw [hl, e2, neg_zero]; exact ⟨h4, rfl⟩
  case Loglogistic_2P =>
    obtain ⟨r, hr, rfl⟩ := map_ok h
    have hr' := hr
    simp only [fitLoglogistic2P, bind_ok] at hr'
    obtain ⟨inp, hi, hr'⟩ := hr'
    obtain ⟨d1, d2, d3, d4, d5, d6, d7⟩ := check_data hi hg
    have u1 : usable .Loglogistic_2P F = inp.failures := by rw [d1]; simp [usable, keep]
    have u2 : usable .Loglogistic_2P C = inp.right_censored := by rw [d2]; simp [usable, keep]
    have ht' : ∀ t ∈ inp.failures, t ∉ (rcOpt inp.right_censored).getD [] := by rw [rcOpt_getD, ← u1, ← u2]; exact ht
    have hbef := hd.before
    rw [u1] at hu hbef
    rw [u1, u2]
    show ∃ p c, plotLoglogistic_2P A x factor = _ ∧ _
    unfold plotLoglogistic_2P checked
    rw [step hr, step hi]
    rw [rcArg_eq]
    have hsh := shown_opts d5 d6 hu
    obtain ⟨e0, a, e1⟩ := fit2_rows hr'
    have hl : location (ofTwo r).params = r.dist.gamma := by
      rw [show (ofTwo r).params = _ from e1, e0]; rfl
    rw [hl] at hbef
    rw [aside_eq (by decide)]
    exact two_fitter hl (C118_loglogistic ha A.J A.lo2 A.lo3 hsh d4 ht' (.inl ⟨rfl, (fit2_dist hr').1, e0.ge⟩) (hbef (by decide) (by decide)))
  case Loglogistic_3P =>
    obtain ⟨r, hr, rfl⟩ := map_ok h
    have hr' := hr
    simp only [fitLoglogistic3P, bind_ok] at hr'
    obtain ⟨inp, hi, hr'⟩ := hr'
    obtain ⟨d1, d2, d3, d4, d5, d6, d7⟩ := check_data hi hg
    have u1 : usable .Loglogistic_3P F = inp.failures := by rw [d1]; simp [usable, keep]
    have u2 : usable .Loglogistic_3P C = inp.right_censored := by rw [d2]; simp [usable, keep]
    have ht' : ∀ t ∈ inp.failures, t ∉ (rcOpt inp.right_censored).getD [] := by rw [rcOpt_getD, ← u1, ← u2]; exact ht
    have hbef := hd.before
    rw [u1] at hu hbef
    rw [u1, u2]
    show ∃ p c, plotLoglogistic_3P A x factor = _ ∧ _
    unfold plotLoglogistic_3P checked
    rw [step hr, step hi]
    rw [rcArg_eq]
    have hsh := shown_opts d5 d6 hu
    have hfam := fitLoglogistic3P_dist hr
    obtain ⟨e0, a, e1⟩ := fit3_rows (fun x r h => by
      simp only [fitLoglogistic2P, bind_ok] at h
      obtain ⟨inp, -, h⟩ := h
      exact fit2_rows h) hr'
    have hl : location (ofTwo r).params = r.dist.gamma := by
      rw [show (ofTwo r).params = _ from e1]; rfl
    rw [hl] at hbef
    rw [aside_eq (by decide)]
    exact two_fitter hl (C118_loglogistic ha A.J A.lo2 A.lo3 hsh d4 ht' (.inl ⟨rfl, hfam, e0⟩) (hbef (by decide) (by decide)))
  case Weibull_Mixture =>
    obtain ⟨r, hr, rfl⟩ := map_ok h
    have hr' := hr
    rw [hg.1] at hr'
    obtain ⟨k1, k2⟩ := mixture_shape hr'
    have hr' := hr
    simp only [fitMixture, bind_ok] at hr'
    obtain ⟨inp, hi, -⟩ := hr'
    replace hi : fittersCheck "Weibull_Mixture" x.failures x.right_censored .none x.optimizer x.CI .none none none .none = .ok inp := hi
    obtain ⟨d1, d2, d3, d4, d5, d6, d7⟩ := check_data hi hg
    have u1 : usable .Weibull_Mixture F = inp.failures := by rw [d1]; simp [usable, keep]
    have u2 : usable .Weibull_Mixture C = inp.right_censored := by rw [d2]; simp [usable, keep]
    have hpos := d3 (by decide)
    have hlen : 2 ≤ inp.failures.length := le_trans (by norm_num) (d7 4 (by decide))
    obtain ⟨g1, g2⟩ := curveGrid_spec d4 hpos
    have gne : curveGrid inp.failures ≠ [] := by intro h; rw [h] at g1; cases g1
    have gpos : ∀ t ∈ curveGrid inp.failures, 0 ≤ t := fun t ht => (g2.1 t ht).le
    rw [u1] at hu
    rw [u1, u2] at ht ⊢
    show ∃ p c, plotWeibull_Mixture A x factor = _ ∧ _
    unfold plotWeibull_Mixture checkedSpecial
    rw [step hr, step hi]
    rw [aside_eq (by decide)]
    exact fitter_curve ha hlen ht hpos hu (o := ofSpecial (fun p : List Distributions.Dist × List ℝ => AnyDist.mixture p.1 p.2) r) (fun D h => by cases h) k1 (Props.FitProbPlots.mixture_cdf k2 gne gpos)
  case Weibull_CR =>
    obtain ⟨r, hr, rfl⟩ := map_ok h
    have hr' := hr
    rw [hg.1] at hr'
    obtain ⟨k1, k2⟩ := competing_shape hr'
    have hr' := hr
    simp only [fitCR, bind_ok] at hr'
    obtain ⟨inp, hi, -⟩ := hr'
    replace hi : fittersCheck "Weibull_CR" x.failures x.right_censored .none x.optimizer x.CI .none none none .none = .ok inp := hi
    obtain ⟨d1, d2, d3, d4, d5, d6, d7⟩ := check_data hi hg
    have u1 : usable .Weibull_CR F = inp.failures := by rw [d1]; simp [usable, keep]
    have u2 : usable .Weibull_CR C = inp.right_censored := by rw [d2]; simp [usable, keep]
    have hpos := d3 (by decide)
    have hlen : 2 ≤ inp.failures.length := le_trans (by norm_num) (d7 4 (by decide))
    obtain ⟨g1, g2⟩ := curveGrid_spec d4 hpos
    have gne : curveGrid inp.failures ≠ [] := by intro h; rw [h] at g1; cases g1
    have gpos : ∀ t ∈ curveGrid inp.failures, 0 ≤ t := fun t ht => (g2.1 t ht).le
    rw [u1] at hu
    rw [u1, u2] at ht ⊢
    show ∃ p c, plotWeibull_CR A x factor = _ ∧ _
    unfold plotWeibull_CR checkedSpecial
    rw [step hr, step hi]
    rw [aside_eq (by decide)]
    exact fitter_curve ha hlen ht hpos hu (o := ofSpecial AnyDist.competing r) (fun D h => by cases h) k1 (Props.FitProbPlots.competing_cdf k2 gne gpos)
  case Weibull_DS =>
    obtain ⟨r, hr, rfl⟩ := map_ok h
    have hr' := hr
    rw [hg.1] at hr'
    obtain ⟨k1, k2⟩ := defective_shape hr'
    have hr' := hr
    simp only [fitDS, bind_ok] at hr'
    obtain ⟨inp, hi, -⟩ := hr'
    replace hi : fittersCheck "Weibull_DS" x.failures x.right_censored .none x.optimizer x.CI .none none none .none = .ok inp := hi
    obtain ⟨d1, d2, d3, d4, d5, d6, d7⟩ := check_data hi hg
    have u1 : usable .Weibull_DS F = inp.failures := by rw [d1]; simp [usable, keep]
    have u2 : usable .Weibull_DS C = inp.right_censored := by rw [d2]; simp [usable, keep]
    have hpos := d3 (by decide)
    have hlen : 2 ≤ inp.failures.length := le_trans (by norm_num) (d7 2 (by decide))
    obtain ⟨g1, g2⟩ := curveGrid_spec d4 hpos
    have gne : curveGrid inp.failures ≠ [] := by intro h; rw [h] at g1; cases g1
    have gpos : ∀ t ∈ curveGrid inp.failures, 0 ≤ t := fun t ht => (g2.1 t ht).le
    rw [u1] at hu
    rw [u1, u2] at ht ⊢
    show ∃ p c, plotWeibull_DS A x factor = _ ∧ _
    unfold plotWeibull_DS checkedSpecial
    rw [step hr, step hi]
    rw [aside_eq (by decide)]
    exact fitter_curve ha hlen ht hpos hu (o := ofSpecial AnyDist.dszi r) (fun D h => by cases h) k1 (dszi_cdf k2 gne gpos)

end Fitter


/-! ## Grouped data -/

/-- **C158 (grouped data).** `Fit_Weibull_2P_grouped` draws the ungrouped data: each time as often as its quantity says. -/
theorem C158_grouped (ha : IsArgsort A.argsort) {cols : List String} {rows : List FitGrouped.GRow} (hw : Spec.FitGrouped.WellFormed cols rows)
    {x : FitGrouped.GArgs} {r : FitRes Two} (h : FitGrouped.fitWeibull2PGrouped A.argsort A.J A.w2 (.frame cols rows) x = .ok r)
    (ht : ∀ t ∈ Spec.FitGrouped.expand "F" rows, t ∉ Spec.FitGrouped.expand "C" rows)
    (hu : Undownsampled factor (Spec.FitGrouped.expand "F" rows).length) :
    ∃ p, plotWeibull_2P_grouped A (.frame cols rows) x factor = .ok (r, p) ∧ p.paper = .weibull ∧
      ShowsData A.argsort none (Spec.FitGrouped.expand "F" rows) (some (Spec.FitGrouped.expand "C" rows)) 0 p ∧
      DrawsCDF (Fitted.two r.dist).dist.sp.cdf 0 p ∧ AllVisible p := by
  have hr := h
  rw [Props.grouped_unfold hw] at h
  obtain ⟨inp, hi, h⟩ := bind_ok.1 h
  obtain ⟨d1, d2, d3, d4, d5, d6, d7⟩ := check_data hi ⟨rfl, .inr rfl⟩
  have hpos : ∀ c, ∀ t ∈ Spec.FitGrouped.expand c rows, t ≠ 0 := by
    intro c t ht
    unfold Spec.FitGrouped.expand at ht
    obtain ⟨g, hg, ht⟩ := List.mem_flatMap.1 ht
    have := (List.mem_filter.1 hg).2
    rw [List.eq_of_mem_replicate ht]
    simp only [decide_eq_true_eq] at this
    exact this.2.ne'
  have u1 : inp.failures = Spec.FitGrouped.expand "F" rows := by
    rw [d1, keep, if_neg (by decide), if_neg (by decide)]
    exact List.filter_eq_self.2 fun t ht => by simpa using hpos _ t ht
  have u2 : inp.right_censored = Spec.FitGrouped.expand "C" rows := by
    rw [d2, keep, if_neg (by decide), if_neg (by decide)]
    exact List.filter_eq_self.2 fun t ht => by simpa using hpos _ t ht
  rw [← u1] at ht hu ⊢
  rw [← u2] at ht ⊢
  have hdist : r.dist.fam = .weibull ∧ r.dist.gamma = 0 := by
    unfold FitGrouped.fitGroupedData at h
    simp only [bind_ok] at h
    obtain ⟨e, he, s, hs, q, hq, g, hg, h⟩ := h
    cases h
    exact ⟨rfl, rfl⟩
  obtain ⟨p, k1, k2, k3, k4, k5⟩ := C118_weibull ha A.J A.w2 A.w3 (shown_opts d5 d6 hu) d4
    (rc := rcOpt inp.right_censored) (by rw [rcOpt_getD]; exact ht) (given := some r.dist) (.inl ⟨rfl, hdist.1, hdist.2.ge⟩) (by
      rw [hdist.2]; exact d3 (by decide))
  rw [hdist.2, neg_zero] at k3 k4
  refine ⟨p, ?_, k2, showsData_rc k3, k4, k5⟩
  unfold plotWeibull_2P_grouped
  rw [step hr, step (Props.groupedData_ok hw), step (Props.npRepeat_ok _ hw.quantities),
    step (Props.npRepeat_ok _ hw.quantities)]
  rw [step hi, rcArg_eq]
  exact step k1 _

/-! ## Zero inflated models -/

section Zero
attribute [local irreducible] curveGrid

theorem draw_hidden {argsort : List ℝ → List ℕ} {p : Paper} {f : List ℝ} {rc : Option (List ℝ)} {fa : Factor} {q : Plot}
    (h : draw argsort { show_fit := false, downsample := fa } p false none f rc = .ok q) :
    draw argsort { show_fit := false, show_scatter := false } p false none f rc = .ok { q with scatter := none } := by
  unfold draw at h ⊢
  obtain ⟨xy, h1, h⟩ := bind_ok.1 h
  obtain ⟨sc, h2, h⟩ := bind_ok.1 h
  obtain ⟨li, h3, h⟩ := bind_ok.1 h
  cases h
  rw [step h1]
  dsimp only
  rw [if_neg (by decide), step rfl, step h3]
  rfl

/-- What the plot of a zero inflated model shows: all the failures at their plotting positions, the zeros among them, and the CDF of the model. -/
theorem zero_plot (ha : IsArgsort A.argsort) {failures : List ℝ} {inp : Checked ℝ} (hf : 2 ≤ inp.failures.length)
    (hsub : ∀ t ∈ inp.failures, t ∈ failures) (hz : ∀ t ∈ failures, t = 0 ∨ t ∈ inp.failures) (hpos : ∀ t ∈ inp.failures, 0 < t)
    (ht : ∀ t ∈ inp.failures, t ∉ inp.right_censored) (h0 : (0 : ℝ) ∉ inp.right_censored) (hu : Undownsampled factor failures.length)
    {m : Combined.DSZI} (hm : m.base.fam ≠ .beta) :
    ∃ p c, zeroPlot A failures inp factor m = .ok (p, c) ∧ p.paper = .weibull ∧ p.line = none ∧
      ShowsData A.argsort none failures (some inp.right_censored) 0 p ∧ IsCurve (.dszi m) inp.failures c ∧
      (∀ t ∈ inp.failures, p.limits.1.1 ≤ t ∧ t ≤ p.limits.1.2) ∧ (failures = inp.failures → AllVisible p) := by
  have hne : inp.failures ≠ [] := by intro h; simp [h] at hf
  have hfne : failures ≠ [] := by
    obtain ⟨t, ht⟩ := List.exists_mem_of_ne_nil _ hne
    exact List.ne_nil_of_mem (hsub t ht)
  have htf : ∀ t ∈ failures, t ∉ (some inp.right_censored).getD [] := by
    intro t h
    rcases hz t h with rfl | h
    · exact h0
    · exact ht t h
  -- the axes
  obtain ⟨q, a1, a2, a3, -, a5, a6⟩ := draw_spec ha hne (rc := rcOpt inp.right_censored) (o := { show_fit := false, downsample := .bool false })
    (by norm_num) (by norm_num) (by rw [rcOpt_getD]; exact ht) 0 rfl (.inl rfl) (p := .weibull) trivial (.inl fun t h => by simpa using hpos t h)
    false none
  have hrc0 : (rcOpt inp.right_censored).map (List.map fun x : ℝ => x + 0) = rcOpt inp.right_censored := by
    cases rcOpt inp.right_censored <;> simp
  rw [map_add_zero, hrc0] at a1
  have hW : weibullPlot A.argsort (wf2 A) (wf3 A) (.array inp.failures) (rcArg inp.right_censored) none
      { show_fit := false, show_scatter := false } = .ok { q with scatter := none } := by
    rw [rcArg_eq]
    unfold weibullPlot
    rw [step (checkData_ok hne (.inr hf))]
    exact draw_hidden a1
  -- the points
  have hdif : (∀ t ∈ failures, 0 < t + 0) ∨ Paper.normal.negative = true ∧ ∃ v ∈ failures, ∃ w ∈ failures, v ≠ w := by
    by_cases hmem : (0 : ℝ) ∈ failures
    · obtain ⟨t, ht⟩ := List.exists_mem_of_ne_nil _ hne
      exact .inr ⟨rfl, 0, hmem, t, hsub t ht, (hpos t ht).ne⟩
    · refine .inl fun t h => ?_
      rcases hz t h with rfl | h
      · exact absurd h hmem
      · simpa using hpos t h
  obtain ⟨s, b1, -, -, -, b5, -⟩ := draw_spec ha hfne (rc := some inp.right_censored) (o := { show_fit := false, downsample := factor })
    (by norm_num) (by norm_num) htf 0 rfl hu (p := .normal) trivial hdif false none
  rw [map_add_zero, show (some inp.right_censored).map (List.map fun x : ℝ => x + 0) = some inp.right_censored by simp] at b1
  obtain ⟨g1, g2⟩ := curveGrid_spec hne hpos
  have gne : curveGrid inp.failures ≠ [] := by intro h; rw [h] at g1; cases g1
  obtain ⟨Y, hY⟩ := dszi_cdf hm gne fun t ht => (g2.1 t ht).le
  unfold draw at b1
  obtain ⟨xy, c1, b1⟩ := bind_ok.1 b1
  obtain ⟨sc, c2, b1⟩ := bind_ok.1 b1
  obtain ⟨li, -, b1⟩ := bind_ok.1 b1
  cases b1
  dsimp only at c1 c2 b5
  replace c2 : (xyDownsample xy.1 xy.2 factor 1000).map some = .ok sc := c2
  obtain ⟨S, hS, rfl⟩ := map_ok c2
  refine ⟨{ q with scatter := some S }, ⟨curveGrid inp.failures, Y⟩, ?_, a3, ?_, b5, isCurve hne hpos hY, ?_, ?_⟩
  · unfold zeroPlot
    rw [step hW, step c1, step hS, step hY]
    rfl
  · simpa using a2
  · intro t htm
    obtain ⟨x, y, P, p1, p2, p3, p4⟩ := a5
    obtain ⟨x', y', F, k1, -, -, -, k5, k6⟩ := Reliability.PP.C11_sort_option ha inp.failures (rcOpt inp.right_censored) none hne (by norm_num) (by norm_num)
      (by
        have : (1 : ℝ) ≤ ((inp.failures.length + ((rcOpt inp.right_censored).getD []).length : ℕ) : ℝ) := by exact_mod_cast (by omega)
        norm_num
        push_cast at this
        linarith)
    rw [p1] at k1
    cases k1
    obtain ⟨i, hi, rfl⟩ := List.getElem_of_mem htm
    have hmem : (inp.failures[i], F[i]'(by omega)) ∈ inp.failures.zip F := by
      refine List.mem_iff_getElem.2 ⟨i, by simp; omega, by simp⟩
    have := p4.symm.subset (List.mem_map_of_mem (f := fun p : ℝ × ℝ => (p.1 + 0, p.2)) (k6.subset hmem))
    have := a6 P p2 _ this
    simp only [add_zero] at this
    exact ⟨this.1, this.2.1⟩
  · intro he P hP pt hpt
    cases hP
    obtain ⟨x, y, P, p1, p2, p3, p4⟩ := showsData_rc a5
    obtain ⟨x', y', P', q1, q2, q3, q4⟩ := b5
    cases q2
    rw [he, p1] at q1
    cases q1
    exact a6 P p2 _ ((q4.trans p4.symm).subset hpt)

theorem zero_data {name : String} (hn : name ∉ ["Normal_2P", "Gumbel_2P", "Beta_2P"]) {failures C : List ℝ} {ra : DataArg ℝ} {op : StrArg}
    {ci : CIArg ℝ} {inp : Checked ℝ} (hg : ra = .none ∧ C = [] ∨ ra = .array C) (hk : minFailures name (none : Option ℝ) none = some 2)
    (hi : fittersCheck name (.array (failures.filter fun t => decide (t ≠ 0))) ra .none op ci .none none none .none = .ok inp) :
    inp.failures = withoutZeros failures ∧ inp.right_censored = withoutZeros C ∧ 2 ≤ inp.failures.length ∧ ∀ t ∈ inp.failures, 0 < t := by
  obtain ⟨d1, d2, d3, d4, d5, d6, d7⟩ := check_data hi ⟨rfl, hg⟩
  simp only [List.mem_cons, List.not_mem_nil, or_false, not_or] at hn
  have hn' : name ∉ ["Normal_2P", "Gumbel_2P"] := by simp [hn.1, hn.2.1]
  refine ⟨?_, ?_, d7 2 hk, d3 hn'⟩
  · rw [d1, keep, if_neg hn', if_neg hn.2.2, List.filter_filter, withoutZeros]
    simp
  · rw [d2, keep, if_neg hn', if_neg hn.2.2]
    rfl

theorem zero_of_data (ha : IsArgsort A.argsort) {failures C : List ℝ} {inp : Checked ℝ} {m : Combined.DSZI} (hm : m.base.fam ≠ .beta)
    (hd : inp.failures = withoutZeros failures ∧ inp.right_censored = withoutZeros C ∧ 2 ≤ inp.failures.length ∧ ∀ t ∈ inp.failures, 0 < t)
    (ht : ∀ t ∈ withoutZeros failures, t ∉ withoutZeros C) (hu : Undownsampled factor failures.length) :
    ∃ p c, zeroPlot A failures inp factor m = .ok (p, c) ∧ p.paper = .weibull ∧ p.line = none ∧
      ShowsData A.argsort none failures (some (withoutZeros C)) 0 p ∧ IsCurve (.dszi m) (withoutZeros failures) c ∧
      (∀ t ∈ failures, t ≠ 0 → p.limits.1.1 ≤ t ∧ t ≤ p.limits.1.2) ∧ ((0 : ℝ) ∉ failures → AllVisible p) := by
  obtain ⟨d1, d2, d3, d4⟩ := hd
  have hw : ∀ (l : List ℝ) t, t ∈ withoutZeros l ↔ t ∈ l ∧ t ≠ 0 := by simp [withoutZeros]
  obtain ⟨p, c, h1, h2, h3, h4, h5, h6, h7⟩ := zero_plot (A := A) (factor := factor) (failures := failures) (inp := inp) ha d3
    (fun t h => by rw [d1, hw] at h; exact h.1) (fun t h => by
      rw [d1, hw]
      by_cases h0 : t = 0
      · exact .inl h0
      · exact .inr ⟨h, h0⟩) d4 (by rw [d1, d2]; exact ht) (by rw [d2, hw]; simp) hu hm
  rw [d1] at h5 h6 h7
  rw [d2] at h4
  refine ⟨p, c, h1, h2, h3, h4, h5, fun t h h0 => h6 t ((hw _ _).2 ⟨h, h0⟩), fun h0 => h7 ?_⟩
  unfold withoutZeros
  exact (List.filter_eq_self.2 fun t h => by
    have : t ≠ 0 := by rintro rfl; exact h0 h
    simpa using this).symm

/-- **C158 (zero inflated).** The plot of `Fit_Weibull_ZI` is on Weibull paper and shows all the failures, the zeros among them, at their
plotting positions, and over the failures other than zero the CDF of the returned model.  The failures other than zero are within the limits
of the x-axis, and every point is visible when there are no zeros. -/
theorem C158_zero_inflated (ha : IsArgsort A.argsort) {minimize : Minimizer (Fin 3 → ℝ)} {failures C : List ℝ} {x : SArgs}
    (hg : x.right_censored = .none ∧ C = [] ∨ x.right_censored = .array C) {r : SRes Combined.DSZI}
    (h : fitZI A.argsort A.J A.wPart minimize failures x = .ok r) (ht : ∀ t ∈ withoutZeros failures, t ∉ withoutZeros C)
    (hu : Undownsampled factor failures.length) :
    ∃ p c, plotWeibull_ZI A minimize failures x factor = .ok (r, p, c) ∧ p.paper = .weibull ∧ p.line = none ∧
      ShowsData A.argsort none failures (some (withoutZeros C)) 0 p ∧ IsCurve (.dszi r.dist) (withoutZeros failures) c ∧
      (∀ t ∈ failures, t ≠ 0 → p.limits.1.1 ≤ t ∧ t ≤ p.limits.1.2) ∧ ((0 : ℝ) ∉ failures → AllVisible p) := by
  have hr := h
  simp only [fitZI, bind_ok] at h
  obtain ⟨inp, hi, r1, -, ou, -, V, -, mm, hmm, g, -, h⟩ := h
  have hm : r.dist.base.fam ≠ .beta := by
    cases h
    unfold Combined.dsziInit at hmm
    dsimp only at hmm
    split_ifs at hmm
    all_goals
      cases hmm
      exact weibull_fam _ _ _
  obtain ⟨p, c, h1, h2⟩ := zero_of_data (A := A) (factor := factor) ha hm (zero_data (by decide) hg (by decide) hi) ht hu
  refine ⟨p, c, ?_, h2⟩
  unfold plotWeibull_ZI
  rw [step hr, step hi, step h1]
  rfl

/-- The same for `Fit_Weibull_DSZI`. -/
theorem C158_defective_zero_inflated (ha : IsArgsort A.argsort) {minimize : Minimizer (Fin 4 → ℝ)} {failures C : List ℝ} {x : SArgs}
    (hg : x.right_censored = .none ∧ C = [] ∨ x.right_censored = .array C) {r : SRes Combined.DSZI}
    (h : fitDSZI A.argsort A.J A.wPart minimize failures x = .ok r) (ht : ∀ t ∈ withoutZeros failures, t ∉ withoutZeros C)
    (hu : Undownsampled factor failures.length) :
    ∃ p c, plotWeibull_DSZI A minimize failures x factor = .ok (r, p, c) ∧ p.paper = .weibull ∧ p.line = none ∧
      ShowsData A.argsort none failures (some (withoutZeros C)) 0 p ∧ IsCurve (.dszi r.dist) (withoutZeros failures) c ∧
      (∀ t ∈ failures, t ≠ 0 → p.limits.1.1 ≤ t ∧ t ≤ p.limits.1.2) ∧ ((0 : ℝ) ∉ failures → AllVisible p) := by
  have hr := h
  simp only [fitDSZI, bind_ok] at h
  obtain ⟨inp, hi, xy, -, DS0, -, r1, -, ou, -, V, -, mm, hmm, g, -, h⟩ := h
  have hm : r.dist.base.fam ≠ .beta := by
    cases h
    unfold Combined.dsziInit at hmm
    dsimp only at hmm
    split_ifs at hmm
    all_goals
      cases hmm
      exact weibull_fam _ _ _
  obtain ⟨p, c, h1, h2⟩ := zero_of_data (A := A) (factor := factor) ha hm (zero_data (by decide) hg (by decide) hi) ht hu
  refine ⟨p, c, ?_, h2⟩
  unfold plotWeibull_DSZI
  rw [step hr, step hi, step h1]
  rfl

end Zero

/-! ## The points may all be hidden -/

theorem exp_19 : Real.exp (19 / 10) < 124 / 17 := by
  have h1 := Real.exp_one_lt_d9
  have h2 : Real.exp (19 / 10) * Real.exp (1 / 10) = Real.exp 1 * Real.exp 1 := by rw [← Real.exp_add, ← Real.exp_add]; norm_num
  have h3 : (11 : ℝ) / 10 ≤ Real.exp (1 / 10) := by linarith [Real.add_one_le_exp (1 / 10 : ℝ)]
  have h4 : Real.exp 1 * Real.exp 1 < 74 / 10 := by nlinarith [Real.exp_pos 1]
  nlinarith [Real.exp_pos (19 / 10)]

theorem ylims_upper {p : Paper} {lo hi s U L : ℝ} (hU : U = p.axis.inv (p.axis.fwd hi + (p.axis.fwd hi - p.axis.fwd lo) * s))
    (hL : L = p.axis.inv (p.axis.fwd lo - (p.axis.fwd hi - p.axis.fwd lo) * s)) (h1 : U ≠ L) (h2 : U ≠ 1) : (ylims p lo hi s).2 = U := by
  subst hU hL
  unfold ylims
  dsimp only
  rw [if_neg h1, if_neg h2]

theorem upper_limit : (ylims .weibull (7 / 24) (17 / 24) (1 / 10)).2 < 107 / 124 := by
  have hB : 0 < -Real.log (1 - 17 / 24) := by
    have := Real.log_neg (x := 1 - 17 / 24) (by norm_num) (by norm_num); linarith
  have hA : 0 < -Real.log (1 - 7 / 24) := by
    have := Real.log_neg (x := 1 - 7 / 24) (by norm_num) (by norm_num); linarith
  set B := -Real.log (1 - 17 / 24) with hBd
  set Aa := -Real.log (1 - 7 / 24) with hAd
  have hB1 : B < 3 / 2 := by
    rw [hBd, ← Real.log_inv]
    rw [Real.log_lt_iff_lt_exp (by norm_num)]
    have h := Real.quadratic_le_exp_of_nonneg (x := 3 / 2) (by norm_num)
    norm_num at h ⊢
    linarith
  have hA1 : 7 / 24 ≤ Aa := by
    have := Real.log_le_sub_one_of_pos (x := (1 : ℝ) - 7 / 24) (by norm_num)
    linarith
  have hAB : Aa < B := by
    rw [hAd, hBd]
    have := Real.log_lt_log (x := 1 - 17 / 24) (y := 1 - 7 / 24) (by norm_num) (by norm_num)
    linarith
  have hlog : Real.log Aa < Real.log B := Real.log_lt_log hA hAB
  have hd : Real.log B - Real.log Aa ≤ 2 := by
    rw [← Real.log_div hB.ne' hA.ne', Real.log_le_iff_le_exp (by positivity)]
    have h1 : B / Aa ≤ 36 / 7 := by rw [div_le_iff₀ hA]; linarith
    have h2 : (27 : ℝ) / 10 < Real.exp 1 := by linarith [Real.exp_one_gt_d9]
    have h3 : Real.exp 2 = Real.exp 1 * Real.exp 1 := by rw [← Real.exp_add]; norm_num
    nlinarith
  have hu : Real.exp (Real.log B + (Real.log B - Real.log Aa) * (1 / 10)) < 19 / 10 := by
    rw [Real.exp_add, Real.exp_log hB]
    have h1 : Real.exp ((Real.log B - Real.log Aa) * (1 / 10)) ≤ Real.exp (1 / 5) := Real.exp_le_exp.2 (by linarith)
    have h2 : Real.exp (1 / 5) ≤ 5 / 4 := by
      have h := Real.one_sub_le_exp_neg (1 / 5)
      have h' : Real.exp (-(1 / 5)) * Real.exp (1 / 5) = 1 := by rw [← Real.exp_add]; norm_num
      nlinarith [Real.exp_pos (1 / 5)]
    nlinarith [Real.exp_pos ((Real.log B - Real.log Aa) * (1 / 10))]
  have hU : 1 - Real.exp (-Real.exp (Real.log B + (Real.log B - Real.log Aa) * (1 / 10))) < 107 / 124 := by
    have h1 : Real.exp (-(19 / 10)) < Real.exp (-Real.exp (Real.log B + (Real.log B - Real.log Aa) * (1 / 10))) := Real.exp_lt_exp.2 (by linarith)
    have h2 : 17 / 124 < Real.exp (-(19 / 10)) := by
      rw [Real.exp_neg, lt_inv_comm₀ (by norm_num) (Real.exp_pos _)]
      simpa using exp_19
    linarith
  have hul : 1 - Real.exp (-Real.exp (Real.log B + (Real.log B - Real.log Aa) * (1 / 10))) ≠
      1 - Real.exp (-Real.exp (Real.log Aa - (Real.log B - Real.log Aa) * (1 / 10))) := by
    intro h
    have := Real.exp_injective (neg_injective (Real.exp_injective (sub_right_injective h)))
    linarith
  have hu1 : 1 - Real.exp (-Real.exp (Real.log B + (Real.log B - Real.log Aa) * (1 / 10))) ≠ 1 := by
    have := Real.exp_pos (-Real.exp (Real.log B + (Real.log B - Real.log Aa) * (1 / 10)))
    intro h; linarith
  clear_value B Aa
  subst hBd hAd
  rw [ylims_upper (p := .weibull) rfl rfl hul hu1]
  exact hU

/-- The data of the example: ten units that were dead on arrival and two that failed later. -/
noncomputable def deadOnArrival : List ℝ := List.replicate 10 0 ++ [1, 2]

theorem deadOnArrival_pos : withoutZeros deadOnArrival = [1, 2] := by
  unfold withoutZeros deadOnArrival
  rw [List.filter_append, List.filter_eq_nil_iff.2 (by intro a h; simp [List.eq_of_mem_replicate h])]
  simp

/-- **C158 (finding: hidden points).** For a zero inflated model the limits of the axes are those of the failures other than zero on their own.
With ten failures at zero and two later ones `Fit_Weibull_ZI` draws all its points outside the axes. -/
theorem C158_hidden_finding (ha : IsArgsort A.argsort) {minimize : Minimizer (Fin 3 → ℝ)} {x : SArgs} (hg : x.right_censored = .none)
    {r : SRes Combined.DSZI} (h : fitZI A.argsort A.J A.wPart minimize deadOnArrival x = .ok r) (hu : Undownsampled factor 12) :
    ∃ p c P, plotWeibull_ZI A minimize deadOnArrival x factor = .ok (r, p, c) ∧ p.scatter = some P ∧ P.1.length = 12 ∧
      ∀ q ∈ P.1.zip P.2, q.1 < p.limits.1.1 ∨ p.limits.2.2 < q.2 := by
  obtain ⟨p, c, h1, h2, h3, ⟨xs, ys, P, k1, k2, k3, k4⟩, h5, h6, -⟩ := C158_zero_inflated (factor := factor) ha (C := []) (.inl ⟨hg, rfl⟩) h
    (by simp [withoutZeros]) (by simpa [deadOnArrival] using hu)
  have hlen : deadOnArrival.length = 12 := by simp [deadOnArrival]
  have hne : deadOnArrival ≠ [] := by intro h; rw [h] at hlen; cases hlen
  have hc := Reliability.PP.C10_complete_data ha deadOnArrival none hne (by norm_num) (by norm_num) (by rw [hlen]; norm_num)
  have hsort : deadOnArrival.insertionSort (· ≤ ·) = deadOnArrival := by
    apply List.Pairwise.insertionSort_eq
    unfold deadOnArrival
    simp [List.pairwise_append, List.pairwise_replicate]
  have hrcs : PP.plottingPositions A.argsort deadOnArrival (some (withoutZeros [])) none true =
      PP.plottingPositions A.argsort deadOnArrival none none true := rfl
  rw [hrcs, hc, hsort, hlen] at k1
  cases k1
  -- the limits
  have hlim : 0 < p.limits.1.1 ∧ p.limits.2.2 < 107 / 124 := by
    unfold plotWeibull_ZI at h1
    obtain ⟨r', -, h1⟩ := bind_ok.1 h1
    obtain ⟨inp, hi, h1⟩ := bind_ok.1 h1
    obtain ⟨pc, h1, he⟩ := bind_ok.1 h1
    cases he
    obtain ⟨e1, e2, -, -⟩ := zero_data (by decide) (C := []) (.inl ⟨hg, rfl⟩) (by decide) hi
    rw [deadOnArrival_pos] at e1
    unfold zeroPlot at h1
    rw [e1, e2] at h1
    obtain ⟨q, g1, h1⟩ := bind_ok.1 h1
    obtain ⟨xy, -, h1⟩ := bind_ok.1 h1
    obtain ⟨sc, -, h1⟩ := bind_ok.1 h1
    obtain ⟨Y, -, h1⟩ := bind_ok.1 h1
    cases h1
    dsimp only
    have hq : draw A.argsort { show_fit := false, show_scatter := false } .weibull false none [1, 2] none = .ok q := g1
    obtain ⟨x', y', F, j1, j2, -, -, j5, j6⟩ := Reliability.PP.C11_sort_option ha [1, 2] none (none : Option ℝ) (by simp) (by norm_num)
      (by norm_num) (by norm_num)
    have hc2 := Reliability.PP.C10_complete_data ha [1, 2] (none : Option ℝ) (by simp) (by norm_num) (by norm_num) (by norm_num)
    rw [hc2] at j1
    have hF : F = [7 / 24, 17 / 24] := by
      have hs2 : [(1 : ℝ), 2].insertionSort (· ≤ ·) = [1, 2] := by
        apply List.Pairwise.insertionSort_eq; simp
      rw [hs2] at j1
      cases j1
      match F, j5 with
      | [u, v], _ =>
        norm_num [List.range'] at j6
        have m1 := j6.subset (List.mem_cons_self ..)
        have m2 := j6.subset (List.mem_cons_of_mem _ (List.mem_cons_self ..))
        simp at m1 m2
        rw [m1, m2]
    subst hF
    unfold draw at hq
    rw [step j2] at hq
    obtain ⟨sc', -, hq⟩ := bind_ok.1 hq
    obtain ⟨li, hl, hq⟩ := bind_ok.1 hq
    cases hq
    dsimp only
    unfold xylims at hl
    have r1 : range [(1 : ℝ), 2] = .ok (1, 2) := by simp [range]
    have r2 : range [(7 : ℝ) / 24, 17 / 24] = .ok (7 / 24, 17 / 24) := by norm_num [range]
    rw [step r1, step r2] at hl
    obtain ⟨lx, hx, hl⟩ := bind_ok.1 hl
    cases hl
    refine ⟨?_, upper_limit⟩
    unfold xlims at hx
    rw [if_pos (show Paper.weibull.logx = true from rfl), if_neg (by norm_num)] at hx
    dsimp only at hx
    split_ifs at hx <;> cases hx <;> positivity
  refine ⟨p, c, P, h1, k2, ?_, ?_⟩
  · have := k4.length_eq
    simp only [List.length_zip, List.length_map, List.length_range', hlen, ← k3] at this
    simpa using this
  · intro q hq
    have := k4.subset hq
    obtain ⟨⟨a, b⟩, hab, rfl⟩ := List.mem_map.1 this
    rw [show deadOnArrival = [0, 0, 0, 0, 0, 0, 0, 0, 0, 0, 1, 2] from rfl] at hab
    have : a = 0 ∨ 107 / 124 ≤ b := by
      norm_num [List.range'] at hab
      rcases hab with h | h | h | h | h | h | h | h | h | h | h | h
      all_goals first | exact .inl h.1 | (right; linarith [h.2])
    rcases this with rfl | hb
    · left; simpa using hlim.1
    · right; exact hlim.2.trans_le hb

/-! ## Examples -/

/-- Two failures and three censored times: `Fit_Weibull_2P` returns and its plot shows them. -/
example {argsort : List ℝ → List ℕ} (ha : IsArgsort argsort) (J : FunctionCI.Jac) :
    ∃ o p, fitterPlot (exAnswers argsort J) .Weibull_2P { failures := .array [1, 2], right_censored := .array [1 / 2, 1 / 2, 1 / 2] }
      (.bool true) = .ok (o, p, none) ∧ p.paper = .weibull := by
  have hacc := example_accepted
  rw [exampleRows_expand.1, exampleRows_expand.2] at hacc
  obtain ⟨r, hr⟩ := (C102_mle_returns_partial ha J exNum2 (by intros; rfl) (by intros; rfl)
    { failures := .array [1, 2], right_censored := .array [1 / 2, 1 / 2, 1 / 2] } exampleInp rfl rfl).1 hacc
  have h : fitWith (exAnswers argsort J) .Weibull_2P { failures := .array [1, 2], right_censored := .array [1 / 2, 1 / 2, 1 / 2] } =
      .ok (ofTwo r) := by
    simp only [fitWith, exAnswers, hr]; rfl
  have e1 : usable .Weibull_2P [1, 2] = [1, 2] := by simp [usable]
  have e2 : usable .Weibull_2P [1 / 2, 1 / 2, 1 / 2] = [1 / 2, 1 / 2, 1 / 2] := by simp [usable]
  obtain ⟨p, c, k1, k2, k3⟩ := C158_plot (A := exAnswers argsort J) (factor := .bool true) ha (F := [1, 2]) (C := [1 / 2, 1 / 2, 1 / 2])
    ⟨rfl, .inr rfl⟩ h (by
      rw [e1, e2]
      intro t ht
      simp at ht ⊢
      rcases ht with rfl | rfl <;> norm_num) (.inr ⟨.inr rfl, by rw [e1]; simp⟩) ⟨by simp, fun _ _ t ht => by
        have hl : location (ofTwo r).params = 0 := by
          have hr' := hr
          simp only [fitWeibull2P, bind_ok] at hr'
          obtain ⟨inp, -, hr'⟩ := hr'
          obtain ⟨-, a, e⟩ := fit2_rows hr'
          rw [show (ofTwo r).params = _ from e]; rfl
        rw [e1] at ht
        rw [hl]
        simp at ht
        rcases ht with rfl | rfl <;> norm_num, by simp, by simp, by simp⟩
  obtain ⟨-, -, -, rfl⟩ := k3
  exact ⟨_, p, k1, k2⟩

/-- The grouped data of C109. -/
example {argsort : List ℝ → List ℕ} (ha : IsArgsort argsort) (J : FunctionCI.Jac) :
    ∃ r p, plotWeibull_2P_grouped (exAnswers argsort J) (.frame ["category", "time", "quantity"] exampleRows) {} (.bool true) =
      .ok (r, p) := by
  obtain ⟨r, hr⟩ := C109_mle_returns ha J exNum2 exampleRows_wf {} exampleInp example_accepted rfl rfl
  obtain ⟨p, h, -⟩ := C158_grouped (A := exAnswers argsort J) (factor := .bool true) ha exampleRows_wf hr (by
    rw [exampleRows_expand.1, exampleRows_expand.2]
    intro t ht
    simp at ht ⊢
    rcases ht with rfl | rfl <;> norm_num) (.inr ⟨.inr rfl, by rw [exampleRows_expand.1]; simp⟩)
  exact ⟨r, p, h⟩

/-- `Fit_Weibull_ZI` returns for the data of the finding. -/
example {argsort : List ℝ → List ℕ} (ha : IsArgsort argsort) (J : FunctionCI.Jac) :
    ∃ r p c P, plotWeibull_ZI (exAnswers argsort J) (exBoxMin ![2, 1, 0.5]) deadOnArrival {} (.bool true) = .ok (r, p, c) ∧
      p.scatter = some P ∧ P.1.length = 12 := by
  have hacc : Accepts (K := ℝ) "Weibull_ZI" (.array (deadOnArrival.filter fun t => decide (t ≠ 0))) .none .none .none (.float 0.95) .none
      none none .none ⟨[1, 2], [], 0.95, none, none, .none, none, none, none⟩ := by
    rw [show (deadOnArrival.filter fun t => decide (t ≠ 0)) = [1, 2] from deadOnArrival_pos]
    have hF : ∀ t ∈ [(1 : ℝ), 2], 0 < t := by intro t ht; simp at ht; rcases ht with rfl | rfl <;> norm_num
    have hu : ∀ t ∈ [(1 : ℝ), 2], Usable "Weibull_ZI" t := fun t ht => .inr ⟨hF t ht, fun hb => absurd hb (by decide)⟩
    refine ⟨by decide, ⟨[1, 2], [], rfl, .inl ⟨rfl, rfl⟩, fun t ht => .inr ⟨(hF t ht).le, fun hb => absurd hb (by decide)⟩, by simp, ?_, rfl⟩,
      ⟨rfl, by norm_num, by norm_num⟩, .inl ⟨rfl, rfl⟩, .inl ⟨rfl, rfl⟩, .inl ⟨rfl, rfl⟩, ⟨rfl, by simp⟩, ⟨rfl, by simp⟩, ?_,
      .inl ⟨rfl, rfl⟩⟩
    · symm; rw [List.filter_eq_self]; exact fun t ht => decide_eq_true (hu t ht)
    · simp [required]
  obtain ⟨r, hr⟩ := C108_ZI_returns ha J (fun _ _ => exNum2) (exBoxMin ![2, 1, 0.5]) (by intros; rfl) (by intros; rfl) (by intros; rfl)
    (exBoxMin_respects _) deadOnArrival {} _ hacc
  obtain ⟨p, c, P, h1, h2, h3, -⟩ := C158_hidden_finding (A := exAnswers argsort J) (factor := .bool true) ha rfl hr
    (.inr ⟨.inr rfl, by norm_num⟩)
  exact ⟨r, p, c, P, h1, h2, h3⟩

end Reliability.Props.FitterPlots

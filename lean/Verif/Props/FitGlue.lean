import Verif.Lemmas.FitGlue

/-! # What the two-parameter fitters report (C99-C101) -/

namespace Reliability.Props

open Reliability Reliability.Distributions Reliability.Likelihood Reliability.InputCheck Reliability.Props.Likelihood Reliability.FunctionCI
open Reliability.Fitters (MLEOut OptResult lsOptimization mleOptimization mleForced)
open Reliability.FitGlue Reliability.Spec Reliability.Spec.InputCheck Reliability.Spec.FitGlue
open Reliability.FunctionCI (CFam Two Expo Fitted Jac extractCI zOf distOf)

/-- The five classes of `fit2`. -/
noncomputable def fams2 : List Fam2 := [weibull2, normal2, lognormal2, gumbel2, loglogistic2]

theorem loglik_fam2 {F : Fam2} (hF : F ∈ fams2) {a b : ℝ} (hp : ParamsOK F.cfam a b) {f rc : List ℝ}
    (hf : ∀ t ∈ f, InSupport F.cfam 0 t) (hr : ∀ t ∈ rc, InSupport F.cfam 0 t) :
    IsLogLik (distOf F.cfam a b 0).sp.pdf (distOf F.cfam a b 0).sp.sf f rc (loglik (F.LL a b f rc)) := by
  simp only [fams2, List.mem_cons, List.not_mem_nil, or_false] at hF
  rcases hF with rfl | rfl | rfl | rfl | rfl
  · exact C41_weibull_2P a b (hp.2 (.inl rfl)) hp.1 f rc hf (fun t ht => (hr t ht).le)
  · exact C41_normal_2P a b hp.1 f rc
  · exact C41_lognormal a b 0 hp.1 f rc hf hr
  · exact C41_gumbel_2P a b hp.1 f rc
  · exact C41_loglogistic a b 0 (hp.2 (.inr rfl)) hp.1 f rc hf (fun t ht => (hr t ht).le)

theorem se2_free {LL : ℝ → ℝ → ℝ} {a b : ℝ} {opt : Option String} {s : Option (ℝ × ℝ × ℝ)} (h : se2 LL a b none opt = .ok s) :
    ∃ V, V = npInv (hessian (fun v : Fin 2 → ℝ => LL (v 0) (v 1)) ![a, b]) ∧
      s = V.map fun V => (stdErr (some V) 0, stdErr (some V) 1, covar (some V) 0 1) := by
  refine ⟨_, rfl, ?_⟩
  unfold se2 at h
  dsimp only at h
  split at h
  · rename_i C hC
    cases h
    rw [hC]; rfl
  · rename_i hC
    rw [hC]
    cases opt with
    | none => cases h
    | some o => cases h; rfl

theorem se2_forced {LL : ℝ → ℝ → ℝ} {a b t : ℝ} {opt : Option String} {s : Option (ℝ × ℝ × ℝ)}
    (h : se2 LL a b (some t) opt = .ok s) :
    ∃ V, V = npInv (hessian (fun v : Fin 1 → ℝ => LL (v 0) t) ![a]) ∧
      s = V.map fun V => (stdErr (some V) 0, 0, 0) := by
  refine ⟨_, rfl, ?_⟩
  unfold se2 at h
  dsimp only at h
  split at h
  · rename_i C hC
    cases h
    rw [hC]; rfl
  · rename_i hC
    rw [hC]
    cases opt with
    | none => cases h
    | some o => cases h; rfl

theorem stdErr_nonneg {n : ℕ} (V : Option (Matrix (Fin n) (Fin n) ℝ)) (i : Fin n) : 0 ≤ stdErr V i := by
  cases V with
  | none => exact le_rfl
  | some V => exact Real.sqrt_nonneg _

/-- The interval formula of the first parameter. -/
def scaleOf (f : CFam) : Scale := if f = .weibull ∨ f = .loglogistic then .log else .linear

theorem rows2_spec {F : Fam2} (hF : F ∈ fams2) {a b CI : ℝ} (h0 : 0 < CI) (h1 : CI < 1) {force : Option ℝ}
    {f rc : List ℝ} (hf : ∀ t ∈ f, InSupport F.cfam 0 t) (hr : ∀ t ∈ rc, InSupport F.cfam 0 t)
    (hb : ∀ s, force = some s → b = s) {opt : Option String} {s : Option (ℝ × ℝ × ℝ)}
    (hs : se2 (fun a b => F.LL a b f rc) a b force opt = .ok s) :
    Rows2 F.cfam 0 F.nameA F.nameB (scaleOf F.cfam) f rc CI force (rows2 F a b (zOf CI) force.isSome s)
      ((s.getD (0, 0, 0)).2.2) (two F.cfam a b 0 CI s) := by
  have hz := zOf_spec h0 h1
  have hrow : ∀ SE : ℝ, 0 ≤ SE → Interval (zOf CI) (ciRow F.ciA F.nameA a SE (zOf CI)) (scaleOf F.cfam) := by
    intro SE hSE
    simp only [fams2, List.mem_cons, List.not_mem_nil, or_false] at hF
    rcases hF with rfl | rfl | rfl | rfl | rfl
    · exact interval_log _ hz.1.le hSE
    · exact interval_linear _ hz.1.le hSE
    · exact interval_linear _ hz.1.le hSE
    · exact interval_linear _ hz.1.le hSE
    · exact interval_log _ hz.1.le hSE
  have hciB : F.ciB = ciPositive := by
    simp only [fams2, List.mem_cons, List.not_mem_nil, or_false] at hF
    rcases hF with rfl | rfl | rfl | rfl | rfl <;> rfl
  cases force with
  | none =>
    obtain ⟨V, hV, rfl⟩ := se2_free hs
    refine ⟨?_, ⟨zOf CI, hz, rfl, ?_⟩, fun _ => ⟨V, fun hp => ?_, ?_⟩, fun s hs => by cases hs⟩
    · cases V <;> rfl
    · cases V with
      | none => exact .cons (interval_fixed ..) (.cons (interval_fixed ..) .nil)
      | some V =>
        refine .cons (hrow _ (stdErr_nonneg (some V) 0)) (.cons ?_ .nil)
        simp only [Option.isSome_none, Bool.false_eq_true, if_false]
        rw [hciB]
        exact interval_log _ hz.1.le (stdErr_nonneg (some V) 1)
    · change ParamsOK F.cfam a b at hp
      change InverseInformation _ _ f rc ![a, b] V
      rw [hV]
      refine npInv_information (isOpen_params F.cfam) (by simpa using hp) ?_
      intro v hv
      have := loglik_fam2 hF hv hf hr
      rwa [loglik_eq] at this
    · cases V <;> refine ⟨rfl, rfl, rfl, rfl, rfl⟩
  | some t =>
    obtain rfl := hb t rfl
    obtain ⟨V, hV, rfl⟩ := se2_forced hs
    refine ⟨?_, ⟨zOf CI, hz, rfl, ?_⟩, fun h => by simp at h, fun s hs => ?_⟩
    · cases V <;> rfl
    · cases V with
      | none => exact .cons (interval_fixed ..) (.cons (interval_fixed ..) .nil)
      | some V => exact .cons (hrow _ (stdErr_nonneg (some V) 0)) (.cons (interval_fixed ..) .nil)
    · cases hs
      refine ⟨V, fun hp => ?_, ?_⟩
      · change ParamsOK F.cfam a b at hp
        change InverseInformation _ _ f rc ![a] V
        rw [hV]
        refine npInv_information (isOpen_params1 F.cfam b) (by simpa using hp) ?_
        intro v hv
        have := loglik_fam2 hF hv hf hr
        rwa [loglik_eq] at this
      · cases V <;> refine ⟨rfl, rfl, rfl, rfl, rfl⟩

/-- What one run of `fit2` gives. -/
structure Fit2OK (argsort : List ℝ → List ℕ) (F : Fam2) (f rc : List ℝ) (CI : ℝ) (force : Option ℝ) (r : FitRes Two) : Prop where
  fam : r.dist.fam = F.cfam
  gamma : r.dist.gamma = 0
  forced : ∀ s, force = some s → r.dist.b = s
  describes : ParamsOK F.cfam r.dist.a r.dist.b →
    Describes argsort (distOf F.cfam r.dist.a r.dist.b 0) f rc (if force.isSome then 1 else 2) r.gof
  rows : Rows2 F.cfam 0 F.nameA F.nameB (scaleOf F.cfam) f rc CI force r.rows r.Cov r.dist
  extra : r.extra = []

theorem fam2_name {F : Fam2} (hF : F ∈ fams2) : F.name ∉ ["Weibull_3P", "Gamma_2P", "Gamma_3P", "Beta_2P", "Lognormal_3P",
    "Loglogistic_3P", "Exponential_2P"] := by
  simp only [fams2, List.mem_cons, List.not_mem_nil, or_false] at hF
  rcases hF with rfl | rfl | rfl | rfl | rfl <;> (simp only [weibull2, normal2, lognormal2, gumbel2, loglogistic2]; decide)

theorem lsOpt_forced {name : String} {LL : ℝ × ℝ → ℝ} {ls : String → ℝ × ℝ} {nlls : ℝ × ℝ} {m : String}
    {r : (ℝ × ℝ) × String} (hn : name ∉ ["Weibull_3P", "Gamma_2P", "Gamma_3P", "Beta_2P", "Lognormal_3P",
    "Loglogistic_3P", "Exponential_2P"]) (h : lsOptimization name LL ls nlls m = .ok r) {s : ℝ} (hs : ∀ m, (ls m).2 = s) :
    r.1.2 = s := by
  unfold lsOptimization at h
  rw [if_neg hn] at h
  dsimp only at h
  split_ifs at h <;> cases h <;> exact hs _

theorem fit2_ok {argsort : List ℝ → List ℕ} (harg : IsArgsort argsort) {F : Fam2} (hF : F ∈ fams2) {J : Jac}
    {num : Option ℝ → Num2} (hnum : ∀ s m, ((num (some s)).ls m).2 = s) {inp : Checked ℝ} {force : Option ℝ} {r : FitRes Two}
    (h0 : 0 < inp.CI) (h1 : inp.CI < 1) (hne : inp.failures ≠ [])
    (hf : ∀ t ∈ inp.failures, InSupport F.cfam 0 t) (hr : ∀ t ∈ inp.right_censored, InSupport F.cfam 0 t)
    (h : fit2 F argsort J num inp force = .ok r) : Fit2OK argsort F inp.failures inp.right_censored inp.CI force r := by
  unfold fit2 at h
  simp only [bind_ok] at h
  obtain ⟨e, he, s, hs, q, hq, g, hg, h⟩ := h
  cases h
  have hb : ∀ t, force = some t → e.1.2 = t := by
    rintro t rfl
    obtain ⟨m, r, -, h2, ⟨-, rfl⟩ | ⟨-, o, h3, rfl⟩⟩ := estimate_ok he
    · exact lsOpt_forced (fam2_name hF) h2 (hnum t)
    · simp only [mle2, mleForced] at h3
      split at h3
      · cases h3
      · cases h3; rfl
  refine ⟨rfl, rfl, hb, fun hp => ?_, rows2_spec hF h0 h1 hf hr hb hs, rfl⟩
  have hk : kForced 2 force.isSome = if force.isSome then 1 else 2 := rfl
  rw [hk] at hg
  refine gof_describes harg hg hne ?_
  have := loglik_fam2 hF hp hf hr
  cases force with
  | none => exact this
  | some t =>
    have e2 := hb t rfl
    simp only [two] at this
    rw [e2] at this
    simp only [e2]
    exact this

theorem two_report {argsort : List ℝ → List ℕ} (harg : IsArgsort argsort) {dist : String} {F : Fam2} (hF : F ∈ fams2)
    (hsup : ∀ t : ℝ, Usable dist t → InSupport F.cfam 0 t) {J : Jac} {num : Option ℝ → Num2}
    (hnum : ∀ s m, ((num (some s)).ls m).2 = s) {x : Args} {m o ct : StrArg} {ci : CIArg ℝ} {q : QArg ℝ} {fb fs : Option ℝ}
    {inp : Checked ℝ}
    (hacc : fittersCheck dist x.failures x.right_censored m o ci q fb fs ct = .ok inp)
    {force : Option ℝ} {r : FitRes Two} (h : fit2 F argsort J num inp force = .ok r) :
    ∃ f rc CI, Used dist x f rc ∧ ci = .float CI ∧ Fit2OK argsort F f rc CI force r := by
  rw [C51_ok_iff] at hacc
  obtain ⟨u1, u2⟩ := usable_failures hacc
  exact ⟨_, _, _, used_of_accepts hacc, hacc.ci.1, fit2_ok harg hF hnum hacc.ci.2.1 hacc.ci.2.2 (failures_ne hacc)
    (fun t ht => hsup t (u1 t ht)) (fun t ht => hsup t (u2 t ht)) h⟩

theorem usable_pos {dist : String} (hd : ¬ RealLine dist) {t : ℝ} (h : Usable dist t) : 0 < t := by
  rcases h with h | h
  · exact absurd h hd
  · exact h.1

theorem weibull2P_run {argsort : List ℝ → List ℕ} (harg : IsArgsort argsort) {J : Jac} {num : Option ℝ → Num2}
    (hnum : ∀ s m, ((num (some s)).ls m).2 = s) {x : Args} {r : FitRes Two} (h : fitWeibull2P argsort J num x = .ok r) :
    ∃ f rc CI, Used "Weibull_2P" x f rc ∧ x.CI = .float CI ∧ Fit2OK argsort weibull2 f rc CI x.force r := by
  simp only [fitWeibull2P, bind_ok] at h
  obtain ⟨inp, h1, h2⟩ := h
  have hfb : inp.force_beta = x.force := ((C51_ok_iff ..).1 h1).beta_ok.1
  rw [hfb] at h2
  exact two_report harg (F := weibull2) (by simp [fams2]) (fun t ht => usable_pos (by decide) ht) hnum h1 h2

theorem normal2P_run {argsort : List ℝ → List ℕ} (harg : IsArgsort argsort) {J : Jac} {num : Option ℝ → Num2}
    (hnum : ∀ s m, ((num (some s)).ls m).2 = s) {x : Args} {r : FitRes Two} (h : fitNormal2P argsort J num x = .ok r) :
    ∃ f rc CI, Used "Normal_2P" x f rc ∧ x.CI = .float CI ∧ Fit2OK argsort normal2 f rc CI x.force r := by
  simp only [fitNormal2P, bind_ok] at h
  obtain ⟨inp, h1, h2⟩ := h
  have hfb : inp.force_sigma = x.force := ((C51_ok_iff ..).1 h1).sigma_ok.1
  rw [hfb] at h2
  exact two_report harg (F := normal2) (by simp [fams2]) (fun t ht => trivial) hnum h1 h2

theorem lognormal2P_run {argsort : List ℝ → List ℕ} (harg : IsArgsort argsort) {J : Jac} {num : Option ℝ → Num2}
    (hnum : ∀ s m, ((num (some s)).ls m).2 = s) {x : Args} {r : FitRes Two} (h : fitLognormal2P argsort J num x = .ok r) :
    ∃ f rc CI, Used "Lognormal_2P" x f rc ∧ x.CI = .float CI ∧ Fit2OK argsort lognormal2 f rc CI x.force r := by
  simp only [fitLognormal2P, bind_ok] at h
  obtain ⟨inp, h1, h2⟩ := h
  have hfb : inp.force_sigma = x.force := ((C51_ok_iff ..).1 h1).sigma_ok.1
  rw [hfb] at h2
  exact two_report harg (F := lognormal2) (by simp [fams2]) (fun t ht => usable_pos (by decide) ht) hnum h1 h2

/-- A family without a forced parameter ignores what `least_squares` would answer with one. -/
def noForce (num : Option ℝ → Num2) : Option ℝ → Num2
  | none => num none
  | some s => { num none with ls := fun _ => (0, s) }

theorem fit2_noForce {F : Fam2} {argsort : List ℝ → List ℕ} {J : Jac} {num : Option ℝ → Num2} {inp : Checked ℝ} :
    fit2 F argsort J num inp none = fit2 F argsort J (noForce num) inp none := rfl

theorem gumbel2P_run {argsort : List ℝ → List ℕ} (harg : IsArgsort argsort) {J : Jac} {num : Option ℝ → Num2}
    {x : Args} {r : FitRes Two} (h : fitGumbel2P argsort J num x = .ok r) :
    ∃ f rc CI, Used "Gumbel_2P" x f rc ∧ x.CI = .float CI ∧ Fit2OK argsort gumbel2 f rc CI none r := by
  simp only [fitGumbel2P, bind_ok] at h
  obtain ⟨inp, h1, h2⟩ := h
  rw [fit2_noForce] at h2
  exact two_report harg (F := gumbel2) (by simp [fams2]) (fun t ht => trivial) (fun _ _ => rfl) h1 h2

theorem loglogistic2P_run {argsort : List ℝ → List ℕ} (harg : IsArgsort argsort) {J : Jac} {num : Option ℝ → Num2}
    {x : Args} {r : FitRes Two} (h : fitLoglogistic2P argsort J num x = .ok r) :
    ∃ f rc CI, Used "Loglogistic_2P" x f rc ∧ x.CI = .float CI ∧ Fit2OK argsort loglogistic2 f rc CI none r := by
  simp only [fitLoglogistic2P, bind_ok] at h
  obtain ⟨inp, h1, h2⟩ := h
  rw [fit2_noForce] at h2
  exact two_report harg (F := loglogistic2) (by simp [fams2]) (fun t ht => usable_pos (by decide) ht) (fun _ _ => rfl) h1 h2

/-! ## C99 -/

/-- **C99 (Fit_Weibull_2P).** Whatever `least_squares` (which keeps a forced shape, C87) and the optimizers answer, if the fit
returns, then the reported log-likelihood, AICc, BIC and Anderson-Darling distance are those of the distribution it returns,
for the caller's data without the zeros, with 2 free parameters (1 if beta is forced). -/
theorem C99_weibull_2P {argsort : List ℝ → List ℕ} (harg : IsArgsort argsort) (J : Jac) (num : Option ℝ → Num2)
    (hnum : ∀ s m, ((num (some s)).ls m).2 = s) (x : Args) (r : FitRes Two) (h : fitWeibull2P argsort J num x = .ok r) :
    ∃ f rc, Used "Weibull_2P" x f rc ∧ r.dist.fam = .weibull ∧ r.dist.gamma = 0 ∧
      (0 < r.dist.a → 0 < r.dist.b →
        Describes argsort (weibull r.dist.a r.dist.b 0) f rc (if x.force.isSome then 1 else 2) r.gof) := by
  obtain ⟨f, rc, CI, hu, -, hr⟩ := weibull2P_run harg hnum h
  exact ⟨f, rc, hu, hr.fam, hr.gamma, fun ha hb => hr.describes ⟨hb, fun _ => ha⟩⟩

/-- **C99 (Fit_Normal_2P).** -/
theorem C99_normal_2P {argsort : List ℝ → List ℕ} (harg : IsArgsort argsort) (J : Jac) (num : Option ℝ → Num2)
    (hnum : ∀ s m, ((num (some s)).ls m).2 = s) (x : Args) (r : FitRes Two) (h : fitNormal2P argsort J num x = .ok r) :
    ∃ f rc, Used "Normal_2P" x f rc ∧ r.dist.fam = .normal ∧
      (0 < r.dist.b → Describes argsort (normal r.dist.a r.dist.b) f rc (if x.force.isSome then 1 else 2) r.gof) := by
  obtain ⟨f, rc, CI, hu, -, hr⟩ := normal2P_run harg hnum h
  exact ⟨f, rc, hu, hr.fam, fun hb => hr.describes ⟨hb, by simp [normal2]⟩⟩

/-- **C99 (Fit_Lognormal_2P).** -/
theorem C99_lognormal_2P {argsort : List ℝ → List ℕ} (harg : IsArgsort argsort) (J : Jac) (num : Option ℝ → Num2)
    (hnum : ∀ s m, ((num (some s)).ls m).2 = s) (x : Args) (r : FitRes Two) (h : fitLognormal2P argsort J num x = .ok r) :
    ∃ f rc, Used "Lognormal_2P" x f rc ∧ r.dist.fam = .lognormal ∧ r.dist.gamma = 0 ∧
      (0 < r.dist.b → Describes argsort (lognormal r.dist.a r.dist.b 0) f rc (if x.force.isSome then 1 else 2) r.gof) := by
  obtain ⟨f, rc, CI, hu, -, hr⟩ := lognormal2P_run harg hnum h
  exact ⟨f, rc, hu, hr.fam, hr.gamma, fun hb => hr.describes ⟨hb, by simp [lognormal2]⟩⟩

/-- **C99 (Fit_Gumbel_2P).** -/
theorem C99_gumbel_2P {argsort : List ℝ → List ℕ} (harg : IsArgsort argsort) (J : Jac) (num : Option ℝ → Num2)
    (x : Args) (r : FitRes Two) (h : fitGumbel2P argsort J num x = .ok r) :
    ∃ f rc, Used "Gumbel_2P" x f rc ∧ r.dist.fam = .gumbel ∧
      (0 < r.dist.b → Describes argsort (gumbel r.dist.a r.dist.b) f rc 2 r.gof) := by
  obtain ⟨f, rc, CI, hu, -, hr⟩ := gumbel2P_run harg h
  exact ⟨f, rc, hu, hr.fam, fun hb => hr.describes ⟨hb, by simp [gumbel2]⟩⟩

/-- **C99 (Fit_Loglogistic_2P).** -/
theorem C99_loglogistic_2P {argsort : List ℝ → List ℕ} (harg : IsArgsort argsort) (J : Jac) (num : Option ℝ → Num2)
    (x : Args) (r : FitRes Two) (h : fitLoglogistic2P argsort J num x = .ok r) :
    ∃ f rc, Used "Loglogistic_2P" x f rc ∧ r.dist.fam = .loglogistic ∧ r.dist.gamma = 0 ∧
      (0 < r.dist.a → 0 < r.dist.b → Describes argsort (loglogistic r.dist.a r.dist.b 0) f rc 2 r.gof) := by
  obtain ⟨f, rc, CI, hu, -, hr⟩ := loglogistic2P_run harg h
  exact ⟨f, rc, hu, hr.fam, hr.gamma, fun ha hb => hr.describes ⟨hb, fun _ => ha⟩⟩

/-! ## C100 -/

/-- **C100 (Fit_Weibull_2P).** The results table: the estimates are the parameters of the returned distribution, the standard
errors and the covariance come from the inverse of the observed information at the estimates (0 where it has none), the
bounds are normal approximations at the confidence level given and enclose the estimates. -/
theorem C100_weibull_2P {argsort : List ℝ → List ℕ} (harg : IsArgsort argsort) (J : Jac) (num : Option ℝ → Num2)
    (hnum : ∀ s m, ((num (some s)).ls m).2 = s) (x : Args) (r : FitRes Two) (h : fitWeibull2P argsort J num x = .ok r) :
    ∃ f rc CI, Used "Weibull_2P" x f rc ∧ x.CI = .float CI ∧
      Rows2 .weibull 0 "Alpha" "Beta" .log f rc CI x.force r.rows r.Cov r.dist := by
  obtain ⟨f, rc, CI, hu, hc, hr⟩ := weibull2P_run harg hnum h
  exact ⟨f, rc, CI, hu, hc, hr.rows⟩

/-- **C100 (Fit_Normal_2P).** -/
theorem C100_normal_2P {argsort : List ℝ → List ℕ} (harg : IsArgsort argsort) (J : Jac) (num : Option ℝ → Num2)
    (hnum : ∀ s m, ((num (some s)).ls m).2 = s) (x : Args) (r : FitRes Two) (h : fitNormal2P argsort J num x = .ok r) :
    ∃ f rc CI, Used "Normal_2P" x f rc ∧ x.CI = .float CI ∧
      Rows2 .normal 0 "Mu" "Sigma" .linear f rc CI x.force r.rows r.Cov r.dist := by
  obtain ⟨f, rc, CI, hu, hc, hr⟩ := normal2P_run harg hnum h
  exact ⟨f, rc, CI, hu, hc, hr.rows⟩

/-- **C100 (Fit_Lognormal_2P).** -/
theorem C100_lognormal_2P {argsort : List ℝ → List ℕ} (harg : IsArgsort argsort) (J : Jac) (num : Option ℝ → Num2)
    (hnum : ∀ s m, ((num (some s)).ls m).2 = s) (x : Args) (r : FitRes Two) (h : fitLognormal2P argsort J num x = .ok r) :
    ∃ f rc CI, Used "Lognormal_2P" x f rc ∧ x.CI = .float CI ∧
      Rows2 .lognormal 0 "Mu" "Sigma" .linear f rc CI x.force r.rows r.Cov r.dist := by
  obtain ⟨f, rc, CI, hu, hc, hr⟩ := lognormal2P_run harg hnum h
  exact ⟨f, rc, CI, hu, hc, hr.rows⟩

/-- **C100 (Fit_Gumbel_2P).** -/
theorem C100_gumbel_2P {argsort : List ℝ → List ℕ} (harg : IsArgsort argsort) (J : Jac) (num : Option ℝ → Num2)
    (x : Args) (r : FitRes Two) (h : fitGumbel2P argsort J num x = .ok r) :
    ∃ f rc CI, Used "Gumbel_2P" x f rc ∧ x.CI = .float CI ∧
      Rows2 .gumbel 0 "Mu" "Sigma" .linear f rc CI none r.rows r.Cov r.dist := by
  obtain ⟨f, rc, CI, hu, hc, hr⟩ := gumbel2P_run harg h
  exact ⟨f, rc, CI, hu, hc, hr.rows⟩

/-- **C100 (Fit_Loglogistic_2P).** -/
theorem C100_loglogistic_2P {argsort : List ℝ → List ℕ} (harg : IsArgsort argsort) (J : Jac) (num : Option ℝ → Num2)
    (x : Args) (r : FitRes Two) (h : fitLoglogistic2P argsort J num x = .ok r) :
    ∃ f rc CI, Used "Loglogistic_2P" x f rc ∧ x.CI = .float CI ∧
      Rows2 .loglogistic 0 "Alpha" "Beta" .log f rc CI none r.rows r.Cov r.dist := by
  obtain ⟨f, rc, CI, hu, hc, hr⟩ := loglogistic2P_run harg h
  exact ⟨f, rc, CI, hu, hc, hr.rows⟩

/-! ## C101 -/

theorem forced_row {fam : CFam} {g : ℝ} {nA nB : String} {sc : Scale} {f rc : List ℝ} {CI s : ℝ} {rows : List Row} {Cov : ℝ}
    {d : Two} (h : Rows2 fam g nA nB sc f rc CI (some s) rows Cov d) (hs : 0 < s) (hb : d.b = s) :
    ∃ w, rows = [w, ⟨nB, s, 0, s, s⟩] ∧ Cov = 0 := by
  obtain ⟨h1, ⟨z, -, -, h2⟩, -, h3⟩ := h
  obtain ⟨V, -, h4, h5, -⟩ := h3 s rfl
  match rows, h2 with
  | [w, w'], .cons _ (.cons h6 .nil) =>
    simp only [List.map_cons, List.map_nil, List.cons.injEq, Prod.mk.injEq, and_true] at h1 h4
    obtain ⟨-, e1, e2⟩ := h1
    obtain ⟨-, e3⟩ := h4
    obtain ⟨n, p, SE, lo, up⟩ := w'
    simp only at e1 e2 e3
    subst e1 e2 e3
    have h7 := h6 (by rw [hb]; exact hs.ne')
    simp only [mul_zero, zero_div, neg_zero, Real.exp_zero, mul_one] at h7
    refine ⟨w, ?_, h5⟩
    rw [h7.1, h7.2.1, hb]

/-- **C101.** A forced beta (Fit_Weibull_2P) is the beta of the returned distribution and is reported exactly, with standard
error 0, bounds equal to it, and covariance 0; it must be positive. -/
theorem C101_weibull {argsort : List ℝ → List ℕ} (harg : IsArgsort argsort) (J : Jac) (num : Option ℝ → Num2)
    (hnum : ∀ s m, ((num (some s)).ls m).2 = s) (x : Args) (r : FitRes Two) (h : fitWeibull2P argsort J num x = .ok r)
    (s : ℝ) (hs : x.force = some s) :
    0 < s ∧ r.dist.b = s ∧ r.Cov = 0 ∧ ∃ w, r.rows = [w, ⟨"Beta", s, 0, s, s⟩] := by
  have h0 : 0 < s := by
    simp only [fitWeibull2P, bind_ok] at h
    obtain ⟨inp, h1, -⟩ := h
    exact ((C51_ok_iff ..).1 h1).beta_ok.2 s hs
  obtain ⟨f, rc, CI, -, -, hr⟩ := weibull2P_run harg hnum h
  have hb := hr.forced s hs
  have hrows := hr.rows
  rw [hs] at hrows
  obtain ⟨w, h1, h2⟩ := forced_row hrows h0 hb
  exact ⟨h0, hb, h2, w, h1⟩

/-- **C101 (Fit_Normal_2P, forced sigma).** -/
theorem C101_normal {argsort : List ℝ → List ℕ} (harg : IsArgsort argsort) (J : Jac) (num : Option ℝ → Num2)
    (hnum : ∀ s m, ((num (some s)).ls m).2 = s) (x : Args) (r : FitRes Two) (h : fitNormal2P argsort J num x = .ok r)
    (s : ℝ) (hs : x.force = some s) :
    0 < s ∧ r.dist.b = s ∧ r.Cov = 0 ∧ ∃ w, r.rows = [w, ⟨"Sigma", s, 0, s, s⟩] := by
  have h0 : 0 < s := by
    simp only [fitNormal2P, bind_ok] at h
    obtain ⟨inp, h1, -⟩ := h
    exact ((C51_ok_iff ..).1 h1).sigma_ok.2 s hs
  obtain ⟨f, rc, CI, -, -, hr⟩ := normal2P_run harg hnum h
  have hb := hr.forced s hs
  have hrows := hr.rows
  rw [hs] at hrows
  obtain ⟨w, h1, h2⟩ := forced_row hrows h0 hb
  exact ⟨h0, hb, h2, w, h1⟩

/-- **C101 (Fit_Lognormal_2P, forced sigma).** -/
theorem C101_lognormal {argsort : List ℝ → List ℕ} (harg : IsArgsort argsort) (J : Jac) (num : Option ℝ → Num2)
    (hnum : ∀ s m, ((num (some s)).ls m).2 = s) (x : Args) (r : FitRes Two) (h : fitLognormal2P argsort J num x = .ok r)
    (s : ℝ) (hs : x.force = some s) :
    0 < s ∧ r.dist.b = s ∧ r.Cov = 0 ∧ ∃ w, r.rows = [w, ⟨"Sigma", s, 0, s, s⟩] := by
  have h0 : 0 < s := by
    simp only [fitLognormal2P, bind_ok] at h
    obtain ⟨inp, h1, -⟩ := h
    exact ((C51_ok_iff ..).1 h1).sigma_ok.2 s hs
  obtain ⟨f, rc, CI, -, -, hr⟩ := lognormal2P_run harg hnum h
  have hb := hr.forced s hs
  have hrows := hr.rows
  rw [hs] at hrows
  obtain ⟨w, h1, h2⟩ := forced_row hrows h0 hb
  exact ⟨h0, hb, h2, w, h1⟩

/-! ## C102 -/

theorem mle2_optimizer {LL : ℝ → ℝ → ℝ} {bs : List (Fitters.Bound ℝ)} {num : Num2} {opt : Option String} {force : Option ℝ} {g : ℝ × ℝ} {o : MLEOut (ℝ × ℝ)}
    (h : mle2 LL bs num opt force g = .ok o) :
    o.optimizer = none ∨ ∃ n ∈ ["TNC", "L-BFGS-B", "nelder-mead", "powell"], o.optimizer = some n := by
  cases force with
  | none => exact mle_optimizer h
  | some s =>
    simp only [mle2, mleForced] at h
    split at h
    · cases h
    · rename_i o' ho'
      cases h
      exact mle_optimizer (r := o') ho'

theorem fit2_labels {F : Fam2} (hF : F ∈ fams2) {argsort : List ℝ → List ℕ} {J : Jac} {num : Option ℝ → Num2} {inp : Checked ℝ}
    {force : Option ℝ} {r : FitRes Two} {asked : StrArg} (hm : Means methodNames asked inp.method)
    (h : fit2 F argsort J num inp force = .ok r) : Labels false asked r.method r.optimizer := by
  unfold fit2 at h
  simp only [bind_ok] at h
  obtain ⟨e, he, s, hs, q, hq, g, hg, h⟩ := h
  cases h
  exact estimate_labels false (by simp only [Bool.false_eq_true, false_iff]; exact fam2_name hF)
    (fun g o ho => mle2_optimizer ho) hm (.inl rfl) he

/-- **C102.** The attributes `method` and `optimizer` of the two-parameter fitters say what was asked for and done. -/
theorem C102_labels_two_parameter (argsort : List ℝ → List ℕ) (J : Jac) (num : Option ℝ → Num2) (x : Args) (r : FitRes Two)
    (h : fitWeibull2P argsort J num x = .ok r ∨ fitNormal2P argsort J num x = .ok r ∨
      fitLognormal2P argsort J num x = .ok r ∨ fitGumbel2P argsort J num x = .ok r ∨
      fitLoglogistic2P argsort J num x = .ok r) : Labels false x.method r.method r.optimizer := by
  rcases h with h | h | h | h | h
  all_goals
    simp only [fitWeibull2P, fitNormal2P, fitLognormal2P, fitGumbel2P, fitLoglogistic2P, bind_ok] at h
    obtain ⟨inp, h1, h2⟩ := h
    refine fit2_labels (by simp [fams2]) ((C51_ok_iff ..).1 h1).method_ok h2

theorem distOf_fam (f : CFam) (a b g : ℝ) (h0 : (distOf f a b g).fam ≠ .normal) (h1 : (distOf f a b g).fam ≠ .gumbel) :
    f ≠ .normal ∧ f ≠ .gumbel := by
  constructor
  · rintro rfl; exact h0 rfl
  · rintro rfl; exact h1 rfl

theorem distOf_not_beta (f : CFam) (a b g : ℝ) : (distOf f a b g).fam ≠ .beta := by
  cases f <;> simp [distOf, weibull, gammaDist, normal, lognormal, loglogistic, gumbel, ofScipy]

theorem inSupport_pos {f : CFam} (h0 : f ≠ .normal) (h1 : f ≠ .gumbel) {t : ℝ} (h : InSupport f 0 t) : 0 < t := by
  cases f <;> simp_all [InSupport]

theorem fit2_succeeds {F : Fam2} (hF : F ∈ fams2) {argsort : List ℝ → List ℕ} (harg : IsArgsort argsort) {J : Jac}
    {num : Option ℝ → Num2} {inp : Checked ℝ} {force : Option ℝ} {oa : StrArg}
    (hm : inp.method = some "MLE") (ho : Means optimizerNames oa inp.optimizer)
    (hq : ∀ y s n, estimate F.name (LLf2 F force inp.failures inp.right_censored) (num force).toNum
        (mle2 (fun a b => F.LL a b inp.failures inp.right_censored) (boundsOf F.name inp.failures inp.right_censored)
          (num force) inp.optimizer force) inp.method
        (lsMethod inp.method) = .ok (y, "Maximum Likelihood Estimation (MLE)", some n) →
      se2 (fun a b => F.LL a b inp.failures inp.right_censored) y.1 y.2 force (some n) = .ok s →
      ∃ q, quantileTable J (.two (two F.cfam y.1 y.2 0 inp.CI s)) inp.CI inp.quantiles = .ok q)
    (hne : inp.failures ≠ []) (hf : ∀ t ∈ inp.failures, InSupport F.cfam 0 t)
    (hs : ∀ fo ob b n p, ((num fo).minimize ob b n p).success = true) (hs1 : ∀ fo ob b n p, ((num fo).minimize1 ob b n p).success = true) :
    ∃ r, fit2 F argsort J num inp force = .ok r ∧ ∃ n, r.optimizer = some n := by
  have hls : ∀ LLf : ℝ × ℝ → ℝ, ∃ p, lsOptimization F.name LLf (num force).ls (num force).nlls "LS" = .ok p := by
    intro LLf
    unfold lsOptimization
    rw [if_neg (by decide), if_neg (fam2_name hF), if_neg (by decide)]
    dsimp only
    split_ifs <;> exact ⟨_, rfl⟩
  have hmle : ∀ (LL : ℝ → ℝ → ℝ) (bs : List (Fitters.Bound ℝ)) (g : ℝ × ℝ), ∃ n y, mle2 LL bs (num force) inp.optimizer force g = .ok ⟨true, some n, y⟩ := by
    intro LL bs g
    cases force with
    | none => exact mle_success _ _ ho (hs none _ _)
    | some s =>
      obtain ⟨n, y, h⟩ := mle_success (fun a => |2 * LL a s|) g.1 ho (hs1 (some s) (fun a => LL a s) (bs.take 1))
      exact ⟨n, (y, s), by simp only [mle2, mleForced, h]⟩
  have hest : ∀ (LLf : ℝ × ℝ → ℝ) (LL : ℝ → ℝ → ℝ) (bs : List (Fitters.Bound ℝ)), ∃ n y, estimate F.name LLf (num force).toNum
      (mle2 LL bs (num force) inp.optimizer force) inp.method (lsMethod inp.method) =
        .ok (y, "Maximum Likelihood Estimation (MLE)", some n) := by
    intro LLf LL bs
    obtain ⟨p, hp⟩ := hls LLf
    obtain ⟨n, y, hy⟩ := hmle LL bs p.1
    refine ⟨n, y, ?_⟩
    simp only [estimate, lsMethod, hm, if_true, bind_ok]
    refine ⟨p, hp, ?_⟩
    rw [if_neg (by decide)]
    simp only [bind_ok]
    exact ⟨_, hy, rfl⟩
  have hse : ∀ (LL : ℝ → ℝ → ℝ) (a b : ℝ) (n : String), ∃ s, se2 LL a b force (some n) = .ok s := by
    intro LL a b n
    unfold se2 warned
    cases force with
    | none => dsimp only; split <;> exact ⟨_, rfl⟩
    | some s => dsimp only; split <;> exact ⟨_, rfl⟩
  unfold fit2
  dsimp only
  obtain ⟨n, y, hy⟩ := hest (LLf2 F force inp.failures inp.right_censored)
    (fun a b => F.LL a b inp.failures inp.right_censored) (boundsOf F.name inp.failures inp.right_censored)
  obtain ⟨s, hs⟩ := hse (fun a b => F.LL a b inp.failures inp.right_censored) y.1 y.2 n
  obtain ⟨g, hg⟩ := gof_ok (argsort := argsort) harg (d := (Fitted.two (two F.cfam y.1 y.2 0 inp.CI s)).dist)
    (F := inp.failures) (C := inp.right_censored) (n := inp.failures.length + inp.right_censored.length)
    (k := kForced 2 force.isSome)
    (LL := LLf2 F force inp.failures inp.right_censored (y.1, y.2)) hne
    (fun h0 h1 t ht => by
      obtain ⟨h2, h3⟩ := distOf_fam _ _ _ _ h0 h1
      exact (inSupport_pos h2 h3 (hf t ht)).le)
    (fun h => absurd h (distOf_not_beta _ _ _ _))
  obtain ⟨q, hq⟩ := hq y s n hy hs
  refine ⟨⟨rows2 F y.1 y.2 (zOf inp.CI) force.isSome s, [], (s.getD (0, 0, 0)).2.2, two F.cfam y.1 y.2 0 inp.CI s,
    "Maximum Likelihood Estimation (MLE)", some n, g, q⟩, ?_, n, rfl⟩
  simp only [bind_ok]
  refine ⟨_, hy, s, hs, q, hq, g, hg, rfl⟩

/-- **C102.** Maximum likelihood (the default), accepted data, no quantiles: if the optimizers report success the fit
returns, even where the information matrix is singular. -/
theorem C102_mle_returns_partial {argsort : List ℝ → List ℕ} (harg : IsArgsort argsort) (J : Jac) (num : Option ℝ → Num2)
    (hs : ∀ fo ob b n p, ((num fo).minimize ob b n p).success = true) (hs1 : ∀ fo ob b n p, ((num fo).minimize1 ob b n p).success = true)
    (x : Args) (inp : Checked ℝ) (hm : inp.method = some "MLE") (hq : inp.quantiles = .none) :
    (Accepts "Weibull_2P" x.failures x.right_censored x.method x.optimizer x.CI x.quantiles x.force none x.CI_type inp →
      ∃ r, fitWeibull2P argsort J num x = .ok r) ∧
    (Accepts "Normal_2P" x.failures x.right_censored x.method x.optimizer x.CI x.quantiles none x.force x.CI_type inp →
      ∃ r, fitNormal2P argsort J num x = .ok r) ∧
    (Accepts "Lognormal_2P" x.failures x.right_censored x.method x.optimizer x.CI x.quantiles none x.force x.CI_type inp →
      ∃ r, fitLognormal2P argsort J num x = .ok r) ∧
    (Accepts "Gumbel_2P" x.failures x.right_censored x.method x.optimizer x.CI x.quantiles none none x.CI_type inp →
      ∃ r, fitGumbel2P argsort J num x = .ok r) ∧
    (Accepts "Loglogistic_2P" x.failures x.right_censored x.method x.optimizer x.CI x.quantiles none none x.CI_type inp →
      ∃ r, fitLoglogistic2P argsort J num x = .ok r) := by
  have key : ∀ {F : Fam2} (hF : F ∈ fams2) {dist : String} (hsup : ∀ t : ℝ, Usable dist t → InSupport F.cfam 0 t)
      {fb fs force : Option ℝ} {ct : StrArg}, Accepts dist x.failures x.right_censored x.method x.optimizer x.CI x.quantiles
        fb fs ct inp → ∃ r, (do
          let inp ← fittersCheck dist x.failures x.right_censored x.method x.optimizer x.CI x.quantiles fb fs ct
          fit2 F argsort J num inp force) = .ok r := by
    intro F hF dist hsup fb fs force ct h
    obtain ⟨r, hr, -⟩ := fit2_succeeds hF harg (J := J) (num := num) (force := force) hm h.optimizer_ok
      (fun _ _ _ _ _ => ⟨none, by rw [hq]; rfl⟩) (failures_ne h) (fun t ht => hsup t ((usable_failures h).1 t ht)) hs hs1
    refine ⟨r, ?_⟩
    rw [bind_ok]
    exact ⟨inp, (C51_ok_iff ..).2 h, hr⟩
  have pos : ∀ {dist : String}, ¬ RealLine dist → ∀ t : ℝ, Usable dist t → 0 < t := fun hd t ht => usable_pos hd ht
  refine ⟨fun h => ?_, fun h => ?_, fun h => ?_, fun h => ?_, fun h => ?_⟩
  · have e : inp.force_beta = x.force := h.beta_ok.1
    obtain ⟨r, hr⟩ := key (F := weibull2) (by simp [fams2]) (pos (by decide)) (force := x.force) h
    rw [bind_ok] at hr
    obtain ⟨inp', h1, h2⟩ := hr
    refine ⟨r, ?_⟩
    simp only [fitWeibull2P, bind_ok]
    exact ⟨inp', h1, by rw [((C51_ok_iff ..).1 h1).beta_ok.1]; exact h2⟩
  · obtain ⟨r, hr⟩ := key (F := normal2) (by simp [fams2]) (fun _ _ => trivial) (force := x.force) h
    rw [bind_ok] at hr
    obtain ⟨inp', h1, h2⟩ := hr
    refine ⟨r, ?_⟩
    simp only [fitNormal2P, bind_ok]
    exact ⟨inp', h1, by rw [((C51_ok_iff ..).1 h1).sigma_ok.1]; exact h2⟩
  · obtain ⟨r, hr⟩ := key (F := lognormal2) (by simp [fams2]) (pos (by decide)) (force := x.force) h
    rw [bind_ok] at hr
    obtain ⟨inp', h1, h2⟩ := hr
    refine ⟨r, ?_⟩
    simp only [fitLognormal2P, bind_ok]
    exact ⟨inp', h1, by rw [((C51_ok_iff ..).1 h1).sigma_ok.1]; exact h2⟩
  · exact key (F := gumbel2) (by simp [fams2]) (fun _ _ => trivial) h
  · exact key (F := loglogistic2) (by simp [fams2]) (pos (by decide)) h

/-- **C102 (finding).** With least squares the same singular information matrix ends in TypeError instead: the warning is
built with `+ self.optimizer`, which is None. -/
theorem C102_singular_finding (argsort : List ℝ → List ℕ) (J : Jac) (num : Option ℝ → Num2) (x : Args) (inp : Checked ℝ)
    (h : Accepts "Weibull_2P" x.failures x.right_censored x.method x.optimizer x.CI x.quantiles x.force none x.CI_type inp)
    (hm : inp.method = some "RRX")
    (hsing : x.force = none ∧ (hessian (fun v : Fin 2 → ℝ => weibull2P_LL (v 0) (v 1) inp.failures inp.right_censored)
        ![((num none).ls "RRX").1, ((num none).ls "RRX").2]).det = 0 ∨
      ∃ s, x.force = some s ∧ (hessian (fun v : Fin 1 → ℝ => weibull2P_LL (v 0) s inp.failures inp.right_censored)
        ![((num (some s)).ls "RRX").1]).det = 0) :
    fitWeibull2P argsort J num x = .error .typeError := by
  have h1 := (C51_ok_iff ..).2 h
  have e : inp.force_beta = x.force := h.beta_ok.1
  have hls : ∀ LLf, lsOptimization weibull2.name LLf (num x.force).ls (num x.force).nlls "RRX" =
      .ok ((num x.force).ls "RRX", "RRX") := by
    intro LLf
    unfold lsOptimization weibull2
    rw [if_neg (by decide), if_neg (by decide), if_pos (by decide)]
  have hest : ∀ LLf mle, estimate weibull2.name LLf (num x.force).toNum mle inp.method (lsMethod inp.method) =
      .ok ((num x.force).ls "RRX", "Least Squares Estimation (RRX)", none) := by
    intro LLf mle
    rw [hm]
    have e1 : lsMethod (some "RRX") = some "RRX" := by decide
    rw [e1]
    simp only [estimate]
    rw [hls]
    rfl
  have hse : se2 (fun a b => weibull2P_LL a b inp.failures inp.right_censored) ((num x.force).ls "RRX").1
      ((num x.force).ls "RRX").2 x.force none = .error .typeError := by
    rcases hsing with ⟨h0, h1⟩ | ⟨s, h0, h1⟩
    · rw [h0]
      simp only [se2, npInv, h1, if_true, warned]
    · rw [h0]
      simp only [se2, npInv, h1, if_true, warned]
  unfold fitWeibull2P
  rw [h1]
  change fit2 weibull2 argsort J num inp inp.force_beta = _
  rw [e]
  unfold fit2
  dsimp only
  rw [hest]
  change (se2 (fun a b => weibull2P_LL a b inp.failures inp.right_censored) ((num x.force).ls "RRX").1
      ((num x.force).ls "RRX").2 x.force none >>= _) = _
  rw [hse]
  rfl

/-- **C102 (finding).** `method=None` passes the input checks but no two-parameter fitter returns with it. -/
theorem C102_method_none_finding (argsort : List ℝ → List ℕ) (J : Jac) (num : Option ℝ → Num2) (x : Args) (inp : Checked ℝ)
    (hx : x.method = .none)
    (h : Accepts "Weibull_2P" x.failures x.right_censored x.method x.optimizer x.CI x.quantiles x.force none x.CI_type inp) :
    fitWeibull2P argsort J num x = valueErr := by
  have h1 := (C51_ok_iff ..).2 h
  have hm : inp.method = none := by
    rcases h.method_ok with ⟨-, h⟩ | ⟨s, c, sp, h', -⟩
    · exact h
    · rw [hx] at h'; cases h'
  unfold fitWeibull2P
  rw [h1]
  change fit2 weibull2 argsort J num inp inp.force_beta = _
  unfold fit2
  dsimp only
  rw [hm]
  rfl

end Reliability.Props

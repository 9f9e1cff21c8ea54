import Verif.Props.FitGlue2

/-! # The fits with an estimated location (C99, C100, C102, C105) -/

namespace Reliability.Props

open Reliability Reliability.Distributions Reliability.Likelihood Reliability.InputCheck Reliability.Props.Likelihood Reliability.FunctionCI
open Reliability.Fitters (MLEOut OptResult lsOptimization mleOptimization mleForced)
open Reliability.FitGlue Reliability.Spec Reliability.Spec.InputCheck Reliability.Spec.FitGlue

/-- The three classes of `fit3`. -/
noncomputable def fams3 : List Fam3 := [weibull3, lognormal3, loglogistic3]

theorem fams3_cases {F : Fam3} (hF : F ∈ fams3) : F = weibull3 ∨ F = lognormal3 ∨ F = loglogistic3 := by
  simpa [fams3] using hF

theorem fams3_two {F : Fam3} (hF : F ∈ fams3) : F.F2 ∈ fams2 := by
  rcases fams3_cases hF with rfl | rfl | rfl <;> simp [fams2, weibull3, lognormal3, loglogistic3]

theorem loglik_fam3 {F : Fam3} (hF : F ∈ fams3) {a b g : ℝ} (hp : ParamsOK F.F2.cfam a b) {f rc : List ℝ}
    (h : Above f rc g) :
    IsLogLik (distOf F.F2.cfam a b g).sp.pdf (distOf F.F2.cfam a b g).sp.sf f rc (loglik (F.LL a b g f rc)) := by
  rcases fams3_cases hF with rfl | rfl | rfl
  · exact C41_weibull_3P a b g (hp.2 (.inl rfl)) hp.1 f rc h.1 (fun t ht => (h.2 t ht).le)
  · exact C41_lognormal a b g hp.1 f rc h.1 h.2
  · exact C41_loglogistic a b g (hp.2 (.inr rfl)) hp.1 f rc h.1 (fun t ht => (h.2 t ht).le)

/-- The two-parameter likelihood of the shifted data is the likelihood with the location. -/
theorem shifted_LL {F : Fam3} (hF : F ∈ fams3) (a b g : ℝ) (f rc : List ℝ) :
    F.F2.LL a b (f.map (· - g)) (rc.map (· - g)) = F.LL a b g f rc := by
  have e : ∀ l l' l2 l2' : ℝ → ℝ, (∀ t, l (t - g) = l' t) → (∀ t, l2 (t - g) = l2' t) →
      LL l l2 (f.map (· - g)) (rc.map (· - g)) = LL l' l2' f rc := by
    intro l l' l2 l2' h1 h2
    unfold LL
    rw [List.map_map, List.map_map, show l ∘ (· - g) = l' from funext h1, show l2 ∘ (· - g) = l2' from funext h2]
  rcases fams3_cases hF with rfl | rfl | rfl
  · exact e _ _ _ _ (fun t => rfl) (fun t => rfl)
  · exact e _ _ _ _ (fun t => by simp only [lognormal_logf, sub_zero]) (fun t => by simp only [lognormal_logR, sub_zero])
  · exact e _ _ _ _ (fun t => by simp only [loglogistic_logf, sub_zero]) (fun t => by simp only [loglogistic_logR, sub_zero])

theorem se3_spec (F : Fam3) (a b γ : ℝ) (f rc : List ℝ) :
    ∃ V W, V = npInv (hessian (fun v : Fin 2 → ℝ => F.F2.LL (v 0) (v 1) (f.map (· - γ)) (rc.map (· - γ))) ![a, b]) ∧
      W = npInv (hessian (fun v : Fin 3 → ℝ => F.LL (v 0) (v 1) (v 2) f rc) ![a, b, γ]) ∧
      (V.isSome = true ∧ W.isSome = true ∧
          se3 F a b γ f rc = some (stdErr V 0, stdErr V 1, covar V 0 1, stdErr W 2) ∨
        (V = none ∨ W = none) ∧ se3 F a b γ f rc = none) := by
  refine ⟨_, _, rfl, rfl, ?_⟩
  unfold se3
  cases h1 : npInv (hessian (fun v : Fin 2 → ℝ => F.F2.LL (v 0) (v 1) (f.map (· - γ)) (rc.map (· - γ))) ![a, b]) with
  | none => exact .inr ⟨.inl rfl, rfl⟩
  | some V =>
    cases h2 : npInv (hessian (fun v : Fin 3 → ℝ => F.LL (v 0) (v 1) (v 2) f rc) ![a, b, γ]) with
    | none => exact .inr ⟨.inr rfl, rfl⟩
    | some W => exact .inl ⟨rfl, rfl, rfl⟩

theorem orWarn_none {α : Type} {o : Option String} {s : Option α} (h : orWarn (none : Option α) o = .ok s) : s = none := by
  cases o with
  | none => cases h
  | some o => cases h; rfl

/-- The distribution object of a two-parameter fit. -/
theorem fit2_dist {argsort : List ℝ → List ℕ} {F : Fam2} {J : Jac} {num : Option ℝ → Num2} {inp : Checked ℝ}
    {force : Option ℝ} {r : FitRes Two} (h : fit2 F argsort J num inp force = .ok r) :
    r.dist.fam = F.cfam ∧ r.dist.gamma = 0 ∧ r.dist.Z = some (.fin (zOf inp.CI)) := by
  unfold fit2 at h
  simp only [bind_ok] at h
  obtain ⟨e, he, s, hs, q, hq, g, hg, h⟩ := h
  cases h
  exact ⟨rfl, rfl, rfl⟩

/-- What the class `fallback` must give (it does, for the three classes). -/
def TwoClass (F : Fam2) (fallback : Args → Except Err (FitRes Two)) : Prop :=
  ∀ x CI r, x.CI = .float CI → fallback x = .ok r →
    r.dist.fam = F.cfam ∧ r.dist.gamma = 0 ∧ r.dist.Z = some (.fin (zOf CI))

theorem twoClass_weibull (argsort : List ℝ → List ℕ) (J : Jac) (num : Option ℝ → Num2) :
    TwoClass weibull2 (fitWeibull2P argsort J num) := by
  intro x CI r hx h
  simp only [fitWeibull2P, bind_ok] at h
  obtain ⟨inp, h1, h2⟩ := h
  have hc := ((C51_ok_iff ..).1 h1).ci.1
  rw [hx] at hc
  cases hc
  exact fit2_dist h2

theorem twoClass_lognormal (argsort : List ℝ → List ℕ) (J : Jac) (num : Option ℝ → Num2) :
    TwoClass lognormal2 (fitLognormal2P argsort J num) := by
  intro x CI r hx h
  simp only [fitLognormal2P, bind_ok] at h
  obtain ⟨inp, h1, h2⟩ := h
  have hc := ((C51_ok_iff ..).1 h1).ci.1
  rw [hx] at hc
  cases hc
  exact fit2_dist h2

theorem twoClass_loglogistic (argsort : List ℝ → List ℕ) (J : Jac) (num : Option ℝ → Num2) :
    TwoClass loglogistic2 (fitLoglogistic2P argsort J num) := by
  intro x CI r hx h
  simp only [fitLoglogistic2P, bind_ok] at h
  obtain ⟨inp, h1, h2⟩ := h
  have hc := ((C51_ok_iff ..).1 h1).ci.1
  rw [hx] at hc
  cases hc
  exact fit2_dist h2

/-- What one run of `fit3` gives. -/
structure Fit3OK (argsort : List ℝ → List ℕ) (F : Fam3) (fallback : Args → Except Err (FitRes Two)) (f rc : List ℝ) (CI : ℝ)
    (r : FitRes Two) : Prop where
  fam : r.dist.fam = F.F2.cfam
  describes : ParamsOK F.F2.cfam r.dist.a r.dist.b → Above f rc r.dist.gamma →
    Describes argsort (distOf F.F2.cfam r.dist.a r.dist.b r.dist.gamma) f rc 3 r.gof
  cases : 0.01 ≤ r.dist.gamma ∧
      Rows3 F.F2.cfam F.F2.nameA F.F2.nameB (scaleOf F.F2.cfam) f rc CI r.rows r.Cov r.dist ∨
    r.dist.gamma = 0 ∧ ∃ r2, fallback { failures := .array f, right_censored := .array rc, CI := .float CI } = .ok r2 ∧
      r.dist = r2.dist ∧ r.rows = r2.rows ++ [⟨"Gamma", 0, 0, 0, 0⟩] ∧ r.Cov = r2.Cov

theorem fam3_ci {F : Fam3} (hF : F ∈ fams3) {Z a SE : ℝ} (hz : 0 ≤ Z) (hS : 0 ≤ SE) :
    Interval Z (ciRow F.F2.ciA F.F2.nameA a SE Z) (scaleOf F.F2.cfam) ∧
      Interval Z (ciRow F.F2.ciB F.F2.nameB a SE Z) .log := by
  rcases fams3_cases hF with rfl | rfl | rfl
  · exact ⟨interval_log _ hz hS, interval_log _ hz hS⟩
  · exact ⟨interval_linear _ hz hS, interval_log _ hz hS⟩
  · exact ⟨interval_log _ hz hS, interval_log _ hz hS⟩

theorem fit3_ok {argsort : List ℝ → List ℕ} (harg : IsArgsort argsort) {F : Fam3} (hF : F ∈ fams3) {J : Jac}
    {num : Num (ℝ × ℝ × ℝ)} {fallback : Args → Except Err (FitRes Two)} (hfb : TwoClass F.F2 fallback) {inp : Checked ℝ}
    {r : FitRes Two} (h0 : 0 < inp.CI) (h1 : inp.CI < 1) (hne : inp.failures ≠ [])
    (h : fit3 F argsort J num fallback inp = .ok r) :
    Fit3OK argsort F fallback inp.failures inp.right_censored inp.CI r := by
  have hz := zOf_spec h0 h1
  unfold fit3 at h
  simp only [bind_ok] at h
  obtain ⟨e, he, h⟩ := h
  split_ifs at h with hγ
  · simp only [bind_ok] at h
    obtain ⟨r2, hr2, q, hq, g, hg, h⟩ := h
    cases h
    obtain ⟨c1, c2, c3⟩ := hfb _ _ _ rfl hr2
    refine ⟨c1, fun hp ha => ?_, .inr ⟨c2, r2, hr2, ?_, rfl, rfl⟩⟩
    · dsimp only at hp ha hg ⊢
      rw [c2] at ha ⊢
      refine gof_describes harg ?_ hne (loglik_fam3 hF hp ha)
      have : (Fitted.two { r2.dist with Z := some (.fin (zOf inp.CI)) }).dist =
          distOf F.F2.cfam r2.dist.a r2.dist.b 0 := by
        change distOf r2.dist.fam _ _ r2.dist.gamma = _
        rw [c1, c2]
      rw [this] at hg
      exact hg
    · dsimp only
      rw [← c3]
  · simp only [bind_ok] at h
    obtain ⟨s, hs, q, hq, g, hg, h⟩ := h
    cases h
    refine ⟨rfl, fun hp ha => gof_describes harg hg hne (loglik_fam3 hF hp ha), .inl ⟨not_lt.1 hγ, ?_⟩⟩
    obtain ⟨V, W, hV, hW, hVW⟩ := se3_spec F e.1.1 e.1.2.1 e.1.2.2 inp.failures inp.right_censored
    have hinfo : ParamsOK F.F2.cfam e.1.1 e.1.2.1 → Above inp.failures inp.right_censored e.1.2.2 →
        InverseInformation (fun v : Fin 2 → ℝ => ParamsOK F.F2.cfam (v 0) (v 1))
          (fun v => distOf F.F2.cfam (v 0) (v 1) e.1.2.2) inp.failures inp.right_censored ![e.1.1, e.1.2.1] V ∧
        InverseInformation (fun v : Fin 3 → ℝ => ParamsOK F.F2.cfam (v 0) (v 1) ∧ Above inp.failures inp.right_censored (v 2))
          (fun v => distOf F.F2.cfam (v 0) (v 1) (v 2)) inp.failures inp.right_censored ![e.1.1, e.1.2.1, e.1.2.2] W := by
      intro hp ha
      constructor
      · rw [hV]
        refine npInv_information (isOpen_params F.F2.cfam) (by simpa using hp) ?_
        intro v hv
        have := loglik_fam3 hF hv ha
        rwa [loglik_eq, ← shifted_LL hF] at this
      · rw [hW]
        refine npInv_information ((isOpen_params3 F.F2.cfam).inter (isOpen_above _ _ 2)) (by simpa using ⟨hp, ha⟩) ?_
        intro v hv
        have := loglik_fam3 hF hv.1 hv.2
        rwa [loglik_eq] at this
    rcases hVW with ⟨i1, i2, hse⟩ | ⟨hno, hse⟩
    · rw [hse] at hs
      cases hs
      refine ⟨rfl, ⟨_, hz, rfl, .cons (fam3_ci hF hz.1.le (stdErr_nonneg V 0)).1
        (.cons (fam3_ci hF hz.1.le (stdErr_nonneg V 1)).2
          (.cons (interval_log _ hz.1.le (stdErr_nonneg W 2)) .nil))⟩, V, W, hinfo, ?_⟩
      rw [if_pos ⟨i1, i2⟩]
      exact ⟨rfl, rfl, rfl, rfl, rfl⟩
    · rw [hse] at hs
      obtain rfl := orWarn_none hs
      refine ⟨rfl, ⟨_, hz, rfl, .cons (interval_fixed ..) (.cons (interval_fixed ..) (.cons (interval_fixed ..) .nil))⟩,
        V, W, hinfo, ?_⟩
      rw [if_neg (by rintro ⟨h1, h2⟩; rcases hno with rfl | rfl <;> simp at h1 h2)]
      exact ⟨rfl, rfl, rfl, rfl, rfl⟩

/-- The result has location 0 or at least 0.01 according to what the estimates are. -/
theorem fit3_when {argsort : List ℝ → List ℕ} {F : Fam3} {J : Jac}
    {num : Num (ℝ × ℝ × ℝ)} {fallback : Args → Except Err (FitRes Two)} (hfb : TwoClass F.F2 fallback) {inp : Checked ℝ}
    {r : FitRes Two} (h : fit3 F argsort J num fallback inp = .ok r) :
    ((∀ m, (num.ls m).2.2 < 0.01) → num.nlls.2.2 < 0.01 → (∀ ob b n q, (num.minimize ob b n q).x.2.2 < 0.01) → r.dist.gamma = 0) ∧
    (∀ c, 0.01 ≤ c → (∀ m, (num.ls m).2.2 = c) → num.nlls.2.2 = c → (∀ ob b n q, (num.minimize ob b n q).x.2.2 = c) →
      r.dist.gamma = c) := by
  unfold fit3 at h
  simp only [bind_ok] at h
  obtain ⟨e, he, h⟩ := h
  constructor
  · intro a1 a2 a3
    have := estimate_all (p := fun p => p.2.2 < 0.01) a1 a2 (fun g o hg ho => mle_all (p := fun p => p.2.2 < 0.01) hg (a3 _ _) ho) he
    rw [if_pos this] at h
    simp only [bind_ok] at h
    obtain ⟨r2, hr2, q, hq, g, hg, h⟩ := h
    cases h
    exact (hfb _ _ _ rfl hr2).2.1
  · intro c hc a1 a2 a3
    have := estimate_all (p := fun p => p.2.2 = c) a1 a2 (fun g o hg ho => mle_all (p := fun p => p.2.2 = c) hg (a3 _ _) ho) he
    rw [if_neg (by rw [this]; exact not_lt.2 hc)] at h
    simp only [bind_ok] at h
    obtain ⟨s, hs, q, hq, g, hg, h⟩ := h
    cases h
    exact this

theorem fit3_labels {argsort : List ℝ → List ℕ} {F : Fam3} (hF : F ∈ fams3) {J : Jac}
    {num : Num (ℝ × ℝ × ℝ)} {fallback : Args → Except Err (FitRes Two)} {inp : Checked ℝ} {asked : StrArg}
    (hm : Means methodNames asked inp.method)
    {r : FitRes Two} (h : fit3 F argsort J num fallback inp = .ok r) : Labels true asked r.method r.optimizer := by
  unfold fit3 at h
  simp only [bind_ok] at h
  obtain ⟨e, he, h⟩ := h
  have hn : true = true ↔ F.name ∈ ["Weibull_3P", "Gamma_2P", "Gamma_3P", "Beta_2P", "Lognormal_3P",
      "Loglogistic_3P", "Exponential_2P"] := by
    rcases fams3_cases hF with rfl | rfl | rfl <;> simp [weibull3, lognormal3, loglogistic3]
  have hl := estimate_labels true hn (fun g o ho => mle_optimizer ho) hm (.inl rfl) he
  split_ifs at h with hγ
  · simp only [bind_ok] at h
    obtain ⟨r2, hr2, q, hq, g, hg, h⟩ := h
    cases h
    exact hl
  · simp only [bind_ok] at h
    obtain ⟨s, hs, q, hq, g, hg, h⟩ := h
    cases h
    exact hl

theorem weibull3P_run {argsort : List ℝ → List ℕ} (harg : IsArgsort argsort) {J : Jac} {num : Num (ℝ × ℝ × ℝ)}
    {num2 : Option ℝ → Num2} {x : Args} {r : FitRes Two} (h : fitWeibull3P argsort J num num2 x = .ok r) :
    ∃ f rc CI, Used "Weibull_3P" x f rc ∧ x.CI = .float CI ∧
      Fit3OK argsort weibull3 (fitWeibull2P argsort J num2) f rc CI r := by
  simp only [fitWeibull3P, bind_ok] at h
  obtain ⟨inp, h1, h2⟩ := h
  rw [C51_ok_iff] at h1
  exact ⟨_, _, _, used_of_accepts h1, h1.ci.1, fit3_ok harg (F := weibull3) (by simp [fams3]) (twoClass_weibull argsort J num2) h1.ci.2.1 h1.ci.2.2
    (failures_ne h1) h2⟩

/-- **C99 (Fit_Weibull_3P)**, for a location below all the data. -/
theorem C99_weibull_3P {argsort : List ℝ → List ℕ} (harg : IsArgsort argsort) (J : Jac) (num : Num (ℝ × ℝ × ℝ))
    (num2 : Option ℝ → Num2) (x : Args) (r : FitRes Two) (h : fitWeibull3P argsort J num num2 x = .ok r) :
    ∃ f rc, Used "Weibull_3P" x f rc ∧ r.dist.fam = .weibull ∧
      (0 < r.dist.a → 0 < r.dist.b → Above f rc r.dist.gamma →
        Describes argsort (weibull r.dist.a r.dist.b r.dist.gamma) f rc 3 r.gof) := by
  obtain ⟨f, rc, CI, h1, -, hr⟩ := weibull3P_run harg h
  exact ⟨f, rc, h1, hr.fam, fun ha hb hab => hr.describes ⟨hb, fun _ => ha⟩ hab⟩

/-- **C100 (Fit_Weibull_3P).** -/
theorem C100_weibull_3P {argsort : List ℝ → List ℕ} (harg : IsArgsort argsort) (J : Jac) (num : Num (ℝ × ℝ × ℝ))
    (num2 : Option ℝ → Num2) (x : Args) (r : FitRes Two) (h : fitWeibull3P argsort J num num2 x = .ok r)
    (hγ : r.dist.gamma ≠ 0) :
    ∃ f rc CI, Used "Weibull_3P" x f rc ∧ x.CI = .float CI ∧
      Rows3 .weibull "Alpha" "Beta" .log f rc CI r.rows r.Cov r.dist := by
  obtain ⟨f, rc, CI, h1, h2, hr⟩ := weibull3P_run harg h
  rcases hr.cases with ⟨-, h3⟩ | ⟨h3, -⟩
  · exact ⟨f, rc, CI, h1, h2, by simpa [weibull3, weibull2, scaleOf] using h3⟩
  · exact absurd h3 hγ

/-- **C105 (Fit_Weibull_3P).** The location is 0 or at least 0.01; if it is 0 the other estimates, their uncertainty and the
distribution are those of Fit_Weibull_2P on the same data and confidence level with every other argument at its default (so:
maximum likelihood, whatever the method asked for); it is 0 if all the estimates of the location are below 0.01, and not
0 if all are the same number from 0.01 on. -/
theorem C105_weibull_3P {argsort : List ℝ → List ℕ} (harg : IsArgsort argsort) (J : Jac) (num : Num (ℝ × ℝ × ℝ))
    (num2 : Option ℝ → Num2) (x : Args) (r : FitRes Two) (h : fitWeibull3P argsort J num num2 x = .ok r) :
    (∃ f rc, Used "Weibull_3P" x f rc ∧ (0.01 ≤ r.dist.gamma ∨ r.dist.gamma = 0 ∧
      ∃ r2, fitWeibull2P argsort J num2 { failures := .array f, right_censored := .array rc, CI := x.CI } = .ok r2 ∧
        r.dist = r2.dist ∧ r.rows = r2.rows ++ [⟨"Gamma", 0, 0, 0, 0⟩] ∧ r.Cov = r2.Cov)) ∧
    ((∀ m, (num.ls m).2.2 < 0.01) → num.nlls.2.2 < 0.01 → (∀ ob b n q, (num.minimize ob b n q).x.2.2 < 0.01) → r.dist.gamma = 0) ∧
    (∀ c, 0.01 ≤ c → (∀ m, (num.ls m).2.2 = c) → num.nlls.2.2 = c → (∀ ob b n q, (num.minimize ob b n q).x.2.2 = c) →
      r.dist.gamma = c) := by
  constructor
  · obtain ⟨f, rc, CI, h1, h2, hr⟩ := weibull3P_run harg h
    refine ⟨f, rc, h1, ?_⟩
    rw [h2]
    rcases hr.cases with ⟨h3, -⟩ | h3
    · exact .inl h3
    · exact .inr h3
  · simp only [fitWeibull3P, bind_ok] at h
    obtain ⟨inp, h1, h2⟩ := h
    exact fit3_when (F := weibull3) (twoClass_weibull argsort J num2) h2

theorem lognormal3P_run {argsort : List ℝ → List ℕ} (harg : IsArgsort argsort) {J : Jac} {num : Num (ℝ × ℝ × ℝ)}
    {num2 : Option ℝ → Num2} {x : Args} {r : FitRes Two} (h : fitLognormal3P argsort J num num2 x = .ok r) :
    ∃ f rc CI, Used "Lognormal_3P" x f rc ∧ x.CI = .float CI ∧
      Fit3OK argsort lognormal3 (fitLognormal2P argsort J num2) f rc CI r := by
  simp only [fitLognormal3P, bind_ok] at h
  obtain ⟨inp, h1, h2⟩ := h
  rw [C51_ok_iff] at h1
  exact ⟨_, _, _, used_of_accepts h1, h1.ci.1, fit3_ok harg (F := lognormal3) (by simp [fams3]) (twoClass_lognormal argsort J num2) h1.ci.2.1 h1.ci.2.2
    (failures_ne h1) h2⟩

/-- **C99 (Fit_Lognormal_3P)**, for a location below all the data. -/
theorem C99_lognormal_3P {argsort : List ℝ → List ℕ} (harg : IsArgsort argsort) (J : Jac) (num : Num (ℝ × ℝ × ℝ))
    (num2 : Option ℝ → Num2) (x : Args) (r : FitRes Two) (h : fitLognormal3P argsort J num num2 x = .ok r) :
    ∃ f rc, Used "Lognormal_3P" x f rc ∧ r.dist.fam = .lognormal ∧
      (0 < r.dist.b → Above f rc r.dist.gamma →
        Describes argsort (lognormal r.dist.a r.dist.b r.dist.gamma) f rc 3 r.gof) := by
  obtain ⟨f, rc, CI, h1, -, hr⟩ := lognormal3P_run harg h
  exact ⟨f, rc, h1, hr.fam, fun hb hab => hr.describes ⟨hb, fun h => by rcases h with h | h <;> cases h⟩ hab⟩

/-- **C100 (Fit_Lognormal_3P).** -/
theorem C100_lognormal_3P {argsort : List ℝ → List ℕ} (harg : IsArgsort argsort) (J : Jac) (num : Num (ℝ × ℝ × ℝ))
    (num2 : Option ℝ → Num2) (x : Args) (r : FitRes Two) (h : fitLognormal3P argsort J num num2 x = .ok r)
    (hγ : r.dist.gamma ≠ 0) :
    ∃ f rc CI, Used "Lognormal_3P" x f rc ∧ x.CI = .float CI ∧
      Rows3 .lognormal "Mu" "Sigma" .linear f rc CI r.rows r.Cov r.dist := by
  obtain ⟨f, rc, CI, h1, h2, hr⟩ := lognormal3P_run harg h
  rcases hr.cases with ⟨-, h3⟩ | ⟨h3, -⟩
  · exact ⟨f, rc, CI, h1, h2, by simpa [lognormal3, lognormal2, scaleOf] using h3⟩
  · exact absurd h3 hγ

/-- **C105 (Fit_Lognormal_3P).** The location is 0 or at least 0.01; if it is 0 the other estimates, their uncertainty and the
distribution are those of Fit_Lognormal_2P on the same data and confidence level with every other argument at its default (so:
maximum likelihood, whatever the method asked for); it is 0 if all the estimates of the location are below 0.01, and not
0 if all are the same number from 0.01 on. -/
theorem C105_lognormal_3P {argsort : List ℝ → List ℕ} (harg : IsArgsort argsort) (J : Jac) (num : Num (ℝ × ℝ × ℝ))
    (num2 : Option ℝ → Num2) (x : Args) (r : FitRes Two) (h : fitLognormal3P argsort J num num2 x = .ok r) :
    (∃ f rc, Used "Lognormal_3P" x f rc ∧ (0.01 ≤ r.dist.gamma ∨ r.dist.gamma = 0 ∧
      ∃ r2, fitLognormal2P argsort J num2 { failures := .array f, right_censored := .array rc, CI := x.CI } = .ok r2 ∧
        r.dist = r2.dist ∧ r.rows = r2.rows ++ [⟨"Gamma", 0, 0, 0, 0⟩] ∧ r.Cov = r2.Cov)) ∧
    ((∀ m, (num.ls m).2.2 < 0.01) → num.nlls.2.2 < 0.01 → (∀ ob b n q, (num.minimize ob b n q).x.2.2 < 0.01) → r.dist.gamma = 0) ∧
    (∀ c, 0.01 ≤ c → (∀ m, (num.ls m).2.2 = c) → num.nlls.2.2 = c → (∀ ob b n q, (num.minimize ob b n q).x.2.2 = c) →
      r.dist.gamma = c) := by
  constructor
  · obtain ⟨f, rc, CI, h1, h2, hr⟩ := lognormal3P_run harg h
    refine ⟨f, rc, h1, ?_⟩
    rw [h2]
    rcases hr.cases with ⟨h3, -⟩ | h3
    · exact .inl h3
    · exact .inr h3
  · simp only [fitLognormal3P, bind_ok] at h
    obtain ⟨inp, h1, h2⟩ := h
    exact fit3_when (F := lognormal3) (twoClass_lognormal argsort J num2) h2

theorem loglogistic3P_run {argsort : List ℝ → List ℕ} (harg : IsArgsort argsort) {J : Jac} {num : Num (ℝ × ℝ × ℝ)}
    {num2 : Option ℝ → Num2} {x : Args} {r : FitRes Two} (h : fitLoglogistic3P argsort J num num2 x = .ok r) :
    ∃ f rc CI, Used "Loglogistic_3P" x f rc ∧ x.CI = .float CI ∧
      Fit3OK argsort loglogistic3 (fitLoglogistic2P argsort J num2) f rc CI r := by
  simp only [fitLoglogistic3P, bind_ok] at h
  obtain ⟨inp, h1, h2⟩ := h
  rw [C51_ok_iff] at h1
  exact ⟨_, _, _, used_of_accepts h1, h1.ci.1, fit3_ok harg (F := loglogistic3) (by simp [fams3]) (twoClass_loglogistic argsort J num2) h1.ci.2.1 h1.ci.2.2
    (failures_ne h1) h2⟩

/-- **C99 (Fit_Loglogistic_3P)**, for a location below all the data. -/
theorem C99_loglogistic_3P {argsort : List ℝ → List ℕ} (harg : IsArgsort argsort) (J : Jac) (num : Num (ℝ × ℝ × ℝ))
    (num2 : Option ℝ → Num2) (x : Args) (r : FitRes Two) (h : fitLoglogistic3P argsort J num num2 x = .ok r) :
    ∃ f rc, Used "Loglogistic_3P" x f rc ∧ r.dist.fam = .loglogistic ∧
      (0 < r.dist.a → 0 < r.dist.b → Above f rc r.dist.gamma →
        Describes argsort (loglogistic r.dist.a r.dist.b r.dist.gamma) f rc 3 r.gof) := by
  obtain ⟨f, rc, CI, h1, -, hr⟩ := loglogistic3P_run harg h
  exact ⟨f, rc, h1, hr.fam, fun ha hb hab => hr.describes ⟨hb, fun _ => ha⟩ hab⟩

/-- **C100 (Fit_Loglogistic_3P).** -/
theorem C100_loglogistic_3P {argsort : List ℝ → List ℕ} (harg : IsArgsort argsort) (J : Jac) (num : Num (ℝ × ℝ × ℝ))
    (num2 : Option ℝ → Num2) (x : Args) (r : FitRes Two) (h : fitLoglogistic3P argsort J num num2 x = .ok r)
    (hγ : r.dist.gamma ≠ 0) :
    ∃ f rc CI, Used "Loglogistic_3P" x f rc ∧ x.CI = .float CI ∧
      Rows3 .loglogistic "Alpha" "Beta" .log f rc CI r.rows r.Cov r.dist := by
  obtain ⟨f, rc, CI, h1, h2, hr⟩ := loglogistic3P_run harg h
  rcases hr.cases with ⟨-, h3⟩ | ⟨h3, -⟩
  · exact ⟨f, rc, CI, h1, h2, by simpa [loglogistic3, loglogistic2, scaleOf] using h3⟩
  · exact absurd h3 hγ

/-- **C105 (Fit_Loglogistic_3P).** The location is 0 or at least 0.01; if it is 0 the other estimates, their uncertainty and the
distribution are those of Fit_Loglogistic_2P on the same data and confidence level with every other argument at its default (so:
maximum likelihood, whatever the method asked for); it is 0 if all the estimates of the location are below 0.01, and not
0 if all are the same number from 0.01 on. -/
theorem C105_loglogistic_3P {argsort : List ℝ → List ℕ} (harg : IsArgsort argsort) (J : Jac) (num : Num (ℝ × ℝ × ℝ))
    (num2 : Option ℝ → Num2) (x : Args) (r : FitRes Two) (h : fitLoglogistic3P argsort J num num2 x = .ok r) :
    (∃ f rc, Used "Loglogistic_3P" x f rc ∧ (0.01 ≤ r.dist.gamma ∨ r.dist.gamma = 0 ∧
      ∃ r2, fitLoglogistic2P argsort J num2 { failures := .array f, right_censored := .array rc, CI := x.CI } = .ok r2 ∧
        r.dist = r2.dist ∧ r.rows = r2.rows ++ [⟨"Gamma", 0, 0, 0, 0⟩] ∧ r.Cov = r2.Cov)) ∧
    ((∀ m, (num.ls m).2.2 < 0.01) → num.nlls.2.2 < 0.01 → (∀ ob b n q, (num.minimize ob b n q).x.2.2 < 0.01) → r.dist.gamma = 0) ∧
    (∀ c, 0.01 ≤ c → (∀ m, (num.ls m).2.2 = c) → num.nlls.2.2 = c → (∀ ob b n q, (num.minimize ob b n q).x.2.2 = c) →
      r.dist.gamma = c) := by
  constructor
  · obtain ⟨f, rc, CI, h1, h2, hr⟩ := loglogistic3P_run harg h
    refine ⟨f, rc, h1, ?_⟩
    rw [h2]
    rcases hr.cases with ⟨h3, -⟩ | h3
    · exact .inl h3
    · exact .inr h3
  · simp only [fitLoglogistic3P, bind_ok] at h
    obtain ⟨inp, h1, h2⟩ := h
    exact fit3_when (F := loglogistic3) (twoClass_loglogistic argsort J num2) h2

/-- **C102 (three-parameter fits).** -/
theorem C102_labels_three_parameter (argsort : List ℝ → List ℕ) (J : Jac) (num : Num (ℝ × ℝ × ℝ)) (num2 : Option ℝ → Num2)
    (x : Args) (r : FitRes Two)
    (h : fitWeibull3P argsort J num num2 x = .ok r ∨ fitLognormal3P argsort J num num2 x = .ok r ∨
      fitLoglogistic3P argsort J num num2 x = .ok r) : Labels true x.method r.method r.optimizer := by
  rcases h with h | h | h
  · simp only [fitWeibull3P, bind_ok] at h
    obtain ⟨inp, h1, h2⟩ := h
    exact fit3_labels (F := weibull3) (by simp [fams3]) ((C51_ok_iff ..).1 h1).method_ok h2
  · simp only [fitLognormal3P, bind_ok] at h
    obtain ⟨inp, h1, h2⟩ := h
    exact fit3_labels (F := lognormal3) (by simp [fams3]) ((C51_ok_iff ..).1 h1).method_ok h2
  · simp only [fitLoglogistic3P, bind_ok] at h
    obtain ⟨inp, h1, h2⟩ := h
    exact fit3_labels (F := loglogistic3) (by simp [fams3]) ((C51_ok_iff ..).1 h1).method_ok h2

/-! ### Gamma_3P -/

theorem shift_LL (l l' l2 l2' : ℝ → ℝ) (g : ℝ) (f rc : List ℝ) (h1 : ∀ t, l (t - g) = l' t) (h2 : ∀ t, l2 (t - g) = l2' t) :
    LL l l2 (f.map (· - g)) (rc.map (· - g)) = LL l' l2' f rc := by
  unfold LL
  rw [List.map_map, List.map_map, show l ∘ (· - g) = l' from funext h1, show l2 ∘ (· - g) = l2' from funext h2]

theorem gamma_shift_ab (a b g : ℝ) (f rc : List ℝ) :
    gamma_LL_ab a b 0 (f.map (· - g)) (rc.map (· - g)) = gamma_LL_ab a b g f rc :=
  shift_LL _ _ _ _ g f rc (fun t => by simp only [gamma_logf_ab, sub_zero]) (fun t => by simp only [gamma_logR_ab, sub_zero])

theorem gamma_shift_mb (m b g : ℝ) (f rc : List ℝ) :
    gamma_LL_mb m b 0 (f.map (· - g)) (rc.map (· - g)) = gamma_LL_mb m b g f rc :=
  shift_LL _ _ _ _ g f rc (fun t => by simp only [gamma_logf_mb, sub_zero]) (fun t => by simp only [gamma_logR_mb, sub_zero])

theorem seGamma3_spec (a m b γ : ℝ) (f rc : List ℝ) :
    ∃ V W X, V = npInv (hessian (fun v : Fin 2 → ℝ => gamma_LL_ab (v 0) (v 1) 0 (f.map (· - γ)) (rc.map (· - γ))) ![a, b]) ∧
      W = npInv (hessian (fun v : Fin 2 → ℝ => gamma_LL_mb (v 0) (v 1) 0 (f.map (· - γ)) (rc.map (· - γ))) ![m, b]) ∧
      X = npInv (hessian (fun v : Fin 3 → ℝ => gamma_LL_ab (v 0) (v 1) (v 2) f rc) ![a, b, γ]) ∧
      (V.isSome = true ∧ W.isSome = true ∧ X.isSome = true ∧
          seGamma3 a m b γ f rc = some (stdErr V 0, stdErr V 1, covar V 0 1, stdErr W 0, covar W 0 1, stdErr X 2) ∨
        (V = none ∨ W = none ∨ X = none) ∧ seGamma3 a m b γ f rc = none) := by
  obtain ⟨V, W, hV, hW, h⟩ := seGamma_spec a m b (f.map (· - γ)) (rc.map (· - γ))
  refine ⟨V, W, _, hV, hW, rfl, ?_⟩
  unfold seGamma3
  rcases h with ⟨i1, i2, hse⟩ | ⟨hno, hse⟩
  · rw [hse]
    cases h2 : npInv (hessian (fun v : Fin 3 → ℝ => gamma_LL_ab (v 0) (v 1) (v 2) f rc) ![a, b, γ]) with
    | none => exact .inr ⟨.inr (.inr rfl), rfl⟩
    | some W => exact .inl ⟨i1, i2, rfl, rfl⟩
  · rw [hse]
    refine .inr ⟨?_, rfl⟩
    rcases hno with h | h
    · exact .inl h
    · exact .inr (.inl h)

/-- The distribution object of a Gamma_2P fit. -/
theorem gamma2_dist {argsort : List ℝ → List ℕ} {J : Jac} {num : Num (ℝ × ℝ)} {x : Args} {CI : ℝ} (hx : x.CI = .float CI)
    {r : FitRes Two} (h : fitGamma2P argsort J num x = .ok r) :
    r.dist.fam = .gamma ∧ r.dist.gamma = 0 ∧ r.dist.Z = some (.fin (zOf CI)) ∧ r.dist.a = Real.log (firstPoint r.rows) := by
  simp only [fitGamma2P, bind_ok] at h
  obtain ⟨inp, h1, e, he, s, hs, q, hq, g, hg, h⟩ := h
  have hc := ((C51_ok_iff ..).1 h1).ci.1
  rw [hx] at hc
  cases hc
  cases h
  refine ⟨rfl, rfl, rfl, ?_⟩
  cases s <;> rfl

theorem isOpen_pos3 (F C : List ℝ) : IsOpen {v : Fin 3 → ℝ | (0 < v 0 ∧ 0 < v 1) ∧ Above F C (v 2)} :=
  ((isOpen_lt continuous_const (continuous_apply 0)).inter (isOpen_lt continuous_const (continuous_apply 1))).inter
    (isOpen_above F C 2)

/-- What Fit_Gamma_3P gives. -/
theorem gamma3_run {argsort : List ℝ → List ℕ} (harg : IsArgsort argsort) {J : Jac} {num : Num (ℝ × ℝ × ℝ)}
    {num2 : Num (ℝ × ℝ)} {x : Args} {r : FitRes Two} (h : fitGamma3P argsort J num num2 x = .ok r) :
    ∃ f rc CI α, Used "Gamma_3P" x f rc ∧ x.CI = .float CI ∧ r.dist.fam = .gamma ∧ r.dist.a = Real.log α ∧
      (0 < α → 0 < r.dist.b → Above f rc r.dist.gamma →
        Describes argsort (gammaDist α r.dist.b r.dist.gamma) f rc 3 r.gof) ∧
      (0.01 ≤ r.dist.gamma ∧ GammaRows3 f rc CI α r.rows r.extra r.Cov r.dist ∨
        r.dist.gamma = 0 ∧ ∃ r2, fitGamma2P argsort J num2
            { failures := .array f, right_censored := .array rc, CI := .float CI } = .ok r2 ∧
          r.dist = r2.dist ∧ r.rows = r2.rows ++ [⟨"Gamma", 0, 0, 0, 0⟩] ∧ r.extra = r2.extra ∧ r.Cov = r2.Cov) ∧
      Labels true x.method r.method r.optimizer ∧
      ((∀ m, (num.ls m).2.2 < 0.01) → num.nlls.2.2 < 0.01 → (∀ ob b n q, (num.minimize ob b n q).x.2.2 < 0.01) → r.dist.gamma = 0) ∧
      (∀ c, 0.01 ≤ c → (∀ m, (num.ls m).2.2 = c) → num.nlls.2.2 = c → (∀ ob b n q, (num.minimize ob b n q).x.2.2 = c) →
        r.dist.gamma = c) := by
  simp only [fitGamma3P, bind_ok] at h
  obtain ⟨inp, h1, e, he, h⟩ := h
  rw [C51_ok_iff] at h1
  have hz := zOf_spec h1.ci.2.1 h1.ci.2.2
  have hl := estimate_labels true (by decide) (fun g o ho => mle_optimizer ho) h1.method_ok (.inl rfl) he
  have hsm := fun a1 a2 a3 => estimate_all (p := fun p => p.2.2 < 0.01) a1 a2
    (fun g o hg ho => mle_all (p := fun p => p.2.2 < 0.01) hg a3 ho) he
  have hla := fun (c : ℝ) a1 a2 a3 => estimate_all (p := fun p => p.2.2 = c) a1 a2
    (fun g o hg ho => mle_all (p := fun p => p.2.2 = c) hg a3 ho) he
  split_ifs at h with hγ
  · simp only [bind_ok] at h
    obtain ⟨r2, hr2, q, hq, g, hg, h⟩ := h
    cases h
    obtain ⟨c1, c2, c3, c4⟩ := gamma2_dist rfl hr2
    refine ⟨_, _, _, firstPoint r2.rows, used_of_accepts h1, h1.ci.1, c1, c4, fun ha hb hab => ?_,
      .inr ⟨c2, r2, hr2, ?_, rfl, rfl, rfl⟩, hl, fun _ _ _ => c2, fun c hc a1 a2 a3 => ?_⟩
    · dsimp only at hb hab hg ⊢
      rw [c2] at hab ⊢
      refine gof_describes harg ?_ (failures_ne h1) (C41_gamma _ _ _ ha hb _ _ hab.1 (fun t ht => (hab.2 t ht).le))
      have : (Fitted.two { r2.dist with Z := some (.fin (zOf inp.CI)) }).dist =
          gammaDist (firstPoint r2.rows) r2.dist.b 0 := by
        change distOf r2.dist.fam _ _ r2.dist.gamma = _
        rw [c1, c2, c4]
        change gammaDist (Real.exp (Real.log _)) _ _ = _
        rw [Real.exp_log ha]
      rw [this] at hg
      exact hg
    · dsimp only
      rw [← c3]
    · rw [hla c a1 a2 (a3 _ _)] at hγ
      exact absurd hγ (not_lt.2 hc)
  · simp only [bind_ok] at h
    obtain ⟨s, hs, q, hq, g, hg, h⟩ := h
    cases h
    refine ⟨_, _, _, e.1.1, used_of_accepts h1, h1.ci.1, rfl, rfl, fun ha hb hab => ?_,
      .inl ⟨not_lt.1 hγ, ?_⟩, hl, fun a1 a2 a3 => absurd (hsm a1 a2 (a3 _ _)) hγ, fun c hc a1 a2 a3 => hla c a1 a2 (a3 _ _)⟩
    · refine gof_describes harg ?_ (failures_ne h1) (C41_gamma _ _ _ ha hb _ _ hab.1 (fun t ht => (hab.2 t ht).le))
      have : (Fitted.two (two .gamma (Real.log e.1.1) e.1.2.1 e.1.2.2 inp.CI
          (s.map fun s => (s.2.2.2.1, s.2.1, s.2.2.2.2.1)))).dist = gammaDist e.1.1 e.1.2.1 e.1.2.2 := by
        change gammaDist (Real.exp (Real.log e.1.1)) e.1.2.1 e.1.2.2 = _
        rw [Real.exp_log ha]
      rw [this] at hg
      exact hg
    · obtain ⟨V, W, X, hV, hW, hX, hVW⟩ :=
        seGamma3_spec e.1.1 (Real.log e.1.1) e.1.2.1 e.1.2.2 inp.failures inp.right_censored
      have hinfo : 0 < e.1.1 → 0 < e.1.2.1 → Above inp.failures inp.right_censored e.1.2.2 →
          InverseInformation (fun v : Fin 2 → ℝ => 0 < v 0 ∧ 0 < v 1) (fun v => gammaDist (v 0) (v 1) e.1.2.2) inp.failures
            inp.right_censored ![e.1.1, e.1.2.1] V ∧
          InverseInformation (fun v : Fin 2 → ℝ => 0 < v 1) (fun v => gammaDist (Real.exp (v 0)) (v 1) e.1.2.2) inp.failures
            inp.right_censored ![Real.log e.1.1, e.1.2.1] W ∧
          InverseInformation (fun v : Fin 3 → ℝ => (0 < v 0 ∧ 0 < v 1) ∧ Above inp.failures inp.right_censored (v 2))
            (fun v => gammaDist (v 0) (v 1) (v 2)) inp.failures inp.right_censored ![e.1.1, e.1.2.1, e.1.2.2] X := by
        intro ha hb hab
        refine ⟨?_, ?_, ?_⟩
        · rw [hV]
          refine npInv_information isOpen_pos2 (by simp [ha, hb]) ?_
          intro v hv
          have := C41_gamma _ _ _ hv.1 hv.2 _ _ hab.1 (fun t ht => (hab.2 t ht).le)
          rwa [loglik_eq, ← gamma_shift_ab] at this
        · rw [hW]
          refine npInv_information isOpen_second (by simp [hb]) ?_
          intro v hv
          have := C41_gamma_mu (v 0) _ _ hv _ _ hab.1 (fun t ht => (hab.2 t ht).le)
          rwa [loglik_eq, ← gamma_shift_mb] at this
        · rw [hX]
          refine npInv_information (isOpen_pos3 _ _) (by simpa using ⟨⟨ha, hb⟩, hab⟩) ?_
          intro v hv
          have := C41_gamma _ _ _ hv.1.1 hv.1.2 _ _ hv.2.1 (fun t ht => (hv.2.2 t ht).le)
          rwa [loglik_eq] at this
      rcases hVW with ⟨i1, i2, i3, hse⟩ | ⟨hno, hse⟩
      · rw [hse] at hs
        cases hs
        refine ⟨rfl, rfl, ⟨_, hz, rfl, .cons (interval_log _ hz.1.le (stdErr_nonneg V 0))
          (.cons (interval_log _ hz.1.le (stdErr_nonneg V 1)) (.cons (interval_log _ hz.1.le (stdErr_nonneg X 2)) .nil)),
          .cons (interval_log _ hz.1.le (stdErr_nonneg W 0)) .nil⟩, V, W, X, hinfo, ?_⟩
        rw [if_pos ⟨i1, i2, i3⟩]
        exact ⟨rfl, rfl, rfl, rfl, rfl, rfl⟩
      · rw [hse] at hs
        obtain rfl := orWarn_none hs
        refine ⟨rfl, rfl, ⟨_, hz, rfl, .cons (interval_fixed ..) (.cons (interval_fixed ..) (.cons (interval_fixed ..) .nil)),
          .cons (interval_fixed ..) .nil⟩, V, W, X, hinfo, ?_⟩
        rw [if_neg (by rintro ⟨h1, h2, h3⟩; rcases hno with rfl | rfl | rfl <;> simp at h1 h2 h3)]
        exact ⟨rfl, rfl, rfl, rfl, rfl, rfl⟩

/-- **C99 (Fit_Gamma_3P)**, for a location below all the data. -/
theorem C99_gamma_3P {argsort : List ℝ → List ℕ} (harg : IsArgsort argsort) (J : Jac) (num : Num (ℝ × ℝ × ℝ))
    (num2 : Num (ℝ × ℝ)) (x : Args) (r : FitRes Two) (h : fitGamma3P argsort J num num2 x = .ok r) :
    ∃ f rc α, Used "Gamma_3P" x f rc ∧ r.dist.fam = .gamma ∧ r.dist.a = Real.log α ∧
      (0 < α → 0 < r.dist.b → Above f rc r.dist.gamma →
        Describes argsort (gammaDist α r.dist.b r.dist.gamma) f rc 3 r.gof) := by
  obtain ⟨f, rc, CI, α, h1, -, h2, h3, h4, -⟩ := gamma3_run harg h
  exact ⟨f, rc, α, h1, h2, h3, h4⟩

/-- **C100 (Fit_Gamma_3P).** -/
theorem C100_gamma_3P {argsort : List ℝ → List ℕ} (harg : IsArgsort argsort) (J : Jac) (num : Num (ℝ × ℝ × ℝ))
    (num2 : Num (ℝ × ℝ)) (x : Args) (r : FitRes Two) (h : fitGamma3P argsort J num num2 x = .ok r)
    (hγ : r.dist.gamma ≠ 0) :
    ∃ f rc CI α, Used "Gamma_3P" x f rc ∧ x.CI = .float CI ∧ r.dist.a = Real.log α ∧
      GammaRows3 f rc CI α r.rows r.extra r.Cov r.dist := by
  obtain ⟨f, rc, CI, α, h1, h2, -, h3, -, h4, -⟩ := gamma3_run harg h
  rcases h4 with ⟨-, h4⟩ | ⟨h4, -⟩
  · exact ⟨f, rc, CI, α, h1, h2, h3, h4⟩
  · exact absurd h4 hγ

/-- **C105 (Fit_Gamma_3P).** -/
theorem C105_gamma_3P {argsort : List ℝ → List ℕ} (harg : IsArgsort argsort) (J : Jac) (num : Num (ℝ × ℝ × ℝ))
    (num2 : Num (ℝ × ℝ)) (x : Args) (r : FitRes Two) (h : fitGamma3P argsort J num num2 x = .ok r) :
    (∃ f rc, Used "Gamma_3P" x f rc ∧ (0.01 ≤ r.dist.gamma ∨ r.dist.gamma = 0 ∧
      ∃ r2, fitGamma2P argsort J num2 { failures := .array f, right_censored := .array rc, CI := x.CI } = .ok r2 ∧
        r.dist = r2.dist ∧ r.rows = r2.rows ++ [⟨"Gamma", 0, 0, 0, 0⟩] ∧ r.extra = r2.extra ∧ r.Cov = r2.Cov)) ∧
    ((∀ m, (num.ls m).2.2 < 0.01) → num.nlls.2.2 < 0.01 → (∀ ob b n q, (num.minimize ob b n q).x.2.2 < 0.01) → r.dist.gamma = 0) ∧
    (∀ c, 0.01 ≤ c → (∀ m, (num.ls m).2.2 = c) → num.nlls.2.2 = c → (∀ ob b n q, (num.minimize ob b n q).x.2.2 = c) →
      r.dist.gamma = c) := by
  obtain ⟨f, rc, CI, α, h1, h2, -, -, -, h4, -, h5, h6⟩ := gamma3_run harg h
  refine ⟨⟨f, rc, h1, ?_⟩, h5, h6⟩
  rw [h2]
  rcases h4 with ⟨h4, -⟩ | h4
  · exact .inl h4
  · exact .inr h4

/-- **C102 (Fit_Gamma_3P).** -/
theorem C102_labels_gamma_3P {argsort : List ℝ → List ℕ} (harg : IsArgsort argsort) (J : Jac) (num : Num (ℝ × ℝ × ℝ))
    (num2 : Num (ℝ × ℝ)) (x : Args) (r : FitRes Two) (h : fitGamma3P argsort J num num2 x = .ok r) :
    Labels true x.method r.method r.optimizer := by
  obtain ⟨f, rc, CI, α, -, -, -, -, -, -, hl, -⟩ := gamma3_run harg h
  exact hl

end Reliability.Props

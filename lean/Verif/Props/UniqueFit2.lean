import Verif.Lemmas.ExistML
import Verif.Props.UniqueFit
import Verif.Props.FitSpecialReturns

/-! # C164: the maximum likelihood fit exists -/

namespace Reliability.Props.UniqueFit

open Reliability Reliability.Distributions Reliability.Likelihood Reliability.InputCheck Reliability.Props.Likelihood Reliability.FunctionCI
open Reliability.Fitters (MLEOut OptResult Bound lsOptimization mleOptimization mleForced)
open Reliability.FitGlue Reliability.Spec Reliability.Spec.InputCheck Reliability.Spec.FitGlue Reliability.Props
open Reliability.UniqueML Reliability.RankReg

theorem fit2_finds {F : Fam2} (hF : F ∈ fams2) {argsort : List ℝ → List ℕ} (harg : IsArgsort argsort) {J : Jac}
    {num : Option ℝ → Num2} {inp : Checked ℝ} {force : Option ℝ} {oa : StrArg}
    (hm : inp.method = some "MLE") (ho : Means optimizerNames oa inp.optimizer) (hq : inp.quantiles = .none)
    (hne : inp.failures ≠ []) (hf : ∀ t ∈ inp.failures, InSupport F.cfam 0 t)
    (hs : ∀ fo, Finds (num fo).minimize) (hs1 : ∀ fo, Finds (num fo).minimize1)
    (h0 : force = none → ∃ x : ℝ × ℝ, Inside x (boundsOf F.name inp.failures inp.right_censored) ∧
      ∀ y : ℝ × ℝ, Inside y (boundsOf F.name inp.failures inp.right_censored) →
        F.LL x.1 x.2 inp.failures inp.right_censored ≤ F.LL y.1 y.2 inp.failures inp.right_censored)
    (h1 : ∀ s, force = some s → ∃ x : ℝ, Inside x ((boundsOf F.name inp.failures inp.right_censored).take 1) ∧
      ∀ y : ℝ, Inside y ((boundsOf F.name inp.failures inp.right_censored).take 1) →
        F.LL x s inp.failures inp.right_censored ≤ F.LL y s inp.failures inp.right_censored) :
    ∃ r, fit2 F argsort J num inp force = .ok r ∧ r.optimizer ≠ none ∧
      (force = none → Inside (r.dist.a, r.dist.b) (boundsOf F.name inp.failures inp.right_censored)) ∧
      (∀ s, force = some s → Inside r.dist.a ((boundsOf F.name inp.failures inp.right_censored).take 1) ∧ r.dist.b = s) := by
  have hls : ∀ LLf : ℝ × ℝ → ℝ, ∃ p, lsOptimization F.name LLf (num force).ls (num force).nlls "LS" = .ok p := by
    intro LLf
    unfold lsOptimization
    rw [if_neg (by decide), if_neg (fam2_name hF), if_neg (by decide)]
    dsimp only
    split_ifs <;> exact ⟨_, rfl⟩
  have hmle : ∀ (g : ℝ × ℝ), ∃ n y, mle2 (fun a b => F.LL a b inp.failures inp.right_censored)
      (boundsOf F.name inp.failures inp.right_censored) (num force) inp.optimizer force g = .ok ⟨true, some n, y⟩ ∧
      (force = none → Inside y (boundsOf F.name inp.failures inp.right_censored)) ∧
      (∀ s, force = some s → Inside y.1 ((boundsOf F.name inp.failures inp.right_censored).take 1) ∧ y.2 = s) := by
    intro g
    cases force with
    | none =>
      have hfind := fun n p => hs none (fun p : ℝ × ℝ => F.LL p.1 p.2 inp.failures inp.right_censored)
        (boundsOf F.name inp.failures inp.right_censored) n p (h0 rfl)
      obtain ⟨n, y, hy, q, rfl⟩ := mle_success_of (fun p : ℝ × ℝ => |2 * F.LL p.1 p.2 inp.failures inp.right_censored|) g ho
        (fun n p => (hfind n p).1)
      exact ⟨n, _, hy, fun _ => (hfind n q).2, fun s e => by cases e⟩
    | some s =>
      have hfind := fun n p => hs1 (some s) (fun a : ℝ => F.LL a s inp.failures inp.right_censored)
        ((boundsOf F.name inp.failures inp.right_censored).take 1) n p (h1 s rfl)
      obtain ⟨n, y, hy, q, hyq⟩ := mle_success_of (fun a : ℝ => |2 * F.LL a s inp.failures inp.right_censored|) g.1 ho
        (fun n p => (hfind n p).1)
      refine ⟨n, (y, s), by simp only [mle2, mleForced, hy], (fun e => by cases e), fun s' e => ?_⟩
      cases e
      rw [hyq]
      exact ⟨(hfind n q).2, rfl⟩
  obtain ⟨p, hp⟩ := hls (LLf2 F force inp.failures inp.right_censored)
  obtain ⟨n, y, hy, i1, i2⟩ := hmle p.1
  have hest : estimate F.name (LLf2 F force inp.failures inp.right_censored) (num force).toNum
      (mle2 (fun a b => F.LL a b inp.failures inp.right_censored) (boundsOf F.name inp.failures inp.right_censored) (num force)
        inp.optimizer force) inp.method (lsMethod inp.method) = .ok (y, "Maximum Likelihood Estimation (MLE)", some n) := by
    simp only [estimate, lsMethod, hm, if_true, bind_ok]
    refine ⟨p, hp, ?_⟩
    rw [if_neg (by decide)]
    simp only [bind_ok]
    exact ⟨_, hy, rfl⟩
  have hse : ∀ (LL : ℝ → ℝ → ℝ) (a b : ℝ) (n : String), ∃ s, se2 LL a b force (some n) = .ok s := by
    intro LL a b n
    unfold se2 warned
    cases force with
    | none => dsimp only; split <;> exact ⟨_, rfl⟩
    | some s => dsimp only; split <;> exact ⟨_, rfl⟩
  obtain ⟨s, hs⟩ := hse (fun a b => F.LL a b inp.failures inp.right_censored) y.1 y.2 n
  obtain ⟨g, hg⟩ := gof_ok (argsort := argsort) harg (d := (Fitted.two (two F.cfam y.1 y.2 0 inp.CI s)).dist)
    (F := inp.failures) (C := inp.right_censored) (n := inp.failures.length + inp.right_censored.length)
    (k := kForced 2 force.isSome)
    (LL := LLf2 F force inp.failures inp.right_censored (y.1, y.2)) hne
    (fun h0 h1 t ht => by
      obtain ⟨h2, h3⟩ := distOf_fam _ _ _ _ h0 h1
      exact (inSupport_pos h2 h3 (hf t ht)).le)
    (fun h => absurd h (distOf_not_beta _ _ _ _))
  refine ⟨⟨rows2 F y.1 y.2 (zOf inp.CI) force.isSome s, [], (s.getD (0, 0, 0)).2.2, two F.cfam y.1 y.2 0 inp.CI s,
    "Maximum Likelihood Estimation (MLE)", some n, g, none⟩, ?_, by simp, i1, i2⟩
  unfold fit2
  simp only [bind_ok]
  exact ⟨_, hest, s, hs, none, by rw [hq]; rfl, g, hg, rfl⟩

/-- The most likely line gives the most likely parameters. -/
theorem params_of_line {f : CFam} (hf : f ≠ .gamma) {F C : List ℝ} {force : Option ℝ} {q p : ℝ}
    (h : LineMax f (force.map (slopeOf f)) F C q p) : ∃ a b, ParamsOK f a b ∧ (∀ s, force = some s → b = s) ∧
      ∀ α β, ParamsOK f α β → (∀ s, force = some s → β = s) →
        likelihoodOf (distOf f α β 0) F C ≤ likelihoodOf (distOf f a b 0) F C := by
  have hok := paramsOf_ok f p h.pos
  obtain ⟨l1, l2⟩ := line_params f p h.pos
  refine ⟨_, _, hok, fun s hs => ?_, fun α β hab hs => ?_⟩
  · have := h.forced (slopeOf f s) (by rw [hs]; rfl)
    rw [this]
    cases f <;> simp [paramsOf, slopeOf]
  · rw [likelihood_std hf hab h.F_in h.C_in, likelihood_std hf hok h.F_in h.C_in, l1, l2]
    exact h.max _ _ (slopeOf_pos hab) fun s hs' => by
      cases force with
      | none => cases hs'
      | some s' => cases hs'; rw [hs s' rfl]

theorem inside2_iff {a b : ℝ} {l : Option ℝ} : Inside (a, b) [(l, none), (some 0, none)] → (∀ l', l = some l' → l' < a) ∧ 0 < b :=
  fun h => ⟨(h 0 a l none rfl rfl).1, (h 1 b (some 0) none rfl rfl).1 0 rfl⟩

theorem fam2_params {F : Fam2} (hF : F ∈ fams2) {f rc : List ℝ} (hne : f ≠ []) {a b : ℝ} :
    (Inside (a, b) (boundsOf F.name f rc) → ParamsOK F.cfam a b) ∧
      (Inside a ((boundsOf F.name f rc).take 1) → 0 < b → ParamsOK F.cfam a b) := by
  obtain ⟨b1, b2, -⟩ := bounds2 (rc := rc) hne
  simp only [fams2, List.mem_cons, List.not_mem_nil, or_false] at hF
  rcases hF with rfl | rfl | rfl | rfl | rfl
  · rw [b1 _ (by decide)]
    exact ⟨fun h => ⟨(inside2_iff h).2, fun _ => (inside2_iff h).1 0 rfl⟩, fun h hb => ⟨hb, fun _ => inside_pos_iff.1 h⟩⟩
  · rw [b2 _ (by decide)]
    exact ⟨fun h => ⟨(inside2_iff h).2, fun h => by rcases h with h | h <;> cases h⟩,
      fun h hb => ⟨hb, fun h => by rcases h with h | h <;> cases h⟩⟩
  · rw [b2 _ (by decide)]
    exact ⟨fun h => ⟨(inside2_iff h).2, fun h => by rcases h with h | h <;> cases h⟩,
      fun h hb => ⟨hb, fun h => by rcases h with h | h <;> cases h⟩⟩
  · rw [b2 _ (by decide)]
    exact ⟨fun h => ⟨(inside2_iff h).2, fun h => by rcases h with h | h <;> cases h⟩,
      fun h hb => ⟨hb, fun h => by rcases h with h | h <;> cases h⟩⟩
  · rw [b1 _ (by decide)]
    exact ⟨fun h => ⟨(inside2_iff h).2, fun _ => (inside2_iff h).1 0 rfl⟩, fun h hb => ⟨hb, fun _ => inside_pos_iff.1 h⟩⟩

theorem LL_le {F : Fam2} (hF : F ∈ fams2) {f rc : List ℝ} (hf : ∀ t ∈ f, InSupport F.cfam 0 t) (hr : ∀ t ∈ rc, InSupport F.cfam 0 t)
    {a b a' b' : ℝ} (h : ParamsOK F.cfam a b) (h' : ParamsOK F.cfam a' b')
    (hl : likelihoodOf (distOf F.cfam a' b' 0) f rc ≤ likelihoodOf (distOf F.cfam a b 0) f rc) : F.LL a b f rc ≤ F.LL a' b' f rc := by
  have e1 := loglik_fam2 hF h hf hr
  have e2 := loglik_fam2 hF h' hf hr
  unfold likelihoodOf likelihood at hl
  rw [← e1, ← e2, Real.exp_le_exp] at hl
  unfold loglik at hl
  linarith

theorem timeScale_inj {f : CFam} {t u : ℝ} (ht : InSupport f 0 t) (hu : InSupport f 0 u) (h : timeScale f 0 t = timeScale f 0 u) :
    t = u := by
  cases f <;> simp only [timeScale, sub_zero, InSupport] at * <;> first | exact h | exact Real.log_injOn_pos ht hu h

/-- Enough failures for the fitter are enough for a maximum. -/
theorem fit2_exists {F : Fam2} (hF : F ∈ fams2) {argsort : List ℝ → List ℕ} (harg : IsArgsort argsort) {J : Jac}
    {num : Option ℝ → Num2} {inp : Checked ℝ} {force : Option ℝ} {oa : StrArg}
    (hm : inp.method = some "MLE") (ho : Means optimizerNames oa inp.optimizer) (hq : inp.quantiles = .none)
    (hne : inp.failures ≠ []) (hf : ∀ t ∈ inp.failures, InSupport F.cfam 0 t) (hr : ∀ t ∈ inp.right_censored, InSupport F.cfam 0 t)
    (hs : ∀ fo, Finds (num fo).minimize) (hs1 : ∀ fo, Finds (num fo).minimize1) (hfo : ∀ s, force = some s → 0 < s)
    (hcard : force = none → 2 ≤ inp.failures.toFinset.card) :
    ∃ r, fit2 F argsort J num inp force = .ok r ∧ r.optimizer ≠ none ∧ ParamsOK F.cfam r.dist.a r.dist.b := by
  have hg : F.cfam ≠ .gamma := by
    simp only [fams2, List.mem_cons, List.not_mem_nil, or_false] at hF
    rcases hF with rfl | rfl | rfl | rfl | rfl <;> exact fun h => by cases h
  have hline : ∃ q p, LineMax F.cfam (force.map (slopeOf F.cfam)) inp.failures inp.right_censored q p := by
    cases force with
    | none =>
      obtain ⟨t, u, ht, hu, htu⟩ := Finset.one_lt_card_iff.1 (hcard rfl)
      rw [List.mem_toFinset] at ht hu
      exact exists_free hf hr ht hu fun e => htu (timeScale_inj (hf t ht) (hf u hu) e)
    | some s =>
      have h0 : 0 < slopeOf F.cfam s := by
        have := hfo s rfl
        cases F.cfam <;> simp [slopeOf, this]
      exact exists_forced hf hr hne h0
  obtain ⟨q, p, hqp⟩ := hline
  obtain ⟨a, b, hok, hab, hmax⟩ := params_of_line hg hqp
  obtain ⟨i1, i2⟩ := fam2_inside hF hok (rc := inp.right_censored) hne
  obtain ⟨r, h, hn, p1, p2⟩ := fit2_finds hF harg (J := J) (num := num) (force := force) hm ho hq hne hf hs hs1
    (fun e => ⟨(a, b), i1, fun y hy => by
      have hy' := (fam2_params hF hne).1 hy
      exact LL_le hF hf hr hok hy' (hmax _ _ hy' fun s e' => by rw [e] at e'; cases e')⟩)
    (fun s e => ⟨a, i2, fun y hy => by
      have hy' := (fam2_params hF hne).2 hy (hfo s e)
      have hbs := hab s e
      subst hbs
      exact LL_le hF hf hr hok hy' (hmax _ _ hy' fun s' e' => by rw [e] at e'; cases e'; rfl)⟩)
  refine ⟨r, h, hn, ?_⟩
  cases force with
  | none => exact (fam2_params hF hne).1 (p1 rfl)
  | some s =>
    obtain ⟨j1, j2⟩ := p2 s rfl
    rw [j2]
    exact (fam2_params hF hne).2 j1 (hfo s rfl)

/-! ## C164 -/

/-- **C164 (Fit_Weibull_2P).** Every accepted set of data has a maximum likelihood fit: an optimizer that is exact and finds the
minimum where there is one makes the fitter return it, with a positive alpha and beta. -/
theorem C164_weibull_2P {argsort : List ℝ → List ℕ} (harg : IsArgsort argsort) (J : Jac) (num : Option ℝ → Num2)
    (hE : ∀ fo, Exact (num fo).minimize) (hE1 : ∀ fo, Exact (num fo).minimize1)
    (hs : ∀ fo, Finds (num fo).minimize) (hs1 : ∀ fo, Finds (num fo).minimize1) (x : Args) (inp : Checked ℝ)
    (h : Accepts "Weibull_2P" x.failures x.right_censored x.method x.optimizer x.CI x.quantiles x.force none x.CI_type inp)
    (hm : inp.method = some "MLE") (hq : inp.quantiles = .none) :
    ∃ r, fitWeibull2P argsort J num x = .ok r ∧ ExactML fitWeibull2P x r ∧ 0 < r.dist.a ∧ 0 < r.dist.b := by
  obtain ⟨u1, u2⟩ := usable_failures h
  obtain ⟨r, hr, hn, hp⟩ := fit2_exists (F := weibull2) (by simp [fams2]) harg (J := J) (num := num) (force := x.force) hm h.optimizer_ok
    hq (failures_ne h) (fun t ht => usable_pos (by decide) (u1 t ht)) (fun t ht => usable_pos (by decide) (u2 t ht)) hs hs1
    h.beta_ok.2 (fun e => by have := h.enough; rw [e] at this; exact this)
  have hfit : fitWeibull2P argsort J num x = .ok r := by
    simp only [fitWeibull2P, bind_ok]
    exact ⟨inp, (C51_ok_iff ..).2 h, by rw [h.beta_ok.1]; exact hr⟩
  exact ⟨r, hfit, ⟨hn, argsort, J, num, hE, hE1, hfit⟩, hp.2 (.inl rfl), hp.1⟩

/-- **C164 (Fit_Loglogistic_2P).** -/
theorem C164_loglogistic_2P {argsort : List ℝ → List ℕ} (harg : IsArgsort argsort) (J : Jac) (num : Option ℝ → Num2)
    (hE : ∀ fo, Exact (num fo).minimize) (hE1 : ∀ fo, Exact (num fo).minimize1)
    (hs : ∀ fo, Finds (num fo).minimize) (hs1 : ∀ fo, Finds (num fo).minimize1) (x : Args) (inp : Checked ℝ)
    (h : Accepts "Loglogistic_2P" x.failures x.right_censored x.method x.optimizer x.CI x.quantiles none none x.CI_type inp)
    (hm : inp.method = some "MLE") (hq : inp.quantiles = .none) :
    ∃ r, fitLoglogistic2P argsort J num x = .ok r ∧ ExactML fitLoglogistic2P x r ∧ 0 < r.dist.a ∧ 0 < r.dist.b := by
  obtain ⟨u1, u2⟩ := usable_failures h
  obtain ⟨r, hr, hn, hp⟩ := fit2_exists (F := loglogistic2) (by simp [fams2]) harg (J := J) (num := num) (force := none) hm h.optimizer_ok
    hq (failures_ne h) (fun t ht => usable_pos (by decide) (u1 t ht)) (fun t ht => usable_pos (by decide) (u2 t ht)) hs hs1
    (fun s e => by cases e) (fun e => h.enough)
  have hfit : fitLoglogistic2P argsort J num x = .ok r := by
    simp only [fitLoglogistic2P, bind_ok]
    exact ⟨inp, (C51_ok_iff ..).2 h, hr⟩
  exact ⟨r, hfit, ⟨hn, argsort, J, num, hE, hE1, hfit⟩, hp.2 (.inr rfl), hp.1⟩

/-- **C164 (Fit_Normal_2P).** -/
theorem C164_normal_2P {argsort : List ℝ → List ℕ} (harg : IsArgsort argsort) (J : Jac) (num : Option ℝ → Num2)
    (hE : ∀ fo, Exact (num fo).minimize) (hE1 : ∀ fo, Exact (num fo).minimize1)
    (hs : ∀ fo, Finds (num fo).minimize) (hs1 : ∀ fo, Finds (num fo).minimize1) (x : Args) (inp : Checked ℝ)
    (h : Accepts "Normal_2P" x.failures x.right_censored x.method x.optimizer x.CI x.quantiles none x.force x.CI_type inp)
    (hm : inp.method = some "MLE") (hq : inp.quantiles = .none) :
    ∃ r, fitNormal2P argsort J num x = .ok r ∧ ExactML fitNormal2P x r ∧ 0 < r.dist.b := by
  obtain ⟨r, hr, hn, hp⟩ := fit2_exists (F := normal2) (by simp [fams2]) harg (J := J) (num := num) (force := x.force) hm h.optimizer_ok
    hq (failures_ne h) (fun t ht => trivial) (fun t ht => trivial) hs hs1
    h.sigma_ok.2 (fun e => by have := h.enough; rw [e] at this; exact this)
  have hfit : fitNormal2P argsort J num x = .ok r := by
    simp only [fitNormal2P, bind_ok]
    exact ⟨inp, (C51_ok_iff ..).2 h, by rw [h.sigma_ok.1]; exact hr⟩
  exact ⟨r, hfit, ⟨hn, argsort, J, num, hE, hE1, hfit⟩, hp.1⟩

/-- **C164 (Fit_Lognormal_2P).** -/
theorem C164_lognormal_2P {argsort : List ℝ → List ℕ} (harg : IsArgsort argsort) (J : Jac) (num : Option ℝ → Num2)
    (hE : ∀ fo, Exact (num fo).minimize) (hE1 : ∀ fo, Exact (num fo).minimize1)
    (hs : ∀ fo, Finds (num fo).minimize) (hs1 : ∀ fo, Finds (num fo).minimize1) (x : Args) (inp : Checked ℝ)
    (h : Accepts "Lognormal_2P" x.failures x.right_censored x.method x.optimizer x.CI x.quantiles none x.force x.CI_type inp)
    (hm : inp.method = some "MLE") (hq : inp.quantiles = .none) :
    ∃ r, fitLognormal2P argsort J num x = .ok r ∧ ExactML fitLognormal2P x r ∧ 0 < r.dist.b := by
  obtain ⟨u1, u2⟩ := usable_failures h
  obtain ⟨r, hr, hn, hp⟩ := fit2_exists (F := lognormal2) (by simp [fams2]) harg (J := J) (num := num) (force := x.force) hm h.optimizer_ok
    hq (failures_ne h) (fun t ht => usable_pos (by decide) (u1 t ht)) (fun t ht => usable_pos (by decide) (u2 t ht)) hs hs1
    h.sigma_ok.2 (fun e => by have := h.enough; rw [e] at this; exact this)
  have hfit : fitLognormal2P argsort J num x = .ok r := by
    simp only [fitLognormal2P, bind_ok]
    exact ⟨inp, (C51_ok_iff ..).2 h, by rw [h.sigma_ok.1]; exact hr⟩
  exact ⟨r, hfit, ⟨hn, argsort, J, num, hE, hE1, hfit⟩, hp.1⟩

/-- **C164 (Fit_Gumbel_2P).** -/
theorem C164_gumbel_2P {argsort : List ℝ → List ℕ} (harg : IsArgsort argsort) (J : Jac) (num : Option ℝ → Num2)
    (hE : ∀ fo, Exact (num fo).minimize) (hE1 : ∀ fo, Exact (num fo).minimize1)
    (hs : ∀ fo, Finds (num fo).minimize) (hs1 : ∀ fo, Finds (num fo).minimize1) (x : Args) (inp : Checked ℝ)
    (h : Accepts "Gumbel_2P" x.failures x.right_censored x.method x.optimizer x.CI x.quantiles none none x.CI_type inp)
    (hm : inp.method = some "MLE") (hq : inp.quantiles = .none) :
    ∃ r, fitGumbel2P argsort J num x = .ok r ∧ ExactML fitGumbel2P x r ∧ 0 < r.dist.b := by
  obtain ⟨r, hr, hn, hp⟩ := fit2_exists (F := gumbel2) (by simp [fams2]) harg (J := J) (num := num) (force := none) hm h.optimizer_ok
    hq (failures_ne h) (fun t ht => trivial) (fun t ht => trivial) hs hs1
    (fun s e => by cases e) (fun e => h.enough)
  have hfit : fitGumbel2P argsort J num x = .ok r := by
    simp only [fitGumbel2P, bind_ok]
    exact ⟨inp, (C51_ok_iff ..).2 h, hr⟩
  exact ⟨r, hfit, ⟨hn, argsort, J, num, hE, hE1, hfit⟩, hp.1⟩

/-! ## The hypotheses are met -/

theorem exactMin_finds {P : Type} [Coords P] : Finds (exactMin (P := P)) :=
  fun _ _ n p ⟨_, hx, h⟩ => exactMin_success hx h n p

/-- The default arguments with the failures `F` and the censored times `C`. -/
def dataArgs (F C : List ℝ) : Args := { failures := .array F, right_censored := .array C }

theorem accepts_default {dist : String} (hd : dist ∈ ["Weibull_2P", "Gumbel_2P", "Normal_2P", "Lognormal_2P", "Loglogistic_2P"])
    {F C : List ℝ} (hF : ∀ t ∈ F, Usable dist t) (hC : ∀ t ∈ C, Usable dist t) (hc : 2 ≤ F.toFinset.card) :
    Accepts (K := ℝ) dist (.array F) (.array C) (.str "MLE") .none (.float 0.95) .none none none (.str "time")
      ⟨F, C, 0.95, some "MLE", none, .none, none, none, some "time"⟩ := by
  have hall : ∀ t : ℝ, Usable dist t → Allowed dist t := by
    rintro t (h | h)
    · exact .inl h
    · exact .inr ⟨h.1.le, fun e => (h.2 e).le⟩
  have hfil : ∀ l : List ℝ, (∀ t ∈ l, Usable dist t) → l = l.filter fun x => decide (Usable dist x) := fun l h => by
    rw [List.filter_eq_self.2 fun t ht => decide_eq_true (h t ht)]
  refine ⟨?_, ⟨_, _, rfl, .inr rfl, fun t ht => hall t (hF t ht), fun t ht => hall t (hC t ht), hfil F hF, hfil C hC⟩,
    ⟨rfl, by norm_num, by norm_num⟩, .inl ⟨rfl, rfl⟩, ?_, .inl ⟨rfl, rfl⟩, ⟨rfl, by simp⟩, ⟨rfl, by simp⟩, ?_, ?_⟩
  · revert hd
    clear hF hC hall hfil
    revert dist
    decide
  · exact .inr ⟨"MLE", "MLE", ["MLE", "ML", "MAXIMUM LIKELIHOOD ESTIMATION", "MAXIMUM LIKELIHOOD", "MAX LIKELIHOOD"], rfl,
      rfl, by simp [methodNames], by decide +kernel⟩
  · have : ∀ dist ∈ ["Weibull_2P", "Gumbel_2P", "Normal_2P", "Lognormal_2P", "Loglogistic_2P"], required dist false ≤ 2 := by decide
    exact (this dist hd).trans hc
  · exact .inr ⟨"time", "time", ["T", "TIME"], rfl, rfl, by simp [ciTypeNames], by decide +kernel⟩

/-- Exact optimizers that find minima. -/
noncomputable def exactNum (_ : Option ℝ) : Num2 := ⟨⟨fun _ => (1, 1), (1, 1), exactMin⟩, exactMin⟩

/-- The hypotheses of C161, C162 and C163 on the runs are met by any data with two different failures: Weibull ... -/
theorem ex_weibull {argsort : List ℝ → List ℕ} (harg : IsArgsort argsort) (J : Jac) {F C : List ℝ} (hF : ∀ t ∈ F, 0 < t)
    (hC : ∀ t ∈ C, 0 < t) (hc : 2 ≤ F.toFinset.card) :
    ∃ r, ExactML fitWeibull2P (dataArgs F C) r ∧ 0 < r.dist.a ∧ 0 < r.dist.b := by
  obtain ⟨r, -, h⟩ := C164_weibull_2P harg J exactNum (fun _ => exactMin_exact) (fun _ => exactMin_exact) (fun _ => exactMin_finds)
    (fun _ => exactMin_finds) (dataArgs F C) _ (accepts_default (by decide) (fun t ht => usable_of_pos (by decide) (hF t ht))
      (fun t ht => usable_of_pos (by decide) (hC t ht)) hc) rfl rfl
  exact ⟨r, h⟩

/-- ... and Gumbel. -/
theorem ex_gumbel {argsort : List ℝ → List ℕ} (harg : IsArgsort argsort) (J : Jac) {F C : List ℝ} (hc : 2 ≤ F.toFinset.card) :
    ∃ r, ExactML fitGumbel2P (dataArgs F C) r ∧ 0 < r.dist.b := by
  obtain ⟨r, -, h⟩ := C164_gumbel_2P harg J exactNum (fun _ => exactMin_exact) (fun _ => exactMin_exact) (fun _ => exactMin_finds)
    (fun _ => exactMin_finds) (dataArgs F C) _ (accepts_default (by decide) (fun t ht => usable_line (by decide) _)
      (fun t ht => usable_line (by decide) _) hc) rfl rfl
  exact ⟨r, h⟩

/-- Failures at 1, 2, 3 and an item censored at 4: there is a Weibull fit, the fit of the data in another order and in units a
tenth as large exists too, and so does the Gumbel fit of the logarithms; they are related as C161-C163 say. -/
example {argsort : List ℝ → List ℕ} (harg : IsArgsort argsort) (J : Jac) :
    ∃ r r' g, ExactML fitWeibull2P (dataArgs [1, 2, 3] [4]) r ∧ ExactML fitWeibull2P (dataArgs [30, 10, 20] [40]) r' ∧
      ExactML fitGumbel2P (dataArgs ([1, 2, 3].map Real.log) ([4].map Real.log)) g ∧ r'.dist.a = 10 * r.dist.a ∧
      r'.dist.b = r.dist.b ∧ g.dist.a = Real.log r.dist.a := by
  have h3 : 2 ≤ ([1, 2, 3] : List ℝ).toFinset.card := by
    rw [List.toFinset_card_of_nodup (by norm_num)]; simp
  have h3' : 2 ≤ ([30, 10, 20] : List ℝ).toFinset.card := by
    rw [List.toFinset_card_of_nodup (by norm_num)]; simp
  have hl : ([1, 2, 3].map Real.log).Nodup := by
    have h2 : (0 : ℝ) < Real.log 2 := Real.log_pos (by norm_num)
    have h23 : Real.log 2 < Real.log 3 := Real.log_lt_log (by norm_num) (by norm_num)
    simp only [List.map_cons, List.map_nil, Real.log_one, List.nodup_cons, List.mem_cons, List.not_mem_nil, or_false, not_or,
      not_false_eq_true, and_true, List.nodup_nil]
    exact ⟨⟨h2.ne, (h2.trans h23).ne⟩, h23.ne⟩
  obtain ⟨r, hr, ha, hb⟩ := ex_weibull harg J (F := [1, 2, 3]) (C := [4]) (by simp) (by simp) h3
  obtain ⟨r', hr', ha', hb'⟩ := ex_weibull harg J (F := [30, 10, 20]) (C := [40]) (by simp) (by simp) h3'
  obtain ⟨g, hg, hgb⟩ := ex_gumbel harg J (F := [1, 2, 3].map Real.log) (C := [4].map Real.log) (by
    rw [List.toFinset_card_of_nodup hl]; simp)
  obtain ⟨e1, e2⟩ := C163_weibull_2P hr hr' ha hb ha' hb' (F := [1, 2, 3]) (C := [4]) (F' := [30, 10, 20]) (C' := [40])
    ⟨rfl, .inr rfl⟩ ⟨rfl, .inr rfl⟩ (k := 10) (by norm_num)
    (by norm_num; exact (List.perm_append_comm (l₁ := [30]) (l₂ := [10, 20]))) (by norm_num) rfl
  exact ⟨r, r', g, hr, hr', hg, e1, e2, (C162_weibull_gumbel hr hg ha hb hgb (F := [1, 2, 3]) (C := [4]) ⟨rfl, .inr rfl⟩
    ⟨rfl, .inr rfl⟩ (by rintro t (h | h) <;> simp at h <;> [(rcases h with rfl | rfl | rfl <;> norm_num); (subst h; norm_num)])
    (.refl _) (.refl _) rfl).1⟩

end Reliability.Props.UniqueFit

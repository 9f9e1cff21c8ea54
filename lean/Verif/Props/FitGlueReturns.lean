import Verif.Props.FitQuantiles

/-! # Maximum likelihood fits return (C102), and concrete cases for C99-C105 -/

namespace Reliability.Props

open Reliability Reliability.Distributions Reliability.Likelihood Reliability.InputCheck Reliability.Props.Likelihood Reliability.FunctionCI
open Reliability.Fitters (MLEOut OptResult lsOptimization mleOptimization mleForced)
open Reliability.FitGlue Reliability.Spec Reliability.Spec.InputCheck Reliability.Spec.FitGlue

theorem ex_bind {α β : Type} {x : Except Err α} {f : α → Except Err β} :
    (∃ r, (x >>= f) = .ok r) ↔ ∃ a, x = .ok a ∧ ∃ r, f a = .ok r := by
  cases x with
  | error e => simp [Bind.bind, Except.bind]
  | ok a => simp [Bind.bind, Except.bind]

theorem lsOpt_LS {P : Type} (name : String) (LL : P → ℝ) (ls : String → P) (nlls : P) :
    ∃ r, lsOptimization name LL ls nlls "LS" = .ok r := by
  unfold lsOptimization
  rw [if_neg (by decide), if_neg (by decide : ¬ "LS" ∈ ["RRX", "RRY"])]
  dsimp only
  split_ifs <;> exact ⟨_, rfl⟩

/-- If the optimisation always ends with a successful optimizer, so do the estimates. -/
theorem estimate_mle {P : Type} {name : String} {LL : P → ℝ} {num : Num P} {mle : P → Except Err (MLEOut P)}
    {method : Option String} (hme : method = some "MLE") (hm : ∀ g, ∃ n y, mle g = .ok ⟨true, some n, y⟩) :
    ∃ n y, estimate name LL num mle method (lsMethod method) = .ok (y, "Maximum Likelihood Estimation (MLE)", some n) := by
  subst hme
  have hl : lsMethod (some "MLE") = some "LS" := rfl
  rw [hl]
  obtain ⟨p, hp⟩ := lsOpt_LS name LL num.ls num.nlls
  obtain ⟨n, y, hy⟩ := hm p.1
  refine ⟨n, y, ?_⟩
  simp only [estimate, bind_ok]
  refine ⟨p, hp, ?_⟩
  rw [if_neg (by decide)]
  simp only [if_true, bind_ok]
  exact ⟨_, hy, rfl⟩

theorem orWarn_some {α : Type} (s : Option α) (n : String) : ∃ s', orWarn s (some n) = .ok s' := by
  cases s <;> exact ⟨_, rfl⟩

theorem warned_some {α : Type} (x : α) (n : String) : warned (some n) x = .ok x := rfl

theorem seExp_some (L : ℝ) (f rc : List ℝ) (n : String) : ∃ s, seExp L f rc (some n) = .ok s := by
  unfold seExp
  split
  · exact ⟨_, rfl⟩
  · exact ⟨_, rfl⟩

theorem se2_some (LL : ℝ → ℝ → ℝ) (a b : ℝ) (n : String) : ∃ s, se2 LL a b none (some n) = .ok s := by
  unfold se2
  dsimp only
  split <;> exact ⟨_, rfl⟩

theorem gof_nonneg {argsort : List ℝ → List ℕ} (harg : IsArgsort argsort) {d : Distributions.Dist} {F C : List ℝ} {n k : ℕ}
    {LL : ℝ} (hne : F ≠ []) (h0 : ∀ t ∈ F, 0 < t) (h1 : d.fam = .beta → ∀ x ∈ F, x ≤ 1) :
    ∃ g, gof argsort (CDF d) F C n k LL = .ok g :=
  gof_ok harg hne (fun _ _ t ht => (h0 t ht).le) h1

theorem mleExp2_success {LLf LLinv : ℝ × ℝ → ℝ} {bs : List (Fitters.Bound ℝ)} {num : Num (ℝ × ℝ)}
    {a : StrArg} {o : Option String} (ho : Means optimizerNames a o) (hs : ∀ ob b n p, (num.minimize ob b n p).success = true)
    (g : ℝ × ℝ) : ∃ n y, mleExp2 LLf LLinv bs num o g = .ok ⟨true, some n, y⟩ := by
  unfold mleExp2
  split_ifs
  · obtain ⟨n, y, h⟩ := mle_success (fun p => |2 * LLinv p|) (1 / g.1, g.2) ho (hs LLinv bs)
    exact ⟨n, _, by rw [h]; rfl⟩
  · exact mle_success _ _ ho (hs _ _)

/-- **C102 (Exponential, Beta, Gamma_2P).** -/
theorem C102_mle_returns_one_two_partial {argsort : List ℝ → List ℕ} (harg : IsArgsort argsort) (J : Jac) (num1 : Num ℝ) (num : Num (ℝ × ℝ))
    (hs1 : ∀ ob b n p, (num1.minimize ob b n p).success = true)
    (hs : ∀ ob b n p, (num.minimize ob b n p).success = true)
    (x : Args) (inp : Checked ℝ) (hm : inp.method = some "MLE") (hq : inp.quantiles = .none) :
    (Accepts "Exponential_1P" x.failures x.right_censored x.method x.optimizer x.CI x.quantiles none none .none inp →
      ∃ r, fitExponential1P argsort J num1 x = .ok r) ∧
    (Accepts "Exponential_2P" x.failures x.right_censored x.method x.optimizer x.CI x.quantiles none none .none inp →
      ∃ r, fitExponential2P argsort J num x = .ok r) ∧
    (Accepts "Beta_2P" x.failures x.right_censored x.method x.optimizer x.CI x.quantiles none none .none inp →
      ∃ r, fitBeta2P argsort num x = .ok r) ∧
    (Accepts "Gamma_2P" x.failures x.right_censored x.method x.optimizer x.CI x.quantiles none none x.CI_type inp →
      ∃ r, fitGamma2P argsort J num x = .ok r) := by
  refine ⟨fun h => ?_, fun h => ?_, fun h => ?_, fun h => ?_⟩
  · obtain ⟨n, y, hy⟩ := estimate_mle (name := "Exponential_1P") (num := num1) (hme := hm)
      (LL := fun L => exponential1P_LL L inp.failures inp.right_censored)
      (mle := fun g => mleOptimization (num1.minimize (fun p => exponential1P_LL p inp.failures inp.right_censored) (boundsOf "Exponential_1P" inp.failures inp.right_censored))
        (fun p => |2 * exponential1P_LL p inp.failures inp.right_censored|) g inp.optimizer)
      (fun g => mle_success _ g h.optimizer_ok (hs1 _ _))
    obtain ⟨s, hse⟩ := seExp_some y inp.failures inp.right_censored n
    obtain ⟨g, hg⟩ := gof_nonneg harg (d := exponential y 0) (C := inp.right_censored)
      (n := inp.failures.length + inp.right_censored.length) (k := 1)
      (LL := exponential1P_LL y inp.failures inp.right_censored) (failures_ne h)
      (fun t ht => usable_pos (by decide) ((usable_failures h).1 t ht)) (fun h => by cases h)
    refine ⟨⟨rowsExp y (zOf inp.CI) s, [], 0, ⟨y, 0, some (.fin (s.getD 0)), some (.fin (zOf inp.CI))⟩,
      "Maximum Likelihood Estimation (MLE)", some n, g, none⟩, ?_⟩
    simp only [fitExponential1P, bind_ok]
    exact ⟨inp, (C51_ok_iff ..).2 h, (y, "Maximum Likelihood Estimation (MLE)", some n), hy, s, hse, none, by rw [hq]; rfl, g, hg, rfl⟩
  · obtain ⟨n, y, hy⟩ := estimate_mle (name := "Exponential_2P") (num := num) (hme := hm)
      (LL := fun p => exponential2P_LL p.1 p.2 inp.failures inp.right_censored)
      (fun g => mleExp2_success (LLf := fun p => exponential2P_LL p.1 p.2 inp.failures inp.right_censored)
        (LLinv := fun p => exponential2P_LL_inv p.1 p.2 inp.failures inp.right_censored) h.optimizer_ok hs g)
    obtain ⟨s, hse⟩ := seExp_some y.1 (inp.failures.map (· - y.2)) (inp.right_censored.map (· - y.2)) n
    obtain ⟨g, hg⟩ := gof_nonneg harg (d := exponential y.1 y.2) (C := inp.right_censored)
      (n := inp.failures.length + inp.right_censored.length) (k := 2)
      (LL := exponential2P_LL y.1 y.2 inp.failures inp.right_censored) (failures_ne h)
      (fun t ht => usable_pos (by decide) ((usable_failures h).1 t ht)) (fun h => by cases h)
    refine ⟨⟨rowsExp y.1 (zOf inp.CI) s ++ [fixedRow "Gamma" y.2], [], 0,
      ⟨y.1, y.2, some (.fin (s.getD 0)), some (.fin (zOf inp.CI))⟩,
      "Maximum Likelihood Estimation (MLE)", some n, g, none⟩, ?_⟩
    simp only [fitExponential2P, bind_ok]
    exact ⟨inp, (C51_ok_iff ..).2 h, (y, "Maximum Likelihood Estimation (MLE)", some n), hy, s, hse, none, by rw [hq]; rfl, g, hg, rfl⟩
  · obtain ⟨n, y, hy⟩ := estimate_mle (name := "Beta_2P") (num := num) (hme := hm)
      (LL := fun p => beta2P_LL p.1 p.2 inp.failures inp.right_censored)
      (mle := fun g => mleOptimization (num.minimize (fun p => beta2P_LL p.1 p.2 inp.failures inp.right_censored) (boundsOf "Beta_2P" inp.failures inp.right_censored))
        (fun p => |2 * beta2P_LL p.1 p.2 inp.failures inp.right_censored|) g inp.optimizer)
      (fun g => mle_success _ g h.optimizer_ok (hs _ _))
    obtain ⟨s, hse⟩ := se2_some (fun a b => beta2P_LL a b inp.failures inp.right_censored) y.1 y.2 n
    obtain ⟨g, hg⟩ := gof_nonneg harg (d := betaDist y.1 y.2) (C := inp.right_censored)
      (n := inp.failures.length + inp.right_censored.length) (k := 2)
      (LL := beta2P_LL y.1 y.2 inp.failures inp.right_censored) (failures_ne h)
      (fun t ht => usable_pos (by decide) ((usable_failures h).1 t ht)) (fun _ t ht => by
        rcases (usable_failures h).1 t ht with h | h
        · exact absurd h (by decide)
        · exact (h.2 rfl).le)
    simp only [fitBeta2P, ex_bind]
    exact ⟨inp, (C51_ok_iff ..).2 h, (y, "Maximum Likelihood Estimation (MLE)", some n), hy, s, hse, none, by rw [hq]; rfl, g, hg, _, rfl⟩
  · obtain ⟨n, y, hy⟩ := estimate_mle (name := "Gamma_2P") (num := num) (hme := hm)
      (LL := fun p => gamma_LL_ab p.1 p.2 0 inp.failures inp.right_censored)
      (mle := fun g => mleOptimization (num.minimize (fun p => gamma_LL_ab p.1 p.2 0 inp.failures inp.right_censored) (boundsOf "Gamma_2P" inp.failures inp.right_censored))
        (fun p => |2 * gamma_LL_ab p.1 p.2 0 inp.failures inp.right_censored|) g inp.optimizer)
      (fun g => mle_success _ g h.optimizer_ok (hs _ _))
    obtain ⟨s, hse⟩ := orWarn_some (seGamma y.1 (Real.log y.1) y.2 inp.failures inp.right_censored) n
    obtain ⟨g, hg⟩ := gof_nonneg harg
      (d := (Fitted.two (two .gamma (Real.log y.1) y.2 0 inp.CI (s.map fun s => (s.2.2.2.1, s.2.1, s.2.2.2.2)))).dist)
      (C := inp.right_censored) (n := inp.failures.length + inp.right_censored.length) (k := 2)
      (LL := gamma_LL_ab y.1 y.2 0 inp.failures inp.right_censored) (failures_ne h)
      (fun t ht => usable_pos (by decide) ((usable_failures h).1 t ht)) (fun h => absurd h (distOf_not_beta _ _ _ _))
    have hls : lsMethod inp.method = some "LS" := by rw [hm]; rfl
    simp only [fitGamma2P, ex_bind]
    exact ⟨inp, (C51_ok_iff ..).2 h, (y, "Maximum Likelihood Estimation (MLE)", some n), hls ▸ hy, s, hse, none, by rw [hq]; rfl, g, hg, _, rfl⟩

theorem fit3_succeeds {F : Fam3} {argsort : List ℝ → List ℕ} (harg : IsArgsort argsort) {J : Jac}
    {num : Num (ℝ × ℝ × ℝ)} {fallback : Args → Except Err (FitRes Two)} {inp : Checked ℝ} {oa : StrArg}
    (hm : inp.method = some "MLE") (ho : Means optimizerNames oa inp.optimizer) (hq : inp.quantiles = .none)
    (hne : inp.failures ≠ []) (hf : ∀ t ∈ inp.failures, 0 < t) (hs : ∀ ob b n p, (num.minimize ob b n p).success = true)
    (hfb : ∃ r, fallback (Args.mk (.array inp.failures) (.array inp.right_censored) (.float inp.CI) .none (.str "time") (.str "MLE") .none none) = .ok r) :
    ∃ r, fit3 F argsort J num fallback inp = .ok r := by
  obtain ⟨n, y, hy⟩ := estimate_mle (name := F.name) (num := num) (hme := hm)
    (LL := fun p => F.LL p.1 p.2.1 p.2.2 inp.failures inp.right_censored)
    (mle := fun g => mleOptimization (num.minimize (fun p => F.LL p.1 p.2.1 p.2.2 inp.failures inp.right_censored) (boundsOf F.name inp.failures inp.right_censored))
        (fun p => |2 * F.LL p.1 p.2.1 p.2.2 inp.failures inp.right_censored|) g inp.optimizer)
      (fun g => mle_success _ g ho (hs _ _))
  by_cases hγ : y.2.2 < 0.01
  · obtain ⟨r2, hr2⟩ := hfb
    obtain ⟨g, hg⟩ := gof_nonneg harg (d := (Fitted.two { r2.dist with Z := some (.fin (zOf inp.CI)) }).dist)
      (C := inp.right_censored) (n := inp.failures.length + inp.right_censored.length) (k := 3)
      (LL := F.LL r2.dist.a r2.dist.b 0 inp.failures inp.right_censored) hne hf
      (fun h => absurd h (distOf_not_beta _ _ _ _))
    simp only [fit3, ex_bind]
    refine ⟨(y, "Maximum Likelihood Estimation (MLE)", some n), hy, ?_⟩
    rw [if_pos hγ]
    simp only [ex_bind]
    exact ⟨r2, hr2, none, by rw [hq]; rfl, g, hg, _, rfl⟩
  · obtain ⟨s, hse⟩ := orWarn_some (se3 F y.1 y.2.1 y.2.2 inp.failures inp.right_censored) n
    obtain ⟨g, hg⟩ := gof_nonneg harg
      (d := (Fitted.two (two F.F2.cfam y.1 y.2.1 y.2.2 inp.CI (s.map fun s => (s.1, s.2.1, s.2.2.1)))).dist)
      (C := inp.right_censored) (n := inp.failures.length + inp.right_censored.length) (k := 3)
      (LL := F.LL y.1 y.2.1 y.2.2 inp.failures inp.right_censored) hne hf
      (fun h => absurd h (distOf_not_beta _ _ _ _))
    simp only [fit3, ex_bind]
    refine ⟨(y, "Maximum Likelihood Estimation (MLE)", some n), hy, ?_⟩
    rw [if_neg hγ]
    simp only [ex_bind]
    exact ⟨s, hse, none, by rw [hq]; rfl, g, hg, _, rfl⟩

/-- The checked input of a two-parameter class called by the three-parameter class. -/
theorem fallback_accepts {d2 d3 : String} {x : Args} {ct : StrArg} {inp : Checked ℝ}
    (h : Accepts d3 x.failures x.right_censored x.method x.optimizer x.CI x.quantiles none none ct inp)
    (hd : (d2, d3) ∈ [("Weibull_2P", "Weibull_3P"), ("Lognormal_2P", "Lognormal_3P"), ("Loglogistic_2P", "Loglogistic_3P"),
      ("Gamma_2P", "Gamma_3P")]) :
    Accepts d2 (.array inp.failures) (.array inp.right_censored) (.str "MLE") .none (.float inp.CI) .none none none
      (.str "time") ⟨inp.failures, inp.right_censored, inp.CI, some "MLE", none, .none, none, none, some "time"⟩ := by
  obtain ⟨u1, u2⟩ := usable_failures h
  have hd' : ¬ RealLine d3 ∧ d3 ≠ "Beta_2P" ∧ d2 ∈ ["Everything", "Weibull_2P", "Weibull_3P", "Gamma_2P", "Gamma_3P", "Exponential_1P",
      "Exponential_2P", "Gumbel_2P", "Normal_2P", "Lognormal_2P", "Lognormal_3P", "Loglogistic_2P", "Loglogistic_3P",
      "Beta_2P", "Weibull_Mixture", "Weibull_CR", "Weibull_DSZI", "Weibull_DS", "Weibull_ZI"] ∧ d2 ≠ "Beta_2P" ∧
      required d2 false ≤ required d3 false := by
    revert hd; simp only [List.mem_cons, Prod.mk.injEq, List.not_mem_nil, or_false]
    rintro (⟨rfl, rfl⟩ | ⟨rfl, rfl⟩ | ⟨rfl, rfl⟩ | ⟨rfl, rfl⟩) <;> decide
  obtain ⟨e1, e2, e3, e4, e5⟩ := hd'
  have hpos : ∀ t : ℝ, Usable d3 t → 0 < t := fun t ht => usable_pos e1 ht
  have hu : ∀ t : ℝ, Usable d3 t → Usable d2 t := fun t ht => .inr ⟨hpos t ht, fun hb => absurd hb e4⟩
  refine ⟨e3, ⟨_, _, rfl, .inr rfl, ?_, ?_, ?_, ?_⟩, ⟨rfl, h.ci.2⟩, .inl ⟨rfl, rfl⟩, ?_, .inl ⟨rfl, rfl⟩, ⟨rfl, by simp⟩,
    ⟨rfl, by simp⟩, ?_, ?_⟩
  · exact fun t ht => .inr ⟨(hpos t (u1 t ht)).le, fun hb => absurd hb e4⟩
  · exact fun t ht => .inr ⟨(hpos t (u2 t ht)).le, fun hb => absurd hb e4⟩
  · symm; rw [List.filter_eq_self]; exact fun t ht => decide_eq_true (hu t (u1 t ht))
  · symm; rw [List.filter_eq_self]; exact fun t ht => decide_eq_true (hu t (u2 t ht))
  · exact .inr ⟨"MLE", "MLE", ["MLE", "ML", "MAXIMUM LIKELIHOOD ESTIMATION", "MAXIMUM LIKELIHOOD", "MAX LIKELIHOOD"], rfl,
      rfl, by simp [methodNames], by decide +kernel⟩
  · exact e5.trans h.enough
  · exact .inr ⟨"time", "time", ["T", "TIME"], rfl, rfl, by simp [ciTypeNames], by decide +kernel⟩

/-- **C102 (three-parameter fits).** -/
theorem C102_mle_returns_three_partial {argsort : List ℝ → List ℕ} (harg : IsArgsort argsort) (J : Jac) (num2 : Option ℝ → Num2)
    (numG : Num (ℝ × ℝ)) (num : Num (ℝ × ℝ × ℝ))
    (hs2 : ∀ fo ob b n p, ((num2 fo).minimize ob b n p).success = true) (hs21 : ∀ fo ob b n p, ((num2 fo).minimize1 ob b n p).success = true)
    (hsG : ∀ ob b n p, (numG.minimize ob b n p).success = true) (hs : ∀ ob b n p, (num.minimize ob b n p).success = true)
    (x : Args) (inp : Checked ℝ) (hm : inp.method = some "MLE") (hq : inp.quantiles = .none) :
    (Accepts "Weibull_3P" x.failures x.right_censored x.method x.optimizer x.CI x.quantiles none none x.CI_type inp →
      ∃ r, fitWeibull3P argsort J num num2 x = .ok r) ∧
    (Accepts "Lognormal_3P" x.failures x.right_censored x.method x.optimizer x.CI x.quantiles none none x.CI_type inp →
      ∃ r, fitLognormal3P argsort J num num2 x = .ok r) ∧
    (Accepts "Loglogistic_3P" x.failures x.right_censored x.method x.optimizer x.CI x.quantiles none none x.CI_type inp →
      ∃ r, fitLoglogistic3P argsort J num num2 x = .ok r) ∧
    (Accepts "Gamma_3P" x.failures x.right_censored x.method x.optimizer x.CI x.quantiles none none x.CI_type inp →
      ∃ r, fitGamma3P argsort J num numG x = .ok r) := by
  have hret := fun x => C102_mle_returns_partial harg J num2 hs2 hs21 x
    ⟨inp.failures, inp.right_censored, inp.CI, some "MLE", none, .none, none, none, some "time"⟩ rfl rfl
  refine ⟨fun h => ?_, fun h => ?_, fun h => ?_, fun h => ?_⟩
  · obtain ⟨r, hr⟩ := fit3_succeeds (F := weibull3) harg (J := J) (fallback := fitWeibull2P argsort J num2) hm h.optimizer_ok hq
      (failures_ne h) (fun t ht => usable_pos (by decide) ((usable_failures h).1 t ht)) hs
      ((hret _).1 (fallback_accepts (d2 := "Weibull_2P") h (by decide)))
    exact ⟨r, by simp only [fitWeibull3P, bind_ok]; exact ⟨inp, (C51_ok_iff ..).2 h, hr⟩⟩
  · obtain ⟨r, hr⟩ := fit3_succeeds (F := lognormal3) harg (J := J) (fallback := fitLognormal2P argsort J num2) hm h.optimizer_ok
      hq (failures_ne h) (fun t ht => usable_pos (by decide) ((usable_failures h).1 t ht)) hs
      ((hret _).2.2.1 (fallback_accepts (d2 := "Lognormal_2P") h (by decide)))
    exact ⟨r, by simp only [fitLognormal3P, bind_ok]; exact ⟨inp, (C51_ok_iff ..).2 h, hr⟩⟩
  · obtain ⟨r, hr⟩ := fit3_succeeds (F := loglogistic3) harg (J := J) (fallback := fitLoglogistic2P argsort J num2) hm
      h.optimizer_ok hq (failures_ne h) (fun t ht => usable_pos (by decide) ((usable_failures h).1 t ht)) hs
      ((hret _).2.2.2.2 (fallback_accepts (d2 := "Loglogistic_2P") h (by decide)))
    exact ⟨r, by simp only [fitLoglogistic3P, bind_ok]; exact ⟨inp, (C51_ok_iff ..).2 h, hr⟩⟩
  · have hpos : ∀ t ∈ inp.failures, 0 < t := fun t ht => usable_pos (by decide) ((usable_failures h).1 t ht)
    obtain ⟨n, y, hy⟩ := estimate_mle (name := "Gamma_3P") (num := num) (hme := hm)
      (LL := fun p => gamma_LL_ab p.1 p.2.1 p.2.2 inp.failures inp.right_censored)
      (mle := fun g => mleOptimization (num.minimize (fun p => gamma_LL_ab p.1 p.2.1 p.2.2 inp.failures inp.right_censored) (boundsOf "Gamma_3P" inp.failures inp.right_censored))
        (fun p => |2 * gamma_LL_ab p.1 p.2.1 p.2.2 inp.failures inp.right_censored|) g inp.optimizer)
      (fun g => mle_success _ g h.optimizer_ok (hs _ _))
    by_cases hγ : y.2.2 < 0.01
    · obtain ⟨r2, hr2⟩ := (C102_mle_returns_one_two_partial harg J ⟨fun _ => 0, 0, fun _ _ _ p => ⟨true, p⟩⟩ numG
        (by intros; rfl) hsG
        { failures := .array inp.failures, right_censored := .array inp.right_censored, CI := .float inp.CI }
        ⟨inp.failures, inp.right_censored, inp.CI, some "MLE", none, .none, none, none, some "time"⟩ rfl rfl).2.2.2
        (fallback_accepts (d2 := "Gamma_2P") h (by decide))
      obtain ⟨g, hg⟩ := gof_nonneg harg (d := (Fitted.two { r2.dist with Z := some (.fin (zOf inp.CI)) }).dist)
        (C := inp.right_censored) (n := inp.failures.length + inp.right_censored.length) (k := 3)
        (LL := gamma_LL_ab (firstPoint r2.rows) r2.dist.b 0 inp.failures inp.right_censored) (failures_ne h) hpos
        (fun h => absurd h (distOf_not_beta _ _ _ _))
      simp only [fitGamma3P, ex_bind]
      refine ⟨inp, (C51_ok_iff ..).2 h, (y, "Maximum Likelihood Estimation (MLE)", some n), hy, ?_⟩
      rw [if_pos hγ]
      simp only [ex_bind]
      exact ⟨r2, hr2, none, by rw [hq]; rfl, g, hg, _, rfl⟩
    · obtain ⟨s, hse⟩ := orWarn_some (seGamma3 y.1 (Real.log y.1) y.2.1 y.2.2 inp.failures inp.right_censored) n
      obtain ⟨g, hg⟩ := gof_nonneg harg
        (d := (Fitted.two (two .gamma (Real.log y.1) y.2.1 y.2.2 inp.CI
          (s.map fun s => (s.2.2.2.1, s.2.1, s.2.2.2.2.1)))).dist)
        (C := inp.right_censored) (n := inp.failures.length + inp.right_censored.length) (k := 3)
        (LL := gamma_LL_ab y.1 y.2.1 y.2.2 inp.failures inp.right_censored) (failures_ne h) hpos
        (fun h => absurd h (distOf_not_beta _ _ _ _))
      simp only [fitGamma3P, ex_bind]
      refine ⟨inp, (C51_ok_iff ..).2 h, (y, "Maximum Likelihood Estimation (MLE)", some n), hy, ?_⟩
      rw [if_neg hγ]
      simp only [ex_bind]
      exact ⟨s, hse, none, by rw [hq]; rfl, g, hg, _, rfl⟩

end Reliability.Props

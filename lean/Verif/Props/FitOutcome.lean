import Verif.Props.FitGlueReturns
import Verif.Props.ALTGlueReturns

/-! # C102, C111: a fit of accepted data returns or ends in TypeError, whatever the numerical routines answer -/

namespace Reliability.Props.FitOutcome

open Reliability Reliability.Distributions Reliability.Likelihood Reliability.InputCheck Reliability.Props.Likelihood Reliability.FunctionCI
open Reliability.Fitters (MLEOut OptResult lsOptimization mleOptimization mleForced)
open Reliability.FitGlue Reliability.Spec Reliability.Spec.InputCheck Reliability.Spec.FitGlue
open Reliability.Props

/-- The call returns, or raises TypeError. -/
def Outcome {α : Type} (x : Except Err α) : Prop := (∃ r, x = .ok r) ∨ x = .error .typeError

theorem Outcome.ok {α : Type} (a : α) : Outcome (.ok a : Except Err α) := .inl ⟨a, rfl⟩

theorem Outcome.of_ok {α : Type} {x : Except Err α} (h : ∃ r, x = .ok r) : Outcome x := .inl h

theorem Outcome.bind {α β : Type} {x : Except Err α} {f : α → Except Err β} (h : Outcome x)
    (hf : ∀ a, x = .ok a → Outcome (f a)) : Outcome (x >>= f) := by
  rcases h with ⟨a, rfl⟩ | rfl
  · exact hf a rfl
  · exact .inr rfl

theorem warned_outcome {α : Type} (o : Option String) (a : α) : Outcome (warned o a) := by
  cases o
  · exact .inr rfl
  · exact .ok _

theorem orWarn_outcome {α : Type} (s : Option α) (o : Option String) : Outcome (orWarn s o) := by
  cases s
  · exact warned_outcome _ _
  · exact .ok _

theorem se2_outcome (LL : ℝ → ℝ → ℝ) (a b : ℝ) (force : Option ℝ) (o : Option String) : Outcome (se2 LL a b force o) := by
  unfold se2
  cases force <;> dsimp only <;> split <;> first | exact .ok _ | exact warned_outcome _ _

theorem seExp_outcome (L : ℝ) (f rc : List ℝ) (o : Option String) : Outcome (seExp L f rc o) := by
  unfold seExp
  split
  · exact .ok _
  · exact warned_outcome _ _

theorem mle_returns {P : Type} (minimize : String → P → OptResult P) (obj : P → ℝ) (g : P) {a : StrArg}
    {o : Option String} (ho : Means optimizerNames a o) : ∃ r, mleOptimization minimize obj g o = .ok r := by
  obtain ⟨os, stop, h, -⟩ := optimizers_accepted ho
  unfold mleOptimization
  rw [h]
  dsimp only
  split <;> exact ⟨_, rfl⟩

theorem mle2_returns (LL : ℝ → ℝ → ℝ) (bs : List (Fitters.Bound ℝ)) (num : Num2) {a : StrArg} {o : Option String}
    (ho : Means optimizerNames a o) (force : Option ℝ) (g : ℝ × ℝ) : ∃ r, mle2 LL bs num o force g = .ok r := by
  cases force with
  | none => exact mle_returns _ _ _ ho
  | some s =>
    obtain ⟨r, h⟩ := mle_returns (num.minimize1 (fun a => LL a s) (bs.take 1)) (fun a => |2 * LL a s|) g.1 ho
    exact ⟨⟨r.success, r.optimizer, (r.params, s)⟩, by simp only [mle2, mleForced, h]⟩

theorem mleExp2_returns (LLf LLinv : ℝ × ℝ → ℝ) (bs : List (Fitters.Bound ℝ)) (num : Num (ℝ × ℝ)) {a : StrArg}
    {o : Option String} (ho : Means optimizerNames a o) (g : ℝ × ℝ) : ∃ r, mleExp2 LLf LLinv bs num o g = .ok r := by
  unfold mleExp2
  split_ifs
  · obtain ⟨r, h⟩ := mle_returns (num.minimize LLinv bs) (fun p => |2 * LLinv p|) (1 / g.1, g.2) ho
    exact ⟨_, by rw [h]; rfl⟩
  · exact mle_returns _ _ _ ho

/-- The methods that the input check accepts, other than None. -/
theorem methods {a : StrArg} {m : Option String} (h : Means methodNames a m) (hn : m ≠ none) :
    m = some "MLE" ∨ m = some "LS" ∨ m = some "RRX" ∨ m = some "RRY" := by
  rcases h with ⟨-, rfl⟩ | ⟨s, c, sp, -, rfl, hm, -⟩
  · exact absurd rfl hn
  · simp only [methodNames, List.mem_cons, Prod.mk.injEq, List.not_mem_nil, or_false] at hm
    rcases hm with ⟨rfl, -⟩ | ⟨rfl, -⟩ | ⟨rfl, -⟩ | ⟨rfl, -⟩ <;> simp

theorem ls_returns {P : Type} (name : String) (LL : P → ℝ) (ls : String → P) (nlls : P) {m : String}
    (hm : m ∈ ["RRX", "RRY", "LS"]) : ∃ r, lsOptimization name LL ls nlls m = .ok r := by
  have : m ∈ ["RRX", "RRY", "LS", "NLLS"] := by
    simp only [List.mem_cons, List.not_mem_nil, or_false] at hm ⊢
    tauto
  unfold lsOptimization
  rw [if_neg (not_not.2 this)]
  dsimp only
  split_ifs <;> exact ⟨_, rfl⟩

theorem estimate_returns {P : Type} (name : String) (LL : P → ℝ) (num : Num P) {mle : P → Except Err (MLEOut P)}
    {a : StrArg} {method : Option String} (h : Means methodNames a method) (hn : method ≠ none)
    (hm : ∀ g, ∃ r, mle g = .ok r) {lsArg : Option String} (hl : lsArg = lsMethod method ∨ lsArg = some "LS") :
    ∃ r, estimate name LL num mle method lsArg = .ok r := by
  have hls : ∃ m ∈ ["RRX", "RRY", "LS"], lsArg = some m := by
    rcases hl with rfl | rfl
    · rcases methods h hn with rfl | rfl | rfl | rfl
      · exact ⟨"LS", by simp, rfl⟩
      · exact ⟨"LS", by simp, rfl⟩
      · exact ⟨"RRX", by simp, rfl⟩
      · exact ⟨"RRY", by simp, rfl⟩
    · exact ⟨"LS", by simp, rfl⟩
  obtain ⟨m, hm1, rfl⟩ := hls
  obtain ⟨p, hp⟩ := ls_returns name LL num.ls num.nlls hm1
  obtain ⟨o, ho⟩ := hm p.1
  unfold estimate
  dsimp only
  rw [ex_bind]
  refine ⟨p, hp, ?_⟩
  rcases methods h hn with rfl | rfl | rfl | rfl
  · rw [if_neg (by decide), if_pos rfl, ex_bind]
    exact ⟨o, ho, _, rfl⟩
  · rw [if_pos (by decide)]; exact ⟨_, rfl⟩
  · rw [if_pos (by decide)]; exact ⟨_, rfl⟩
  · rw [if_pos (by decide)]; exact ⟨_, rfl⟩

theorem no_quantiles (J : Jac) (d : Fitted) (CI : ℝ) {q : QArg ℝ} (h : q = .none) : ∃ r, quantileTable J d CI q = .ok r := by
  subst h; exact ⟨_, rfl⟩

theorem fit2_outcome {F : Fam2} {argsort : List ℝ → List ℕ} (harg : IsArgsort argsort) {J : Jac}
    {num : Option ℝ → Num2} {inp : Checked ℝ} {force : Option ℝ} {ma oa : StrArg} (hm : Means methodNames ma inp.method)
    (hn : inp.method ≠ none) (ho : Means optimizerNames oa inp.optimizer) (hq : inp.quantiles = .none)
    (hne : inp.failures ≠ []) (hf : ∀ t ∈ inp.failures, InSupport F.cfam 0 t) : Outcome (fit2 F argsort J num inp force) := by
  unfold fit2
  refine (Outcome.of_ok (estimate_returns _ _ _ hm hn (mle2_returns _ _ _ ho _) (.inl rfl))).bind fun e _ => ?_
  refine (se2_outcome _ _ _ _ _).bind fun s _ => ?_
  refine (Outcome.of_ok (no_quantiles _ _ _ hq)).bind fun q _ => ?_
  refine (Outcome.of_ok (gof_ok harg hne ?_ ?_)).bind fun g _ => .ok _
  · intro h0 h1 t ht
    obtain ⟨h2, h3⟩ := distOf_fam _ _ _ _ h0 h1
    exact (inSupport_pos h2 h3 (hf t ht)).le
  · exact fun h => absurd h (distOf_not_beta _ _ _ _)

theorem checked {dist : String} {f c : DataArg ℝ} {m o : StrArg} {CI : CIArg ℝ} {q : QArg ℝ} {fb fs : Option ℝ} {ct : StrArg}
    {inp : Checked ℝ} (h : Accepts dist f c m o CI q fb fs ct inp) {β : Type} {k : Checked ℝ → Except Err β}
    (hk : Outcome (k inp)) : Outcome (fittersCheck dist f c m o CI q fb fs ct >>= k) := by
  rw [(C51_ok_iff ..).2 h]
  exact hk

/-- **C102 (two parameters).** Accepted data, a method, no quantiles: whatever scipy's routines answer, the class returns or
raises TypeError (it raises only where it wants to warn that the information matrix is singular and has no optimizer to
name, `C102_singular_finding`). -/
theorem C102_outcome_two_parameter {argsort : List ℝ → List ℕ} (harg : IsArgsort argsort) (J : Jac) (num : Option ℝ → Num2)
    (x : Args) (inp : Checked ℝ) (hm : inp.method ≠ none) (hq : inp.quantiles = .none) :
    (Accepts "Weibull_2P" x.failures x.right_censored x.method x.optimizer x.CI x.quantiles x.force none x.CI_type inp →
      Outcome (fitWeibull2P argsort J num x)) ∧
    (Accepts "Normal_2P" x.failures x.right_censored x.method x.optimizer x.CI x.quantiles none x.force x.CI_type inp →
      Outcome (fitNormal2P argsort J num x)) ∧
    (Accepts "Lognormal_2P" x.failures x.right_censored x.method x.optimizer x.CI x.quantiles none x.force x.CI_type inp →
      Outcome (fitLognormal2P argsort J num x)) ∧
    (Accepts "Gumbel_2P" x.failures x.right_censored x.method x.optimizer x.CI x.quantiles none none x.CI_type inp →
      Outcome (fitGumbel2P argsort J num x)) ∧
    (Accepts "Loglogistic_2P" x.failures x.right_censored x.method x.optimizer x.CI x.quantiles none none x.CI_type inp →
      Outcome (fitLoglogistic2P argsort J num x)) := by
  have pos : ∀ {dist : String}, ¬ RealLine dist → ∀ t : ℝ, Usable dist t → 0 < t := fun hd t ht => usable_pos hd ht
  refine ⟨fun h => ?_, fun h => ?_, fun h => ?_, fun h => ?_, fun h => ?_⟩
  · exact checked h (fit2_outcome harg h.method_ok hm h.optimizer_ok hq (failures_ne h)
      fun t ht => pos (by decide) t ((usable_failures h).1 t ht))
  · exact checked h (fit2_outcome harg h.method_ok hm h.optimizer_ok hq (failures_ne h) fun t ht => trivial)
  · exact checked h (fit2_outcome harg h.method_ok hm h.optimizer_ok hq (failures_ne h)
      fun t ht => pos (by decide) t ((usable_failures h).1 t ht))
  · exact checked h (fit2_outcome harg h.method_ok hm h.optimizer_ok hq (failures_ne h) fun t ht => trivial)
  · exact checked h (fit2_outcome harg h.method_ok hm h.optimizer_ok hq (failures_ne h)
      fun t ht => pos (by decide) t ((usable_failures h).1 t ht))

theorem no_quantiles_beta (d : Distributions.Dist) {q : QArg ℝ} (h : q = .none) : ∃ r, quantileTableBeta d q = .ok r := by
  subst h; exact ⟨_, rfl⟩

/-- **C102 (Exponential, Beta, Gamma_2P).** The same. -/
theorem C102_outcome_one_two {argsort : List ℝ → List ℕ} (harg : IsArgsort argsort) (J : Jac) (num1 : Num ℝ) (num : Num (ℝ × ℝ))
    (x : Args) (inp : Checked ℝ) (hm : inp.method ≠ none) (hq : inp.quantiles = .none) :
    (Accepts "Exponential_1P" x.failures x.right_censored x.method x.optimizer x.CI x.quantiles none none .none inp →
      Outcome (fitExponential1P argsort J num1 x)) ∧
    (Accepts "Exponential_2P" x.failures x.right_censored x.method x.optimizer x.CI x.quantiles none none .none inp →
      Outcome (fitExponential2P argsort J num x)) ∧
    (Accepts "Beta_2P" x.failures x.right_censored x.method x.optimizer x.CI x.quantiles none none .none inp →
      Outcome (fitBeta2P argsort num x)) ∧
    (Accepts "Gamma_2P" x.failures x.right_censored x.method x.optimizer x.CI x.quantiles none none x.CI_type inp →
      Outcome (fitGamma2P argsort J num x)) := by
  refine ⟨fun h => checked h ?_, fun h => checked h ?_, fun h => checked h ?_, fun h => checked h ?_⟩
  · refine (Outcome.of_ok (estimate_returns _ _ _ h.method_ok hm (fun g => mle_returns _ _ _ h.optimizer_ok)
      (.inl rfl))).bind fun e _ => ?_
    refine (seExp_outcome _ _ _ _).bind fun s _ => ?_
    refine (Outcome.of_ok (no_quantiles _ _ _ hq)).bind fun q _ => ?_
    exact (Outcome.of_ok (gof_nonneg harg (failures_ne h) (fun t ht => usable_pos (by decide) ((usable_failures h).1 t ht))
      (fun h => by cases h))).bind fun g _ => .ok _
  · refine (Outcome.of_ok (estimate_returns _ _ _ h.method_ok hm (mleExp2_returns _ _ _ _ h.optimizer_ok)
      (.inl rfl))).bind fun e _ => ?_
    refine (seExp_outcome _ _ _ _).bind fun s _ => ?_
    refine (Outcome.of_ok (no_quantiles _ _ _ hq)).bind fun q _ => ?_
    exact (Outcome.of_ok (gof_nonneg harg (failures_ne h) (fun t ht => usable_pos (by decide) ((usable_failures h).1 t ht))
      (fun h => by cases h))).bind fun g _ => .ok _
  · refine (Outcome.of_ok (estimate_returns _ _ _ h.method_ok hm (fun g => mle_returns _ _ _ h.optimizer_ok)
      (.inl rfl))).bind fun e _ => ?_
    refine (se2_outcome _ _ _ _ _).bind fun s _ => ?_
    refine (Outcome.of_ok (no_quantiles_beta _ hq)).bind fun q _ => ?_
    exact (Outcome.of_ok (gof_nonneg harg (failures_ne h) (fun t ht => usable_pos (by decide) ((usable_failures h).1 t ht))
      (fun _ t ht => by
        rcases (usable_failures h).1 t ht with h | h
        · exact absurd h (by decide)
        · exact (h.2 rfl).le))).bind fun g _ => .ok _
  · refine (Outcome.of_ok (estimate_returns _ _ _ h.method_ok hm (fun g => mle_returns _ _ _ h.optimizer_ok)
      (.inr rfl))).bind fun e _ => ?_
    refine (orWarn_outcome _ _).bind fun s _ => ?_
    refine (Outcome.of_ok (no_quantiles _ _ _ hq)).bind fun q _ => ?_
    exact (Outcome.of_ok (gof_nonneg harg (failures_ne h) (fun t ht => usable_pos (by decide) ((usable_failures h).1 t ht))
      (fun h => absurd h (distOf_not_beta _ _ _ _)))).bind fun g _ => .ok _

theorem fit3_outcome {F : Fam3} {argsort : List ℝ → List ℕ} (harg : IsArgsort argsort) {J : Jac}
    {num : Num (ℝ × ℝ × ℝ)} {fallback : Args → Except Err (FitRes Two)} {inp : Checked ℝ} {ma oa : StrArg}
    (hm : Means methodNames ma inp.method) (hn : inp.method ≠ none) (ho : Means optimizerNames oa inp.optimizer)
    (hq : inp.quantiles = .none) (hne : inp.failures ≠ []) (hf : ∀ t ∈ inp.failures, 0 < t)
    (hfb : Outcome (fallback { failures := .array inp.failures, right_censored := .array inp.right_censored, CI := .float inp.CI })) :
    Outcome (fit3 F argsort J num fallback inp) := by
  unfold fit3
  refine (Outcome.of_ok (estimate_returns _ _ _ hm hn (fun g => mle_returns _ _ _ ho) (.inl rfl))).bind fun e _ => ?_
  dsimp only
  split_ifs
  · refine hfb.bind fun r _ => ?_
    refine (Outcome.of_ok (no_quantiles _ _ _ hq)).bind fun q _ => ?_
    exact (Outcome.of_ok (gof_nonneg harg hne hf (fun h => absurd h (distOf_not_beta _ _ _ _)))).bind fun g _ => .ok _
  · refine (orWarn_outcome _ _).bind fun s _ => ?_
    refine (Outcome.of_ok (no_quantiles _ _ _ hq)).bind fun q _ => ?_
    exact (Outcome.of_ok (gof_nonneg harg hne hf (fun h => absurd h (distOf_not_beta _ _ _ _)))).bind fun g _ => .ok _

/-- **C102 (three parameters).** The same. -/
theorem C102_outcome_three_parameter {argsort : List ℝ → List ℕ} (harg : IsArgsort argsort) (J : Jac) (num2 : Option ℝ → Num2)
    (numG : Num (ℝ × ℝ)) (num : Num (ℝ × ℝ × ℝ)) (x : Args) (inp : Checked ℝ) (hm : inp.method ≠ none)
    (hq : inp.quantiles = .none) :
    (Accepts "Weibull_3P" x.failures x.right_censored x.method x.optimizer x.CI x.quantiles none none x.CI_type inp →
      Outcome (fitWeibull3P argsort J num num2 x)) ∧
    (Accepts "Lognormal_3P" x.failures x.right_censored x.method x.optimizer x.CI x.quantiles none none x.CI_type inp →
      Outcome (fitLognormal3P argsort J num num2 x)) ∧
    (Accepts "Loglogistic_3P" x.failures x.right_censored x.method x.optimizer x.CI x.quantiles none none x.CI_type inp →
      Outcome (fitLoglogistic3P argsort J num num2 x)) ∧
    (Accepts "Gamma_3P" x.failures x.right_censored x.method x.optimizer x.CI x.quantiles none none x.CI_type inp →
      Outcome (fitGamma3P argsort J num numG x)) := by
  have hret := fun x => C102_outcome_two_parameter harg J num2 x
    ⟨inp.failures, inp.right_censored, inp.CI, some "MLE", none, .none, none, none, some "time"⟩ (by simp) rfl
  refine ⟨fun h => checked h ?_, fun h => checked h ?_, fun h => checked h ?_, fun h => checked h ?_⟩
  · exact fit3_outcome harg h.method_ok hm h.optimizer_ok hq (failures_ne h)
      (fun t ht => usable_pos (by decide) ((usable_failures h).1 t ht))
      ((hret _).1 (fallback_accepts (d2 := "Weibull_2P") h (by decide)))
  · exact fit3_outcome harg h.method_ok hm h.optimizer_ok hq (failures_ne h)
      (fun t ht => usable_pos (by decide) ((usable_failures h).1 t ht))
      ((hret _).2.2.1 (fallback_accepts (d2 := "Lognormal_2P") h (by decide)))
  · exact fit3_outcome harg h.method_ok hm h.optimizer_ok hq (failures_ne h)
      (fun t ht => usable_pos (by decide) ((usable_failures h).1 t ht))
      ((hret _).2.2.2.2 (fallback_accepts (d2 := "Loglogistic_2P") h (by decide)))
  · have hpos : ∀ t ∈ inp.failures, 0 < t := fun t ht => usable_pos (by decide) ((usable_failures h).1 t ht)
    refine (Outcome.of_ok (estimate_returns _ _ _ h.method_ok hm (fun g => mle_returns _ _ _ h.optimizer_ok)
      (.inl rfl))).bind fun e _ => ?_
    dsimp only
    split_ifs
    · refine ((C102_outcome_one_two harg J ⟨fun _ => 0, 0, fun _ _ _ p => ⟨true, p⟩⟩ numG
        { failures := .array inp.failures, right_censored := .array inp.right_censored, CI := .float inp.CI }
        ⟨inp.failures, inp.right_censored, inp.CI, some "MLE", none, .none, none, none, some "time"⟩ (by simp) rfl).2.2.2
        (fallback_accepts (d2 := "Gamma_2P") h (by decide))).bind fun r _ => ?_
      refine (Outcome.of_ok (no_quantiles _ _ _ hq)).bind fun q _ => ?_
      exact (Outcome.of_ok (gof_nonneg harg (failures_ne h) hpos (fun h => absurd h (distOf_not_beta _ _ _ _)))).bind
        fun g _ => .ok _
    · refine (orWarn_outcome _ _).bind fun s _ => ?_
      refine (Outcome.of_ok (no_quantiles _ _ _ hq)).bind fun q _ => ?_
      exact (Outcome.of_ok (gof_nonneg harg (failures_ne h) hpos (fun h => absurd h (distOf_not_beta _ _ _ _)))).bind
        fun g _ => .ok _

/-! ## Accelerated life tests -/

open Reliability.ALT Reliability.ALTGlue
open Reliability.ALTLeastSquares (altLeastSquares altBounds)
open Reliability.Spec.ALTGlue Reliability.Props.ALTGlue
open Reliability.Fitters (Bound)

theorem groupFit_outcome {dist : String} {argsort : List ℝ → List ℕ} (harg : IsArgsort argsort) (J : Jac)
    (num : Option ℝ → Num2) (f : List ℝ) (rc : Option (List ℝ)) (hf : ∀ t ∈ f, 0 < t)
    (hrc : ∀ l, rc = some l → ∀ t ∈ l, 0 < t) (h2 : 2 ≤ f.toFinset.card) :
    Outcome (groupFit dist argsort J num f rc) := by
  have key := fun x => C102_outcome_two_parameter harg J num x
    ⟨f, rc.getD [], 0.95, some "MLE", none, .none, none, none, some "time"⟩ (by simp) rfl
  unfold groupFit
  dsimp only
  split_ifs
  · exact (key _).2.2.1 (group_accepts _ (.inr (.inr rfl)) f rc hf hrc h2)
  · exact (key _).2.1 (group_accepts _ (.inr (.inl rfl)) f rc hf hrc h2)
  · exact (key _).1 (group_accepts _ (.inl rfl) f rc hf hrc h2)

theorem groupFits_outcome {dist : String} {argsort : List ℝ → List ℕ} {J : Jac} {num : ℕ → Option ℝ → Num2}
    (gs : List (List ℝ × Option (List ℝ)))
    (h : ∀ g ∈ gs, 1 < g.1.length → ∀ j, Outcome (groupFit dist argsort J (num j) g.1 g.2)) (i : ℕ) :
    Outcome (groupFits dist argsort J num i gs) := by
  induction gs generalizing i with
  | nil => exact .ok _
  | cons g gs ih =>
    rw [groupFits]
    have : Outcome (groupParams dist argsort J (num i) g) := by
      unfold groupParams
      split_ifs with hl
      · rcases h g List.mem_cons_self hl i with ⟨r, hr⟩ | hr <;> rw [hr]
        · exact .ok _
        · exact .inr rfl
      · exact .ok _
    exact this.bind fun _ _ => (ih (fun g hg => h g (List.mem_cons_of_mem _ hg)) (i + 1)).bind fun _ _ => .ok _

theorem alt_outcome {σ κ : Type} [LinearOrder κ] [DecidableEq σ] {c : Cls σ} {k : Kind σ κ} {dual : Bool}
    {tos : ℝ × Option ℝ → σ} (hk : KindLaw k dual tos)
    (hmodel : c.model ∈ ["Exponential", "Eyring", "Power", "Dual_Exponential", "Power_Exponential", "Dual_Power"])
    (hdist : c.dist ∈ ["Weibull", "Lognormal", "Normal", "Exponential"])
    {argsort : List ℝ → List ℕ} (harg : IsArgsort argsort) (J : Jac) (num : ℕ → Option ℝ → Num2) (noise : Matrix (Fin 3) (Fin 3) ℝ)
    (minimize : Minimizer (Fin c.n → ℝ)) (x : ALTArgs)
    (hdual : dual = true ↔ DualStress c.model x.failure_stress_2) {F A B C D E ls : List ℝ}
    (q : ALTRequirements c.dist c.model x.failures x.failure_stress_1 x.failure_stress_2 x.right_censored
        x.right_censored_stress_1 x.right_censored_stress_2 x.CI x.use_level_stress x.optimizer dual F A B C D E)
    (hls : altLeastSquares noise c.model F A B = .ok ls)
    (hCF : ∀ i ∈ C.zip (k.join D E), ∃ t, (t, i.2) ∈ F.zip (k.join A B)) (hG : Groups (F.zip (k.join A B))) :
    Outcome (fitALT c k argsort J num noise minimize x) := by
  have hkey : ∀ dual, (dual = true ↔ DualStress c.model x.failure_stress_2) → KeyInj dual k.key := by
    intro d hd
    have : d = dual := by
      have := hd.trans hdual.symm
      cases d <;> cases dual <;> simp_all
    rw [this]; exact hk.keyInj
  obtain ⟨inp, h1⟩ := (C74_accepts_iff k.key c.dist c.model _ _ _ _ _ _ hkey _ _ _).2 ⟨dual, F, A, B, C, D, E, q⟩
  obtain ⟨dual', q', -, hopt, -, hgr⟩ := C74_groups k.key c.dist c.model _ _ _ _ _ _ hkey _ _ _ _ h1
  have hdd : dual' = dual := by
    have := q'.is_dual.trans q.is_dual.symm
    cases dual' <;> cases dual <;> simp_all
  subst hdd
  have eF : inp.failures = F := by have := q'.failures.1.symm.trans q.failures.1; cases this; rfl
  have eA : inp.failure_stress_1 = A := by have := q'.failures.2.1.symm.trans q.failures.2.1; cases this; rfl
  have eB : inp.failure_stress_2 = B := by
    cases hd : dual' with
    | false => rw [q'.failures.2.2.2 hd, q.failures.2.2.2 hd]
    | true => have := (q'.failures.2.2.1 hd).symm.trans (q.failures.2.2.1 hd); cases this; rfl
  obtain ⟨eC, eD, eE⟩ : inp.right_censored = C ∧ inp.right_censored_stress_1 = D ∧ inp.right_censored_stress_2 = E := by
    rcases q'.censored with ⟨a1, a2, a3, a4⟩ | ⟨a1, a2, a3, a4⟩ <;>
      rcases q.censored with ⟨b1, b2, b3, b4⟩ | ⟨b1, b2, b3, b4⟩
    · rw [a2, a3, a4, b2, b3, b4]; exact ⟨rfl, rfl, rfl⟩
    · rw [a1] at b1; cases b1
    · rw [a1] at b1; cases b1
    · rw [a1] at b1
      rw [a2] at b2
      cases b1; cases b2
      refine ⟨rfl, rfl, ?_⟩
      cases hd : dual' with
      | false => rw [a4 hd, b4 hd]
      | true => have := (a3 hd).symm.trans (b3 hd); cases this; rfl
  obtain ⟨hA, hD, hBE⟩ := q'.one_stress_each
  obtain ⟨S', hS's, -, hSiff, hgroups, -⟩ := groups_eq hk hA hD hBE hgr (by rw [eF, eA, eB, eC, eD, eE]; exact hCF)
  have hgs := groupFits_outcome (dist := c.dist) (argsort := argsort) (J := J) (num := num)
    (groupsOf inp.failure_groups inp.right_censored_groups) (by
      intro g hg hl j
      rw [hgroups, List.mem_map] at hg
      obtain ⟨s, hs', rfl⟩ := hg
      dsimp only at hl ⊢
      obtain ⟨y, hy⟩ := (hSiff s).1 hs'
      have hm := (mem_rows hk hA (fun hd => (hBE hd).1) s (hS's s hs') y).1 hy
      rw [eF, eA, eB] at hm
      refine groupFit_outcome harg J (num j) _ _ ?_ ?_ ?_
      · intro t ht
        unfold unitsAt at ht
        obtain ⟨i, hi, rfl⟩ := List.mem_map.1 ht
        exact q'.positive.1 _ (List.of_mem_zip (List.mem_filter.1 hi).1).1
      · intro l hl' t ht
        split_ifs at hl'
        cases hl'
        unfold unitsAt at ht
        obtain ⟨i, hi, rfl⟩ := List.mem_map.1 ht
        exact q'.positive.2 _ (List.of_mem_zip (List.mem_filter.1 hi).1).1
      · rcases hG _ hm with h | h
        · rw [eF, eA, eB] at hl
          dsimp only at h
          exact absurd h (by omega)
        · rw [eF, eA, eB]; exact h) 0
  obtain ⟨b, hb⟩ := bounds_returns hmodel hdist
  unfold fitALT
  refine (Outcome.of_ok ⟨inp, h1⟩).bind fun i' hi => ?_
  rw [h1] at hi
  cases hi
  refine (Outcome.of_ok ⟨ls, by rw [eF, eA, eB]; exact hls⟩).bind fun _ _ => ?_
  refine hgs.bind fun _ _ => ?_
  refine (Outcome.of_ok ⟨b, hb⟩).bind fun _ _ => ?_
  refine (Outcome.of_ok (mle_returns _ _ _ hopt)).bind fun o _ => ?_
  exact (orWarn_outcome _ _).bind fun _ _ => .ok _

/-- **C111, one stress: the outcome (partial).** Input that satisfies the documented requirements (`ALTRequirements`, C74),
positive stresses, censored stresses that also have failures, groups with one failure or two different ones: whatever
scipy's routines answer, the class returns or raises TypeError.  Not covered: censored stresses without failures. -/
theorem C111_outcome_single_partial (c : Cls ℝ) (hc : c ∈ singleClasses) {argsort : List ℝ → List ℕ} (harg : IsArgsort argsort) (J : Jac)
    (num : ℕ → Option ℝ → Num2) (noise : Matrix (Fin 3) (Fin 3) ℝ)
    (minimize : Minimizer (Fin c.n → ℝ)) (x : ALTArgs) (F C : List (ℝ × ℝ))
    (q : ALTRequirements c.dist c.model x.failures x.failure_stress_1 x.failure_stress_2 x.right_censored
        x.right_censored_stress_1 x.right_censored_stress_2 x.CI x.use_level_stress x.optimizer false
        (F.map Prod.fst) (F.map Prod.snd) [] (C.map Prod.fst) (C.map Prod.snd) [])
    (hpos : ∀ i ∈ F, 0 < i.2) (hCF : ∀ i ∈ C, ∃ t, (t, i.2) ∈ F) (hG : Groups F) :
    Outcome (fitALT c singleKind argsort J num noise minimize x) := by
  have zF : ∀ L : List (ℝ × ℝ), (L.map Prod.fst).zip (singleKind.join (L.map Prod.snd) []) = L := zip_maps
  have hls : ∃ ls, altLeastSquares noise c.model (F.map Prod.fst) (F.map Prod.snd) [] = .ok ls := by
    obtain ⟨a, b, ha, hb, hab⟩ : ∃ a b, a ∈ (F.map Prod.snd).toFinset ∧ b ∈ (F.map Prod.snd).toFinset ∧ a ≠ b := by
      obtain ⟨a, ha, b, hb, hab⟩ := Finset.one_lt_card.1 (show 1 < (F.map Prod.snd).toFinset.card from q.two_stresses.1)
      exact ⟨a, b, ha, hb, hab⟩
    rw [List.mem_toFinset, List.mem_map] at ha hb
    obtain ⟨i, hi, rfl⟩ := ha
    obtain ⟨j, hj, rfl⟩ := hb
    have hm := (models_single hc).1
    obtain ⟨out, -, h1, -⟩ := C97_least_squares noise c.model (by
      simp only [altModels, List.mem_cons, List.not_mem_nil, or_false] at hm ⊢; tauto)
      (F.map fun i => (i.1, i.2, 1)) (by
        intro p hp
        obtain ⟨i, hi, rfl⟩ := List.mem_map.1 hp
        exact ⟨q.positive.1 _ (List.mem_map_of_mem hi), hpos i hi, one_pos⟩) (by
        unfold Determined
        rw [if_pos hm]
        exact ⟨_, List.mem_map_of_mem hi, _, List.mem_map_of_mem hj, hab⟩)
    refine ⟨out, ?_⟩
    rw [← h1, List.map_map, List.map_map, List.map_map, ls_single noise hm _ _ [] (F.map ((fun p => p.2.2) ∘ fun i => (i.1, i.2, 1)))]
    rfl
  obtain ⟨ls, hls⟩ := hls
  refine alt_outcome singleLaw (by
      have := (models_single hc).1
      simp only [List.mem_cons, List.not_mem_nil, or_false] at this ⊢; tauto) (models_single hc).2 harg J num noise minimize x
      (single_not_dual hc _) q hls ?_ ?_
  · rw [zF, zF]; exact hCF
  · rw [zF]; exact hG

/-- **C111, two stresses: the outcome (partial).** The same for the dual-stress fitters. -/
theorem C111_outcome_dual_partial {κ : Type} [LinearOrder κ] (key : ℝ → Option ℝ → κ) (stress : κ → ℝ × ℝ)
    (hkey : ∀ a b, stress (key a (some b)) = (a, b)) (c : Cls (ℝ × ℝ)) (hc : c ∈ dualClasses)
    {argsort : List ℝ → List ℕ} (harg : IsArgsort argsort) (J : Jac)
    (num : ℕ → Option ℝ → Num2) (noise : Matrix (Fin 3) (Fin 3) ℝ)
    (minimize : Minimizer (Fin c.n → ℝ)) (x : ALTArgs) (F C : List (ℝ × ℝ × ℝ))
    (q : ALTRequirements c.dist c.model x.failures x.failure_stress_1 x.failure_stress_2 x.right_censored
        x.right_censored_stress_1 x.right_censored_stress_2 x.CI x.use_level_stress x.optimizer true
        (F.map Prod.fst) (F.map fun i => i.2.1) (F.map fun i => i.2.2)
        (C.map Prod.fst) (C.map fun i => i.2.1) (C.map fun i => i.2.2)) (hG : Groups F) :
    Outcome (fitALT c (dualKind key stress) argsort J num noise minimize x) := by
  have zF : ∀ L : List (ℝ × ℝ × ℝ), (L.map Prod.fst).zip ((dualKind key stress).join (L.map fun i => i.2.1)
      (L.map fun i => i.2.2)) = L := by
    intro L
    simp only [dualKind]
    induction L with
    | nil => rfl
    | cons a L ih => simp only [List.map_cons, List.zip_cons_cons, ih]
  obtain ⟨ls, -, hls, -⟩ := C97_dual_legal noise c.model (models_dual hc).1 (F.map Prod.fst) (F.map fun i => i.2.1)
    (F.map fun i => i.2.2)
  refine alt_outcome (dualLaw hkey) (by
      have := (models_dual hc).1
      simp only [List.mem_cons, List.not_mem_nil, or_false] at this ⊢; tauto) (models_dual hc).2 harg J num noise minimize x
      (dual_dual hc _) q hls ?_ ?_
  · rw [zF, zF]
    have hk := dualLaw (κ := κ) hkey
    obtain ⟨l1, l2, l3⟩ := q.one_stress_each
    have jF := (hk.join _ _ _ l1 fun _ => (l3 rfl).1).1
    have jC := (hk.join _ _ _ l2 fun _ => (l3 rfl).2).1
    rw [zF] at jF jC
    intro i hi
    rw [jC] at hi
    obtain ⟨r, hr, rfl⟩ := List.mem_map.1 hi
    obtain ⟨y, hy⟩ := q.known_pairs rfl r hr
    refine ⟨y, ?_⟩
    rw [jF]
    exact List.mem_map.2 ⟨_, hy, rfl⟩
  · rw [zF]; exact hG

end Reliability.Props.FitOutcome

import Verif.Spec.Optimizer
import Verif.Props.FitGlue3

/-! # C112: with an exact optimizer the fit is the maximum likelihood fit -/

namespace Reliability.Props

open Reliability Reliability.Distributions Reliability.Likelihood Reliability.InputCheck Reliability.Props.Likelihood Reliability.FunctionCI
open Reliability.Fitters (MLEOut OptResult Bound lsOptimization mleOptimization mleForced)
open Reliability.FitGlue Reliability.Spec Reliability.Spec.InputCheck Reliability.Spec.FitGlue

/-! ## The optimisation -/

/-- The parameters come from a successful run of the optimizer reported. -/
theorem mle_from_success {P : Type} {minimize : String → P → OptResult P} {obj : P → ℝ} {g : P}
    {o : Option String} {r : MLEOut P} (h : mleOptimization minimize obj g o = .ok r) {n : String} (hn : r.optimizer = some n) :
    ∃ q, (minimize n q).success = true ∧ r.params = (minimize n q).x := by
  have hans : ∀ n, ∃ q, answer minimize obj g n = minimize n q := by
    intro n
    obtain ⟨k, -, -, -, h, -⟩ := C47_loop_terminates (minimize n) obj g
    exact ⟨_, by unfold answer; rw [h]; rfl⟩
  have ht : ∀ stop os, ∀ t ∈ Fitters.tryAll minimize obj g stop os,
      t.success = (answer minimize obj g t.name).success ∧ t.x = (answer minimize obj g t.name).x := by
    intro stop os
    induction os with
    | nil => simp [Fitters.tryAll]
    | cons o os ih =>
      intro t h
      rw [tryAll_cons] at h
      split_ifs at h
      · rw [List.mem_singleton] at h; subst h; exact ⟨rfl, rfl⟩
      · rcases List.mem_cons.1 h with rfl | h
        · exact ⟨rfl, rfl⟩
        · exact ih t h
  unfold mleOptimization at h
  split at h
  · cases h
  · split at h
    · cases h; cases hn
    · rename_i t' ht'
      cases h
      cases hn
      obtain ⟨h1, h2⟩ := List.mem_filter.1 (firstMin_some ht').1
      obtain ⟨h3, h4⟩ := ht _ _ _ h1
      obtain ⟨q, hq⟩ := hans t'.name
      rw [hq] at h3 h4
      exact ⟨q, by rw [← h3]; exact h2, h4⟩

/-- With an exact optimizer nothing inside the bounds has a lower objective. -/
theorem mle_exact {P : Type} [Coords P] {m : Minimizer P} (hE : Exact m) {ob obj : P → ℝ} {b : List (Bound ℝ)} {g : P}
    {o : Option String} {r : MLEOut P} (h : mleOptimization (m ob b) obj g o = .ok r) (hn : r.optimizer ≠ none) {y : P}
    (hy : Inside y b) : ob r.params ≤ ob y := by
  obtain ⟨n, hn⟩ := Option.ne_none_iff_exists'.1 hn
  obtain ⟨q, h1, h2⟩ := mle_from_success h hn
  rw [h2]
  exact hE _ _ _ _ h1 _ hy

theorem likelihood_le {f S f' S' : ℝ → ℝ} {F C : List ℝ} {L L' : ℝ} (h : IsLogLik f S F C (loglik L))
    (h' : IsLogLik f' S' F C (loglik L')) (hle : L' ≤ L) : likelihood f S F C ≤ likelihood f' S' F C := by
  unfold likelihood
  rw [← h, ← h']
  apply Real.exp_le_exp.2
  unfold loglik
  linarith

/-! ## The bounds -/

theorem gamma0_some {f rc : List ℝ} (h : f ≠ []) : ∃ m, (m ∈ f ++ rc ∧ ∀ t ∈ f ++ rc, m ≤ t) ∧
    Fitters.gamma0 f rc = .ok (max 0 (m - 1 / 10000)) := by
  unfold Fitters.gamma0
  cases hm : (f ++ rc).min? with
  | none => rw [List.min?_eq_none_iff] at hm; simp [h] at hm
  | some m => exact ⟨m, (Np.min?_iff (f ++ rc) m).1 hm, rfl⟩

theorem bounds2 {f rc : List ℝ} (h : f ≠ []) :
    (∀ n ∈ ["Weibull_2P", "Gamma_2P", "Beta_2P", "Loglogistic_2P"], boundsOf n f rc = [(some 0, none), (some 0, none)]) ∧
    (∀ n ∈ ["Normal_2P", "Gumbel_2P", "Lognormal_2P"], boundsOf n f rc = [(none, none), (some 0, none)]) ∧
    boundsOf "Exponential_1P" f rc = [(some 0, none)] := by
  obtain ⟨m, -, hg⟩ := gamma0_some (rc := rc) h
  refine ⟨?_, ?_, ?_⟩
  · intro n hn
    simp only [List.mem_cons, List.not_mem_nil, or_false] at hn
    rcases hn with rfl | rfl | rfl | rfl <;> simp [boundsOf, Fitters.mleBounds, hg]
  · intro n hn
    simp only [List.mem_cons, List.not_mem_nil, or_false] at hn
    rcases hn with rfl | rfl | rfl <;> simp [boundsOf, Fitters.mleBounds, hg]
  · simp [boundsOf, Fitters.mleBounds, hg]

theorem bounds3 {f rc : List ℝ} (h : f ≠ []) : ∃ g0, (∀ c, 0 < c → (∀ t ∈ f ++ rc, c + 1 / 10000 < t) → c < g0) ∧
    (∀ n ∈ ["Weibull_3P", "Gamma_3P", "Loglogistic_3P"], boundsOf n f rc = [(some 0, none), (some 0, none), (some 0, some g0)]) ∧
    boundsOf "Lognormal_3P" f rc = [(none, none), (some 0, none), (some 0, some g0)] ∧
    boundsOf "Exponential_2P" f rc = [(some 0, none), (some 0, some g0)] := by
  obtain ⟨m, hm, hg⟩ := gamma0_some (rc := rc) h
  refine ⟨max 0 (m - 1 / 10000), ?_, ?_, ?_, ?_⟩
  · intro c hc hall
    have := hall m hm.1
    exact lt_max_of_lt_right (by linarith)
  · intro n hn
    simp only [List.mem_cons, List.not_mem_nil, or_false] at hn
    rcases hn with rfl | rfl | rfl <;> simp [boundsOf, Fitters.mleBounds, hg]
  · simp [boundsOf, Fitters.mleBounds, hg]
  · simp [boundsOf, Fitters.mleBounds, hg]

theorem inside_pos {a : ℝ} (ha : 0 < a) : Inside a [(some 0, none)] := by
  intro i c lo hi h1 h2
  match i, h1, h2 with
  | 0, h1, h2 => cases h1; cases h2; exact ⟨fun l e => by cases e; exact ha, fun l e => by cases e⟩

theorem inside_real {a : ℝ} : Inside a [(none, none)] := by
  intro i c lo hi h1 h2
  match i, h1, h2 with
  | 0, h1, h2 => cases h1; cases h2; exact ⟨fun l e => (by cases e), fun l e => (by cases e)⟩

theorem inside2 {a b : ℝ} {l : Option ℝ} (hl : ∀ l', l = some l' → l' < a) (hb : 0 < b) {u : Option ℝ}
    (hu : ∀ u', u = some u' → b < u') : Inside (a, b) [(l, none), (some 0, u)] := by
  intro i c lo hi h1 h2
  match i, h1, h2 with
  | 0, h1, h2 => cases h1; cases h2; exact ⟨hl, fun l e => by cases e⟩
  | 1, h1, h2 => cases h1; cases h2; exact ⟨fun l e => by cases e; exact hb, hu⟩

theorem inside3 {a b g g0 : ℝ} {l : Option ℝ} (hl : ∀ l', l = some l' → l' < a) (hb : 0 < b) (hg : 0 < g) (hg0 : g < g0) :
    Inside (a, b, g) [(l, none), (some 0, none), (some 0, some g0)] := by
  intro i c lo hi h1 h2
  match i, h1, h2 with
  | 0, h1, h2 => cases h1; cases h2; exact ⟨hl, fun l e => by cases e⟩
  | 1, h1, h2 => cases h1; cases h2; exact ⟨fun l e => by cases e; exact hb, fun l e => by cases e⟩
  | 2, h1, h2 => cases h1; cases h2; exact ⟨fun l e => by cases e; exact hg, fun l e => by cases e; exact hg0⟩

/-! ## Two parameters -/

theorem fam2_inside {F : Fam2} (hF : F ∈ fams2) {a b : ℝ} (hp : ParamsOK F.cfam a b) {f rc : List ℝ} (hne : f ≠ []) :
    Inside (a, b) (boundsOf F.name f rc) ∧ Inside a ((boundsOf F.name f rc).take 1) := by
  obtain ⟨b1, b2, -⟩ := bounds2 (rc := rc) hne
  simp only [fams2, List.mem_cons, List.not_mem_nil, or_false] at hF
  have hno : ∀ u' : ℝ, (none : Option ℝ) = some u' → b < u' := fun u' e => by cases e
  have hno' : ∀ u' : ℝ, (none : Option ℝ) = some u' → u' < a := fun u' e => by cases e
  rcases hF with rfl | rfl | rfl | rfl | rfl
  · rw [b1 _ (by decide)]
    exact ⟨inside2 (fun _ e => by cases e; exact hp.2 (.inl rfl)) hp.1 hno, inside_pos (hp.2 (.inl rfl))⟩
  · rw [b2 _ (by decide)]; exact ⟨inside2 hno' hp.1 hno, inside_real⟩
  · rw [b2 _ (by decide)]; exact ⟨inside2 hno' hp.1 hno, inside_real⟩
  · rw [b2 _ (by decide)]; exact ⟨inside2 hno' hp.1 hno, inside_real⟩
  · rw [b1 _ (by decide)]
    exact ⟨inside2 (fun _ e => by cases e; exact hp.2 (.inr rfl)) hp.1 hno, inside_pos (hp.2 (.inr rfl))⟩

theorem fit2_most_likely {F : Fam2} (hF : F ∈ fams2) {argsort : List ℝ → List ℕ} {J : Jac} {num : Option ℝ → Num2}
    {inp : Checked ℝ} {force : Option ℝ} (hE : Exact (num force).minimize) (hE1 : Exact (num force).minimize1) {r : FitRes Two}
    (hne : inp.failures ≠ []) (hf : ∀ t ∈ inp.failures, InSupport F.cfam 0 t)
    (hr : ∀ t ∈ inp.right_censored, InSupport F.cfam 0 t) (h : fit2 F argsort J num inp force = .ok r)
    (hn : r.optimizer ≠ none) (hp : ParamsOK F.cfam r.dist.a r.dist.b) {a b : ℝ} (hab : ParamsOK F.cfam a b)
    (hb : ∀ s, force = some s → b = s) :
    likelihoodOf (distOf F.cfam a b 0) inp.failures inp.right_censored ≤
      likelihoodOf (distOf F.cfam r.dist.a r.dist.b 0) inp.failures inp.right_censored := by
  refine likelihood_le (loglik_fam2 hF hab hf hr) (loglik_fam2 hF hp hf hr) ?_
  unfold fit2 at h
  simp only [bind_ok] at h
  obtain ⟨e, he, s, hs, q, hq, g, hg, h⟩ := h
  cases h
  obtain ⟨m, r', -, -, ⟨-, rfl⟩ | ⟨-, o, h3, rfl⟩⟩ := estimate_ok he
  · exact absurd rfl hn
  · obtain ⟨i1, i2⟩ := fam2_inside hF hab (rc := inp.right_censored) hne
    cases force with
    | none => exact mle_exact hE h3 hn i1
    | some s =>
      have e := hb s rfl
      subst e
      simp only [mle2, mleForced] at h3
      split at h3
      · cases h3
      · rename_i o' ho'
        cases h3
        exact mle_exact hE1 ho' hn i2


/-- **C112 (Fit_Weibull_2P).** If the optimizers are exact, then a fit that reports an optimizer and has positive estimates is
the maximum likelihood fit: no Weibull distribution (with the forced beta, if there is one) makes the data more likely. -/
theorem C112_weibull_2P (argsort : List ℝ → List ℕ) (J : Jac) (num : Option ℝ → Num2) (hE : ∀ fo, Exact (num fo).minimize)
    (hE1 : ∀ fo, Exact (num fo).minimize1) (x : Args) (r : FitRes Two) (h : fitWeibull2P argsort J num x = .ok r)
    (hn : r.optimizer ≠ none) (ha : 0 < r.dist.a) (hb : 0 < r.dist.b) :
    ∃ f rc, Used "Weibull_2P" x f rc ∧ ∀ a b, 0 < a → 0 < b → (∀ s, x.force = some s → b = s) →
      likelihoodOf (weibull a b 0) f rc ≤ likelihoodOf (weibull r.dist.a r.dist.b 0) f rc := by
  simp only [fitWeibull2P, bind_ok] at h
  obtain ⟨inp, h1, h2⟩ := h
  have hacc := (C51_ok_iff ..).1 h1
  rw [hacc.beta_ok.1] at h2
  obtain ⟨u1, u2⟩ := usable_failures hacc
  exact ⟨_, _, used_of_accepts hacc, fun a b ha' hb' hs => fit2_most_likely (F := weibull2) (by simp [fams2]) (hE _) (hE1 _)
    (failures_ne hacc) (fun t ht => usable_pos (by decide) (u1 t ht)) (fun t ht => usable_pos (by decide) (u2 t ht)) h2 hn
    ⟨hb, fun _ => ha⟩ ⟨hb', fun _ => ha'⟩ hs⟩

/-- **C112 (Fit_Normal_2P).** -/
theorem C112_normal_2P (argsort : List ℝ → List ℕ) (J : Jac) (num : Option ℝ → Num2) (hE : ∀ fo, Exact (num fo).minimize)
    (hE1 : ∀ fo, Exact (num fo).minimize1) (x : Args) (r : FitRes Two) (h : fitNormal2P argsort J num x = .ok r)
    (hn : r.optimizer ≠ none) (hb : 0 < r.dist.b) :
    ∃ f rc, Used "Normal_2P" x f rc ∧ ∀ mu sigma, 0 < sigma → (∀ s, x.force = some s → sigma = s) →
      likelihoodOf (normal mu sigma) f rc ≤ likelihoodOf (normal r.dist.a r.dist.b) f rc := by
  simp only [fitNormal2P, bind_ok] at h
  obtain ⟨inp, h1, h2⟩ := h
  have hacc := (C51_ok_iff ..).1 h1
  rw [hacc.sigma_ok.1] at h2
  have hno : ∀ a : ℝ, CFam.normal = .weibull ∨ CFam.normal = .loglogistic → 0 < a := fun a h => by rcases h with h | h <;> cases h
  exact ⟨_, _, used_of_accepts hacc, fun a b hb' hs => fit2_most_likely (F := normal2) (by simp [fams2]) (hE _) (hE1 _)
    (failures_ne hacc) (fun t ht => trivial) (fun t ht => trivial) h2 hn ⟨hb, hno _⟩ ⟨hb', hno _⟩ hs⟩

/-- **C112 (Fit_Lognormal_2P).** -/
theorem C112_lognormal_2P (argsort : List ℝ → List ℕ) (J : Jac) (num : Option ℝ → Num2) (hE : ∀ fo, Exact (num fo).minimize)
    (hE1 : ∀ fo, Exact (num fo).minimize1) (x : Args) (r : FitRes Two) (h : fitLognormal2P argsort J num x = .ok r)
    (hn : r.optimizer ≠ none) (hb : 0 < r.dist.b) :
    ∃ f rc, Used "Lognormal_2P" x f rc ∧ ∀ mu sigma, 0 < sigma → (∀ s, x.force = some s → sigma = s) →
      likelihoodOf (lognormal mu sigma 0) f rc ≤ likelihoodOf (lognormal r.dist.a r.dist.b 0) f rc := by
  simp only [fitLognormal2P, bind_ok] at h
  obtain ⟨inp, h1, h2⟩ := h
  have hacc := (C51_ok_iff ..).1 h1
  rw [hacc.sigma_ok.1] at h2
  obtain ⟨u1, u2⟩ := usable_failures hacc
  have hno : ∀ a : ℝ, CFam.lognormal = .weibull ∨ CFam.lognormal = .loglogistic → 0 < a := fun a h => by
    rcases h with h | h <;> cases h
  exact ⟨_, _, used_of_accepts hacc, fun a b hb' hs => fit2_most_likely (F := lognormal2) (by simp [fams2]) (hE _) (hE1 _)
    (failures_ne hacc) (fun t ht => usable_pos (by decide) (u1 t ht)) (fun t ht => usable_pos (by decide) (u2 t ht)) h2 hn
    ⟨hb, hno _⟩ ⟨hb', hno _⟩ hs⟩

/-- **C112 (Fit_Gumbel_2P).** -/
theorem C112_gumbel_2P (argsort : List ℝ → List ℕ) (J : Jac) (num : Option ℝ → Num2) (hE : ∀ fo, Exact (num fo).minimize)
    (hE1 : ∀ fo, Exact (num fo).minimize1) (x : Args) (r : FitRes Two) (h : fitGumbel2P argsort J num x = .ok r)
    (hn : r.optimizer ≠ none) (hb : 0 < r.dist.b) :
    ∃ f rc, Used "Gumbel_2P" x f rc ∧ ∀ mu sigma, 0 < sigma →
      likelihoodOf (gumbel mu sigma) f rc ≤ likelihoodOf (gumbel r.dist.a r.dist.b) f rc := by
  simp only [fitGumbel2P, bind_ok] at h
  obtain ⟨inp, h1, h2⟩ := h
  have hacc := (C51_ok_iff ..).1 h1
  have hno : ∀ a : ℝ, CFam.gumbel = .weibull ∨ CFam.gumbel = .loglogistic → 0 < a := fun a h => by rcases h with h | h <;> cases h
  exact ⟨_, _, used_of_accepts hacc, fun a b hb' => fit2_most_likely (F := gumbel2) (by simp [fams2]) (hE _) (hE1 _)
    (failures_ne hacc) (fun t ht => trivial) (fun t ht => trivial) h2 hn ⟨hb, hno _⟩ ⟨hb', hno _⟩ (fun s e => by cases e)⟩

/-- **C112 (Fit_Loglogistic_2P).** -/
theorem C112_loglogistic_2P (argsort : List ℝ → List ℕ) (J : Jac) (num : Option ℝ → Num2) (hE : ∀ fo, Exact (num fo).minimize)
    (hE1 : ∀ fo, Exact (num fo).minimize1) (x : Args) (r : FitRes Two) (h : fitLoglogistic2P argsort J num x = .ok r)
    (hn : r.optimizer ≠ none) (ha : 0 < r.dist.a) (hb : 0 < r.dist.b) :
    ∃ f rc, Used "Loglogistic_2P" x f rc ∧ ∀ a b, 0 < a → 0 < b →
      likelihoodOf (loglogistic a b 0) f rc ≤ likelihoodOf (loglogistic r.dist.a r.dist.b 0) f rc := by
  simp only [fitLoglogistic2P, bind_ok] at h
  obtain ⟨inp, h1, h2⟩ := h
  have hacc := (C51_ok_iff ..).1 h1
  obtain ⟨u1, u2⟩ := usable_failures hacc
  exact ⟨_, _, used_of_accepts hacc, fun a b ha' hb' => fit2_most_likely (F := loglogistic2) (by simp [fams2]) (hE _) (hE1 _)
    (failures_ne hacc) (fun t ht => usable_pos (by decide) (u1 t ht)) (fun t ht => usable_pos (by decide) (u2 t ht)) h2 hn
    ⟨hb, fun _ => ha⟩ ⟨hb', fun _ => ha'⟩ (fun s e => by cases e)⟩

/-- **C112 (Fit_Gamma_2P).** `α` is the reported scale, whose logarithm the distribution object holds. -/
theorem C112_gamma_2P (argsort : List ℝ → List ℕ) (J : Jac) (num : Num (ℝ × ℝ)) (hE : Exact num.minimize) (x : Args)
    (r : FitRes Two) (h : fitGamma2P argsort J num x = .ok r) (hn : r.optimizer ≠ none) :
    ∃ f rc α, Used "Gamma_2P" x f rc ∧ r.dist.a = Real.log α ∧ (0 < α → 0 < r.dist.b → ∀ a b, 0 < a → 0 < b →
      likelihoodOf (gammaDist a b 0) f rc ≤ likelihoodOf (gammaDist α r.dist.b 0) f rc) := by
  simp only [fitGamma2P, bind_ok] at h
  obtain ⟨inp, h1, e, he, s, -, q, -, g, -, h⟩ := h
  have hacc := (C51_ok_iff ..).1 h1
  obtain ⟨u1, u2⟩ := usable_failures hacc
  cases h
  refine ⟨_, _, e.1.1, used_of_accepts hacc, rfl, fun hα hβ a b ha hb => ?_⟩
  have hf : ∀ t ∈ inp.failures, 0 < t := fun t ht => usable_pos (by decide) (u1 t ht)
  have hr : ∀ t ∈ inp.right_censored, 0 ≤ t := fun t ht => (usable_pos (by decide) (u2 t ht)).le
  refine likelihood_le (C41_gamma a b 0 ha hb _ _ hf hr) (C41_gamma _ _ 0 hα hβ _ _ hf hr) ?_
  obtain ⟨m, r', -, -, ⟨-, rfl⟩ | ⟨-, o, h3, rfl⟩⟩ := estimate_ok he
  · exact absurd rfl hn
  · have := mle_exact hE h3 hn (y := (a, b)) (by
      rw [(bounds2 (failures_ne hacc)).1 _ (by decide)]
      exact inside2 (fun _ e => by cases e; exact ha) hb (fun _ e => by cases e))
    exact this

/-- **C112 (Fit_Beta_2P).** -/
theorem C112_beta_2P (argsort : List ℝ → List ℕ) (num : Num (ℝ × ℝ)) (hE : Exact num.minimize) (x : Args)
    (r : FitRes Distributions.Dist) (h : fitBeta2P argsort num x = .ok r) (hn : r.optimizer ≠ none) :
    ∃ f rc α β, Used "Beta_2P" x f rc ∧ r.dist = betaDist α β ∧ (0 < α → 0 < β → ∀ a b, 0 < a → 0 < b →
      likelihoodOf (betaDist a b) f rc ≤ likelihoodOf r.dist f rc) := by
  simp only [fitBeta2P, bind_ok] at h
  obtain ⟨inp, h1, e, he, s, -, q, -, g, -, h⟩ := h
  have hacc := (C51_ok_iff ..).1 h1
  obtain ⟨u1, u2⟩ := usable_failures hacc
  cases h
  refine ⟨_, _, e.1.1, e.1.2, used_of_accepts hacc, rfl, fun hα hβ a b ha hb => ?_⟩
  have hu : ∀ t : ℝ, Usable "Beta_2P" t → 0 < t ∧ t < 1 := by
    rintro t (h | h)
    · exact absurd h (by decide)
    · exact ⟨h.1, h.2 rfl⟩
  have hf : ∀ t ∈ inp.failures, 0 < t ∧ t < 1 := fun t ht => hu t (u1 t ht)
  have hr : ∀ t ∈ inp.right_censored, 0 < t ∧ t < 1 := fun t ht => hu t (u2 t ht)
  refine likelihood_le (C41_beta_2P a b ha hb _ _ hf hr) (C41_beta_2P _ _ hα hβ _ _ hf hr) ?_
  obtain ⟨m, r', -, -, ⟨-, rfl⟩ | ⟨-, o, h3, rfl⟩⟩ := estimate_ok he
  · exact absurd rfl hn
  · have := mle_exact hE h3 hn (y := (a, b)) (by
      rw [(bounds2 (failures_ne hacc)).1 _ (by decide)]
      exact inside2 (fun _ e => by cases e; exact ha) hb (fun _ e => by cases e))
    exact this

/-! ## Exponential -/

/-- **C112 (Fit_Exponential_1P).** -/
theorem C112_exponential_1P (argsort : List ℝ → List ℕ) (J : Jac) (num : Num ℝ) (hE : Exact num.minimize) (x : Args)
    (r : FitRes Expo) (h : fitExponential1P argsort J num x = .ok r) (hn : r.optimizer ≠ none) (hL : 0 < r.dist.Lambda) :
    ∃ f rc, Used "Exponential_1P" x f rc ∧ ∀ L, 0 < L →
      likelihoodOf (exponential L 0) f rc ≤ likelihoodOf (exponential r.dist.Lambda 0) f rc := by
  simp only [fitExponential1P, bind_ok] at h
  obtain ⟨inp, h1, e, he, s, -, q, -, g, -, h⟩ := h
  have hacc := (C51_ok_iff ..).1 h1
  obtain ⟨u1, u2⟩ := usable_failures hacc
  cases h
  refine ⟨_, _, used_of_accepts hacc, fun L hL' => ?_⟩
  have hf : ∀ t ∈ inp.failures, 0 ≤ t := fun t ht => (usable_pos (by decide) (u1 t ht)).le
  have hr : ∀ t ∈ inp.right_censored, 0 ≤ t := fun t ht => (usable_pos (by decide) (u2 t ht)).le
  refine likelihood_le (C41_exponential_1P L hL' _ _ hf hr) (C41_exponential_1P _ hL _ _ hf hr) ?_
  obtain ⟨m, r', -, -, ⟨-, rfl⟩ | ⟨-, o, h3, rfl⟩⟩ := estimate_ok he
  · exact absurd rfl hn
  · have := mle_exact hE h3 hn (y := L) (by
      rw [(bounds2 (failures_ne hacc)).2.2]
      exact inside_pos hL')
    exact this

/-- **C112 (Fit_Exponential_2P).** Among the locations more than 0.0001 below all the data. -/
theorem C112_exponential_2P (argsort : List ℝ → List ℕ) (J : Jac) (num : Num (ℝ × ℝ)) (hE : Exact num.minimize) (x : Args)
    (r : FitRes Expo) (h : fitExponential2P argsort J num x = .ok r) (hn : r.optimizer ≠ none) (hL : 0 < r.dist.Lambda) :
    ∃ f rc, Used "Exponential_2P" x f rc ∧ (Above f rc r.dist.gamma → ∀ L g, 0 < L → 0 < g → Above f rc (g + 0.0001) →
      likelihoodOf (exponential L g) f rc ≤ likelihoodOf (exponential r.dist.Lambda r.dist.gamma) f rc) := by
  simp only [fitExponential2P, bind_ok] at h
  obtain ⟨inp, h1, e, he, s, -, q, -, g, -, h⟩ := h
  have hacc := (C51_ok_iff ..).1 h1
  cases h
  refine ⟨_, _, used_of_accepts hacc, fun hab L γ hL' hγ hab' => ?_⟩
  have hab0 : Above inp.failures inp.right_censored γ :=
    ⟨fun t ht => by linarith [hab'.1 t ht], fun t ht => by linarith [hab'.2 t ht]⟩
  refine likelihood_le (C41_exponential_2P L γ hL' _ _ (fun t ht => (hab0.1 t ht).le) (fun t ht => (hab0.2 t ht).le))
    (C41_exponential_2P _ _ hL _ _ (fun t ht => (hab.1 t ht).le) (fun t ht => (hab.2 t ht).le)) ?_
  obtain ⟨g0, hg0, -, -, hb⟩ := bounds3 (rc := inp.right_censored) (failures_ne hacc)
  have hγ0 : γ < g0 := hg0 γ hγ (fun t ht => by
    rcases List.mem_append.1 ht with ht | ht
    · have := hab'.1 t ht; norm_num at this ⊢; linarith
    · have := hab'.2 t ht; norm_num at this ⊢; linarith)
  obtain ⟨m, r', -, -, ⟨-, rfl⟩ | ⟨-, o, h3, rfl⟩⟩ := estimate_ok he
  · exact absurd rfl hn
  · unfold mleExp2 at h3
    split_ifs at h3 with hlt
    · cases hm : mleOptimization (num.minimize (fun p => exponential2P_LL_inv p.1 p.2 inp.failures inp.right_censored)
          (boundsOf "Exponential_2P" inp.failures inp.right_censored))
          (fun p => |2 * exponential2P_LL_inv p.1 p.2 inp.failures inp.right_censored|) (1 / r'.1.1, r'.1.2) inp.optimizer with
      | error e => rw [hm] at h3; cases h3
      | ok o' =>
        rw [hm] at h3
        cases h3
        have := mle_exact hE hm hn (y := (1 / L, γ)) (by
          rw [hb]
          exact inside2 (fun _ e => by cases e; positivity) hγ (fun _ e => by cases e; exact hγ0))
        dsimp only [exponential2P_LL_inv] at this
        rw [one_div_one_div] at this
        exact this
    · have := mle_exact hE h3 hn (y := (L, γ)) (by
        rw [hb]
        exact inside2 (fun _ e => by cases e; exact hL') hγ (fun _ e => by cases e; exact hγ0))
      exact this

/-! ## Three parameters -/

theorem fit3_most_likely {F : Fam3} (hF : F ∈ fams3) {argsort : List ℝ → List ℕ} {J : Jac} {num : Num (ℝ × ℝ × ℝ)}
    {fallback : Args → Except Err (FitRes Two)} (hfb : TwoClass F.F2 fallback) {inp : Checked ℝ} (hE : Exact num.minimize)
    {r : FitRes Two} (hne : inp.failures ≠ []) (h : fit3 F argsort J num fallback inp = .ok r) (hn : r.optimizer ≠ none)
    (h0 : r.dist.gamma ≠ 0) (hp : ParamsOK F.F2.cfam r.dist.a r.dist.b)
    (hab : Above inp.failures inp.right_censored r.dist.gamma) {a b g : ℝ} (hp' : ParamsOK F.F2.cfam a b) (hg : 0 < g)
    (hab' : Above inp.failures inp.right_censored (g + 0.0001)) :
    likelihoodOf (distOf F.F2.cfam a b g) inp.failures inp.right_censored ≤
      likelihoodOf (distOf F.F2.cfam r.dist.a r.dist.b r.dist.gamma) inp.failures inp.right_censored := by
  have hab0 : Above inp.failures inp.right_censored g :=
    ⟨fun t ht => by linarith [hab'.1 t ht], fun t ht => by linarith [hab'.2 t ht]⟩
  refine likelihood_le (loglik_fam3 hF hp' hab0) (loglik_fam3 hF hp hab) ?_
  obtain ⟨g0, hg0, hb1, hb2, -⟩ := bounds3 (rc := inp.right_censored) hne
  have hγ0 : g < g0 := hg0 g hg (fun t ht => by
    rcases List.mem_append.1 ht with ht | ht
    · have := hab'.1 t ht; norm_num at this ⊢; linarith
    · have := hab'.2 t ht; norm_num at this ⊢; linarith)
  have hin : Inside (a, b, g) (boundsOf F.name inp.failures inp.right_censored) := by
    rcases fams3_cases hF with rfl | rfl | rfl
    · rw [hb1 _ (by decide)]
      exact inside3 (fun _ e => by cases e; exact hp'.2 (.inl rfl)) hp'.1 hg hγ0
    · rw [show lognormal3.name = "Lognormal_3P" from rfl, hb2]
      exact inside3 (fun _ e => by cases e) hp'.1 hg hγ0
    · rw [hb1 _ (by decide)]
      exact inside3 (fun _ e => by cases e; exact hp'.2 (.inr rfl)) hp'.1 hg hγ0
  unfold fit3 at h
  simp only [bind_ok] at h
  obtain ⟨e, he, h⟩ := h
  split_ifs at h with hγ
  · simp only [bind_ok] at h
    obtain ⟨r2, hr2, q, -, g, -, h⟩ := h
    cases h
    exact absurd (hfb _ _ _ rfl hr2).2.1 h0
  · simp only [bind_ok] at h
    obtain ⟨s, -, q, -, g', -, h⟩ := h
    cases h
    obtain ⟨m, r', -, -, ⟨-, rfl⟩ | ⟨-, o, h3, rfl⟩⟩ := estimate_ok he
    · exact absurd rfl hn
    · exact mle_exact hE h3 hn hin

/-- **C112 (Fit_Weibull_3P).** A fit that keeps its location (the other case is the fit of Weibull_2P, C105) is the maximum
likelihood fit among the locations more than 0.0001 below all the data. -/
theorem C112_weibull_3P (argsort : List ℝ → List ℕ) (J : Jac) (num : Num (ℝ × ℝ × ℝ)) (num2 : Option ℝ → Num2)
    (hE : Exact num.minimize) (x : Args) (r : FitRes Two) (h : fitWeibull3P argsort J num num2 x = .ok r)
    (hn : r.optimizer ≠ none) (h0 : r.dist.gamma ≠ 0) (ha : 0 < r.dist.a) (hb : 0 < r.dist.b) :
    ∃ f rc, Used "Weibull_3P" x f rc ∧ (Above f rc r.dist.gamma → ∀ a b g, 0 < a → 0 < b → 0 < g → Above f rc (g + 0.0001) →
      likelihoodOf (weibull a b g) f rc ≤ likelihoodOf (weibull r.dist.a r.dist.b r.dist.gamma) f rc) := by
  simp only [fitWeibull3P, bind_ok] at h
  obtain ⟨inp, h1, h2⟩ := h
  have hacc := (C51_ok_iff ..).1 h1
  exact ⟨_, _, used_of_accepts hacc, fun hab a b g ha' hb' hg hab' => fit3_most_likely (F := weibull3) (by simp [fams3])
    (twoClass_weibull argsort J num2) hE (failures_ne hacc) h2 hn h0 ⟨hb, fun _ => ha⟩ hab ⟨hb', fun _ => ha'⟩ hg hab'⟩

/-- **C112 (Fit_Lognormal_3P).** -/
theorem C112_lognormal_3P (argsort : List ℝ → List ℕ) (J : Jac) (num : Num (ℝ × ℝ × ℝ)) (num2 : Option ℝ → Num2)
    (hE : Exact num.minimize) (x : Args) (r : FitRes Two) (h : fitLognormal3P argsort J num num2 x = .ok r)
    (hn : r.optimizer ≠ none) (h0 : r.dist.gamma ≠ 0) (hb : 0 < r.dist.b) :
    ∃ f rc, Used "Lognormal_3P" x f rc ∧ (Above f rc r.dist.gamma → ∀ mu sigma g, 0 < sigma → 0 < g → Above f rc (g + 0.0001) →
      likelihoodOf (lognormal mu sigma g) f rc ≤ likelihoodOf (lognormal r.dist.a r.dist.b r.dist.gamma) f rc) := by
  simp only [fitLognormal3P, bind_ok] at h
  obtain ⟨inp, h1, h2⟩ := h
  have hacc := (C51_ok_iff ..).1 h1
  have hno : ∀ a : ℝ, CFam.lognormal = .weibull ∨ CFam.lognormal = .loglogistic → 0 < a := fun a h => by
    rcases h with h | h <;> cases h
  exact ⟨_, _, used_of_accepts hacc, fun hab a b g hb' hg hab' => fit3_most_likely (F := lognormal3) (by simp [fams3])
    (twoClass_lognormal argsort J num2) hE (failures_ne hacc) h2 hn h0 ⟨hb, hno _⟩ hab ⟨hb', hno _⟩ hg hab'⟩

/-- **C112 (Fit_Loglogistic_3P).** -/
theorem C112_loglogistic_3P (argsort : List ℝ → List ℕ) (J : Jac) (num : Num (ℝ × ℝ × ℝ)) (num2 : Option ℝ → Num2)
    (hE : Exact num.minimize) (x : Args) (r : FitRes Two) (h : fitLoglogistic3P argsort J num num2 x = .ok r)
    (hn : r.optimizer ≠ none) (h0 : r.dist.gamma ≠ 0) (ha : 0 < r.dist.a) (hb : 0 < r.dist.b) :
    ∃ f rc, Used "Loglogistic_3P" x f rc ∧ (Above f rc r.dist.gamma → ∀ a b g, 0 < a → 0 < b → 0 < g → Above f rc (g + 0.0001) →
      likelihoodOf (loglogistic a b g) f rc ≤ likelihoodOf (loglogistic r.dist.a r.dist.b r.dist.gamma) f rc) := by
  simp only [fitLoglogistic3P, bind_ok] at h
  obtain ⟨inp, h1, h2⟩ := h
  have hacc := (C51_ok_iff ..).1 h1
  exact ⟨_, _, used_of_accepts hacc, fun hab a b g ha' hb' hg hab' => fit3_most_likely (F := loglogistic3) (by simp [fams3])
    (twoClass_loglogistic argsort J num2) hE (failures_ne hacc) h2 hn h0 ⟨hb, fun _ => ha⟩ hab ⟨hb', fun _ => ha'⟩ hg hab'⟩

/-- **C112 (Fit_Gamma_3P).** -/
theorem C112_gamma_3P (argsort : List ℝ → List ℕ) (J : Jac) (num : Num (ℝ × ℝ × ℝ)) (num2 : Num (ℝ × ℝ))
    (hE : Exact num.minimize) (x : Args) (r : FitRes Two) (h : fitGamma3P argsort J num num2 x = .ok r)
    (hn : r.optimizer ≠ none) (h0 : r.dist.gamma ≠ 0) :
    ∃ f rc α, Used "Gamma_3P" x f rc ∧ r.dist.a = Real.log α ∧ (0 < α → 0 < r.dist.b → Above f rc r.dist.gamma →
      ∀ a b g, 0 < a → 0 < b → 0 < g → Above f rc (g + 0.0001) →
      likelihoodOf (gammaDist a b g) f rc ≤ likelihoodOf (gammaDist α r.dist.b r.dist.gamma) f rc) := by
  simp only [fitGamma3P, bind_ok] at h
  obtain ⟨inp, h1, e, he, h⟩ := h
  have hacc := (C51_ok_iff ..).1 h1
  split_ifs at h with hγ
  · simp only [bind_ok] at h
    obtain ⟨r2, hr2, q, -, g, -, h⟩ := h
    cases h
    simp only [fitGamma2P, bind_ok] at hr2
    obtain ⟨inp, h1, e, he, s, -, q, -, g, -, hr2⟩ := hr2
    cases hr2
    exact absurd rfl h0
  · simp only [bind_ok] at h
    obtain ⟨s, -, q, -, g', -, h⟩ := h
    cases h
    refine ⟨_, _, e.1.1, used_of_accepts hacc, rfl, fun hα hβ hab a b g ha hb hg hab' => ?_⟩
    have hab0 : Above inp.failures inp.right_censored g :=
      ⟨fun t ht => by linarith [hab'.1 t ht], fun t ht => by linarith [hab'.2 t ht]⟩
    refine likelihood_le (C41_gamma a b g ha hb _ _ hab0.1 (fun t ht => (hab0.2 t ht).le))
      (C41_gamma _ _ _ hα hβ _ _ hab.1 (fun t ht => (hab.2 t ht).le)) ?_
    obtain ⟨g0, hg0, hb1, -, -⟩ := bounds3 (rc := inp.right_censored) (failures_ne hacc)
    have hγ0 : g < g0 := hg0 g hg (fun t ht => by
      rcases List.mem_append.1 ht with ht | ht
      · have := hab'.1 t ht; norm_num at this ⊢; linarith
      · have := hab'.2 t ht; norm_num at this ⊢; linarith)
    obtain ⟨m, r', -, -, ⟨-, rfl⟩ | ⟨-, o, h3, rfl⟩⟩ := estimate_ok he
    · exact absurd rfl hn
    · have := mle_exact hE h3 hn (y := (a, b, g)) (by
        rw [hb1 _ (by decide)]
        exact inside3 (fun _ e => by cases e; exact ha) hb hg hγ0)
      exact this

end Reliability.Props

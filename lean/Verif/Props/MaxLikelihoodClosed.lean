import Verif.Props.MaxLikelihoodALT
import Verif.Props.FitGlueExamples2

/-! # C112: closed forms of the maximum likelihood estimates, and examples -/

namespace Reliability.Props

open Reliability Reliability.Distributions Reliability.Likelihood Reliability.InputCheck Reliability.Props.Likelihood Reliability.FunctionCI
open Reliability.Fitters (MLEOut OptResult Bound lsOptimization mleOptimization mleForced)
open Reliability.FitGlue Reliability.Spec Reliability.Spec.InputCheck Reliability.Spec.FitGlue

theorem used_unique {dist : String} {x : Args} {F C F' C' : List ℝ} (h : Used dist x F C) (h' : Used dist x F' C') :
    F = F' ∧ C = C' := by
  obtain ⟨F₀, C₀, a, b, rfl, rfl⟩ := h
  obtain ⟨F₁, C₁, a', b', rfl, rfl⟩ := h'
  rw [a] at a'
  cases a'
  refine ⟨rfl, ?_⟩
  rcases b with ⟨b, rfl⟩ | b <;> rcases b' with ⟨b', rfl⟩ | b' <;> rw [b] at b' <;> cases b' <;> rfl

theorem exponential_LL_eq (L : ℝ) (F C : List ℝ) :
    exponential1P_LL L F C = L * (F.sum + C.sum) - F.length * Real.log L := by
  have h1 : ∀ F : List ℝ, (F.map (exponential1P_logf L)).sum = F.length * Real.log L - L * F.sum := by
    intro F
    induction F with
    | nil => simp
    | cons a l ih =>
      simp only [List.map_cons, List.sum_cons, List.length_cons, ih, exponential1P_logf]
      push_cast; ring
  have h2 : ∀ C : List ℝ, (C.map (exponential1P_logR L)).sum = - (L * C.sum) := by
    intro C
    induction C with
    | nil => simp
    | cons a l ih => simp only [List.map_cons, List.sum_cons, ih, exponential1P_logR]; ring
  rw [exponential1P_LL, LL, h1, h2]
  ring

/-- The exponential log-likelihood has its maximum at failures / total time only. -/
theorem exponential_max {n T L : ℝ} (hn : 0 < n) (hT : 0 < T) (hL : 0 < L)
    (h : L * T - n * Real.log L ≤ (n / T) * T - n * Real.log (n / T)) : L = n / T := by
  have hx : 0 < L * T / n := by positivity
  by_contra hne
  have hx1 : L * T / n ≠ 1 := by
    intro h
    apply hne
    field_simp at h ⊢
    linarith
  have key := Real.log_lt_sub_one_of_pos hx hx1
  rw [Real.log_div (by positivity) hn.ne', Real.log_mul hL.ne' hT.ne'] at key
  rw [Real.log_div hn.ne' hT.ne', div_mul_cancel₀ _ hT.ne'] at h
  have : n * (Real.log L + Real.log T - Real.log n) < n * (L * T / n - 1) := mul_lt_mul_of_pos_left key hn
  have e : n * (L * T / n - 1) = L * T - n := by field_simp
  rw [e] at this
  nlinarith

theorem sum_pos_of {F : List ℝ} (hne : F ≠ []) (h : ∀ t ∈ F, 0 < t) : 0 < F.sum := List.sum_pos _ h hne

theorem exp_likelihood_le {L L' : ℝ} {F C : List ℝ} (hL : 0 < L) (hL' : 0 < L') (hF : ∀ t ∈ F, 0 < t) (hC : ∀ t ∈ C, 0 < t) :
    likelihoodOf (exponential L 0) F C ≤ likelihoodOf (exponential L' 0) F C ↔
      exponential1P_LL L' F C ≤ exponential1P_LL L F C := by
  have h1 := C41_exponential_1P L hL F C (fun t ht => (hF t ht).le) (fun t ht => (hC t ht).le)
  have h2 := C41_exponential_1P L' hL' F C (fun t ht => (hF t ht).le) (fun t ht => (hC t ht).le)
  unfold likelihoodOf likelihood
  rw [← h1, ← h2, Real.exp_le_exp]
  unfold loglik
  constructor <;> intro h <;> linarith

/-- **C112 (Fit_Exponential_1P).** The estimate is the number of failures divided by the total time of the failures and the
right censored items. -/
theorem C112_exponential_closed_form (argsort : List ℝ → List ℕ) (J : Jac) (num : Num ℝ) (hE : Exact num.minimize) (x : Args)
    (r : FitRes Expo) (h : fitExponential1P argsort J num x = .ok r) (hn : r.optimizer ≠ none) (hL : 0 < r.dist.Lambda) :
    ∃ f rc, Used "Exponential_1P" x f rc ∧ r.dist.Lambda = f.length / (f.sum + rc.sum) := by
  have h0 := h
  simp only [fitExponential1P, bind_ok] at h0
  obtain ⟨inp, h1, -⟩ := h0
  have hacc := (C51_ok_iff ..).1 h1
  obtain ⟨u1, u2⟩ := usable_failures hacc
  have hne := failures_ne hacc
  have hF : ∀ t ∈ inp.failures, 0 < t := fun t ht => usable_pos (by decide) (u1 t ht)
  have hC : ∀ t ∈ inp.right_censored, 0 < t := fun t ht => usable_pos (by decide) (u2 t ht)
  refine ⟨_, _, used_of_accepts hacc, ?_⟩
  obtain ⟨f, rc, hu, hmax⟩ := C112_exponential_1P argsort J num hE x r h hn hL
  have e := used_unique hu (used_of_accepts hacc)
  rw [e.1, e.2] at hmax
  have hS : 0 < inp.failures.sum + inp.right_censored.sum := by
    have := sum_pos_of hne hF
    have := List.sum_nonneg (fun t ht => (hC t ht).le)
    linarith
  have hn0 : (0 : ℝ) < inp.failures.length := by exact_mod_cast List.length_pos_iff.2 hne
  have := hmax _ (div_pos hn0 hS)
  rw [exp_likelihood_le (div_pos hn0 hS) hL hF hC, exponential_LL_eq, exponential_LL_eq] at this
  exact exponential_max hn0 hS hL this

/-! ## Normal and Lognormal without censoring -/

/-- The mean of a list. -/
noncomputable def mean (l : List ℝ) : ℝ := l.sum / l.length

/-- The sum of the squared deviations from `m`. -/
noncomputable def devs (l : List ℝ) (m : ℝ) : ℝ := (l.map fun t => (t - m) ^ 2).sum

theorem devs_shift (l : List ℝ) (hne : l ≠ []) (m : ℝ) : devs l m = devs l (mean l) + l.length * (m - mean l) ^ 2 := by
  have hn : (l.length : ℝ) ≠ 0 := by exact_mod_cast (List.length_pos_iff.2 hne).ne'
  have h : ∀ (l : List ℝ) (m c : ℝ), devs l m = devs l c + l.length * (m - c) ^ 2 - 2 * (m - c) * (l.sum - l.length * c) := by
    intro l m c
    unfold devs
    induction l with
    | nil => simp
    | cons a l ih =>
      simp only [List.map_cons, List.sum_cons, List.length_cons, ih]
      push_cast; ring
  rw [h l m (mean l), mean]
  have : (l.length : ℝ) * (l.sum / l.length) = l.sum := by field_simp
  rw [this]; ring

theorem devs_pos (l : List ℝ) (h2 : 2 ≤ l.toFinset.card) (m : ℝ) : 0 < devs l m := by
  obtain ⟨a, b, ha, hb, hab⟩ := Finset.one_lt_card_iff.1 h2
  rw [List.mem_toFinset] at ha hb
  have hnn : ∀ y ∈ l.map (fun t => (t - m) ^ 2), 0 ≤ y := by
    intro y hy
    obtain ⟨t, -, rfl⟩ := List.mem_map.1 hy
    positivity
  have hmem : ∀ c ∈ l, (c - m) ^ 2 ≤ devs l m := fun c hc =>
    List.single_le_sum hnn _ (List.mem_map_of_mem (f := fun t => (t - m) ^ 2) hc)
  by_contra h
  have e : ∀ c ∈ l, c = m := fun c hc => by
    have h1 := hmem c hc
    have h2 : (c - m) ^ 2 = 0 := le_antisymm (by linarith) (by positivity)
    have := pow_eq_zero_iff (two_ne_zero) |>.1 h2
    linarith
  exact hab ((e a ha).trans (e b hb).symm)

theorem normal_LL_eq {mu sigma : ℝ} (hs : 0 < sigma) (l : List ℝ) :
    normal2P_LL mu sigma l [] = devs l mu / (2 * sigma ^ 2) + l.length * (Real.log sigma + Real.log (Real.sqrt (2 * Real.pi))) := by
  rw [normal2P_LL, LL, List.map_nil, List.sum_nil, add_zero]
  unfold devs
  induction l with
  | nil => simp
  | cons a l ih =>
    have h0 : Real.sqrt (2 * Real.pi) ≠ 0 := (Real.sqrt_pos.2 (by positivity)).ne'
    simp only [List.map_cons, List.sum_cons, List.length_cons, neg_add, ih, normal2P_logf, Real.log_exp,
      Real.log_mul hs.ne' h0]
    push_cast
    field_simp
    ring

/-- The normal log-likelihood has its maximum at the mean and the root mean square deviation only. -/
theorem normal_max {n D d2 s : ℝ} (hn : 0 < n) (hD : 0 < D) (hs : 0 < s) (hd : 0 ≤ d2)
    (h : (D + n * d2) / (2 * s ^ 2) + n * Real.log s ≤ D / (2 * (Real.sqrt (D / n)) ^ 2) + n * Real.log (Real.sqrt (D / n))) :
    d2 = 0 ∧ s ^ 2 = D / n := by
  have hDn : 0 < D / n := by positivity
  rw [Real.sq_sqrt hDn.le, Real.log_sqrt hDn.le, Real.log_div hD.ne' hn.ne'] at h
  have e1 : D / (2 * (D / n)) = n / 2 := by field_simp
  rw [e1] at h
  set u := D / (n * s ^ 2) with hu
  have hu0 : 0 < u := by positivity
  have hlog : Real.log u = Real.log D - Real.log n - 2 * Real.log s := by
    rw [hu, Real.log_div hD.ne' (by positivity), Real.log_mul hn.ne' (by positivity), Real.log_pow]
    push_cast; ring
  have e2 : (D + n * d2) / (2 * s ^ 2) = n / 2 * u + n * d2 / (2 * s ^ 2) := by
    rw [hu]; field_simp
  rw [e2] at h
  have hq : 0 ≤ n * d2 / (2 * s ^ 2) := by positivity
  have key := Real.log_le_sub_one_of_pos hu0
  have h' : n / 2 * (u - 1 - Real.log u) + n * d2 / (2 * s ^ 2) ≤ 0 := by
    rw [hlog]; nlinarith
  have h3 : 0 ≤ n / 2 * (u - 1 - Real.log u) := mul_nonneg (by positivity) (by linarith)
  have h4 : n * d2 / (2 * s ^ 2) = 0 := by linarith
  have h5 : u = 1 := by
    by_contra hne
    have := Real.log_lt_sub_one_of_pos hu0 hne
    have : 0 < n / 2 * (u - 1 - Real.log u) := mul_pos (by positivity) (by linarith)
    linarith
  constructor
  · rcases div_eq_zero_iff.1 h4 with h | h
    · rcases mul_eq_zero.1 h with h | h
      · linarith
      · exact h
    · exact absurd h (by positivity)
  · rw [hu] at h5
    field_simp at h5 ⊢
    linarith

/-- **C112 (Fit_Normal_2P).** Without censoring and without forcing sigma, mu is the mean of the failures and sigma their root
mean square deviation from it. -/
theorem C112_normal_closed_form (argsort : List ℝ → List ℕ) (J : Jac) (num : Option ℝ → Num2) (hE : ∀ fo, Exact (num fo).minimize)
    (hE1 : ∀ fo, Exact (num fo).minimize1) (x : Args) (r : FitRes Two) (h : fitNormal2P argsort J num x = .ok r)
    (hn : r.optimizer ≠ none) (hb : 0 < r.dist.b) (F : List ℝ) (hF : x.failures = .array F) (hC : x.right_censored = .none)
    (hfo : x.force = none) :
    r.dist.a = F.sum / F.length ∧ r.dist.b ^ 2 = (F.map fun t => (t - F.sum / F.length) ^ 2).sum / F.length := by
  obtain ⟨f, rc, hu, hmax⟩ := C112_normal_2P argsort J num hE hE1 x r h hn hb
  obtain ⟨F₀, C₀, a, b, rfl, rfl⟩ := hu
  rw [hF] at a
  cases a
  have hCe : C₀ = [] := by rcases b with b | b; exact b.2; rw [hC] at b; cases b
  subst hCe
  have hfl : F.filter (fun t => decide (Usable "Normal_2P" t)) = F := by
    rw [List.filter_eq_self]
    exact fun t _ => decide_eq_true (.inl (by decide))
  rw [hfl, List.filter_nil] at hmax
  simp only [fitNormal2P, bind_ok] at h
  obtain ⟨inp, h1, h2⟩ := h
  have hacc := (C51_ok_iff ..).1 h1
  have hinp : inp.failures = F := by
    have := (used_unique (used_of_accepts hacc) ⟨F, [], hF, .inl ⟨hC, rfl⟩, rfl, rfl⟩).1
    rw [this, hfl]
  have hcard : 2 ≤ F.toFinset.card := by
    have := hacc.enough
    rw [hinp, hfo] at this
    exact this
  have hne : F ≠ [] := by rintro rfl; simp at hcard
  have hn0 : (0 : ℝ) < F.length := by exact_mod_cast List.length_pos_iff.2 hne
  have hD := devs_pos F hcard (mean F)
  have hs : 0 < Real.sqrt (devs F (mean F) / F.length) := Real.sqrt_pos.2 (by positivity)
  have := hmax (mean F) _ hs (fun s e => by rw [hfo] at e; cases e)
  have l1 := C41_normal_2P (mean F) _ hs F []
  have l2 := C41_normal_2P r.dist.a _ hb F []
  unfold likelihoodOf likelihood at this
  rw [← l1, ← l2, Real.exp_le_exp, normal_LL_eq hs, normal_LL_eq hb, devs_shift F hne r.dist.a] at this
  unfold loglik at this
  obtain ⟨e1, e2⟩ := normal_max hn0 hD hb (sq_nonneg (r.dist.a - mean F)) (by
    generalize Real.log (Real.sqrt (2 * Real.pi)) = c at this
    linarith)
  refine ⟨?_, e2⟩
  have := pow_eq_zero_iff (two_ne_zero) |>.1 e1
  change r.dist.a = mean F
  linarith

/-! ## An exact optimizer -/

open Classical in
/-- An optimizer that finds the minimum inside the bounds, or reports failure if there is none. -/
noncomputable def exactMin {P : Type} [Coords P] : Minimizer P := fun ob b _ p =>
  if h : ∃ x : P, Inside x b ∧ ∀ y, Inside y b → ob x ≤ ob y then ⟨true, h.choose⟩ else ⟨false, p⟩

theorem exactMin_exact {P : Type} [Coords P] : Exact (exactMin (P := P)) := by
  intro ob b n p h y hy
  unfold exactMin at h ⊢
  split_ifs at h ⊢ with hx
  · exact hx.choose_spec.2 y hy

/-- If there is a minimum, the optimizer succeeds, with an answer inside the bounds. -/
theorem exactMin_success {P : Type} [Coords P] {ob : P → ℝ} {b : List (Bound ℝ)} {x : P} (hx : Inside x b)
    (h : ∀ y, Inside y b → ob x ≤ ob y) (n : String) (p : P) :
    (exactMin ob b n p).success = true ∧ Inside (exactMin ob b n p).x b := by
  have hx' : ∃ x : P, Inside x b ∧ ∀ y, Inside y b → ob x ≤ ob y := ⟨x, hx, h⟩
  unfold exactMin
  rw [dif_pos hx']
  exact ⟨rfl, hx'.choose_spec.1⟩

theorem inside_pos_iff {a : ℝ} : Inside a [(some 0, none)] ↔ 0 < a :=
  ⟨fun h => (h 0 a (some 0) none rfl rfl).1 0 rfl, inside_pos⟩

/-- The hypotheses of C112 for Fit_Exponential_1P are met: with an exact optimizer the fit of the failures 0.1, 0.2, 0.3 and
an item censored at 0.4 returns, and gives Lambda = 3 failures / 1 unit of time. -/
theorem ex_exact_fit {argsort : List ℝ → List ℕ} (harg : IsArgsort argsort) (J : Jac) :
    ∃ r, fitExponential1P argsort J ⟨fun _ => 1, 1, exactMin⟩ exArgs = .ok r ∧ r.optimizer ≠ none ∧ 0 < r.dist.Lambda ∧
      r.dist.Lambda = 3 := by
  have h : Accepts "Exponential_1P" exArgs.failures exArgs.right_censored exArgs.method exArgs.optimizer exArgs.CI exArgs.quantiles
    none none .none (exChecked .none) := ex_accepts "Exponential_1P" (by decide) .none (.inl rfl)
  set inp := exChecked .none with hinp
  have hf : inp.failures = [0.1, 0.2, 0.3] := rfl
  have hr : inp.right_censored = [0.4] := rfl
  have hS : inp.failures.sum + inp.right_censored.sum = 1 := by rw [hf, hr]; norm_num
  have hlen : (inp.failures.length : ℝ) = 3 := by rw [hf]; norm_num
  have hb := (bounds2 (rc := inp.right_censored) (failures_ne h)).2.2
  have hmin : ∀ y : ℝ, Inside y (boundsOf "Exponential_1P" inp.failures inp.right_censored) →
      exponential1P_LL 3 inp.failures inp.right_censored ≤ exponential1P_LL y inp.failures inp.right_censored := by
    intro y hy
    rw [hb, inside_pos_iff] at hy
    rw [exponential_LL_eq, exponential_LL_eq, hS, hlen]
    have := Real.log_le_sub_one_of_pos (show 0 < y / 3 by positivity)
    rw [Real.log_div hy.ne' (by norm_num)] at this
    linarith
  have h3 : Inside (3 : ℝ) (boundsOf "Exponential_1P" inp.failures inp.right_censored) := by
    rw [hb, inside_pos_iff]; norm_num
  have hsuc := exactMin_success (ob := fun L => exponential1P_LL L inp.failures inp.right_censored) h3 hmin
  obtain ⟨n, y, hy, hin⟩ : ∃ n y, estimate "Exponential_1P" (fun L => exponential1P_LL L inp.failures inp.right_censored)
      ⟨fun _ => 1, 1, exactMin⟩ (fun g => mleOptimization (exactMin (fun L => exponential1P_LL L inp.failures inp.right_censored)
        (boundsOf "Exponential_1P" inp.failures inp.right_censored))
        (fun p => |2 * exponential1P_LL p inp.failures inp.right_censored|) g inp.optimizer) inp.method (lsMethod inp.method) =
      .ok (y, "Maximum Likelihood Estimation (MLE)", some n) ∧
      Inside y (boundsOf "Exponential_1P" inp.failures inp.right_censored) := by
    obtain ⟨p, hp⟩ := lsOpt_LS "Exponential_1P" (fun L => exponential1P_LL L inp.failures inp.right_censored) (fun _ => 1) 1
    obtain ⟨n, y, hy, q, rfl⟩ := mle_success_of (fun p => |2 * exponential1P_LL p inp.failures inp.right_censored|) p.1
      h.optimizer_ok (fun n p => (hsuc n p).1)
    refine ⟨n, _, ?_, (hsuc n q).2⟩
    rw [show inp.method = some "MLE" from rfl]
    have hl : lsMethod (some "MLE") = some "LS" := rfl
    rw [hl]
    simp only [estimate, bind_ok]
    refine ⟨p, hp, ?_⟩
    rw [if_neg (by decide)]
    simp only [if_true, bind_ok]
    exact ⟨_, hy, rfl⟩
  rw [hb, inside_pos_iff] at hin
  obtain ⟨s, hse⟩ := seExp_some y inp.failures inp.right_censored n
  obtain ⟨g, hg⟩ := gof_nonneg harg (d := exponential y 0) (C := inp.right_censored)
    (n := inp.failures.length + inp.right_censored.length) (k := 1)
    (LL := exponential1P_LL y inp.failures inp.right_censored) (failures_ne h)
    (fun t ht => usable_pos (by decide) ((usable_failures h).1 t ht)) (fun h => by cases h)
  have hfit : fitExponential1P argsort J ⟨fun _ => 1, 1, exactMin⟩ exArgs = .ok ⟨rowsExp y (zOf inp.CI) s, [], 0,
      ⟨y, 0, some (.fin (s.getD 0)), some (.fin (zOf inp.CI))⟩, "Maximum Likelihood Estimation (MLE)", some n, g, none⟩ := by
    simp only [fitExponential1P, bind_ok]
    exact ⟨inp, (C51_ok_iff ..).2 h, (y, "Maximum Likelihood Estimation (MLE)", some n), hy, s, hse, none, rfl, g, hg, rfl⟩
  refine ⟨_, hfit, by simp, hin, ?_⟩
  obtain ⟨f, rc, hu, hL⟩ := C112_exponential_closed_form argsort J _ exactMin_exact exArgs _ hfit (by simp) hin
  obtain ⟨e1, e2⟩ := used_unique hu (used_of_accepts h)
  rw [hL, e1, e2, hS, hlen]
  norm_num

end Reliability.Props

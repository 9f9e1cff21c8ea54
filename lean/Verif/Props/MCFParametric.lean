import Mathlib.Algebra.Order.BigOperators.Ring.List
import Mathlib.Tactic.Ring
import Mathlib.Tactic.FieldSimp
import Mathlib.Tactic.Linarith
import Mathlib.Tactic.Positivity
import Verif.Model.MCFParametric
import Verif.Spec.MCFParametric
import Verif.Props.MCF

/-! # C91: the parametric mean cumulative function; C92: the MCF depends on the order of the times only -/

namespace Reliability.Props

open Reliability Reliability.MCFP Reliability.Spec List

/-- `curve_fit`'s type. -/
abbrev CurveFit := (ℝ → ℝ → ℝ → ℝ) → List ℝ → List ℝ → ℝ × ℝ → Except Err Fit

theorem mcfp_ok {ppf : ℝ → ℝ} {polyfit : List ℝ → List ℝ → ℝ × ℝ} {cf : CurveFit} {data : MCF.Data ℝ} {CI : ℝ}
    {r : Result} (h : mcfParametric ppf polyfit cf data CI = .ok r) :
    0 < CI ∧ CI < 1 ∧ ∃ rows fit,
      (MCF.mcfNonparametric Real.exp Real.sqrt ppf data 0.95).2 = .ok rows ∧ r.times = rows.map (·.time) ∧
      r.MCF = rows.map (·.MCF) ∧ cf eqn r.times r.MCF (guess polyfit r.times r.MCF) = .ok fit ∧
      r.alpha = fit.a ∧ r.beta = fit.b ∧ r.alpha_SE = Real.sqrt fit.varA ∧ r.beta_SE = Real.sqrt fit.varB ∧
      r.cov_alpha_beta = fit.cov ∧
      r.alpha_upper = fit.a * Real.exp (-ppf ((1 - CI) / 2) * (Real.sqrt fit.varA / fit.a)) ∧
      r.alpha_lower = fit.a * Real.exp (- -ppf ((1 - CI) / 2) * (Real.sqrt fit.varA / fit.a)) ∧
      r.beta_upper = fit.b * Real.exp (-ppf ((1 - CI) / 2) * (Real.sqrt fit.varB / fit.b)) ∧
      r.beta_lower = fit.b * Real.exp (- -ppf ((1 - CI) / 2) * (Real.sqrt fit.varB / fit.b)) ∧
      r.verdict = verdictOf r.beta_lower r.beta_upper := by
  unfold mcfParametric at h
  by_cases hc : CI ≤ 0 ∨ CI ≥ 1
  · rw [if_pos hc] at h; cases h
  rw [if_neg hc] at h
  push Not at hc
  refine ⟨hc.1, hc.2, ?_⟩
  cases hn : (MCF.mcfNonparametric Real.exp Real.sqrt ppf data 0.95).2 with
  | error e => rw [hn] at h; cases h
  | ok rows =>
    rw [hn] at h
    simp only at h
    cases hf : cf eqn (rows.map (·.time)) (rows.map (·.MCF)) (guess polyfit (rows.map (·.time)) (rows.map (·.MCF))) with
    | error e => rw [hf] at h; cases h
    | ok fit =>
      rw [hf] at h
      simp only at h
      cases h
      exact ⟨rows, fit, rfl, rfl, rfl, hf, rfl, rfl, rfl, rfl, rfl, rfl, rfl, rfl, rfl, rfl⟩

/-- **C91.** The points are the repairs of all systems in ascending order with the non-parametric MCF, whatever CI was
asked for; alpha and beta are what `curve_fit` finds for `(t/alpha)^beta` through those points. -/
theorem C91_points (ppf : ℝ → ℝ) (polyfit : List ℝ → List ℝ → ℝ × ℝ) (cf : CurveFit) (systems : List (List ℝ))
    (hne : systems ≠ []) (CI : ℝ) (r : Result)
    (h : mcfParametric ppf polyfit cf (.list (systems.map .list)) CI = .ok r) :
    0 < CI ∧ CI < 1 ∧ r.times = MCF.Spec.times systems ∧
      r.MCF = (List.range (MCF.Spec.times systems).length).map (MCF.Spec.mcf systems) ∧
      ∃ p0 fit, cf (fun t a b => (t / a) ^ b) r.times r.MCF p0 = .ok fit ∧ r.alpha = fit.a ∧ r.beta = fit.b ∧
        r.alpha_SE = Real.sqrt fit.varA ∧ r.beta_SE = Real.sqrt fit.varB ∧ r.cov_alpha_beta = fit.cov := by
  obtain ⟨h0, h1, rows, fit, hr, ht, hm, hf, ha, hb, hsa, hsb, hcv, -⟩ := mcfp_ok h
  refine ⟨h0, h1, ?_⟩
  rw [MCF.C20_list_of_lists _ _ _ systems hne] at hr
  obtain ⟨hCI, hre⟩ := (MCF.C19_accepts_iff Real.exp Real.sqrt ppf systems 0.95).1.1 ⟨rows, hr⟩
  obtain ⟨rows', hr', ht', hk⟩ := MCF.C19_mcf_is_sum_of_reciprocals Real.exp Real.sqrt ppf systems 0.95 hCI hre
  rw [hr] at hr'
  cases hr'
  have e1 : r.times = MCF.Spec.times systems := ht.trans ht'
  refine ⟨e1, ?_, _, fit, hf, ha, hb, hsa, hsb, hcv⟩
  rw [hm]
  have hlen : rows.length = (MCF.Spec.times systems).length := by rw [← ht', length_map]
  apply ext_getElem?
  intro k
  rw [getElem?_map, getElem?_map]
  rcases lt_or_ge k rows.length with hlt | hge
  · rw [getElem?_eq_getElem hlt, getElem?_range (by omega)]
    simp only [Option.map_some]
    rw [(hk k _ (getElem?_eq_getElem hlt)).1]
  · rw [getElem?_eq_none hge, getElem?_eq_none (by simp; omega)]
    rfl

/-- A confidence level outside (0, 1), both ends included, raises ValueError whatever the data. -/
theorem C91_ci (ppf : ℝ → ℝ) (polyfit : List ℝ → List ℝ → ℝ × ℝ) (cf : CurveFit) (data : MCF.Data ℝ) (CI : ℝ)
    (h : ¬ (0 < CI ∧ CI < 1)) : mcfParametric ppf polyfit cf data CI = valueErr := by
  unfold mcfParametric
  rw [if_pos]
  by_contra hc
  push Not at hc
  exact h ⟨hc.1, hc.2⟩

/-- Data without any repair raises ValueError. -/
theorem C91_no_repairs (ppf : ℝ → ℝ) (polyfit : List ℝ → List ℝ → ℝ × ℝ) (cf : CurveFit) (systems : List (List ℝ))
    (hne : systems ≠ []) (CI : ℝ) (h : MCF.Spec.repairs systems = []) :
    mcfParametric ppf polyfit cf (.list (systems.map .list)) CI = valueErr := by
  unfold mcfParametric
  split
  · rfl
  rw [MCF.C20_list_of_lists _ _ _ systems hne,
    (MCF.C19_accepts_iff Real.exp Real.sqrt ppf systems 0.95).2 (by simp [h])]

theorem mcfp_interval {x s Z : ℝ} (hx : 0 < x) (hs : 0 ≤ s) (hZ : 0 ≤ Z) :
    0 < x * Real.exp (-Z * (s / x)) ∧ x * Real.exp (-Z * (s / x)) ≤ x ∧ x ≤ x * Real.exp (Z * (s / x)) ∧
      (x * Real.exp (-Z * (s / x))) * (x * Real.exp (Z * (s / x))) = x ^ 2 := by
  have hp : 0 ≤ Z * (s / x) := mul_nonneg hZ (div_nonneg hs hx.le)
  refine ⟨by positivity, ?_, ?_, ?_⟩
  · have : Real.exp (-Z * (s / x)) ≤ 1 := Real.exp_le_one_iff.2 (by linarith [hp])
    nlinarith
  · have : 1 ≤ Real.exp (Z * (s / x)) := Real.one_le_exp hp
    nlinarith
  · rw [show x * Real.exp (-Z * (s / x)) * (x * Real.exp (Z * (s / x))) =
      x ^ 2 * (Real.exp (-Z * (s / x)) * Real.exp (Z * (s / x))) by ring, ← Real.exp_add]
    simp

/-- For positive estimates the bounds are positive, bracket the estimate at every legal CI and are symmetric about it on the
logarithmic scale.  (`ppf` is any function that is not positive below 1/2, as the normal quantile.) -/
theorem C91_bounds (ppf : ℝ → ℝ) (hppf : ∀ p, p ≤ 1 / 2 → ppf p ≤ 0) (polyfit : List ℝ → List ℝ → ℝ × ℝ) (cf : CurveFit)
    (data : MCF.Data ℝ) (CI : ℝ) (r : Result) (h : mcfParametric ppf polyfit cf data CI = .ok r)
    (ha : 0 < r.alpha) (hb : 0 < r.beta) :
    (0 < r.alpha_lower ∧ r.alpha_lower ≤ r.alpha ∧ r.alpha ≤ r.alpha_upper ∧ r.alpha_lower * r.alpha_upper = r.alpha ^ 2) ∧
    (0 < r.beta_lower ∧ r.beta_lower ≤ r.beta ∧ r.beta ≤ r.beta_upper ∧ r.beta_lower * r.beta_upper = r.beta ^ 2) := by
  obtain ⟨h0, h1, rows, fit, -, -, -, -, ea, eb, -, -, -, e1, e2, e3, e4, -⟩ := mcfp_ok h
  have hZ : 0 ≤ -ppf ((1 - CI) / 2) := by linarith [hppf ((1 - CI) / 2) (by linarith)]
  rw [ea] at ha
  rw [eb] at hb
  rw [e1, e2, e3, e4, ea, eb]
  exact ⟨mcfp_interval ha (Real.sqrt_nonneg _) hZ, mcfp_interval hb (Real.sqrt_nonneg _) hZ⟩

/-- A higher confidence level never gives a narrower interval. -/
theorem C91_nested (ppf : ℝ → ℝ) (hppf : ∀ p q, p ≤ q → ppf p ≤ ppf q) (polyfit : List ℝ → List ℝ → ℝ × ℝ) (cf : CurveFit)
    (data : MCF.Data ℝ) (CI CI' : ℝ) (hCI : CI ≤ CI') (r r' : Result) (h : mcfParametric ppf polyfit cf data CI = .ok r)
    (h' : mcfParametric ppf polyfit cf data CI' = .ok r') (ha : 0 < r.alpha) (hb : 0 < r.beta) :
    r'.alpha = r.alpha ∧ r'.beta = r.beta ∧ r'.alpha_lower ≤ r.alpha_lower ∧ r.alpha_upper ≤ r'.alpha_upper ∧
      r'.beta_lower ≤ r.beta_lower ∧ r.beta_upper ≤ r'.beta_upper := by
  obtain ⟨-, -, rows, fit, hr, ht, hm, hf, ea, eb, -, -, -, e1, e2, e3, e4, -⟩ := mcfp_ok h
  obtain ⟨-, -, rows', fit', hr', ht', hm', hf', ea', eb', -, -, -, e1', e2', e3', e4', -⟩ := mcfp_ok h'
  rw [hr] at hr'
  cases hr'
  rw [← ht] at ht'
  rw [← hm] at hm'
  rw [ht', hm', hf] at hf'
  cases hf'
  have hz := hppf ((1 - CI') / 2) ((1 - CI) / 2) (by linarith)
  rw [ea] at ha
  rw [eb] at hb
  rw [ea', ea, eb', eb, e1, e2, e3, e4, e1', e2', e3', e4']
  have qa : 0 ≤ Real.sqrt fit.varA / fit.a := by positivity
  have qb : 0 ≤ Real.sqrt fit.varB / fit.b := by positivity
  refine ⟨rfl, rfl, ?_, ?_, ?_, ?_⟩
  · apply mul_le_mul_of_nonneg_left _ ha.le
    apply Real.exp_le_exp.2
    nlinarith
  · apply mul_le_mul_of_nonneg_left _ ha.le
    apply Real.exp_le_exp.2
    nlinarith
  · apply mul_le_mul_of_nonneg_left _ hb.le
    apply Real.exp_le_exp.2
    nlinarith
  · apply mul_le_mul_of_nonneg_left _ hb.le
    apply Real.exp_le_exp.2
    nlinarith

/-- The verdict: improving if the whole interval for beta is at or below 1, constant if 1 is strictly inside it, worsening
if it starts at or above 1 and is not just {1}. -/
theorem C91_verdict (ppf : ℝ → ℝ) (hppf : ∀ p, p ≤ 1 / 2 → ppf p ≤ 0) (polyfit : List ℝ → List ℝ → ℝ × ℝ) (cf : CurveFit)
    (data : MCF.Data ℝ) (CI : ℝ) (r : Result) (h : mcfParametric ppf polyfit cf data CI = .ok r)
    (ha : 0 < r.alpha) (hb : 0 < r.beta) :
    (r.verdict = .improving ↔ r.beta_upper ≤ 1) ∧ (r.verdict = .constant ↔ r.beta_lower < 1 ∧ 1 < r.beta_upper) ∧
    (r.verdict = .worsening ↔ 1 ≤ r.beta_lower ∧ 1 < r.beta_upper) ∧
    (r.verdict = .improving → r.beta ≤ 1) ∧ (r.verdict = .worsening → 1 ≤ r.beta) := by
  obtain ⟨-, b1, b2, b3, -⟩ := C91_bounds ppf hppf polyfit cf data CI r h ha hb
  obtain ⟨-, -, rows, fit, -, -, -, -, -, -, -, -, -, -, -, -, -, ev⟩ := mcfp_ok h
  rw [ev]
  unfold verdictOf
  by_cases h1 : r.beta_upper ≤ 1
  · rw [if_pos h1]
    simp [h1]
    linarith
  · rw [if_neg h1]
    push Not at h1
    by_cases h2 : r.beta_lower < 1
    · rw [if_pos ⟨h2, h1⟩]
      simp [h1, h2]
    · rw [if_neg (fun hh => h2 hh.1)]
      push Not at h2
      simp [h1, h2]
      linarith

theorem powerSS_eq_zero {times mcf : List ℝ} {a b : ℝ} (hl : mcf.length = times.length) :
    powerSS times mcf a b = 0 ↔ mcf = times.map fun t => (t / a) ^ b := by
  unfold powerSS
  constructor
  · intro h
    have h : ∀ x ∈ (times.zip mcf).map fun p => (p.2 - (p.1 / a) ^ b) ^ 2, x = (0 : ℝ) := fun x hx =>
      all_zero_of_le_zero_le_of_sum_eq_zero (by
        intro x hx
        obtain ⟨p, -, rfl⟩ := mem_map.1 hx
        positivity) h hx
    apply ext_getElem?
    intro k
    rw [getElem?_map]
    rcases lt_or_ge k times.length with hlt | hge
    · rw [getElem?_eq_getElem hlt, getElem?_eq_getElem (by omega)]
      simp only [Option.map_some, Option.some.injEq]
      have := h _ (mem_map_of_mem (a := (times[k], mcf[k]'(by omega))) (by
        have hk : k < (times.zip mcf).length := by simp; omega
        have := getElem_mem hk
        simpa using this))
      have := pow_eq_zero_iff (n := 2) (by norm_num) |>.1 this
      simp only at this
      linarith
    · rw [getElem?_eq_none hge, getElem?_eq_none (by omega)]
      rfl
  · intro h
    subst h
    apply List.sum_eq_zero
    intro x hx
    obtain ⟨p, hp, rfl⟩ := mem_map.1 hx
    rw [zip_map_right] at hp
    obtain ⟨q, hq, rfl⟩ := mem_map.1 hp
    have hq' : q.1 = q.2 := by
      obtain ⟨k, hk, e⟩ := getElem_of_mem hq
      rw [← e]
      simp
    simp [hq']

/-- If the non-parametric MCF lies exactly on a power law with positive shape, at two or more different positive times, and
`curve_fit` finds a least-squares estimate, then alpha and beta are that power law's. -/
theorem C91_power_law (ppf : ℝ → ℝ) (polyfit : List ℝ → List ℝ → ℝ × ℝ) (cf : CurveFit) (data : MCF.Data ℝ) (CI : ℝ)
    (r : Result) (h : mcfParametric ppf polyfit cf data CI = .ok r)
    (hfit : ∀ p0 fit, cf (fun t a b => (t / a) ^ b) r.times r.MCF p0 = .ok fit → IsPowerFit r.times r.MCF fit.a fit.b)
    (α β : ℝ) (hα : 0 < α) (hβ : 0 < β) (hlaw : r.MCF = r.times.map fun t => (t / α) ^ β)
    (s t : ℝ) (hs : s ∈ r.times) (ht : t ∈ r.times) (hs0 : 0 < s) (hst : s < t) :
    r.alpha = α ∧ r.beta = β := by
  obtain ⟨-, -, rows, fit, -, e1, e2, hf, ea, eb, -⟩ := mcfp_ok h
  have hlen : r.MCF.length = r.times.length := by rw [e1, e2]; simp
  obtain ⟨hpos, hmin⟩ := hfit _ fit hf
  have h0 := (powerSS_eq_zero (a := α) (b := β) hlen).2 hlaw
  have hle := hmin α β hα
  have hnn : 0 ≤ powerSS r.times r.MCF fit.a fit.b := by
    apply List.sum_nonneg
    intro x hx
    obtain ⟨p, -, rfl⟩ := mem_map.1 hx
    positivity
  have hz := (powerSS_eq_zero hlen).1 (le_antisymm (hle.trans h0.le) hnn)
  rw [hlaw] at hz
  have heq := map_inj_left.1 hz
  have ht0 : 0 < t := hs0.trans hst
  have key : ∀ u ∈ r.times, 0 < u → β * (Real.log u - Real.log α) = fit.b * (Real.log u - Real.log fit.a) := by
    intro u hu hu0
    have := congrArg Real.log (heq u hu)
    rwa [Real.log_rpow (div_pos hu0 hα), Real.log_rpow (div_pos hu0 hpos), Real.log_div hu0.ne' hα.ne',
      Real.log_div hu0.ne' hpos.ne'] at this
  have k1 := key s hs hs0
  have k2 := key t ht ht0
  have hlog : Real.log s < Real.log t := Real.log_lt_log hs0 hst
  have hb : fit.b = β := by
    have : (fit.b - β) * (Real.log t - Real.log s) = 0 := by linarith
    rcases mul_eq_zero.1 this with h | h
    · linarith
    · linarith
  refine ⟨?_, eb.trans hb⟩
  rw [ea]
  rw [hb] at k1
  have : Real.log fit.a = Real.log α := by
    have := mul_left_cancel₀ hβ.ne' k1
    linarith
  exact Real.log_injOn_pos (Set.mem_Ioi.2 hpos) (Set.mem_Ioi.2 hα) this

/-- Finding: when the repairs are perfectly regular (beta is 1 with no error) the verdict printed is "Since Beta is less
than 1, the system repair rate is IMPROVING". -/
theorem C91_regular_finding (ppf : ℝ → ℝ) (polyfit : List ℝ → List ℝ → ℝ × ℝ) (cf : CurveFit) (data : MCF.Data ℝ) (CI : ℝ)
    (r : Result) (h : mcfParametric ppf polyfit cf data CI = .ok r) (hb : r.beta = 1) (hs : r.beta_SE = 0) :
    r.verdict = .improving := by
  obtain ⟨-, -, rows, fit, -, -, -, -, -, eb, -, es, -, -, -, e3, e4, ev⟩ := mcfp_ok h
  rw [ev, e3, e4, ← es, hs, ← eb, hb]
  simp [verdictOf]

end Reliability.Props

/-! ### C92 -/

set_option linter.unusedSectionVars false

namespace Reliability.MCF

open List

variable {K : Type _} [Field K] [LinearOrder K] [IsStrictOrderedRing K]

theorem max?_map_mono (f : K → K) (hf : StrictMono f) (s : List K) : (s.map f).max? = s.max?.map f := by
  cases hs : s.max? with
  | none =>
    have : s = [] := by simpa using hs
    subst this
    rfl
  | some m =>
    rw [max?_iff] at hs
    simp only [Option.map_some]
    rw [max?_iff]
    refine ⟨mem_map_of_mem hs.1, ?_⟩
    intro b hb
    obtain ⟨c, hc, rfl⟩ := mem_map.1 hb
    exact hf.monotone (hs.2 c hc)

theorem ends_map (f : K → K) (hf : StrictMono f) (systems : List (List K)) :
    Spec.ends (systems.map (·.map f)) = (Spec.ends systems).map f := by
  unfold Spec.ends
  rw [filterMap_map, map_filterMap]
  apply filterMap_congr
  intro s _
  exact max?_map_mono f hf s

theorem repairs_map (f : K → K) (hf : StrictMono f) (systems : List (List K)) :
    Spec.repairs (systems.map (·.map f)) = (Spec.repairs systems).map f := by
  unfold Spec.repairs
  rw [flatMap_map, map_flatMap]
  apply flatMap_congr
  intro s _
  rw [max?_map_mono f hf s]
  cases s.max? with
  | none => rfl
  | some m =>
    simp only [Option.map_some]
    exact (map_erase hf.injective s).symm

theorem times_map (f : K → K) (hf : StrictMono f) (systems : List (List K)) :
    Spec.times (systems.map (·.map f)) = (Spec.times systems).map f := by
  unfold Spec.times
  rw [repairs_map f hf, map_insertionSort (r := (· ≤ ·)) (s := (· ≤ ·))]
  intro a _ b _
  exact hf.le_iff_le.symm

theorem atRisk_map (f : K → K) (hf : StrictMono f) (systems : List (List K)) (t : K) :
    Spec.atRisk (systems.map (·.map f)) (f t) = Spec.atRisk systems t := by
  unfold Spec.atRisk
  rw [ends_map f hf, countP_map]
  apply countP_congr
  intro e _
  simp [hf.le_iff_le]

theorem cum_map (f : K → K) (ρ ρ' : K → Nat) (h : ∀ t, ρ' (f t) = ρ t) (ts : List K) : ∀ m v : K,
    cum ρ' m v (ts.map f) = (cum ρ m v ts).map fun p => (f p.1, p.2) := by
  induction ts with
  | nil => intro m v; rfl
  | cons t ts ih =>
    intro m v
    simp only [map_cons, cum, h]
    rw [ih]

/-- **C92.** Re-expressing all times by any strictly increasing function (another unit, another origin, a logarithmic time
scale) changes nothing but the times reported: every MCF value, variance and bound stays the same, and errors stay errors. -/
theorem C92_order_only (exp sqrt ppf : K → K) (systems : List (List K)) (CI : K) (f : K → K) (hf : StrictMono f) :
    mcfSystems exp sqrt ppf (systems.map (·.map f)) CI =
      (mcfSystems exp sqrt ppf systems CI).map (fun rows => rows.map fun r => { r with time := f r.time }) := by
  have hr := repairs_map f hf systems
  by_cases h : (0 ≤ CI ∧ CI ≤ 1) ∧ Spec.repairs systems ≠ []
  · rw [mcfSystems_eq exp sqrt ppf systems CI h.1 h.2,
      mcfSystems_eq exp sqrt ppf _ CI h.1 (by rw [hr]; simpa using h.2), times_map f hf,
      cum_map f (Spec.atRisk systems) _ (atRisk_map f hf systems)]
    simp only [Except.map, map_map]
    rfl
  · rw [(C19_accepts_iff exp sqrt ppf systems CI).2 h, (C19_accepts_iff exp sqrt ppf _ CI).2]
    · rfl
    · rw [hr]
      simpa using h

end Reliability.MCF

namespace Reliability.Props

open Reliability Reliability.MCFP Reliability.Spec List

theorem powerSS_scale (times mcf : List ℝ) (k a b : ℝ) (hk : 0 < k) :
    powerSS (times.map (k * ·)) mcf (k * a) b = powerSS times mcf a b := by
  unfold powerSS
  rw [zip_map_left, map_map]
  congr 1
  apply map_congr_left
  intro p _
  simp only [Function.comp, Prod.map]
  rw [mul_div_mul_left _ _ hk.ne']
  rfl

/-- Parametric MCF in another unit of time: (alpha, beta) is a least-squares estimate exactly if (k·alpha, beta) is one for
the times multiplied by k. -/
theorem C92_parametric_units (times mcf : List ℝ) (a b k : ℝ) (hk : 0 < k) :
    IsPowerFit (times.map (k * ·)) mcf (k * a) b ↔ IsPowerFit times mcf a b := by
  unfold IsPowerFit
  rw [powerSS_scale _ _ _ _ _ hk, mul_pos_iff_of_pos_left hk]
  refine and_congr_right fun _ => ⟨fun h a' b' ha' => ?_, fun h a' b' ha' => ?_⟩
  · have := h (k * a') b' (mul_pos hk ha')
    rwa [powerSS_scale _ _ _ _ _ hk] at this
  · have := h (a' / k) b' (div_pos ha' hk)
    rwa [← powerSS_scale times mcf k (a' / k) b' hk, mul_div_cancel₀ _ hk.ne'] at this

/-- **C91.** The fit starts from the straight line through the logarithms: `curve_fit` gets the repair times, the estimated
MCF, the curve `(t / α) ^ β`, and a starting curve whose logarithm is the line `polyfit` finds through the logarithms of the
times and of the MCF. -/
theorem C91_start (ppf : ℝ → ℝ) (polyfit : List ℝ → List ℝ → ℝ × ℝ) (cf : CurveFit) (data : MCF.Data ℝ) (CI : ℝ) (r : Result)
    (h : mcfParametric ppf polyfit cf data CI = .ok r) :
    ∃ p0 fit, cf (fun t a b => (t / a) ^ b) r.times r.MCF p0 = .ok fit ∧ r.alpha = fit.a ∧ r.beta = fit.b ∧
      ∀ m c : ℝ, polyfit (r.times.map Real.log) (r.MCF.map Real.log) = (m, c) → m ≠ 0 →
        ∀ t, 0 < t → Real.log ((t / p0.1) ^ p0.2) = m * Real.log t + c := by
  obtain ⟨-, -, rows, fit, -, -, -, h1, h2, h3, -⟩ := mcfp_ok h
  refine ⟨_, fit, h1, h2, h3, ?_⟩
  intro m c hp hm t ht
  simp only [guess, hp]
  rw [Real.log_rpow (by positivity), Real.log_div ht.ne' (Real.exp_pos _).ne', Real.log_exp]
  field_simp
  ring

/-- The hypotheses of C91 can be met, by data with perfectly regular repairs. -/
example : ∃ r, mcfParametric (fun p => p - 1 / 2) (fun _ _ => (1, 0)) (fun _ _ _ p => .ok ⟨p.1, p.2, 0, 0, 0⟩)
    (.list ([[1, 2, 3, 3]].map .list)) 0.9 = .ok r ∧ r.alpha = 1 ∧ r.beta = 1 ∧ r.verdict = .improving := by
  have hr : MCF.Spec.repairs [[(1 : ℝ), 2, 3, 3]] ≠ [] := by
    have : (([1, 2, 3, 3] : List ℝ)).max? = some 3 := by
      rw [MCF.max?_iff]
      refine ⟨by simp, ?_⟩
      intro b hb
      simp at hb
      rcases hb with rfl | rfl | rfl <;> norm_num
    simp [MCF.Spec.repairs, this]
  obtain ⟨rows, h, -⟩ := MCF.C19_mcf_is_sum_of_reciprocals Real.exp Real.sqrt (fun p : ℝ => p - 1 / 2) [[1, 2, 3, 3]] 0.95
    (by norm_num) hr
  unfold mcfParametric
  rw [if_neg (by norm_num), MCF.C20_list_of_lists _ _ _ _ (by simp), h]
  refine ⟨_, rfl, ?_, rfl, ?_⟩
  · simp [guess]
  · simp [guess, verdictOf]

end Reliability.Props

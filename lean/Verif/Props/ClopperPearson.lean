import Verif.Props.Testing
import Verif.Props.Distributions
import Mathlib.RingTheory.Polynomial.Bernstein
import Mathlib.Analysis.Calculus.Deriv.Polynomial

/-!
# C29: `one_sample_proportion` returns the exact (Clopper–Pearson) bounds
-/

namespace Reliability.Testing

open Reliability Spec Distributions MeasureTheory Props.Distributions

/-! ### the binomial tail is a beta distribution function -/

theorem binom_total (n : ℕ) (p : ℝ) : binomLE n n p = 1 := by
  have h := add_pow p (1 - p) n
  rw [show p + (1 - p) = 1 by ring, one_pow] at h
  refine Eq.trans ?_ h.symm
  exact Finset.sum_congr rfl fun k _ => by ring

theorem binomLE_add_GE (n s : ℕ) (hs : s ≤ n) (p : ℝ) : binomLE n s p + binomGE n (s + 1) p = 1 := by
  rw [← binom_total n p, binomLE, binomLE, binomGE]
  have : Finset.Icc (s + 1) n = Finset.Ico (s + 1) (n + 1) := by ext; simp
  rw [this, Finset.sum_range_add_sum_Ico _ (by omega)]

theorem binomGE_eval (n s : ℕ) (p : ℝ) :
    binomGE n s p = (∑ k ∈ Finset.Ico s (n + 1), bernsteinPolynomial ℝ n k).eval p := by
  have : Finset.Icc s n = Finset.Ico s (n + 1) := by ext; simp
  rw [binomGE, this, Polynomial.eval_finsetSum]
  refine Finset.sum_congr rfl fun k _ => ?_
  simp [bernsteinPolynomial]

theorem bernstein_tail_deriv (n s : ℕ) :
    ∀ m, s + m = n + 1 → Polynomial.derivative (∑ k ∈ Finset.Ico (s + 1) (n + 1 + 1), bernsteinPolynomial ℝ (n + 1) k) =
      (n + 1 : Polynomial ℝ) * bernsteinPolynomial ℝ n s := by
  intro m hm
  induction m generalizing s with
  | zero =>
    have hs : s = n + 1 := by omega
    subst hs
    simp [bernsteinPolynomial.eq_zero_of_lt]
  | succ m ih =>
    rw [Finset.sum_eq_sum_Ico_succ_bot (by omega), Polynomial.derivative_add, ih (s + 1) (by omega),
      bernsteinPolynomial.derivative_succ]
    simp only [Nat.add_sub_cancel]
    push_cast; ring

theorem binomGE_hasDerivAt (n s : ℕ) (hs : s ≤ n + 1) (p : ℝ) :
    HasDerivAt (binomGE (n + 1) (s + 1)) ((n + 1 : ℝ) * ((n.choose s : ℝ) * p ^ s * (1 - p) ^ (n - s))) p := by
  have h := (∑ k ∈ Finset.Ico (s + 1) (n + 1 + 1), bernsteinPolynomial ℝ (n + 1) k).hasDerivAt p
  rw [bernstein_tail_deriv n s (n + 1 - s) (by omega)] at h
  have e : binomGE (n + 1) (s + 1) = fun p => (∑ k ∈ Finset.Ico (s + 1) (n + 1 + 1), bernsteinPolynomial ℝ (n + 1) k).eval p :=
    funext (binomGE_eval (n + 1) (s + 1))
  rw [e]
  refine h.congr_deriv ?_
  simp [bernsteinPolynomial]

/-- The distribution function of the beta law with integer parameters is a binomial tail. -/
theorem beta_cdf_binom (n s : ℕ) (hs : s ≤ n) {p : ℝ} (h0 : 0 ≤ p) (h1 : p ≤ 1) :
    (betaDist (s + 1 : ℝ) (n - s + 1 : ℝ)).sp.cdf p = binomGE (n + 1) (s + 1) p := by
  have hsn : (s : ℝ) ≤ n := by exact_mod_cast hs
  have ha : (0:ℝ) < s + 1 := by positivity
  have hb : (0:ℝ) < n - s + 1 := by linarith
  have hcd := (C33_beta (s + 1) (n - s + 1) ha hb).1.cont
  set F := (betaDist (s + 1 : ℝ) (n - s + 1 : ℝ)).sp.cdf with hF
  have hz : F 0 = 0 := ((C33_beta (s + 1) (n - s + 1) ha hb).2.1 0 le_rfl).1
  have hB0 : binomGE (n + 1) (s + 1) 0 = 0 := by
    rw [binomGE]
    refine Finset.sum_eq_zero fun k hk => ?_
    simp at hk
    simp [show k ≠ 0 by omega]
  have hcont : Continuous (binomGE (n + 1) (s + 1)) :=
    continuous_iff_continuousAt.2 fun p => (binomGE_hasDerivAt n s (by omega) p).continuousAt
  have hder : ∀ x ∈ Set.Ioo (0:ℝ) 1, HasDerivAt (fun p => F p - binomGE (n + 1) (s + 1) p) 0 x := by
    intro x hx
    have hd := (C35_beta (s + 1) (n - s + 1) ha hb).density x hx
    have := hd.sub (binomGE_hasDerivAt n s (by omega) x)
    refine this.congr_deriv ?_
    simp only [betaDist, ofScipy, locScale, ofDensity, sub_zero, div_one, betaStdPdf]
    rw [if_neg (by push Not; exact ⟨hx.1.le, hx.2.le⟩)]
    rw [show ((s:ℝ) + 1 - 1) = s by ring, show ((n:ℝ) - s + 1 - 1) = ((n - s : ℕ) : ℝ) by push_cast [Nat.cast_sub hs]; ring,
      Real.rpow_natCast, Real.rpow_natCast, Real.Gamma_nat_eq_factorial,
      show ((n:ℝ) - s + 1) = ((n - s : ℕ) : ℝ) + 1 by push_cast [Nat.cast_sub hs]; ring,
      Real.Gamma_nat_eq_factorial,
      show ((s:ℝ) + 1 + (((n - s : ℕ) : ℝ) + 1)) = ((n + 1 : ℕ) : ℝ) + 1 by push_cast [Nat.cast_sub hs]; ring,
      Real.Gamma_nat_eq_factorial, Nat.factorial_succ, Nat.cast_choose ℝ hs]
    have f1 : ((s.factorial : ℕ) : ℝ) ≠ 0 := by exact_mod_cast s.factorial_ne_zero
    have f2 : (((n - s).factorial : ℕ) : ℝ) ≠ 0 := by exact_mod_cast (n - s).factorial_ne_zero
    have f3 : ((n.factorial : ℕ) : ℝ) ≠ 0 := by exact_mod_cast n.factorial_ne_zero
    push_cast
    field_simp
    ring
  have hcc : Continuous (fun p => F p - binomGE (n + 1) (s + 1) p) := hcd.sub hcont
  rcases h0.eq_or_lt with rfl | hp
  · rw [hz, hB0]
  · obtain ⟨c, hc, e⟩ := exists_hasDerivAt_eq_slope (fun p => F p - binomGE (n + 1) (s + 1) p) (fun _ => 0) hp
      hcc.continuousOn (fun x hx => hder x ⟨hx.1, lt_of_lt_of_le hx.2 h1⟩)
    rw [hz, hB0] at e
    have : F p - binomGE (n + 1) (s + 1) p = 0 := by
      have := e.symm
      rw [div_eq_iff (by linarith)] at this
      linarith
    linarith

/-! ### the F distribution -/

/-- `ss.f.ppf(q, d1, d2)`: nan unless both degrees of freedom are positive, `inf` at probability 1, otherwise
`d2 x / (d1 (1 - x))` where `x` is the `q`-quantile of the beta law with parameters `d1/2, d2/2` (the
definition of the F distribution). -/
noncomputable def fPpf (q : ℝ) (d1 d2 : ℤ) : Ext ℝ :=
  if d1 ≤ 0 ∨ d2 ≤ 0 then .nan
  else if q = 1 then .pinf
  else if q = 0 then .fin 0
  else
    let x := (betaDist ((d1:ℝ) / 2) ((d2:ℝ) / 2)).sp.ppf q
    .fin ((d2:ℝ) * x / ((d1:ℝ) * (1 - x)))

theorem fPpf_spec {q : ℝ} {d1 d2 : ℤ} (h1 : 0 < d1) (h2 : 0 < d2) (h0 : 0 < q) (hq : q < 1) :
    ∃ f x, 0 < f ∧ fPpf q d1 d2 = .fin f ∧ (d1:ℝ) * f / (d2 + d1 * f) = x ∧ 0 < x ∧ x < 1 ∧
      (betaDist ((d1:ℝ) / 2) ((d2:ℝ) / 2)).sp.cdf x = q := by
  have a : (0:ℝ) < d1 := by exact_mod_cast h1
  have b : (0:ℝ) < d2 := by exact_mod_cast h2
  have law := C34_beta ((d1:ℝ) / 2) ((d2:ℝ) / 2) (by positivity) (by positivity)
  have hm := law.mem q h0 hq
  have hc := law.cdf_quantile q h0 hq
  set x := (betaDist ((d1:ℝ) / 2) ((d2:ℝ) / 2)).sp.ppf q with hx
  have hx0 : 0 < x := hm.1
  have hx1 : 0 < 1 - x := by linarith [hm.2]
  have e : (d1:ℝ) * (d2 * x / (d1 * (1 - x))) / (d2 + d1 * (d2 * x / (d1 * (1 - x)))) = x := by
    field_simp; ring
  refine ⟨(d2:ℝ) * x / ((d1:ℝ) * (1 - x)), x, by positivity, ?_, e, hx0, by linarith, hc⟩
  unfold fPpf
  rw [if_neg (by push Not; exact ⟨h1, h2⟩), if_neg hq.ne, if_neg h0.ne']

/-- What `one_sample_proportion` computes when both bounds are finite quotients. -/
theorem one_sample_eq {t s : ℕ} (hs : s ≤ t) (CI : ℝ) :
    oneSampleProportion fPpf (some (.int t)) (some (.int s)) CI =
      .ok (nanTo 0 (ratio (2 * s) (2 * (t - s + 1)) (fPpf ((1 - CI) / (if s = 0 ∨ s = t then 1 else 2)) (2 * s) (2 * (t - s + 1)))),
        nanTo 1 (ratio (2 * (s + 1)) (2 * (t - s)) (fPpf (1 - (1 - CI) / (if s = 0 ∨ s = t then 1 else 2)) (2 * (s + 1)) (2 * (t - s))))) := by
  unfold oneSampleProportion
  dsimp only
  have h1 : ¬ (PyNum.int (s:ℤ)).val > (PyNum.int (t:ℤ)).val := by
    simp only [PyNum.val]; push Not; exact_mod_cast hs
  rw [if_neg h1]
  have h2 : ((PyNum.int (s:ℤ)).val = 0 ∨ (PyNum.int (s:ℤ)).val = (PyNum.int (t:ℤ)).val) ↔ (s = 0 ∨ s = t) := by
    simp only [PyNum.val]; norm_cast
  simp only [h2]

theorem bound_lower {t s : ℕ} (hs1 : 1 ≤ s) (hs : s ≤ t) {q : ℝ} (h0 : 0 < q) (h1 : q < 1) :
    ∃ lo, 0 < lo ∧ lo < 1 ∧ nanTo 0 (ratio (2 * s) (2 * (t - s + 1)) (fPpf q (2 * s) (2 * (t - s + 1)))) = lo ∧
      binomGE t s lo = q := by
  obtain ⟨f, x, hf, e, ex, hl0, hl1, hc⟩ := fPpf_spec (q := q) (d1 := 2 * s) (d2 := 2 * (t - s + 1)) (by omega) (by omega) h0 h1
  rw [e, (ratio_fin (by omega) (by omega) hf.le).1, ex]
  refine ⟨x, hl0, hl1, rfl, ?_⟩
  obtain ⟨s', rfl⟩ : ∃ s', s = s' + 1 := ⟨s - 1, by omega⟩
  obtain ⟨t', rfl⟩ : ∃ t', t = t' + 1 := ⟨t - 1, by omega⟩
  rw [← beta_cdf_binom t' s' (by omega) hl0.le hl1.le]
  rw [show ((s':ℝ) + 1) = (((2 * ((s' + 1 : ℕ) : ℤ)) : ℤ) : ℝ) / 2 by push_cast; ring,
    show ((t':ℝ) - s' + 1) = (((2 * (((t' + 1 : ℕ) : ℤ) - ((s' + 1 : ℕ) : ℤ) + 1)) : ℤ) : ℝ) / 2 by push_cast; ring]
  exact hc

theorem bound_upper {t s : ℕ} (hs : s < t) {q : ℝ} (h0 : 0 < q) (h1 : q < 1) :
    ∃ up, 0 < up ∧ up < 1 ∧ nanTo 1 (ratio (2 * (s + 1)) (2 * (t - s)) (fPpf (1 - q) (2 * (s + 1)) (2 * (t - s)))) = up ∧
      binomLE t s up = q := by
  obtain ⟨f, x, hf, e, ex, hl0, hl1, hc⟩ := fPpf_spec (q := 1 - q) (d1 := 2 * (s + 1)) (d2 := 2 * (t - s)) (by omega) (by omega)
    (by linarith) (by linarith)
  rw [e, (ratio_fin (by omega) (by omega) hf.le).1, ex]
  refine ⟨x, hl0, hl1, rfl, ?_⟩
  obtain ⟨t', rfl⟩ : ∃ t', t = t' + 1 := ⟨t - 1, by omega⟩
  have hge : binomGE (t' + 1) (s + 1) x = 1 - q := by
    rw [← beta_cdf_binom t' s (by omega) hl0.le hl1.le]
    rw [show ((s:ℝ) + 1) = (((2 * ((s : ℤ) + 1)) : ℤ) : ℝ) / 2 by push_cast; ring,
      show ((t':ℝ) - s + 1) = (((2 * (((t' + 1 : ℕ) : ℤ) - (s : ℤ))) : ℤ) : ℝ) / 2 by push_cast; ring]
    exact hc
  have := binomLE_add_GE (t' + 1) s (by omega) x
  linarith

theorem binomGE_strictMono {n s : ℕ} (hs1 : 1 ≤ s) (hs : s ≤ n) : StrictMonoOn (binomGE n s) (Set.Icc 0 1) := by
  obtain ⟨s', rfl⟩ : ∃ s', s = s' + 1 := ⟨s - 1, by omega⟩
  obtain ⟨n', rfl⟩ : ∃ n', n = n' + 1 := ⟨n - 1, by omega⟩
  have hd := binomGE_hasDerivAt n' s' (by omega)
  refine strictMonoOn_of_deriv_pos (convex_Icc 0 1) (fun p _ => (hd p).continuousAt.continuousWithinAt) ?_
  intro p hp
  rw [interior_Icc] at hp
  rw [(hd p).deriv]
  have h1 : 0 < 1 - p := by linarith [hp.2]
  have h2 : (0:ℝ) < n'.choose s' := by exact_mod_cast Nat.choose_pos (by omega)
  have := hp.1
  positivity

/-- **C29.** `one_sample_proportion` returns the exact Clopper–Pearson bounds: with `s` of `t` trials
successful (`0 < s < t`) and any confidence strictly between 0 and 1, the lower bound is the success
probability at which `s` or more successes have probability `(1-CI)/2`, the upper bound the one at which
`s` or fewer do, and `0 < lower < upper < 1`. -/
theorem C29_clopper_pearson {t s : ℕ} {CI : ℝ} (hs0 : 0 < s) (hst : s < t) (hC0 : 0 < CI) (hC1 : CI < 1) :
    ∃ lo up, oneSampleProportion fPpf (some (.int t)) (some (.int s)) CI = .ok (lo, up) ∧
      0 < lo ∧ lo < up ∧ up < 1 ∧ binomGE t s lo = (1 - CI) / 2 ∧ binomLE t s up = (1 - CI) / 2 := by
  obtain ⟨lo, hl0, hl1, el, hl⟩ := bound_lower (t := t) (s := s) hs0 hst.le (q := (1 - CI) / 2) (by linarith) (by linarith)
  obtain ⟨up, hu0, hu1, eu, hu⟩ := bound_upper (t := t) (s := s) hst (q := (1 - CI) / 2) (by linarith) (by linarith)
  refine ⟨lo, up, ?_, hl0, ?_, hu1, hl, hu⟩
  · rw [one_sample_eq hst.le, if_neg (by omega), el, eu]
  · -- P(≥ s | up) ≥ P(≥ s+1 | up) = 1 - q > q = P(≥ s | lo)
    have h1 := binomLE_add_GE t s hst.le up
    have h2 : binomGE t (s + 1) up ≤ binomGE t s up := by
      rw [binomGE, binomGE]
      refine Finset.sum_le_sum_of_subset_of_nonneg (Finset.Icc_subset_Icc (by omega) le_rfl) fun k _ _ => ?_
      have : 0 ≤ 1 - up := by linarith
      positivity
    refine lt_of_not_ge fun h => ?_
    have := (binomGE_strictMono hs0 hst.le).monotoneOn ⟨hu0.le, hu1.le⟩ ⟨hl0.le, hl1.le⟩ h
    linarith

/-- **C29.** No successes: the lower bound is 0 and the upper bound is the probability at which no success
in `t` trials has probability `1 - CI`. -/
theorem C29_no_successes {t : ℕ} {CI : ℝ} (ht : 0 < t) (hC0 : 0 < CI) (hC1 : CI < 1) :
    ∃ up, oneSampleProportion fPpf (some (.int t)) (some (.int 0)) CI = .ok (0, up) ∧
      0 < up ∧ up < 1 ∧ (1 - up) ^ t = 1 - CI := by
  obtain ⟨up, hu0, hu1, eu, hu⟩ := bound_upper (t := t) (s := 0) ht (q := 1 - CI) (by linarith) (by linarith)
  refine ⟨up, ?_, hu0, hu1, ?_⟩
  · have := one_sample_eq (t := t) (s := 0) (by omega) CI
    simp only [Nat.cast_zero, true_or, if_true, div_one] at this eu
    rw [this, eu]
    congr 2
  · rw [← hu, binomLE]; simp

/-- **C29.** Only successes: the upper bound is 1 and the lower bound is the probability at which `t`
successes in `t` trials have probability `1 - CI`. -/
theorem C29_all_successes {t : ℕ} {CI : ℝ} (ht : 0 < t) (hC0 : 0 < CI) (hC1 : CI < 1) :
    ∃ lo, oneSampleProportion fPpf (some (.int t)) (some (.int t)) CI = .ok (lo, 1) ∧
      0 < lo ∧ lo < 1 ∧ lo ^ t = 1 - CI := by
  obtain ⟨lo, hl0, hl1, el, hl⟩ := bound_lower (t := t) (s := t) ht le_rfl (q := 1 - CI) (by linarith) (by linarith)
  refine ⟨lo, ?_, hl0, hl1, ?_⟩
  · have := one_sample_eq (t := t) (s := t) le_rfl CI
    simp only [or_true, if_true, div_one] at this
    rw [this, el]
    simp [fPpf, ratio, nanTo]
  · rw [← hl, binomGE]; simp

example : ∃ lo up, oneSampleProportion fPpf (some (.int (30:ℕ))) (some (.int (29:ℕ))) 0.95 = .ok (lo, up) ∧
    0 < lo ∧ lo < up ∧ up < 1 ∧ binomGE 30 29 lo = (1 - 0.95) / 2 ∧ binomLE 30 29 up = (1 - 0.95) / 2 :=
  C29_clopper_pearson (by norm_num) (by norm_num) (by norm_num) (by norm_num)

/-- **C29.** `two_proportion_test` returns the Wald interval around the difference of the two observed
proportions at the two-sided confidence `CI`. -/
theorem C29_two_proportion_wald (ppf : ℝ → ℝ) {t1 s1 t2 s2 CI : ℝ} {r : TwoProp}
    (h : twoProportionTest ppf (some t1) (some s1) (some t2) (some s2) CI = .ok r) :
    let se := Real.sqrt (s1 / t1 * (1 - s1 / t1) / t1 + s2 / t2 * (1 - s2 / t2) / t2)
    r.lower = s1 / t1 - s2 / t2 - ppf ((1 + CI) / 2) * se ∧
    r.upper = s1 / t1 - s2 / t2 + ppf ((1 + CI) / 2) * se ∧
    (0 ≤ ppf ((1 + CI) / 2) → r.lower ≤ s1 / t1 - s2 / t2 ∧ s1 / t1 - s2 / t2 ≤ r.upper) := by
  intro se
  unfold twoProportionTest at h
  by_cases hC : CI < 1 / 2 ∨ CI ≥ 1
  · rw [if_pos hC] at h; exact absurd h (by simp [valueErr])
  rw [if_neg hC] at h
  simp only [] at h
  by_cases h1 : s1 > t1 ∨ s2 > t2
  · rw [if_pos h1] at h; exact absurd h (by simp [valueErr])
  rw [if_neg h1] at h
  by_cases h2 : t1 = 0 ∨ t2 = 0
  · rw [if_pos h2] at h; exact absurd h (by simp)
  rw [if_neg h2] at h
  by_cases h3 : s1 / t1 * (1 - s1 / t1) / t1 + s2 / t2 * (1 - s2 / t2) / t2 < 0
  · rw [if_pos h3] at h; exact absurd h (by simp)
  rw [if_neg h3] at h
  injection h with h
  have e : 1 - (1 - CI) / 2 = (1 + CI) / 2 := by ring
  rw [e] at h
  rw [← h]
  refine ⟨rfl, rfl, fun hz => ?_⟩
  have : 0 ≤ ppf ((1 + CI) / 2) * se := mul_nonneg hz (Real.sqrt_nonneg _)
  exact ⟨by simp only; linarith, by simp only; linarith⟩

end Reliability.Testing

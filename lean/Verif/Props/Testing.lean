import Mathlib.Tactic.Linarith
import Mathlib.Tactic.FieldSimp
import Mathlib.Tactic.Ring
import Mathlib.Tactic.NormNum
import Mathlib.Tactic.Positivity
import Mathlib.Tactic.LinearCombination
import Verif.Model.Testing
import Verif.Spec.Testing
import Verif.Lemmas.NumPy

/-!
# C27–C30: sample size, planner, proportions, sequential sampling
-/

namespace Reliability.Testing

open Reliability Spec

/-! ## C27 sample_size_no_failures -/

/-- **C27** The returned `n` is positive, demonstrates the reliability at the requested confidence, and
no smaller number of items does. -/
theorem C27_least_sample_size {R CI L β : ℝ} {n : ℤ} (h : sampleSizeNoFailures R CI L β = .ok n) :
    1 ≤ n ∧ CI ≤ demonstrated R L β n ∧ ∀ m : ℤ, m < n → demonstrated R L β m < CI := by
  unfold sampleSizeNoFailures at h
  by_cases h1 : CI < 1 / 2 ∨ CI ≥ 1
  · rw [if_pos h1] at h; exact absurd h (by simp [valueErr])
  rw [if_neg h1] at h
  by_cases h2 : R ≤ 0 ∨ R ≥ 1
  · rw [if_pos h2] at h; exact absurd h (by simp [valueErr])
  rw [if_neg h2] at h
  by_cases h3 : β < 0
  · rw [if_pos h3] at h; exact absurd h (by simp [valueErr])
  rw [if_neg h3] at h
  by_cases h4 : L ≤ 0
  · rw [if_pos h4] at h; exact absurd h (by simp [valueErr])
  rw [if_neg h4] at h
  push Not at h1 h2 h3 h4
  obtain ⟨hc0, hc1⟩ := h1
  obtain ⟨hR0, hR1⟩ := h2
  have hn : n = ⌈Real.log (1 - CI) / (L ^ β * Real.log R)⌉ := by
    injection h with h; exact h.symm
  have hLb : 0 < L ^ β := Real.rpow_pos_of_pos h4 β
  have hlogR : Real.log R < 0 := Real.log_neg hR0 hR1
  have hlogC : Real.log (1 - CI) < 0 := Real.log_neg (by linarith) (by linarith)
  have hden : L ^ β * Real.log R < 0 := mul_neg_of_pos_of_neg hLb hlogR
  have key : ∀ m : ℤ, CI ≤ demonstrated R L β m ↔ n ≤ m := by
    intro m
    unfold demonstrated
    rw [hn, Int.ceil_le, div_le_iff_of_neg hden, Real.rpow_def_of_pos hR0]
    constructor
    · intro hh
      have : Real.exp (Real.log R * ((m : ℝ) * L ^ β)) ≤ 1 - CI := by linarith
      have := (Real.le_log_iff_exp_le (by linarith)).2 this
      nlinarith
    · intro hh
      have : Real.log R * ((m : ℝ) * L ^ β) ≤ Real.log (1 - CI) := by nlinarith
      have := (Real.le_log_iff_exp_le (by linarith)).1 this
      linarith
  refine ⟨?_, (key n).2 le_rfl, fun m hm => ?_⟩
  · rw [hn, Int.one_le_ceil_iff]
    exact div_pos_of_neg_of_neg hlogC hden
  · by_contra hcon
    exact absurd ((key m).1 (not_lt.1 hcon)) (not_le.2 hm)

/-- **C27** Arguments outside the documented ranges are refused, all others answered. -/
theorem C27_rejects_iff (R CI L β : ℝ) :
    sampleSizeNoFailures R CI L β = .error .valueError ↔
      ¬ (1 / 2 ≤ CI ∧ CI < 1 ∧ 0 < R ∧ R < 1 ∧ 0 ≤ β ∧ 0 < L) := by
  unfold sampleSizeNoFailures
  by_cases h1 : CI < 1 / 2 ∨ CI ≥ 1
  · rw [if_pos h1]
    simp only [valueErr, true_iff]
    rintro ⟨a, b, -⟩
    rcases h1 with h | h <;> linarith
  rw [if_neg h1]
  by_cases h2 : R ≤ 0 ∨ R ≥ 1
  · rw [if_pos h2]
    simp only [valueErr, true_iff]
    rintro ⟨-, -, a, b, -⟩
    rcases h2 with h | h <;> linarith
  rw [if_neg h2]
  by_cases h3 : β < 0
  · rw [if_pos h3]
    simp only [valueErr, true_iff]
    rintro ⟨-, -, -, -, a, -⟩
    linarith
  rw [if_neg h3]
  by_cases h4 : L ≤ 0
  · rw [if_pos h4]
    simp only [valueErr, true_iff]
    rintro ⟨-, -, -, -, -, a⟩
    linarith
  rw [if_neg h4]
  push Not at h1 h2 h3 h4
  simp only [reduceCtorEq, false_iff, not_not]
  exact ⟨h1.1, h1.2, h2.1, h2.2, h3, h4⟩

/-- The hypothesis of `C27_least_sample_size` holds for every valid argument. -/
example : ∃ n, sampleSizeNoFailures (9 / 10) (95 / 100) 1 2 = .ok n := by
  unfold sampleSizeNoFailures
  norm_num

/-! ## C28 reliability_test_planner -/

/-- The facts about the chi-squared distribution used below. -/
structure Chi2.Law (c : Chi2) : Prop where
  pos : ∀ q df, 0 < q → q < 1 → 0 < df → 0 < c.ppf q df
  cdf_ppf : ∀ q df, 0 < q → q < 1 → 0 < df → c.cdf (c.ppf q df) df = q
  cdf_pos : ∀ x df, 0 < x → 0 < df → 0 < c.cdf x df
  cdf_lt : ∀ x df, 0 < x → 0 < df → c.cdf x df < 1
  ppf_cdf : ∀ x df, 0 < x → 0 < df → c.ppf (c.cdf x df) df = x
  mono : ∀ q df df', 0 < q → q < 1 → 0 < df → df < df' → c.ppf q df < c.ppf q df'
  unbounded : ∀ q, 0 < q → q < 1 → ∀ B, ∃ f : Nat, ∀ df, f ≤ df → B < c.ppf q df

/-- A family with these properties. -/
noncomputable def exampleChi2 : Chi2 := ⟨fun q df => df * q / (1 - q), fun x df => x / (x + df)⟩

theorem exampleChi2_law : exampleChi2.Law where
  pos q df h0 h1 hd := by
    have : (0 : ℝ) < df := by exact_mod_cast hd
    exact div_pos (mul_pos this h0) (by linarith)
  cdf_ppf q df h0 h1 hd := by
    have : (0 : ℝ) < df := by exact_mod_cast hd
    have h2 : (0 : ℝ) < 1 - q := by linarith
    simp only [exampleChi2]
    have : (df : ℝ) * q / (1 - q) + df = df / (1 - q) := by field_simp; ring
    rw [this]
    field_simp
  cdf_pos x df hx hd := by
    have : (0 : ℝ) < df := by exact_mod_cast hd
    simp only [exampleChi2]; positivity
  cdf_lt x df hx hd := by
    have : (0 : ℝ) < df := by exact_mod_cast hd
    simp only [exampleChi2]
    rw [div_lt_one (by positivity)]; linarith
  ppf_cdf x df hx hd := by
    have : (0 : ℝ) < df := by exact_mod_cast hd
    simp only [exampleChi2]
    have h : (1 : ℝ) - x / (x + df) = df / (x + df) := by field_simp; ring
    rw [h]
    field_simp
  mono q df df' h0 h1 hd hlt := by
    have h : (df : ℝ) < df' := by exact_mod_cast hlt
    have h2 : (0 : ℝ) < 1 - q := by linarith
    simp only [exampleChi2]
    apply div_lt_div_of_pos_right _ h2
    exact mul_lt_mul_of_pos_right h h0
  unbounded q h0 h1 B := by
    have h2 : (0 : ℝ) < 1 - q := by linarith
    obtain ⟨f, hf⟩ := exists_nat_gt (B * (1 - q) / q)
    refine ⟨f, fun df hdf => ?_⟩
    have : (f : ℝ) ≤ df := by exact_mod_cast hdf
    simp only [exampleChi2]
    rw [lt_div_iff₀ h2]
    rw [div_lt_iff₀ h0] at hf
    nlinarith

/-- Confidence used on one side, and degrees of freedom. -/
noncomputable def sideCI (one_sided : Bool) (CI : ℝ) : ℝ := if one_sided then CI else 1 - (1 - CI) / 2

/-- degrees of freedom of the test: `2f + 2` when time terminated, `2f` when failure terminated -/
def dof (time_terminated : Bool) (f : Nat) : Nat := 2 * f + if time_terminated then 2 else 0

/-- The planner's relation `MTBF = 2T / χ²(CI; dof)`. -/
def Relation (c : Chi2) (one_sided time_terminated : Bool) (T M : ℝ) (f : Nat) (CI : ℝ) : Prop :=
  M = 2 * T / c.ppf (sideCI one_sided CI) (dof time_terminated f)

theorem sideCI_mem {b : Bool} {CI : ℝ} (h0 : 1 / 2 ≤ CI) (h1 : CI < 1) :
    0 < sideCI b CI ∧ sideCI b CI < 1 := by
  unfold sideCI; cases b <;> simp <;> constructor <;> linarith

/-- the planner succeeds with this plan, for every amount of fuel -/
theorem planner_MTBF (c : Chi2) (hc : c.Law) (os tt : Bool) {f : Nat} {CI T : ℝ} (fuel : Nat)
    (h0 : 1 / 2 ≤ CI) (h1 : CI < 1) (hd : 0 < dof tt f) :
    planner c none (some f) (some CI) (some T) os tt fuel =
      some (.ok ⟨.fin T, .fin (2 * T / c.ppf (sideCI os CI) (dof tt f)), f, .fin CI⟩) := by
  have hp := hc.pos (sideCI os CI) (dof tt f) (sideCI_mem h0 h1).1 (sideCI_mem h0 h1).2 hd
  unfold planner
  have hn : ¬ (CI < 1 / 2 ∨ CI ≥ 1) := by push Not; exact ⟨h0, h1⟩
  have hf : ¬ ((f : ℤ) < 0) := by omega
  simp only [Option.any_some, decide_eq_true_eq, hn, hf, if_false, Int.toNat_natCast]
  unfold sideCI dof at hp
  have hd' : (2 * f + if tt then 2 else 0) ≠ 0 := by unfold dof at hd; omega
  simp only [Chi2.ppfE, if_neg hd', divE, Ext.divFin, sideCI, dof]
  rw [if_neg hp.ne']

theorem planner_duration (c : Chi2) (os tt : Bool) {f : Nat} {CI M : ℝ} (fuel : Nat)
    (h0 : 1 / 2 ≤ CI) (h1 : CI < 1) (hd : 0 < dof tt f) :
    planner c (some M) (some f) (some CI) none os tt fuel =
      some (.ok ⟨.fin (c.ppf (sideCI os CI) (dof tt f) * (M / 2)), .fin M, f, .fin CI⟩) := by
  unfold planner
  have hn : ¬ (CI < 1 / 2 ∨ CI ≥ 1) := by push Not; exact ⟨h0, h1⟩
  have hf : ¬ ((f : ℤ) < 0) := by omega
  simp only [Option.any_some, decide_eq_true_eq, hn, hf, if_false, Int.toNat_natCast]
  have hd' : (2 * f + if tt then 2 else 0) ≠ 0 := by unfold dof at hd; omega
  simp only [Chi2.ppfE, if_neg hd', Ext.mul, sideCI, dof]

theorem planner_CI (c : Chi2) (os tt : Bool) {f : Nat} {T M : ℝ} (fuel : Nat) (hd : 0 < dof tt f) :
    planner c (some M) (some f) none (some T) os tt fuel =
      some (.ok ⟨.fin T, .fin M, f, .fin (if os then c.cdf (T / (M * (1 / 2))) (dof tt f)
        else 1 - 2 * (1 - c.cdf (T / (M * (1 / 2))) (dof tt f)))⟩) := by
  unfold planner
  have hf : ¬ ((f : ℤ) < 0) := by omega
  simp only [Option.any_none, Option.any_some, decide_eq_true_eq, hf, if_false, Int.toNat_natCast,
    Bool.false_eq_true]
  have hd' : (2 * f + if tt then 2 else 0) ≠ 0 := by unfold dof at hd; omega
  simp only [Chi2.cdfE, if_neg hd', dof]
  cases os <;> simp [Ext.mul, Ext.sub, Ext.add, Ext.neg]
  ring

/-- **C28** Leaving out the MTBF, the duration or the confidence: the returned values satisfy the
planner's relation (any test with at least one degree of freedom). -/
theorem C28_MTBF (c : Chi2) (hc : c.Law) (os tt : Bool) {f : Nat} {CI T : ℝ} (fuel : Nat)
    (h0 : 1 / 2 ≤ CI) (h1 : CI < 1) (hd : 0 < dof tt f) :
    ∃ M, planner c none (some f) (some CI) (some T) os tt fuel = some (.ok ⟨.fin T, .fin M, f, .fin CI⟩) ∧
      Relation c os tt T M f CI :=
  ⟨_, planner_MTBF c hc os tt fuel h0 h1 hd, rfl⟩

/-- **C28** -/
theorem C28_duration (c : Chi2) (hc : c.Law) (os tt : Bool) {f : Nat} {CI M : ℝ} (fuel : Nat)
    (h0 : 1 / 2 ≤ CI) (h1 : CI < 1) (hd : 0 < dof tt f) :
    ∃ T, planner c (some M) (some f) (some CI) none os tt fuel = some (.ok ⟨.fin T, .fin M, f, .fin CI⟩) ∧
      Relation c os tt T M f CI := by
  refine ⟨_, planner_duration c os tt fuel h0 h1 hd, ?_⟩
  have hp := hc.pos (sideCI os CI) (dof tt f) (sideCI_mem h0 h1).1 (sideCI_mem h0 h1).2 hd
  unfold Relation
  field_simp

/-- **C28** -/
theorem C28_CI (c : Chi2) (hc : c.Law) (os tt : Bool) {f : Nat} {T M : ℝ} (fuel : Nat)
    (hT : 0 < T) (hM : 0 < M) (hd : 0 < dof tt f) :
    ∃ CI, planner c (some M) (some f) none (some T) os tt fuel = some (.ok ⟨.fin T, .fin M, f, .fin CI⟩) ∧
      Relation c os tt T M f CI ∧ CI < 1 := by
  have hx : 0 < T / (M * (1 / 2)) := by positivity
  refine ⟨_, planner_CI c os tt fuel hd, ?_, ?_⟩
  · unfold Relation sideCI
    have hs : (if os then (if os then c.cdf (T / (M * (1 / 2))) (dof tt f)
        else 1 - 2 * (1 - c.cdf (T / (M * (1 / 2))) (dof tt f)))
        else 1 - (1 - (if os then c.cdf (T / (M * (1 / 2))) (dof tt f)
        else 1 - 2 * (1 - c.cdf (T / (M * (1 / 2))) (dof tt f)))) / 2)
        = c.cdf (T / (M * (1 / 2))) (dof tt f) := by
      cases os
      · simp
      · simp
    rw [hs, hc.ppf_cdf _ _ hx hd]
    field_simp
  · have := hc.cdf_lt _ _ hx hd
    cases os <;> simp
    · linarith
    · simpa using this

/-- loop: the first count from `f` whose bound is below, provided there is one -/
theorem failuresLoop_eq {bound : Nat → Ext ℝ} {M : ℝ} {f0 : Nat} (h0 : ltE (bound f0) M = true) :
    ∀ (k f fuel : Nat), f + k = f0 → (∀ g, f ≤ g → g < f0 → ltE (bound g) M = false) → k < fuel →
      failuresLoop bound M fuel f = some f0 := by
  intro k
  induction k with
  | zero =>
    intro f fuel hf hb hk
    obtain ⟨fuel, rfl⟩ : ∃ n, fuel = n + 1 := ⟨fuel - 1, by omega⟩
    obtain rfl : f = f0 := by omega
    rw [failuresLoop, if_pos h0]
  | succ k ih =>
    intro f fuel hf hb hk
    obtain ⟨fuel, rfl⟩ : ∃ n, fuel = n + 1 := ⟨fuel - 1, by omega⟩
    rw [failuresLoop, hb f le_rfl (by omega)]
    simp only [Bool.false_eq_true, if_false]
    exact ih (f + 1) fuel (by omega) (fun g hg hg' => hb g (by omega) hg') (by omega)

/-- **C28** Leaving out the number of failures (time-terminated test): the search always ends; it refuses
exactly when even zero failures would not demonstrate the MTBF, and otherwise returns the largest count
whose MTBF bound meets the requirement. -/
theorem C28_failures (c : Chi2) (hc : c.Law) (os : Bool) {CI T M : ℝ}
    (h0 : 1 / 2 ≤ CI) (h1 : CI < 1) (hT : 0 < T) (hM : 0 < M) :
    ∃ N, ∀ fuel, N ≤ fuel →
      (2 * T / c.ppf (sideCI os CI) (dof true 0) < M ∧
        planner c (some M) none (some CI) (some T) os true fuel = some (.error .valueError)) ∨
      (∃ f : Nat, planner c (some M) none (some CI) (some T) os true fuel = some (.ok ⟨.fin T, .fin M, f, .fin CI⟩) ∧
        M ≤ 2 * T / c.ppf (sideCI os CI) (dof true f) ∧
        ∀ g, f < g → 2 * T / c.ppf (sideCI os CI) (dof true g) < M) := by
  set q := sideCI os CI with hq
  obtain ⟨hq0, hq1⟩ := sideCI_mem (b := os) h0 h1
  rw [← hq] at hq0 hq1
  have hpos : ∀ g, 0 < c.ppf q (2 * g + 2) := fun g => hc.pos q _ hq0 hq1 (by omega)
  have hbound : ∀ g : Nat, divE (2 * T) (c.ppfE q (2 * g + 2)) = .fin (2 * T / c.ppf q (2 * g + 2)) := by
    intro g
    simp only [Chi2.ppfE, divE, Ext.divFin]
    rw [if_neg (by omega)]
    simp only []
    rw [if_neg (hpos g).ne']
  have hex : ∃ g, 2 * T / c.ppf q (2 * g + 2) < M := by
    obtain ⟨f, hf⟩ := hc.unbounded q hq0 hq1 (2 * T / M)
    refine ⟨f, ?_⟩
    have := hf (2 * f + 2) (by omega)
    rw [div_lt_iff₀ hM] at this
    rw [div_lt_iff₀ (hpos f)]
    linarith
  have hanti : ∀ g g', g ≤ g' → 2 * T / c.ppf q (2 * g' + 2) ≤ 2 * T / c.ppf q (2 * g + 2) := by
    intro g g' hgg
    rcases hgg.eq_or_lt with rfl | hlt
    · exact le_rfl
    · have := hc.mono q (2 * g + 2) (2 * g' + 2) hq0 hq1 (by omega) (by omega)
      exact div_le_div_of_nonneg_left (by linarith) (hpos g) this.le
  classical
  set f0 := Nat.find hex with hf0
  have hf0s := Nat.find_spec hex
  rw [← hf0] at hf0s
  refine ⟨f0 + 1, fun fuel hfuel => ?_⟩
  have hn : ¬ (CI < 1 / 2 ∨ CI ≥ 1) := by push Not; exact ⟨h0, h1⟩
  have hloop : failuresLoop (fun f : Nat => divE (2 * T) (c.ppfE q (2 * f + 2))) M fuel 0 = some f0 := by
    apply failuresLoop_eq (k := f0) _ _ _ (by omega)
    · intro g _ hg
      have := Nat.find_min hex hg
      simp only [hbound, ltE, decide_eq_false_iff_not]
      exact this
    · omega
    · simp only [hbound, ltE, decide_eq_true_eq]; exact hf0s
  have hplan : planner c (some M) none (some CI) (some T) os true fuel =
      if 2 * T / c.ppf q 2 < M then some (.error .valueError)
      else some (.ok ⟨.fin T, .fin M, (f0 : ℤ) - 1, .fin CI⟩) := by
    unfold planner
    simp only [Option.any_some, Option.any_none, decide_eq_true_eq, hn, if_false, Bool.false_eq_true,
      if_true]
    have hadj : (if os = true then CI else 1 - (1 - CI) / 2) = q := rfl
    rw [hadj, hloop]
    simp only []
    rw [hbound 0]
    simp only [ltE, decide_eq_true_eq, valueErr, mul_zero, zero_add]
  rw [hplan]
  by_cases hz : 2 * T / c.ppf q 2 < M
  · left
    rw [if_pos hz]
    exact ⟨hz, rfl⟩
  · right
    have hne : f0 ≠ 0 := by
      intro h; rw [h] at hf0s; exact hz hf0s
    obtain ⟨f, hf⟩ : ∃ f, f0 = f + 1 := ⟨f0 - 1, by omega⟩
    refine ⟨f, ?_, ?_, ?_⟩
    · rw [if_neg hz, hf]; simp
    · have := Nat.find_min hex (m := f) (by omega)
      simpa [dof] using this
    · intro g hg
      have hh := hanti f0 g (by omega)
      simp only [dof, if_true]
      linarith

/-- **C28** Planning and re-planning agree: if the MTBF was computed from `f`, `CI` and `T`, then each
of the other three is recovered from it and the remaining ones. -/
theorem C28_round_trip (c : Chi2) (hc : c.Law) (os : Bool) {f : Nat} {CI T M : ℝ}
    (h0 : 1 / 2 ≤ CI) (h1 : CI < 1) (hT : 0 < T)
    (h : planner c none (some f) (some CI) (some T) os true 0 = some (.ok ⟨.fin T, .fin M, f, .fin CI⟩)) :
    planner c (some M) (some f) (some CI) none os true 0 = some (.ok ⟨.fin T, .fin M, f, .fin CI⟩) ∧
    planner c (some M) (some f) none (some T) os true 0 = some (.ok ⟨.fin T, .fin M, f, .fin CI⟩) ∧
    ∃ N, ∀ fuel, N ≤ fuel →
      planner c (some M) none (some CI) (some T) os true fuel = some (.ok ⟨.fin T, .fin M, f, .fin CI⟩) := by
  have hd : 0 < dof true f := by unfold dof; simp
  obtain ⟨hq0, hq1⟩ := sideCI_mem (b := os) h0 h1
  have hp := hc.pos (sideCI os CI) (dof true f) hq0 hq1 hd
  rw [planner_MTBF c hc os true 0 h0 h1 hd] at h
  have hM : M = 2 * T / c.ppf (sideCI os CI) (dof true f) := by
    simp only [Option.some.injEq, Except.ok.injEq, Plan.mk.injEq, Ext.fin.injEq] at h
    exact h.2.1.symm
  have hMpos : 0 < M := by rw [hM]; positivity
  refine ⟨?_, ?_, ?_⟩
  · rw [planner_duration c os true 0 h0 h1 hd]
    have : c.ppf (sideCI os CI) (dof true f) * (M / 2) = T := by rw [hM]; field_simp
    rw [this]
  · rw [planner_CI c os true 0 hd]
    have hx : T / (M * (1 / 2)) = c.ppf (sideCI os CI) (dof true f) := by
      rw [hM]; field_simp
    rw [hx, hc.cdf_ppf _ _ hq0 hq1 hd]
    have : (if os = true then sideCI os CI else 1 - 2 * (1 - sideCI os CI)) = CI := by
      unfold sideCI; cases os
      · simp; ring
      · simp
    rw [this]
  · obtain ⟨N, hN⟩ := C28_failures c hc os h0 h1 hT hMpos
    refine ⟨N, fun fuel hfuel => ?_⟩
    have hlt : ∀ a b, a < b → 2 * T / c.ppf (sideCI os CI) (dof true b) < 2 * T / c.ppf (sideCI os CI) (dof true a) := by
      intro a b hab
      have ha := hc.pos (sideCI os CI) (dof true a) hq0 hq1 (by unfold dof; simp)
      have := hc.mono (sideCI os CI) (dof true a) (dof true b) hq0 hq1 (by unfold dof; simp)
        (by unfold dof; simp; omega)
      exact div_lt_div_of_pos_left (by linarith) ha this
    rcases hN fuel hfuel with ⟨hz, _⟩ | ⟨g, hg, hge, hgt⟩
    · exfalso
      rcases Nat.eq_zero_or_pos f with rfl | hf
      · linarith
      · have := hlt 0 f hf; linarith
    · rw [hg]
      rcases lt_trichotomy g f with hlt' | heq | hgt'
      · have := hgt f hlt'; linarith
      · rw [heq]
      · have := hlt f g hgt'; linarith

/-- **C28** The planner answers only when exactly one of the four is left out (and CI, if given, is in
`[0.5, 1)`, the number of failures, if given, not negative); otherwise it raises ValueError. -/
theorem C28_arguments (c : Chi2) (M : Option ℝ) (f : Option ℤ) (CI T : Option ℝ) (os tt : Bool) (fuel : Nat)
    (h : ¬ ((M.isNone.toNat + f.isNone.toNat + CI.isNone.toNat + T.isNone.toNat = 1) ∧
      (∀ x, CI = some x → 1 / 2 ≤ x ∧ x < 1) ∧ ∀ x, f = some x → 0 ≤ x)) :
    planner c M f CI T os tt fuel = some (.error .valueError) := by
  unfold planner
  by_cases h1 : CI.any (fun CI => decide (CI < 1 / 2 ∨ CI ≥ 1)) = true
  · rw [if_pos h1, valueErr]
  rw [if_neg h1]
  by_cases h2 : f.any (fun f => decide (f < 0)) = true
  · rw [if_pos h2, valueErr]
  rw [if_neg h2]
  have hA : ∀ x, CI = some x → 1 / 2 ≤ x ∧ x < 1 := by
    rintro x rfl
    simp only [Option.any_some, decide_eq_true_eq] at h1
    push Not at h1; exact h1
  have hB : ∀ x, f = some x → 0 ≤ x := by
    rintro x rfl
    simp only [Option.any_some, decide_eq_true_eq] at h2
    omega
  have h3 : M.isNone.toNat + f.isNone.toNat + CI.isNone.toNat + T.isNone.toNat ≠ 1 :=
    fun hh => h ⟨hh, hA, hB⟩
  clear h1 h2 hA hB h
  rcases M with _ | M <;> rcases f with _ | f <;> rcases CI with _ | CI <;> rcases T with _ | T <;>
    first | rfl | exact absurd rfl h3

/-- **C28** Finding: for a failure-terminated test the zero-failure bound has no degrees of freedom and is
nan, which is never below the MTBF, so the impossibility check never fires: an unattainable MTBF is
answered with `number_of_failures = 0` and no error (the true bound at one failure is below it, and at
zero failures there is no bound). -/
theorem C28_failure_terminated_finding (c : Chi2) (os : Bool) {CI T M : ℝ}
    (h0 : 1 / 2 ≤ CI) (h1 : CI < 1) (hc : c.Law)
    (himpossible : 2 * T / c.ppf (sideCI os CI) (dof false 1) < M) (fuel : Nat) :
    planner c (some M) none (some CI) (some T) os false (fuel + 2) =
      some (.ok ⟨.fin T, .fin M, 0, .fin CI⟩) := by
  have hn : ¬ (CI < 1 / 2 ∨ CI ≥ 1) := by push Not; exact ⟨h0, h1⟩
  obtain ⟨hq0, hq1⟩ := sideCI_mem (b := os) h0 h1
  have hp := hc.pos (sideCI os CI) (dof false 1) hq0 hq1 (by decide)
  unfold planner
  simp only [Option.any_some, Option.any_none, decide_eq_true_eq, hn, if_false, Bool.false_eq_true]
  have hadj : (if os = true then CI else 1 - (1 - CI) / 2) = sideCI os CI := rfl
  rw [hadj]
  have hb0 : divE (2 * T) (c.ppfE (sideCI os CI) (2 * 0 + 0)) = .nan := by simp [Chi2.ppfE, divE]
  have hb1 : divE (2 * T) (c.ppfE (sideCI os CI) (2 * 1 + 0)) = .fin (2 * T / c.ppf (sideCI os CI) (dof false 1)) := by
    simp only [Chi2.ppfE, divE, Ext.divFin]
    rw [if_neg (by omega)]
    simp only []
    rw [if_neg]
    · rfl
    · exact hp.ne'
  have hl : failuresLoop (fun f : Nat => divE (2 * T) (c.ppfE (sideCI os CI) (2 * f + 0))) M (fuel + 2) 0 = some 1 := by
    rw [failuresLoop, hb0]
    simp only [ltE, Bool.false_eq_true, if_false, zero_add]
    rw [failuresLoop, hb1]
    simp [ltE, himpossible]
  rw [hl]
  simp only []
  rw [hb0]
  simp [ltE]

/-- The hypotheses are met by a concrete family and plan. -/
example : ∃ M, planner exampleChi2 none (some (3 : Nat)) (some (9 / 10)) (some 1000) true true 0 =
    some (.ok ⟨.fin 1000, .fin M, 3, .fin (9 / 10)⟩) ∧ Relation exampleChi2 true true 1000 M 3 (9 / 10) :=
  C28_MTBF exampleChi2 exampleChi2_law true true 0 (by norm_num) (by norm_num) (by decide)

/-! ## C29 proportions -/

/-- The facts about the F distribution's quantile used below: nan without positive degrees of freedom,
`inf` at probability 1, finite and non-negative otherwise, and the stochastic order between the two
beta distributions behind the Clopper–Pearson bounds. -/
structure FLaw (fppf : ℝ → ℤ → ℤ → Ext ℝ) : Prop where
  bad : ∀ q d1 d2, d1 ≤ 0 ∨ d2 ≤ 0 → fppf q d1 d2 = .nan
  one : ∀ d1 d2, 0 < d1 → 0 < d2 → fppf 1 d1 d2 = .pinf
  fin : ∀ q d1 d2, 0 ≤ q → q < 1 → 0 < d1 → 0 < d2 → ∃ f, 0 ≤ f ∧ fppf q d1 d2 = .fin f
  order : ∀ q q' d1 d2 f f', 0 ≤ q → q ≤ q' → q' < 1 → 0 < d1 → 2 < d2 → fppf q d1 d2 = .fin f →
    fppf q' (d1 + 2) (d2 - 2) = .fin f' →
    (d1 : ℝ) * f / (d2 + d1 * f) ≤ ((d1 + 2 : ℤ) : ℝ) * f' / ((d2 - 2 : ℤ) + ((d1 + 2 : ℤ) : ℝ) * f')

/-- A family with these properties. -/
noncomputable def exampleF (q : ℝ) (d1 d2 : ℤ) : Ext ℝ :=
  if d1 ≤ 0 ∨ d2 ≤ 0 then .nan else if q = 1 then .pinf else .fin (d2 / d1 * (q / (1 - q)))

theorem exampleF_law : FLaw exampleF where
  bad q d1 d2 h := by simp [exampleF, h]
  one d1 d2 h h' := by
    unfold exampleF; rw [if_neg (by push Not; exact ⟨h, h'⟩), if_pos rfl]
  fin q d1 d2 h0 h1 hd hd' := by
    refine ⟨(d2 : ℝ) / d1 * (q / (1 - q)), ?_, ?_⟩
    · have a : (0 : ℝ) < d1 := by exact_mod_cast hd
      have b : (0 : ℝ) < d2 := by exact_mod_cast hd'
      have : (0 : ℝ) < 1 - q := by linarith
      positivity
    · unfold exampleF; rw [if_neg (by push Not; exact ⟨hd, hd'⟩), if_neg h1.ne]
  order q q' d1 d2 f f' h0 hq h1 hd hd' hf hf' := by
    have key : ∀ (q : ℝ) (d1 d2 : ℤ) f, q < 1 → 0 < d1 → 0 < d2 → exampleF q d1 d2 = .fin f →
        (d1 : ℝ) * f / (d2 + d1 * f) = q := by
      intro q d1 d2 f hq h h' hf
      unfold exampleF at hf
      rw [if_neg (by push Not; exact ⟨h, h'⟩), if_neg hq.ne] at hf
      injection hf with hf
      have a : (0 : ℝ) < d1 := by exact_mod_cast h
      have b : (0 : ℝ) < d2 := by exact_mod_cast h'
      have e : (0 : ℝ) < 1 - q := by linarith
      have h1 : (d1 : ℝ) * f = d2 * q / (1 - q) := by rw [← hf]; field_simp
      have h2 : (d2 : ℝ) + d1 * f = d2 / (1 - q) := by rw [h1]; field_simp; ring
      rw [h2, h1]; field_simp
    rw [key q d1 d2 f (by linarith) hd (by omega) hf, key q' (d1 + 2) (d2 - 2) f' h1 (by omega) (by omega) hf']
    exact hq

theorem ratio_fin {V1 V2 : ℤ} {f : ℝ} (h1 : 0 < V1) (h2 : 0 < V2) (hf : 0 ≤ f) :
    ratio V1 V2 (.fin f) = .fin ((V1 : ℝ) * f / (V2 + V1 * f)) ∧
      0 ≤ (V1 : ℝ) * f / (V2 + V1 * f) ∧ (V1 : ℝ) * f / (V2 + V1 * f) ≤ 1 := by
  have a : (0 : ℝ) < V1 := by exact_mod_cast h1
  have b : (0 : ℝ) < V2 := by exact_mod_cast h2
  have c : 0 ≤ (V1 : ℝ) * f := by positivity
  have d : 0 < (V2 : ℝ) + V1 * f := by linarith
  refine ⟨?_, by positivity, ?_⟩
  · simp only [ratio, Ext.divFin]; rw [if_neg d.ne']
  · rw [div_le_one d]; linarith

/-- the probability of a term of the bound: zero, one, or inside -/
theorem nanTo_ratio_mem {fppf : ℝ → ℤ → ℤ → Ext ℝ} (hF : FLaw fppf) {q d : ℝ} (V1 V2 : ℤ)
    (hq0 : 0 ≤ q) (hq1 : q ≤ 1) (hd0 : 0 ≤ d) (hd1 : d ≤ 1) :
    0 ≤ nanTo d (ratio V1 V2 (fppf q V1 V2)) ∧ nanTo d (ratio V1 V2 (fppf q V1 V2)) ≤ 1 := by
  by_cases hb : V1 ≤ 0 ∨ V2 ≤ 0
  · rw [hF.bad q V1 V2 hb]; exact ⟨hd0, hd1⟩
  push Not at hb
  rcases hq1.eq_or_lt with rfl | hlt
  · rw [hF.one V1 V2 hb.1 hb.2]; exact ⟨hd0, hd1⟩
  · obtain ⟨f, hf0, hf⟩ := hF.fin q V1 V2 hq0 hlt hb.1 hb.2
    obtain ⟨e, h0, h1⟩ := ratio_fin hb.1 hb.2 hf0
    rw [hf, e]; exact ⟨h0, h1⟩

/-- **C29** `one_sample_proportion`: for every trial and success count and every confidence in `[0,1]`,
`0 ≤ lower ≤ upper ≤ 1`. -/
theorem C29_one_sample_bounds {fppf : ℝ → ℤ → ℤ → Ext ℝ} (hF : FLaw fppf) {t s : ℤ} {CI lo up : ℝ}
    (hC0 : 0 ≤ CI) (hC1 : CI ≤ 1)
    (h : oneSampleProportion fppf (some (.int t)) (some (.int s)) CI = .ok (lo, up)) :
    0 ≤ lo ∧ lo ≤ up ∧ up ≤ 1 := by
  unfold oneSampleProportion at h
  dsimp only at h
  by_cases h1 : (PyNum.int s).val > (PyNum.int t).val
  · rw [if_pos h1] at h; exact absurd h (by simp [valueErr])
  rw [if_neg h1] at h
  have hst : s ≤ t := by
    have : ((s : ℝ)) ≤ t := not_lt.1 h1
    exact_mod_cast this
  have hv : ∀ k : ℤ, (PyNum.int k).val = (k : ℝ) := fun _ => rfl
  simp only [Except.ok.injEq, Prod.mk.injEq] at h
  obtain ⟨hlo, hup⟩ := h
  set n : ℝ := if (PyNum.int s).val = 0 ∨ (PyNum.int s).val = (PyNum.int t).val then 1 else 2 with hn
  have hn1 : 1 ≤ n := by rw [hn]; split <;> norm_num
  have hq0 : 0 ≤ (1 - CI) / n := div_nonneg (by linarith) (by linarith)
  have hq1 : (1 - CI) / n ≤ 1 := by rw [div_le_one (by linarith)]; linarith
  have hlob := nanTo_ratio_mem hF (d := 0) (2 * s) (2 * (t - s + 1)) hq0 hq1 le_rfl zero_le_one
  have hupb := nanTo_ratio_mem hF (q := 1 - (1 - CI) / n) (d := 1) (2 * (s + 1)) (2 * (t - s))
    (by linarith) (by linarith) zero_le_one le_rfl
  rw [hlo] at hlob
  rw [hup] at hupb
  refine ⟨hlob.1, ?_, hupb.2⟩
  by_cases hs : s ≤ 0
  · have : lo = 0 := by rw [← hlo, hF.bad _ _ _ (Or.inl (by omega))]; rfl
    rw [this]; exact hupb.1
  by_cases hts : t - s ≤ 0
  · have : up = 1 := by rw [← hup, hF.bad _ _ _ (Or.inr (by omega))]; rfl
    rw [this]; exact hlob.2
  push Not at hs hts
  have hn2 : n = 2 := by
    rw [hn, if_neg]
    rintro (h | h)
    · rw [hv] at h
      have : s = 0 := by exact_mod_cast h
      omega
    · rw [hv, hv] at h
      have : s = t := by exact_mod_cast h
      omega
  rw [hn2] at hlo hup hq0 hq1
  rcases hC1.eq_or_lt with rfl | hClt
  · have : up = 1 := by
      rw [← hup]
      norm_num
      rw [hF.one _ _ (by omega) (by omega)]
      rfl
    rw [this]; exact hlob.2
  · have hqa : (1 - CI) / 2 < 1 := by linarith
    have hqb : 1 - (1 - CI) / 2 < 1 := by linarith
    obtain ⟨f, hf0, hf⟩ := hF.fin ((1 - CI) / 2) (2 * s) (2 * (t - s + 1)) hq0 hqa (by omega) (by omega)
    obtain ⟨f', hf'0, hf'⟩ := hF.fin (1 - (1 - CI) / 2) (2 * (s + 1)) (2 * (t - s)) (by linarith) hqb (by omega) (by omega)
    have ho := hF.order ((1 - CI) / 2) (1 - (1 - CI) / 2) (2 * s) (2 * (t - s + 1)) f f' hq0 (by linarith) hqb
      (by omega) (by omega) hf
      (by rw [show 2 * s + 2 = 2 * (s + 1) by ring, show 2 * (t - s + 1) - 2 = 2 * (t - s) by ring]; exact hf')
    rw [hf, (ratio_fin (by omega) (by omega) hf0).1] at hlo
    rw [hf', (ratio_fin (by omega) (by omega) hf'0).1] at hup
    simp only [nanTo] at hlo hup
    rw [← hlo, ← hup]
    rw [show (2 * s + 2 : ℤ) = 2 * (s + 1) by ring, show (2 * (t - s + 1) - 2 : ℤ) = 2 * (t - s) by ring] at ho
    exact ho

/-- **C29** Anything that is not an integer pair with `successes ≤ trials` is refused. -/
theorem C29_one_sample_rejects (fppf : ℝ → ℤ → ℤ → Ext ℝ) (t s : Option PyNum) (CI : ℝ) :
    (oneSampleProportion fppf t s CI = .error .valueError) ↔
      ¬ ∃ a b : ℤ, t = some (.int a) ∧ s = some (.int b) ∧ b ≤ a := by
  unfold oneSampleProportion
  rcases t with _ | t <;> rcases s with _ | s
  · simp [valueErr]
  · simp [valueErr]
  · simp [valueErr]
  · simp only []
    by_cases h : s.val > t.val
    · rw [if_pos h]
      simp only [valueErr, true_iff]
      rintro ⟨a, b, ha, hb, hab⟩
      simp only [Option.some.injEq] at ha hb
      subst ha hb
      simp only [PyNum.val, gt_iff_lt, Int.cast_lt] at h
      omega
    · rw [if_neg h]
      rcases t with t | t <;> rcases s with s | s
      · simp only [reduceCtorEq, false_iff, not_not]
        refine ⟨t, s, rfl, rfl, ?_⟩
        simp only [PyNum.val, gt_iff_lt, Int.cast_lt] at h
        omega
      all_goals simp [valueErr]

/-- **C29** Swapping the two samples negates and swaps the bounds and keeps the verdict. -/
theorem C29_two_proportion_swap (ppf : ℝ → ℝ) {t1 s1 t2 s2 CI : ℝ} {r : TwoProp}
    (h : twoProportionTest ppf (some t1) (some s1) (some t2) (some s2) CI = .ok r) :
    twoProportionTest ppf (some t2) (some s2) (some t1) (some s1) CI =
      .ok ⟨-r.upper, -r.lower, r.significant⟩ := by
  unfold twoProportionTest at h ⊢
  by_cases hC : CI < 1 / 2 ∨ CI ≥ 1
  · rw [if_pos hC] at h; exact absurd h (by simp [valueErr])
  rw [if_neg hC] at h ⊢
  simp only [] at h ⊢
  by_cases h1 : s1 > t1 ∨ s2 > t2
  · rw [if_pos h1] at h; exact absurd h (by simp [valueErr])
  rw [if_neg h1] at h
  rw [if_neg (by tauto)]
  by_cases h2 : t1 = 0 ∨ t2 = 0
  · rw [if_pos h2] at h; exact absurd h (by simp)
  rw [if_neg h2] at h
  rw [if_neg (by tauto)]
  by_cases h3 : s1 / t1 * (1 - s1 / t1) / t1 + s2 / t2 * (1 - s2 / t2) / t2 < 0
  · rw [if_pos h3] at h; exact absurd h (by simp)
  rw [if_neg h3] at h
  rw [add_comm (s2 / t2 * (1 - s2 / t2) / t2), if_neg h3]
  injection h with h
  rw [← h]
  simp only [Except.ok.injEq, TwoProp.mk.injEq]
  refine ⟨by ring, by ring, ?_⟩
  rw [Bool.eq_iff_iff]
  simp only [Bool.not_eq_true', Bool.and_eq_false_imp, decide_eq_true_eq, decide_eq_false_iff_not, gt_iff_lt]
  constructor
  · intro hh a b; exact hh (by linarith) (by linarith)
  · intro hh a b; exact hh (by linarith) (by linarith)

/-- **C29** The verdict: "significant" exactly when zero is not strictly inside the interval, so whenever
zero is outside the closed interval, and never when it is strictly inside. -/
theorem C29_two_proportion_verdict_partial (ppf : ℝ → ℝ) {t1 s1 t2 s2 CI : ℝ} {r : TwoProp}
    (h : twoProportionTest ppf (some t1) (some s1) (some t2) (some s2) CI = .ok r) :
    (r.significant = true ↔ ¬ (r.lower < 0 ∧ 0 < r.upper)) ∧
    ((0 < r.lower ∨ r.upper < 0) → r.significant = true) := by
  unfold twoProportionTest at h
  by_cases hC : CI < 1 / 2 ∨ CI ≥ 1
  · rw [if_pos hC] at h; exact absurd h (by simp [valueErr])
  rw [if_neg hC] at h
  simp only [] at h
  by_cases h1 : s1 > t1 ∨ s2 > t2
  · rw [if_pos h1] at h; exact absurd h (by simp [valueErr])
  rw [if_neg h1] at h
  by_cases h2 : t1 = 0 ∨ t2 = 0
  · rw [if_pos h2] at h; exact absurd h (by simp)
  rw [if_neg h2] at h
  by_cases h3 : s1 / t1 * (1 - s1 / t1) / t1 + s2 / t2 * (1 - s2 / t2) / t2 < 0
  · rw [if_pos h3] at h; exact absurd h (by simp)
  rw [if_neg h3] at h
  injection h with h
  have hv : r.significant = true ↔ ¬ (r.lower < 0 ∧ 0 < r.upper) := by
    rw [← h]
    simp only [Bool.not_eq_true', Bool.and_eq_false_imp, decide_eq_true_eq, decide_eq_false_iff_not, gt_iff_lt,
      not_and]
  refine ⟨hv, fun hh => hv.2 ?_⟩
  rintro ⟨a, b⟩
  rcases hh with hh | hh <;> linarith

/-- **C29** Finding: two samples without a single failure (any sizes) are reported as significantly
different, with the interval `[0, 0]`. -/
theorem C29_two_proportion_perfect_finding (ppf : ℝ → ℝ) {t1 t2 CI : ℝ} (hC0 : 1 / 2 ≤ CI) (hC1 : CI < 1)
    (h1 : 0 < t1) (h2 : 0 < t2) :
    twoProportionTest ppf (some t1) (some t1) (some t2) (some t2) CI = .ok ⟨0, 0, true⟩ := by
  unfold twoProportionTest
  rw [if_neg (by push Not; exact ⟨hC0, hC1⟩)]
  simp only []
  rw [if_neg (by simp), if_neg (by push Not; exact ⟨h1.ne', h2.ne'⟩)]
  rw [div_self h1.ne', div_self h2.ne']
  norm_num

/-- A valid, non-degenerate call. -/
example : ∃ r, twoProportionTest (fun q => q) (some 500) (some 490) (some 800) (some 770) (95 / 100) = .ok r := by
  unfold twoProportionTest
  norm_num

example : ∃ lo up, oneSampleProportion exampleF (some (.int 30)) (some (.int 29)) (95 / 100) = .ok (lo, up) := by
  unfold oneSampleProportion
  dsimp only
  rw [if_neg (by simp only [PyNum.val]; norm_num)]
  exact ⟨_, _, rfl⟩

/-! ## C30 sequential_sampling_chart -/

/-- The constants of the decision lines. -/
theorem seq_consts {p1 p2 : ℝ} (h1 : 0 < p1) (h12 : p1 < p2) (h2 : p2 < 1) :
    0 < Real.log (p2 / p1) ∧ 0 < Real.log ((1 - p1) / (1 - p2)) := by
  constructor
  · apply Real.log_pos; rw [one_lt_div h1]; exact h12
  · apply Real.log_pos; rw [one_lt_div (by linarith)]; linarith

/-- logarithm of the likelihood ratio -/
theorem log_likelihoodRatio {p1 p2 : ℝ} (h1 : 0 < p1) (h12 : p1 < p2) (h2 : p2 < 1) {x k : Nat} (hk : k ≤ x) :
    0 < likelihoodRatio p1 p2 x k ∧ Real.log (likelihoodRatio p1 p2 x k) =
      k * (Real.log (p2 / p1) + Real.log ((1 - p1) / (1 - p2))) - x * Real.log ((1 - p1) / (1 - p2)) := by
  have a : 0 < 1 - p1 := by linarith
  have b : 0 < 1 - p2 := by linarith
  have c : 0 < p2 := by linarith
  have d : p1 ^ k ≠ 0 := by positivity
  have e : p2 ^ k ≠ 0 := by positivity
  have f : (1 - p1) ^ (x - k) ≠ 0 := by positivity
  have g : (1 - p2) ^ (x - k) ≠ 0 := by positivity
  unfold likelihoodRatio
  refine ⟨by positivity, ?_⟩
  rw [Real.log_div (by positivity) (by positivity), Real.log_mul e g, Real.log_mul d f, Real.log_pow, Real.log_pow,
    Real.log_pow, Real.log_pow, Real.log_div c.ne' h1.ne', Real.log_div a.ne' b.ne', Nat.cast_sub hk]
  ring


/-- A row is Wald's test. -/
theorem seq_is_sprt {p1 p2 α β : ℝ} {x k : Nat} (h1 : 0 < p1) (h12 : p1 < p2) (h2 : p2 < 1)
    (ha0 : 0 < α) (ha1 : α < 1) (hb0 : 0 < β) (hb1 : β < 1) (hab : α + β < 1) (hk : k ≤ x) :
    ((∃ a, (seqRow p1 p2 α β x).accept = some a ∧ (k : ℤ) ≤ a) ↔ likelihoodRatio p1 p2 x k ≤ β / (1 - α)) ∧
    ((∃ r, (seqRow p1 p2 α β x).reject = some r ∧ r ≤ (k : ℤ)) ↔ (1 - β) / α ≤ likelihoodRatio p1 p2 x k) := by
  obtain ⟨hA, hB⟩ := seq_consts h1 h12 h2
  obtain ⟨hL0, hL⟩ := log_likelihoodRatio h1 h12 h2 hk
  set A := Real.log (p2 / p1)
  set B := Real.log ((1 - p1) / (1 - p2))
  have hd : 0 < A + B := by linarith
  have hacc : ((k : ℤ) ≤ ⌊B / (A + B) * (x : ℝ) + Real.log ((1 - (1 - β)) / (1 - α)) / (A + B)⌋) ↔
      likelihoodRatio p1 p2 x k ≤ β / (1 - α) := by
    rw [Int.le_floor, ← Real.log_le_log_iff hL0 (div_pos hb0 (by linarith)), hL, sub_sub_cancel,
      div_mul_eq_mul_div, ← add_div, le_div_iff₀ hd]
    push_cast
    constructor <;> intro h <;> linarith
  have hrej : (⌈B / (A + B) * (x : ℝ) - Real.log ((1 - (1 - α)) / (1 - β)) / (A + B)⌉ ≤ (k : ℤ)) ↔
      (1 - β) / α ≤ likelihoodRatio p1 p2 x k := by
    rw [Int.ceil_le, ← Real.log_le_log_iff (div_pos (by linarith) ha0) hL0, hL, sub_sub_cancel,
      div_mul_eq_mul_div, ← sub_div, div_le_iff₀ hd, ← inv_div (1 - β) α, Real.log_inv]
    push_cast
    constructor <;> intro h <;> linarith
  have hrej0 : 0 ≤ ⌈B / (A + B) * (x : ℝ) - Real.log ((1 - (1 - α)) / (1 - β)) / (A + B)⌉ := by
    apply Int.ceil_nonneg
    have e : Real.log ((1 - (1 - α)) / (1 - β)) ≤ 0 := by
      apply Real.log_nonpos
      · rw [sub_sub_cancel]; exact (div_pos ha0 (by linarith)).le
      · rw [sub_sub_cancel, div_le_one (by linarith)]; linarith
    have e1 : Real.log ((1 - (1 - α)) / (1 - β)) / (A + B) ≤ 0 := div_nonpos_of_nonpos_of_nonneg e hd.le
    have e2 : 0 ≤ B / (A + B) * (x : ℝ) := by positivity
    linarith
  rw [← hacc, ← hrej]
  unfold seqRow
  simp only []
  set acc := ⌊B / (A + B) * (x : ℝ) + Real.log ((1 - (1 - β)) / (1 - α)) / (A + B)⌋
  set rej := ⌈B / (A + B) * (x : ℝ) - Real.log ((1 - (1 - α)) / (1 - β)) / (A + B)⌉
  constructor
  · unfold orX
    constructor
    · rintro ⟨a, h, ha⟩
      split at h
      · simp at h
      · injection h with h; rw [h]; exact ha
    · intro h
      refine ⟨acc, ?_, h⟩
      rw [if_neg (by omega)]
  · constructor
    · rintro ⟨r, h, hr⟩
      by_cases hx : rej > (x : ℤ)
      · rw [if_pos hx] at h; simp [orX] at h
      · rw [if_neg hx] at h
        unfold orX at h
        split at h
        · simp at h
        · injection h with h; rw [h]; exact hr
    · intro h
      refine ⟨rej, ?_, h⟩
      rw [if_neg (by omega)]
      unfold orX
      rw [if_neg (by omega)]

/-- the raw lines -/
theorem seq_lines {p1 p2 α β : ℝ} (h1 : 0 < p1) (h12 : p1 < p2) (h2 : p2 < 1)
    (ha0 : 0 < α) (ha1 : α < 1) (hb0 : 0 < β) (hb1 : β < 1) (hab : α + β < 1) :
    ∃ s a r : ℝ, 0 < s ∧ s < 1 ∧ 0 < a ∧ 0 < r ∧ ∀ x : Nat, seqRow p1 p2 α β x =
      ⟨x, orX ⌊s * x - a⌋, orX (if ⌈s * x + r⌉ > (x : ℤ) then -1 else ⌈s * (x : ℝ) + r⌉)⟩ := by
  obtain ⟨hA, hB⟩ := seq_consts h1 h12 h2
  set A := Real.log (p2 / p1) with hA'
  set B := Real.log ((1 - p1) / (1 - p2)) with hB'
  have hd : 0 < A + B := by linarith
  have e1 : Real.log ((1 - (1 - α)) / (1 - β)) < 0 := by
    rw [sub_sub_cancel]
    exact Real.log_neg (div_pos ha0 (by linarith)) (by rw [div_lt_one (by linarith)]; linarith)
  have e2 : Real.log ((1 - (1 - β)) / (1 - α)) < 0 := by
    rw [sub_sub_cancel]
    exact Real.log_neg (div_pos hb0 (by linarith)) (by rw [div_lt_one (by linarith)]; linarith)
  refine ⟨B / (A + B), -(Real.log ((1 - (1 - β)) / (1 - α)) / (A + B)),
    -(Real.log ((1 - (1 - α)) / (1 - β)) / (A + B)), by positivity, ?_, ?_, ?_, ?_⟩
  · rw [div_lt_one hd]; linarith
  · have := div_neg_of_neg_of_pos e2 hd; linarith
  · have := div_neg_of_neg_of_pos e1 hd; linarith
  · intro x
    unfold seqRow
    simp only [sub_neg_eq_add, ← sub_eq_add_neg, hA', hB']

/-- Every row: both numbers that are shown lie between 0 and the number of samples, and the
acceptance number is strictly below the rejection number (so no failure count is both). -/
theorem seq_no_overlap {p1 p2 α β : ℝ} (h1 : 0 < p1) (h12 : p1 < p2) (h2 : p2 < 1)
    (ha0 : 0 < α) (ha1 : α < 1) (hb0 : 0 < β) (hb1 : β < 1) (hab : α + β < 1) (x : Nat) :
    (∀ a, (seqRow p1 p2 α β x).accept = some a → 0 ≤ a ∧ (0 < x → a < x)) ∧
    (∀ r, (seqRow p1 p2 α β x).reject = some r → 0 < r ∧ r ≤ x) ∧
    (∀ a r, (seqRow p1 p2 α β x).accept = some a → (seqRow p1 p2 α β x).reject = some r → a < r) := by
  obtain ⟨s, a, r, hs0, hs1, ha, hr, hrow⟩ := seq_lines h1 h12 h2 ha0 ha1 hb0 hb1 hab
  rw [hrow x]
  have hacc : ∀ v, orX ⌊s * (x : ℝ) - a⌋ = some v → 0 ≤ v ∧ v = ⌊s * (x : ℝ) - a⌋ := by
    intro v hv
    unfold orX at hv
    split at hv
    · simp at hv
    · injection hv with hv; exact ⟨by omega, hv.symm⟩
  have hrej : ∀ v, orX (if ⌈s * (x : ℝ) + r⌉ > (x : ℤ) then -1 else ⌈s * (x : ℝ) + r⌉) = some v →
      v = ⌈s * (x : ℝ) + r⌉ ∧ v ≤ x := by
    intro v hv
    by_cases hx : ⌈s * (x : ℝ) + r⌉ > (x : ℤ)
    · rw [if_pos hx] at hv; simp [orX] at hv
    · rw [if_neg hx] at hv
      unfold orX at hv
      split at hv
      · simp at hv
      · injection hv with hv; exact ⟨hv.symm, by omega⟩
  have hx0 : (0 : ℝ) ≤ x := Nat.cast_nonneg x
  refine ⟨fun v hv => ⟨(hacc v hv).1, fun hx => ?_⟩, fun v hv => ⟨?_, (hrej v hv).2⟩, fun v w hv hw => ?_⟩
  · rw [(hacc v hv).2, Int.floor_lt]
    have : (0 : ℝ) < x := by exact_mod_cast hx
    push_cast
    nlinarith
  · rw [(hrej v hv).1, Int.ceil_pos]
    positivity
  · rw [(hacc v hv).2, (hrej w hw).1]
    have a1 := Int.floor_le (s * (x : ℝ) - a)
    have a2 := Int.le_ceil (s * (x : ℝ) + r)
    have : ((⌊s * (x : ℝ) - a⌋ : ℤ) : ℝ) < ((⌈s * (x : ℝ) + r⌉ : ℤ) : ℝ) := by linarith
    exact_mod_cast this

/-- Down the table both numbers, once shown, stay shown and never decrease. -/
theorem seq_monotone {p1 p2 α β : ℝ} (h1 : 0 < p1) (h12 : p1 < p2) (h2 : p2 < 1)
    (ha0 : 0 < α) (ha1 : α < 1) (hb0 : 0 < β) (hb1 : β < 1) (hab : α + β < 1) {x y : Nat} (hxy : x ≤ y) :
    (∀ a, (seqRow p1 p2 α β x).accept = some a → ∃ a', (seqRow p1 p2 α β y).accept = some a' ∧ a ≤ a') ∧
    (∀ r, (seqRow p1 p2 α β x).reject = some r → ∃ r', (seqRow p1 p2 α β y).reject = some r' ∧ r ≤ r') := by
  obtain ⟨s, a, r, hs0, hs1, ha, hr, hrow⟩ := seq_lines h1 h12 h2 ha0 ha1 hb0 hb1 hab
  rw [hrow x, hrow y]
  have hc : (x : ℝ) ≤ y := by exact_mod_cast hxy
  have hmul : s * (x : ℝ) ≤ s * y := mul_le_mul_of_nonneg_left hc hs0.le
  constructor
  · intro v hv
    have hm : ⌊s * (x : ℝ) - a⌋ ≤ ⌊s * (y : ℝ) - a⌋ := Int.floor_le_floor (by linarith)
    unfold orX at hv
    simp only [] at hv
    split at hv
    · simp at hv
    · injection hv with hv
      refine ⟨⌊s * (y : ℝ) - a⌋, ?_, by omega⟩
      simp only [orX]
      rw [if_neg (by omega)]
  · intro v hv
    have hm : ⌈s * (x : ℝ) + r⌉ ≤ ⌈s * (y : ℝ) + r⌉ := Int.ceil_le_ceil (by linarith)
    have hpos : 0 < ⌈s * (x : ℝ) + r⌉ := Int.ceil_pos.2 (by positivity)
    simp only [] at hv
    by_cases hx : ⌈s * (x : ℝ) + r⌉ > (x : ℤ)
    · rw [if_pos hx] at hv; simp [orX] at hv
    · rw [if_neg hx] at hv
      unfold orX at hv
      rw [if_neg (by omega)] at hv
      injection hv with hv
      refine ⟨⌈s * (y : ℝ) + r⌉, ?_, by omega⟩
      have hy : ¬ ⌈s * (y : ℝ) + r⌉ > (y : ℤ) := by
        push Not at hx ⊢
        rw [Int.ceil_le] at hx ⊢
        push_cast at hx ⊢
        nlinarith
      simp only [if_neg hy, orX]
      rw [if_neg (by omega)]

/-- The returned table has one row for each number of samples 0, 1, …, `max_samples`. -/
theorem seq_rows {p1 p2 α β : ℝ} {m : Nat} (h1 : 0 < p1) (h1' : p1 < 1) (h2 : 0 < p2) (h2' : p2 < 1)
    (ha0 : 0 < α) (ha1 : α < 1) (hb0 : 0 < β) (hb1 : β < 1) :
    ∃ rows, sequentialSampling p1 p2 α β m = .ok rows ∧ rows.length = m + 1 ∧
      ∀ x : Nat, x ≤ m → rows[x]? = some (seqRow p1 p2 α β x) ∧ (seqRow p1 p2 α β x).samples = x := by
  refine ⟨(List.range (m + 1)).map fun x : Nat => seqRow p1 p2 α β x, ?_, by simp, fun x hx => ⟨?_, rfl⟩⟩
  · unfold sequentialSampling
    rw [if_neg (by push Not; exact ⟨ha0, ha1⟩), if_neg (by push Not; exact ⟨hb0, hb1⟩),
      if_neg (by push Not; exact ⟨h1, h1'⟩), if_neg (by push Not; exact ⟨h2, h2'⟩)]
  · rw [List.getElem?_map, List.getElem?_range (by omega)]; rfl

/-- **C30** The returned table is Wald's sequential probability ratio test, with one row for each number of samples
0, 1, …, `max_samples`: with `k` failures in `x` samples, "accept" is offered exactly when the likelihood ratio is at most
`β/(1-α)`, and "reject" exactly when it is at least `(1-β)/α`. -/
theorem C30_is_sprt {p1 p2 α β : ℝ} {m : Nat} (h1 : 0 < p1) (h12 : p1 < p2) (h2 : p2 < 1)
    (ha0 : 0 < α) (ha1 : α < 1) (hb0 : 0 < β) (hb1 : β < 1) (hab : α + β < 1) :
    ∃ rows, sequentialSampling p1 p2 α β m = .ok rows ∧ rows.length = m + 1 ∧ ∀ x : Nat, x ≤ m →
      ∃ row, rows[x]? = some row ∧ row.samples = x ∧ ∀ k : Nat, k ≤ x →
        ((∃ a, row.accept = some a ∧ (k : ℤ) ≤ a) ↔ likelihoodRatio p1 p2 x k ≤ β / (1 - α)) ∧
        ((∃ r, row.reject = some r ∧ r ≤ (k : ℤ)) ↔ (1 - β) / α ≤ likelihoodRatio p1 p2 x k) := by
  obtain ⟨rows, e1, e2, e3⟩ := seq_rows (m := m) h1 (h12.trans h2) (h1.trans h12) h2 ha0 ha1 hb0 hb1
  exact ⟨rows, e1, e2, fun x hx => ⟨_, (e3 x hx).1, (e3 x hx).2, fun k hk =>
    seq_is_sprt h1 h12 h2 ha0 ha1 hb0 hb1 hab hk⟩⟩

/-- **C30** In every row of the table the acceptance number is a number of failures less than the sample, the rejection
number positive and at most the sample, and the acceptance number is below the rejection number. -/
theorem C30_no_overlap {p1 p2 α β : ℝ} {m : Nat} (h1 : 0 < p1) (h12 : p1 < p2) (h2 : p2 < 1)
    (ha0 : 0 < α) (ha1 : α < 1) (hb0 : 0 < β) (hb1 : β < 1) (hab : α + β < 1) {rows : List SeqRow}
    (hrows : sequentialSampling p1 p2 α β m = .ok rows) {x : Nat} {row : SeqRow} (hrow : rows[x]? = some row) :
    (∀ a, row.accept = some a → 0 ≤ a ∧ (0 < x → a < x)) ∧ (∀ r, row.reject = some r → 0 < r ∧ r ≤ x) ∧
    (∀ a r, row.accept = some a → row.reject = some r → a < r) := by
  obtain ⟨rows', e1, e2, e3⟩ := seq_rows (m := m) h1 (h12.trans h2) (h1.trans h12) h2 ha0 ha1 hb0 hb1
  rw [hrows] at e1
  cases e1
  have hx : x ≤ m := by
    have := (List.getElem?_eq_some_iff.1 hrow).1
    omega
  rw [(e3 x hx).1] at hrow
  cases hrow
  exact seq_no_overlap h1 h12 h2 ha0 ha1 hb0 hb1 hab x

/-- **C30** Both numbers, once offered, are offered in every later row and never decrease. -/
theorem C30_monotone {p1 p2 α β : ℝ} {m : Nat} (h1 : 0 < p1) (h12 : p1 < p2) (h2 : p2 < 1)
    (ha0 : 0 < α) (ha1 : α < 1) (hb0 : 0 < β) (hb1 : β < 1) (hab : α + β < 1) {rows : List SeqRow}
    (hrows : sequentialSampling p1 p2 α β m = .ok rows) {x y : Nat} (hxy : x ≤ y) {row row' : SeqRow}
    (hrow : rows[x]? = some row) (hrow' : rows[y]? = some row') :
    (∀ a, row.accept = some a → ∃ a', row'.accept = some a' ∧ a ≤ a') ∧
    (∀ r, row.reject = some r → ∃ r', row'.reject = some r' ∧ r ≤ r') := by
  obtain ⟨rows', e1, e2, e3⟩ := seq_rows (m := m) h1 (h12.trans h2) (h1.trans h12) h2 ha0 ha1 hb0 hb1
  rw [hrows] at e1
  cases e1
  have hy : y ≤ m := by
    have := (List.getElem?_eq_some_iff.1 hrow').1
    omega
  rw [(e3 x (hxy.trans hy)).1] at hrow
  rw [(e3 y hy).1] at hrow'
  cases hrow
  cases hrow'
  exact seq_monotone h1 h12 h2 ha0 ha1 hb0 hb1 hab hxy

/-- **C30** Finding: `p1 < p2` and `α + β < 1` are not checked; with `α + β > 1` a single row can offer accept
and reject for the same failure count.  Here `p1 = 1/4, p2 = 3/4, α = β = 9/10`: after one sample, 0 failures
(and 1 failure) are in both regions. -/
theorem C30_overlap_finding :
    ∃ rows row, sequentialSampling (1 / 4) (3 / 4) (9 / 10) (9 / 10) 10 = .ok rows ∧ rows[1]? = some row ∧
      ∃ a r, row.accept = some a ∧ row.reject = some r ∧ r ≤ a := by
  obtain ⟨rows, h, hl, hr⟩ := seq_rows (p1 := 1 / 4) (p2 := 3 / 4) (α := 9 / 10) (β := 9 / 10) (m := 10)
    (by norm_num) (by norm_num) (by norm_num) (by norm_num) (by norm_num) (by norm_num) (by norm_num) (by norm_num)
  refine ⟨rows, _, h, (hr 1 (by omega)).1, ?_⟩
  have hl3 : 0 < Real.log 3 := Real.log_pos (by norm_num)
  have hl9 : Real.log 9 = 2 * Real.log 3 := by
    rw [show (9 : ℝ) = 3 ^ 2 by norm_num, Real.log_pow]; norm_num
  have e1 : Real.log (3 / 4 / (1 / 4)) = Real.log 3 := by norm_num
  have e2 : Real.log ((1 - 1 / 4) / (1 - 3 / 4)) = Real.log 3 := by norm_num
  have e3 : Real.log ((1 - (1 - 9 / 10)) / (1 - 9 / 10)) = 2 * Real.log 3 := by rw [← hl9]; norm_num
  have hrow : seqRow (1 / 4) (3 / 4) (9 / 10) (9 / 10) 1 = ⟨1, orX 1, orX (if (0 : ℤ) > 1 then -1 else 0)⟩ := by
    unfold seqRow
    simp only [e1, e2, e3]
    have a1 : Real.log 3 / (Real.log 3 + Real.log 3) = 1 / 2 := by field_simp; norm_num
    have a2 : 2 * Real.log 3 / (Real.log 3 + Real.log 3) = 1 := by field_simp; norm_num
    rw [a1, a2]
    have f1 : ⌊(1 / 2 : ℝ) * ((1 : Nat) : ℝ) + 1⌋ = 1 := by rw [Int.floor_eq_iff]; norm_num
    have f2 : ⌈(1 / 2 : ℝ) * ((1 : Nat) : ℝ) - 1⌉ = 0 := by rw [Int.ceil_eq_iff]; norm_num
    rw [f1, f2]; rfl
  rw [hrow]
  exact ⟨1, 0, by simp [orX], by simp [orX], by omega⟩

/-- The hypotheses of C30 are met by the documented defaults (`p1 = 0.01, p2 = 0.1, α = 0.05, β = 0.1`). -/
example : (0 : ℝ) < 1 / 100 ∧ (1 / 100 : ℝ) < 1 / 10 ∧ (5 / 100 : ℝ) + 1 / 10 < 1 := by norm_num

end Reliability.Testing

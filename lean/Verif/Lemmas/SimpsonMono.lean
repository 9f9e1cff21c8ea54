import Mathlib.Analysis.SumIntegralComparisons
import Verif.Lemmas.Combined

/-!
# Simpson's rule for a decreasing function: the error is at most one step times the total decrease
-/

namespace Reliability.Combined

open Spec List

/-- Every partial sum of the weights is within one step of the length covered. -/
structure Steady (l : List ℝ) : Prop where
  partials : ∀ i, i + 1 < l.length → (i : ℝ) ≤ (l.take (i + 1)).sum ∧ (l.take (i + 1)).sum ≤ i + 1
  total : l.sum = (l.length : ℝ) - 1

theorem Steady.reverse {l : List ℝ} (h : Steady l) : Steady l.reverse := by
  refine ⟨fun i hi => ?_, by simpa using h.total⟩
  rw [length_reverse] at hi
  rw [take_reverse, sum_reverse]
  have e : (l.take (l.length - (i + 1))).sum + (l.drop (l.length - (i + 1))).sum = l.sum := by
    rw [← sum_append, take_append_drop]
  obtain ⟨j, hj⟩ : ∃ j, l.length = i + 1 + (j + 1) := ⟨l.length - (i + 1) - 1, by omega⟩
  have hp := h.partials j (by omega)
  rw [hj, show i + 1 + (j + 1) - (i + 1) = j + 1 by omega] at e
  rw [hj, show i + 1 + (j + 1) - (i + 1) = j + 1 by omega]
  have ht := h.total
  rw [hj] at ht
  push_cast at ht
  constructor <;> linarith [hp.1, hp.2]

theorem simpsonOdd_steady (k : ℕ) : Steady (simpsonOdd k) := by
  induction k with
  | zero => exact ⟨by simp [simpsonOdd], by simp [simpsonOdd]⟩
  | succ k ih =>
    obtain ⟨w, ws, h, -, -, -⟩ := simpsonOdd_cons k
    rw [h] at ih
    rw [simpsonOdd, h]
    have ht := ih.total
    simp only [sum_cons, length_cons] at ht
    refine ⟨fun i hi => ?_, ?_⟩
    · match i with
      | 0 => simp; norm_num
      | 1 => simp; norm_num
      | j + 2 =>
        have := ih.partials j (by simpa using hi)
        simp only [take_succ_cons, sum_cons] at this ⊢
        push_cast
        constructor <;> linarith [this.1, this.2]
    · simp only [sum_cons, length_cons]
      push_cast at ht ⊢
      linarith

theorem simpsonWeights_steady {n : ℕ} (hn : 3 ≤ n) : Steady (simpsonWeights n) := by
  rcases Nat.even_or_odd' n with ⟨k, rfl | rfl⟩
  · obtain ⟨j, rfl⟩ : ∃ j, k = j + 2 := ⟨k - 2, by omega⟩
    obtain ⟨w, ws, h, e⟩ := simpsonWeights_even j
    rw [show 2 * (j + 2) = 2 * j + 4 by ring, e]
    apply Steady.reverse
    have ih := simpsonOdd_steady j
    rw [h] at ih
    have ht := ih.total
    simp only [sum_cons, length_cons] at ht
    refine ⟨fun i hi => ?_, ?_⟩
    · match i with
      | 0 => simp; norm_num
      | 1 => simp; norm_num
      | 2 => simp; norm_num
      | j + 3 =>
        have := ih.partials j (by simpa using hi)
        simp only [take_succ_cons, sum_cons] at this ⊢
        push_cast
        constructor <;> linarith [this.1, this.2]
    · simp only [sum_cons, length_cons]
      push_cast at ht ⊢
      linarith
  · rw [simpsonWeights_odd]; exact simpsonOdd_steady k

/-- Summation by parts. -/
theorem sum_by_parts (w s : ℕ → ℝ) (k : ℕ) : ∑ i ∈ Finset.range (k + 1), w i * s i =
    (∑ i ∈ Finset.range (k + 1), w i) * s k +
      ∑ i ∈ Finset.range k, (∑ j ∈ Finset.range (i + 1), w j) * (s i - s (i + 1)) := by
  induction k with
  | zero => simp
  | succ k ih =>
    rw [Finset.sum_range_succ, ih, Finset.sum_range_succ w (k + 1),
      Finset.sum_range_succ (fun i => (∑ j ∈ Finset.range (i + 1), w j) * (s i - s (i + 1))) k]
    ring

theorem sum_i_mul (s : ℕ → ℝ) (k : ℕ) : ∑ i ∈ Finset.range k, (i : ℝ) * (s i - s (i + 1)) =
    ∑ i ∈ Finset.range k, s (i + 1) - k * s k := by
  induction k with
  | zero => simp
  | succ k ih => rw [Finset.sum_range_succ, ih, Finset.sum_range_succ]; push_cast; ring

theorem sum_i1_mul (s : ℕ → ℝ) (k : ℕ) : ∑ i ∈ Finset.range k, ((i : ℝ) + 1) * (s i - s (i + 1)) =
    ∑ i ∈ Finset.range k, s i - k * s k := by
  induction k with
  | zero => simp
  | succ k ih => rw [Finset.sum_range_succ, ih, Finset.sum_range_succ]; push_cast; ring

theorem steady_bounds {l : List ℝ} (h : Steady l) {N : ℕ} (hl : l.length = N + 1) {s : ℕ → ℝ} (hs : ∀ i < N, s (i + 1) ≤ s i) :
    ∑ i ∈ Finset.range N, s (i + 1) ≤ ∑ i ∈ Finset.range (N + 1), l.getD i 0 * s i ∧
    ∑ i ∈ Finset.range (N + 1), l.getD i 0 * s i ≤ ∑ i ∈ Finset.range N, s i := by
  have hW : ∀ k ≤ l.length, ∑ j ∈ Finset.range k, l.getD j 0 = (l.take k).sum := by
    intro k hk
    induction k with
    | zero => simp
    | succ k ih =>
      rw [Finset.sum_range_succ, ih (by omega), sum_take_succ l k (by omega)]
      rw [getD_eq_getElem?_getD, getElem?_eq_getElem (by omega)]
      rfl
  rw [sum_by_parts, hW _ (by omega), ← hl, take_length, h.total, hl]
  have a1 := sum_i_mul s N
  have a2 := sum_i1_mul s N
  have b1 : ∑ i ∈ Finset.range N, (i : ℝ) * (s i - s (i + 1)) ≤
      ∑ i ∈ Finset.range N, (∑ j ∈ Finset.range (i + 1), l.getD j 0) * (s i - s (i + 1)) := by
    refine Finset.sum_le_sum fun i hi => mul_le_mul_of_nonneg_right ?_ ?_
    · rw [Finset.mem_range] at hi
      rw [hW _ (by omega)]
      exact (h.partials i (by omega)).1
    · linarith [hs i (Finset.mem_range.1 hi)]
  have b2 : ∑ i ∈ Finset.range N, (∑ j ∈ Finset.range (i + 1), l.getD j 0) * (s i - s (i + 1)) ≤
      ∑ i ∈ Finset.range N, ((i : ℝ) + 1) * (s i - s (i + 1)) := by
    refine Finset.sum_le_sum fun i hi => mul_le_mul_of_nonneg_right ?_ ?_
    · rw [Finset.mem_range] at hi
      rw [hW _ (by omega)]
      exact (h.partials i (by omega)).2
    · linarith [hs i (Finset.mem_range.1 hi)]
  push_cast
  constructor <;> linarith

theorem sum_zipWith_range (l : List ℝ) (f : ℕ → ℝ) {n : ℕ} (hl : l.length = n) :
    (zipWith (· * ·) l ((range n).map f)).sum = ∑ i ∈ Finset.range n, l.getD i 0 * f i := by
  induction l generalizing n f with
  | nil => subst hl; simp
  | cons a l ih =>
    subst hl
    rw [length_cons, range_succ_eq_map, Finset.sum_range_succ', map_cons, map_map, zipWith_cons_cons, sum_cons, ih _ rfl]
    simp [add_comm]

/-- For a decreasing function Simpson's sum differs from the integral by at most the step times the total decrease. -/
theorem simpson_antitone {a b : ℝ} (hab : a < b) {n : ℕ} (hn : 3 ≤ n) {S : ℝ → ℝ} (hS : Antitone S) :
    |quadSum (simpsonRule a b n) (Np.linspace a b n) S - ∫ x in a..b, S x| ≤ (b - a) / (n - 1) * (S a - S b) := by
  obtain ⟨N, rfl⟩ : ∃ N, n = N + 1 := ⟨n - 1, by omega⟩
  have hN : (0 : ℝ) < N := by
    have : 0 < N := by omega
    exact_mod_cast this
  set h : ℝ := (b - a) / N with hh
  have hpos : 0 < h := div_pos (by linarith) hN
  have hb : b = a + h * N := by rw [hh]; field_simp; ring
  set s : ℕ → ℝ := fun i => S (a + (i : ℝ) * h) with hs
  have hdec : ∀ i < N, s (i + 1) ≤ s i := by
    intro i _
    apply hS
    push_cast
    nlinarith
  obtain ⟨l1, l2⟩ := steady_bounds (simpsonWeights_steady hn) (simpsonWeights_pos hn).1 hdec
  have hq : quadSum (simpsonRule a b (N + 1)) (Np.linspace a b (N + 1)) S =
      h * ∑ i ∈ Finset.range (N + 1), (simpsonWeights (N + 1)).getD i 0 * s i := by
    rw [← simpson_eq]
    unfold simpson Np.linspace
    rw [map_map, sum_zipWith_range _ _ (simpsonWeights_pos hn).1]
    simp only [Nat.add_sub_cancel]
    rfl
  have hg : Antitone fun u : ℝ => S (a + u * h) := fun u v huv => hS (by nlinarith)
  have i1 := AntitoneOn.integral_le_sum (f := fun u : ℝ => S (a + u * h)) (x₀ := 0) (a := N) (hg.antitoneOn _)
  have i2 := AntitoneOn.sum_le_integral (f := fun u : ℝ => S (a + u * h)) (x₀ := 0) (a := N) (hg.antitoneOn _)
  have hI : ∫ x in a..b, S x = h * ∫ u in (0 : ℝ)..(0 + N), S (a + u * h) := by
    have := intervalIntegral.integral_comp_mul_add (a := 0) (b := 0 + N) S hpos.ne' a
    have e : (fun u : ℝ => S (a + u * h)) = fun u => S (h * u + a) := by
      funext u; congr 1; ring
    rw [e, this, smul_eq_mul, ← mul_assoc, mul_inv_cancel₀ hpos.ne', one_mul]
    congr 1 <;> linarith
  simp only [zero_add] at i1 i2
  have e0 : ∑ i ∈ Finset.range N, s i - ∑ i ∈ Finset.range N, s (i + 1) = S a - S b := by
    rw [← Finset.sum_sub_distrib, Finset.sum_range_sub' s N]
    simp only [hs, Nat.cast_zero, zero_mul, add_zero]
    rw [hb]; ring_nf
  rw [hq, hI]
  simp only [zero_add]
  have : (b - a) / (((N + 1 : ℕ) : ℝ) - 1) = h := by push_cast; rw [hh]; ring_nf
  rw [this, ← mul_sub, abs_mul, abs_of_pos hpos]
  apply mul_le_mul_of_nonneg_left _ hpos.le
  rw [abs_le]
  constructor <;> linarith

end Reliability.Combined

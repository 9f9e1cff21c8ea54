import Mathlib.Analysis.SpecialFunctions.Integrals.Basic
import Mathlib.Tactic.Ring
import Mathlib.Tactic.Linarith
import Mathlib.Tactic.FieldSimp
import Verif.Lemmas.NumPy
import Verif.Model.CombinedInit
import Verif.Spec.Quadrature

/-!
# Simpson's rule on equally spaced points
-/

namespace Reliability.Combined

open Spec

theorem simpsonOdd_cons (k : ℕ) : ∃ w ws, simpsonOdd k = w :: ws ∧ 0 ≤ w ∧ (∀ v ∈ ws, 0 < v) ∧ ws.length = 2 * k := by
  induction k with
  | zero => exact ⟨0, [], rfl, le_rfl, by simp, by simp⟩
  | succ k ih =>
    obtain ⟨w, ws, h, h0, h1, h2⟩ := ih
    refine ⟨1 / 3, 4 / 3 :: (w + 1 / 3) :: ws, by rw [simpsonOdd, h], by norm_num, ?_, by simp [h2]; ring⟩
    intro v hv
    simp only [List.mem_cons] at hv
    rcases hv with rfl | rfl | hv
    · norm_num
    · linarith
    · exact h1 v hv

theorem simpsonOdd_sum (k : ℕ) (A B C s : ℝ) :
    (List.zipWith (· * ·) (simpsonOdd k)
      ((List.range (2 * k + 1)).map fun i : ℕ => A + B * (s + i) + C * (s + i) ^ 2)).sum =
    A * (2 * k) + B * ((s + 2 * k) ^ 2 - s ^ 2) / 2 + C * ((s + 2 * k) ^ 3 - s ^ 3) / 3 := by
  induction k generalizing s with
  | zero => simp [simpsonOdd]
  | succ k ih =>
    obtain ⟨w, ws, h, -, -, -⟩ := simpsonOdd_cons k
    have hr : List.range (2 * (k + 1) + 1) = 0 :: 1 :: (List.range (2 * k + 1)).map (fun i => i + 2) := by
      rw [show 2 * (k + 1) + 1 = (2 * k + 1) + 1 + 1 by ring, List.range_succ_eq_map, List.range_succ_eq_map]
      simp [Function.comp_def]
    have hr' : List.range (2 * k + 1) = 0 :: (List.range (2 * k)).map (fun i => i + 1) := by
      rw [List.range_succ_eq_map]
    have := ih (s + 2)
    rw [h, hr'] at this
    rw [simpsonOdd, h, hr, hr']
    simp only [List.map_cons, List.map_map, List.zipWith_cons_cons, List.sum_cons, Function.comp_def] at this ⊢
    have e : (List.zipWith (· * ·) ws ((List.range (2 * k)).map fun i : ℕ =>
        A + B * (s + ((i + 1 + 2 : ℕ) : ℝ)) + C * (s + ((i + 1 + 2 : ℕ) : ℝ)) ^ 2)) =
      (List.zipWith (· * ·) ws ((List.range (2 * k)).map fun i : ℕ =>
        A + B * (s + 2 + ((i + 1 : ℕ) : ℝ)) + C * (s + 2 + ((i + 1 : ℕ) : ℝ)) ^ 2)) := by
      congr 1
      refine List.map_congr_left fun i _ => ?_
      push_cast
      ring
    rw [e]
    push_cast at this ⊢
    linear_combination this

theorem simpsonWeights_odd (k : ℕ) : simpsonWeights (2 * k + 1) = simpsonOdd k := by
  unfold simpsonWeights
  rw [if_pos (by omega)]
  congr 1
  omega

theorem simpsonWeights_even (k : ℕ) : ∃ w ws, simpsonOdd k = w :: ws ∧
    simpsonWeights (2 * k + 4) = (5 / 12 :: 1 :: 5 / 4 :: (w + 1 / 3) :: ws).reverse := by
  obtain ⟨w, ws, h, -, -, -⟩ := simpsonOdd_cons k
  refine ⟨w, ws, h, ?_⟩
  unfold simpsonWeights
  rw [if_neg (by omega), show (2 * k + 4 - 2) / 2 = k + 1 by omega, simpsonOdd, h]
  norm_num

theorem simpsonWeights_pos {n : ℕ} (hn : 3 ≤ n) : (simpsonWeights n).length = n ∧ ∀ v ∈ simpsonWeights n, 0 < v := by
  rcases Nat.even_or_odd' n with ⟨k, rfl | rfl⟩
  · obtain ⟨j, rfl⟩ : ∃ j, k = j + 2 := ⟨k - 2, by omega⟩
    obtain ⟨w, ws, h, e⟩ := simpsonWeights_even j
    rw [show 2 * (j + 2) = 2 * j + 4 by ring, e]
    obtain ⟨w', ws', h', h0, h1, h2⟩ := simpsonOdd_cons j
    rw [h] at h'
    cases h'
    refine ⟨by simp [h2], ?_⟩
    intro v hv
    simp only [List.mem_reverse, List.mem_cons] at hv
    rcases hv with rfl | rfl | rfl | rfl | hv
    · norm_num
    · norm_num
    · norm_num
    · linarith
    · exact h1 v hv
  · obtain ⟨j, rfl⟩ : ∃ j, k = j + 1 := ⟨k - 1, by omega⟩
    rw [simpsonWeights_odd]
    obtain ⟨w, ws, h, h0, h1, h2⟩ := simpsonOdd_cons j
    rw [simpsonOdd, h]
    refine ⟨by simp [h2]; ring, ?_⟩
    intro v hv
    simp only [List.mem_cons] at hv
    rcases hv with rfl | rfl | rfl | hv
    · norm_num
    · norm_num
    · linarith
    · exact h1 v hv

theorem reverse_map_range (n : ℕ) (f : ℕ → ℝ) : ((List.range n).map f).reverse = (List.range n).map fun i => f (n - 1 - i) := by
  apply List.ext_getElem
  · simp
  · intro i h1 h2
    simp at h1
    simp

/-- The rule is exact for polynomials of degree at most 2 in the index. -/
theorem simpsonWeights_sum {n : ℕ} (hn : 3 ≤ n) (A B C : ℝ) :
    (List.zipWith (· * ·) (simpsonWeights n) ((List.range n).map fun i : ℕ => A + B * i + C * (i : ℝ) ^ 2)).sum =
    A * ((n : ℝ) - 1) + B * ((n : ℝ) - 1) ^ 2 / 2 + C * ((n : ℝ) - 1) ^ 3 / 3 := by
  rcases Nat.even_or_odd' n with ⟨k, rfl | rfl⟩
  · obtain ⟨j, rfl⟩ : ∃ j, k = j + 2 := ⟨k - 2, by omega⟩
    obtain ⟨w, ws, h, e⟩ := simpsonWeights_even j
    have hlen : ws.length = 2 * j := by
      obtain ⟨w', ws', h', -, -, h2⟩ := simpsonOdd_cons j
      rw [h] at h'; cases h'; exact h2
    rw [show 2 * (j + 2) = 2 * j + 4 by ring, e]
    have h0 := reverse_map_range (2 * j + 4) (fun i : ℕ => A + B * ((2 * j + 3 - i : ℕ) : ℝ) + C * ((2 * j + 3 - i : ℕ) : ℝ) ^ 2)
    have h1 : ((List.range (2 * j + 4)).map fun i : ℕ => A + B * i + C * (i : ℝ) ^ 2) =
        ((List.range (2 * j + 4)).map fun i : ℕ => A + B * ((2 * j + 3 - i : ℕ) : ℝ) + C * ((2 * j + 3 - i : ℕ) : ℝ) ^ 2).reverse := by
      rw [h0]
      refine List.map_congr_left fun i hi => ?_
      rw [List.mem_range] at hi
      rw [show 2 * j + 3 - (2 * j + 4 - 1 - i) = i by omega]
    rw [h1, ← List.reverse_zipWith (by simp [hlen]), List.sum_reverse]
    have hr : List.range (2 * j + 4) = 0 :: (List.range (2 * j + 3)).map (fun i => i + 1) := by
      rw [List.range_succ_eq_map]
    have hr2 : List.range (2 * j + 3) = 0 :: 1 :: 2 :: (List.range (2 * j)).map (fun i => i + 3) := by
      rw [show 2 * j + 3 = (2 * j) + 1 + 1 + 1 by ring, List.range_succ_eq_map, List.range_succ_eq_map, List.range_succ_eq_map]
      simp [Function.comp_def]
    have key := simpsonOdd_sum (j + 1) (A + B * (2 * j + 3) + C * (2 * j + 3) ^ 2) (-B - 2 * C * (2 * j + 3)) C 1
    rw [simpsonOdd, h, show 2 * (j + 1) + 1 = 2 * j + 3 by ring, hr2] at key
    rw [hr, hr2]
    simp only [List.map_cons, List.map_map, List.zipWith_cons_cons, List.sum_cons, Function.comp_def] at key ⊢
    have e2 : (List.zipWith (· * ·) ws ((List.range (2 * j)).map fun i : ℕ =>
        A + B * ((2 * j + 3 - (i + 3 + 1) : ℕ) : ℝ) + C * ((2 * j + 3 - (i + 3 + 1) : ℕ) : ℝ) ^ 2)) =
      (List.zipWith (· * ·) ws ((List.range (2 * j)).map fun i : ℕ =>
        A + B * (2 * j + 3) + C * (2 * j + 3) ^ 2 + (-B - 2 * C * (2 * j + 3)) * (1 + ((i + 3 : ℕ) : ℝ)) +
          C * (1 + ((i + 3 : ℕ) : ℝ)) ^ 2)) := by
      congr 1
      refine List.map_congr_left fun i hi => ?_
      rw [List.mem_range] at hi
      have : ((2 * j + 3 - (i + 3 + 1) : ℕ) : ℝ) = 2 * j + 3 - (i + 3 + 1) := by
        rw [Nat.cast_sub (by omega)]; push_cast; ring
      rw [this]
      push_cast
      ring
    rw [e2]
    have c1 : ((2 * j + 3 - (0 + 1) : ℕ) : ℝ) = 2 * j + 2 := by rw [Nat.cast_sub (by omega)]; push_cast; ring
    have c2 : ((2 * j + 3 - (1 + 1) : ℕ) : ℝ) = 2 * j + 1 := by rw [Nat.cast_sub (by omega)]; push_cast; ring
    have c3 : ((2 * j + 3 - (2 + 1) : ℕ) : ℝ) = 2 * j := by rw [Nat.cast_sub (by omega)]; push_cast; ring
    have c0 : ((2 * j + 3 - 0 : ℕ) : ℝ) = 2 * j + 3 := by push_cast; ring
    rw [c0, c1, c2, c3]
    push_cast at key ⊢
    linear_combination key
  · rw [simpsonWeights_odd]
    have := simpsonOdd_sum k A B C 0
    simp only [zero_add] at this
    rw [this]
    push_cast
    ring

/-- The weights of the rule from `a` to `b`. -/
noncomputable def simpsonRule (a b : ℝ) (n : ℕ) : List ℝ := (simpsonWeights n).map fun v => (b - a) / ((n - 1 : ℕ) : ℝ) * v

theorem simpson_eq (a b : ℝ) (n : ℕ) (g : ℝ → ℝ) :
    simpson a b n ((Np.linspace a b n).map g) = quadSum (simpsonRule a b n) (Np.linspace a b n) g := by
  unfold simpson quadSum simpsonRule
  have hm : ∀ (c : ℝ) (l : List ℝ), c * l.sum = (l.map fun x => c * x).sum := fun c l => by
    rw [List.sum_map_mul_left]; simp
  rw [List.zipWith_map_right, List.zipWith_map_left, hm, List.map_zipWith]
  congr 2
  funext v x
  ring

theorem simpsonRule_exact (a b : ℝ) {n : ℕ} (hn : 3 ≤ n) (A B C : ℝ) :
    quadSum (simpsonRule a b n) (Np.linspace a b n) (fun x => A + B * x + C * x ^ 2) =
      ∫ x in a..b, (A + B * x + C * x ^ 2) := by
  rw [← simpson_eq]
  unfold simpson Np.linspace
  rw [List.map_map]
  have hn' : ((n - 1 : ℕ) : ℝ) = (n : ℝ) - 1 := by rw [Nat.cast_sub (by omega)]; simp
  have h0 : ((n : ℝ) - 1) ≠ 0 := by
    have : (3 : ℝ) ≤ n := by exact_mod_cast hn
    linarith
  set h : ℝ := (b - a) / ((n - 1 : ℕ) : ℝ) with hh
  have e : (fun x => A + B * x + C * x ^ 2) ∘ (fun i : ℕ => a + (i : ℝ) * h) =
      fun i : ℕ => (A + B * a + C * a ^ 2) + (B * h + 2 * C * a * h) * i + (C * h ^ 2) * (i : ℝ) ^ 2 := by
    funext i
    simp only [Function.comp]
    ring
  rw [e, simpsonWeights_sum hn]
  have hI : ∫ x in a..b, (A + B * x + C * x ^ 2) = A * (b - a) + B * (b ^ 2 - a ^ 2) / 2 + C * (b ^ 3 - a ^ 3) / 3 := by
    rw [intervalIntegral.integral_add, intervalIntegral.integral_add, intervalIntegral.integral_const,
      intervalIntegral.integral_const_mul, intervalIntegral.integral_const_mul, integral_id, integral_pow]
    · simp only [smul_eq_mul]
      push_cast
      ring
    · exact Continuous.intervalIntegrable (by fun_prop) _ _
    · exact Continuous.intervalIntegrable (by fun_prop) _ _
    · exact Continuous.intervalIntegrable (by fun_prop) _ _
    · exact Continuous.intervalIntegrable (by fun_prop) _ _
  rw [hI]
  have hb : b = a + h * ((n : ℝ) - 1) := by
    rw [hh, hn']
    field_simp
    ring
  rw [hb]
  ring

theorem simpsonRule_quadrature {a b : ℝ} (hab : a < b) {n : ℕ} (hn : 3 ≤ n) :
    Quadrature a b (Np.linspace a b n) (simpsonRule a b n) := by
  have hpos : (0 : ℝ) < ((n - 1 : ℕ) : ℝ) := by
    have : 0 < n - 1 := by omega
    exact_mod_cast this
  refine ⟨by simp [simpsonRule, (simpsonWeights_pos hn).1, Np.linspace_length], ?_, simpsonRule_exact a b hn⟩
  intro v hv
  obtain ⟨u, hu, rfl⟩ := List.mem_map.1 hv
  have := (simpsonWeights_pos hn).2 u hu
  have : 0 < b - a := by linarith
  positivity

end Reliability.Combined

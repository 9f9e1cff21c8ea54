import Verif.Spec.PoF
import Mathlib.Analysis.SpecialFunctions.Pow.Real
import Mathlib.Tactic.Linarith
import Mathlib.Tactic.Positivity
import Mathlib.Tactic.FieldSimp

namespace Reliability.PoF

open Spec

variable {p : CrackIn}

theorem fg_eq (p : CrackIn) (x : ℝ) : p.fg x = geometryFactor (p.crack_type = "edge") x := by
  unfold CrackIn.fg geometryFactor
  split
  · rfl
  · rw [show (0.5 : ℝ) = 1 / 2 by norm_num, ← Real.sqrt_eq_rpow, Real.sqrt_div zero_le_one, Real.sqrt_one]

theorem S_eq (p : CrackIn) (a : ℝ) : p.P / (p.t * (p.W - 2 * p.d - a)) * 10 ^ 6 = netStress p a := by
  unfold netStress; ring

theorem rpow_half (x : ℝ) : x ^ (0.5 : ℝ) = Real.sqrt x := by
  rw [Real.sqrt_eq_rpow]; norm_num

/-- The state after `k` passes. -/
noncomputable def stateAt (p : CrackIn) (k : ℕ) : CrackState := (p.step)^[k] p.start

theorem stateAt_succ (k : ℕ) : stateAt p (k + 1) = p.step (stateAt p k) := Function.iterate_succ_apply' _ _ _

theorem stateAt_a (k : ℕ) : (stateAt p k).a = crackLength p p.lt2 k ∧
    (stateAt p k).a_effective = crackLength p p.lt2 k + p.d ∧ (stateAt p k).N = k ∧
    (stateAt p k).a_array = (List.range k).map fun j => crackLength p p.lt2 (j + 1) := by
  induction k with
  | zero => exact ⟨rfl, rfl, rfl, rfl⟩
  | succ k ih =>
    obtain ⟨h1, h2, h3, h4⟩ := ih
    have hd : p.C * (if crackLength p p.lt2 k < p.lt2 then
          p.fg (crackLength p p.lt2 k / p.W) * (p.P / (p.t * (p.W - 2 * p.d - crackLength p p.lt2 k)) * 10 ^ 6) *
            (Real.pi * crackLength p p.lt2 k / 1000) ^ (0.5 : ℝ)
        else
          p.fg (crackLength p p.lt2 k / p.W) * (p.P / (p.t * (p.W - 2 * p.d - crackLength p p.lt2 k)) * 10 ^ 6) *
            (Real.pi * (crackLength p p.lt2 k + p.d) / 1000) ^ (0.5 : ℝ)) ^ p.m * 1000 =
        1000 * (p.C * stressIntensity p (crackLength p p.lt2 k)
          (if crackLength p p.lt2 k < p.lt2 then crackLength p p.lt2 k else crackLength p p.lt2 k + p.d) ^ p.m) := by
      rw [S_eq, fg_eq, rpow_half, rpow_half]
      unfold stressIntensity
      split <;> ring
    have ha : (stateAt p (k + 1)).a = crackLength p p.lt2 (k + 1) := by
      rw [stateAt_succ]
      simp only [CrackIn.step, h1, h2]
      rw [hd]; rfl
    refine ⟨ha, ?_, ?_, ?_⟩
    · rw [stateAt_succ]
      simp only [CrackIn.step, h1, h2]
      rw [hd, crackLength]; ring
    · rw [stateAt_succ]; simp only [CrackIn.step, h3]
    · rw [List.range_succ, List.map_append, ← h4, List.map_singleton, ← ha, stateAt_succ]
      simp only [CrackIn.step]

theorem stateAt_crit (k : ℕ) : (stateAt p (k + 1)).a_crit * 1000 - p.d = criticalLength p (crackLength p p.lt2 k) := by
  rw [stateAt_succ]
  simp only [CrackIn.step, (stateAt_a k).1]
  rw [S_eq, fg_eq, criticalLength]; ring

theorem stateAt_finished (k : ℕ) : (stateAt p (k + 1)).finished = true ↔
    StopsAfter p p.lt2 k ∨ (stateAt p k).finished = true := by
  have h1 := stateAt_crit (p := p) k
  have h2 := (stateAt_a (p := p) (k + 1)).2.1
  rw [stateAt_succ] at h1 h2 ⊢
  simp only [CrackIn.step] at h1 h2 ⊢
  unfold StopsAfter
  rw [← h1, h2]
  cases p.a_final with
  | none =>
    simp only [reduceCtorEq, false_and, exists_false, or_false]
    split
    · rename_i h; simp only [true_iff]; left; linarith
    · rename_i h
      constructor
      · exact .inr
      · rintro (h' | h')
        · exact absurd (by linarith) h
        · exact h'
  | some af =>
    simp only [Option.some.injEq, exists_eq_left']
    split
    · rename_i h; simp only [true_iff]; left; right; linarith
    · rename_i h
      split
      · rename_i h3; simp only [true_iff]; left; left; linarith
      · rename_i h3
        constructor
        · exact .inr
        · rintro ((h' | h') | h')
          · exact absurd (by linarith) h3
          · exact absurd (by linarith) h
          · exact h'

theorem stateAt_finished_iff (k : ℕ) : (stateAt p k).finished = true ↔ ∃ j < k, StopsAfter p p.lt2 j := by
  induction k with
  | zero => simp [stateAt, CrackIn.start]
  | succ k ih =>
    rw [stateAt_finished, ih]
    constructor
    · rintro (h | ⟨j, hj, h⟩)
      · exact ⟨k, Nat.lt_succ_self _, h⟩
      · exact ⟨j, by omega, h⟩
    · rintro ⟨j, hj, h⟩
      rcases Nat.lt_succ_iff_lt_or_eq.1 hj with h' | rfl
      · exact .inr ⟨j, h', h⟩
      · exact .inl h

theorem loop_eq (fuel k : ℕ) (s : CrackState) : p.loop fuel (stateAt p k) = some s ↔
    ∃ j, k ≤ j ∧ j ≤ k + fuel ∧ s = stateAt p j ∧ (stateAt p j).finished = true ∧
      ∀ i, k ≤ i → i < j → (stateAt p i).finished = false := by
  induction fuel generalizing k with
  | zero =>
    rw [CrackIn.loop]
    constructor
    · intro h
      by_cases hf : (stateAt p k).finished = true
      · rw [if_pos hf] at h
        exact ⟨k, le_refl _, le_refl _, (Option.some.inj h).symm, hf, fun i h1 h2 => by omega⟩
      · rw [if_neg hf] at h; cases h
    · rintro ⟨j, h1, h2, rfl, h3, -⟩
      obtain rfl : j = k := by omega
      rw [if_pos h3]
  | succ fuel ih =>
    rw [CrackIn.loop]
    by_cases hf : (stateAt p k).finished = true
    · rw [if_pos hf]
      constructor
      · intro h
        exact ⟨k, le_refl _, by omega, (Option.some.inj h).symm, hf, fun i h1 h2 => by omega⟩
      · rintro ⟨j, h1, h2, rfl, h3, h4⟩
        rcases Nat.lt_or_ge k j with h | h
        · rw [h4 k (le_refl _) h] at hf; cases hf
        · obtain rfl : j = k := by omega
          rfl
    · rw [if_neg hf, ← stateAt_succ, ih]
      constructor
      · rintro ⟨j, h1, h2, h3, h4, h5⟩
        refine ⟨j, by omega, by omega, h3, h4, fun i hi hj => ?_⟩
        rcases Nat.lt_or_ge k i with h | h
        · exact h5 i (by omega) hj
        · obtain rfl : i = k := by omega
          simpa using hf
      · rintro ⟨j, h1, h2, h3, h4, h5⟩
        have : k ≠ j := by rintro rfl; exact hf h4
        exact ⟨j, by omega, by omega, h3, h4, fun i hi hj => h5 i (by omega) hj⟩

theorem stateAt_stage1 (k : ℕ) : (stateAt p (k + 1)).stage1 =
    if 1 ≤ k ∧ crackLength p p.lt2 k < p.lt2 ∧ p.lt2 < crackLength p p.lt2 (k + 1) then k else (stateAt p k).stage1 := by
  have h4 := (stateAt_a (p := p) (k + 1)).2.2.2
  have h3 := (stateAt_a (p := p) k).2.2.1
  rw [stateAt_succ] at h4 ⊢
  simp only [CrackIn.step] at h4 ⊢
  rw [h4, h3]
  have e2 : ((List.range (k + 1)).map fun j => crackLength p p.lt2 (j + 1)).getD (k + 1 - 1) 0 =
      crackLength p p.lt2 (k + 1) := by simp [List.getD]
  rw [e2]
  by_cases hk : 1 ≤ k
  · have e1 : ((List.range (k + 1)).map fun j => crackLength p p.lt2 (j + 1)).getD (k + 1 - 2) 0 =
        crackLength p p.lt2 k := by
      have : k - 1 < k + 1 := by omega
      simp [List.getD, show k + 1 - 2 = k - 1 by omega, this, show k - 1 + 1 = k by omega]
    rw [e1]
    by_cases hc : crackLength p p.lt2 k < p.lt2 ∧ crackLength p p.lt2 (k + 1) > p.lt2
    · rw [if_pos hc, if_pos ⟨hk, hc⟩]; omega
    · rw [if_neg hc, if_neg (fun h => hc h.2)]
  · obtain rfl : k = 0 := by omega
    have e1 : ((List.range (0 + 1)).map fun j => crackLength p p.lt2 (j + 1)).getD (0 + 1 - 2) 0 =
        crackLength p p.lt2 1 := by simp [List.getD]
    rw [e1, if_neg (by rintro ⟨h, h'⟩; simp only [Nat.zero_add] at h'; linarith), if_neg (by rintro ⟨h, -⟩; omega)]

/-! ### growth -/

theorem geometryFactor_ge (p : CrackIn) (hW : 0 < p.W) {a : ℝ} (hd : 0 ≤ p.d) (h : Within p a) :
    1 ≤ geometryFactor (p.crack_type = "edge") (a / p.W) := by
  obtain ⟨h0, h1, h2⟩ := h
  unfold geometryFactor
  have hx0 : 0 < a / p.W := div_pos h0 hW
  by_cases he : p.crack_type = "edge"
  · rw [if_pos he]
    generalize a / p.W = x at *
    nlinarith [sq_nonneg (x * (x - 0.357)), sq_nonneg (x - 0.02), sq_nonneg x]
  · rw [if_neg he]
    have hx1 : a / p.W < 1 / 2 := by rw [div_lt_iff₀ hW]; linarith [h2 he]
    have hc : 0 < Real.cos (Real.pi * (a / p.W)) := by
      apply Real.cos_pos_of_mem_Ioo
      constructor <;> nlinarith [Real.pi_pos]
    rw [le_div_iff₀ (Real.sqrt_pos.2 hc), one_mul]
    exact Real.sqrt_le_one.2 (Real.cos_le_one _)

theorem netStress_ge (p : CrackIn) (hP : 0 < p.P) (ht : 0 < p.t) {a : ℝ} (h : Within p a) :
    0 < p.P * 10 ^ 6 / (p.t * (p.W - 2 * p.d)) ∧ p.P * 10 ^ 6 / (p.t * (p.W - 2 * p.d)) ≤ netStress p a := by
  obtain ⟨h0, h1, -⟩ := h
  have hw : 0 < p.t * (p.W - 2 * p.d - a) := mul_pos ht (by linarith)
  have hw' : 0 < p.t * (p.W - 2 * p.d) := mul_pos ht (by linarith)
  refine ⟨by positivity, ?_⟩
  unfold netStress
  apply div_le_div_of_nonneg_left (by positivity) hw
  nlinarith

end Reliability.PoF

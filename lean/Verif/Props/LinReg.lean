import Mathlib.Tactic.Ring
import Mathlib.Tactic.FieldSimp
import Mathlib.Tactic.Linarith
import Mathlib.Tactic.Positivity
import Mathlib.Tactic.NormNum
import Mathlib.Tactic.LinearCombination
import Mathlib.Algebra.Order.BigOperators.Group.List
import Mathlib.Data.Rat.Defs
import Verif.Model.LinReg
import Verif.Spec.LinReg

/-! # C49: `linear_regression` is least squares -/

set_option linter.unusedSectionVars false

namespace Reliability.LinReg

open Reliability List

variable {K : Type _} [Field K] [LinearOrder K] [IsStrictOrderedRing K]

/-- `∑ u_i v_i` -/
def dot (u v : List K) : K := (zipWith (· * ·) u v).sum

/-- number of points as an element of the field -/
def cnt (u : List K) : K := (u.map fun _ => (1 : K)).sum

/-- `∑ u_i²` -/
def sq (u : List K) : K := (u.map fun x => x * x).sum

theorem cnt_eq (u : List K) : cnt u = (u.length : K) := by
  simp [cnt]

theorem sseY_expand (u v : List K) (h : u.length = v.length) (p q : K) :
    Spec.sseY u v p q =
      sq v - 2 * p * dot u v - 2 * q * v.sum + p ^ 2 * sq u + 2 * p * q * u.sum + q ^ 2 * cnt u := by
  induction u generalizing v with
  | nil =>
    cases v with
    | nil => simp [Spec.sseY, sq, dot, cnt]
    | cons => simp at h
  | cons a u ih =>
    cases v with
    | nil => simp at h
    | cons b v =>
      have := ih v (by simpa using h)
      simp only [Spec.sseY, sq, dot, cnt, zipWith_cons_cons, sum_cons, map_cons] at this ⊢
      rw [this]
      ring

theorem dot_affine (u v : List K) (h : u.length = v.length) (s t : K) :
    (zipWith (· * ·) (u.map fun x => s * x + t * 1) v).sum = s * dot u v + t * v.sum := by
  induction u generalizing v with
  | nil =>
    cases v with
    | nil => simp [dot]
    | cons => simp at h
  | cons a u ih =>
    cases v with
    | nil => simp at h
    | cons b v =>
      have := ih v (by simpa using h)
      simp only [dot, zipWith_cons_cons, sum_cons, map_cons] at this ⊢
      rw [this]
      ring

theorem dot_scale (u v : List K) (h : u.length = v.length) (s : K) :
    (zipWith (· * ·) (u.map fun x => s * x) v).sum = s * dot u v := by
  have := dot_affine u v h s 0
  simpa using this

theorem sum_sub_sq (u : List K) (s t : K) :
    (u.map fun x => (s * x - t) ^ 2).sum = s ^ 2 * sq u - 2 * s * t * u.sum + t ^ 2 * cnt u := by
  induction u with
  | nil => simp [sq, cnt]
  | cons a u ih =>
    simp only [sq, cnt, map_cons, sum_cons] at ih ⊢
    rw [ih]
    ring

theorem sum_sq_nonneg (u : List K) (f : K → K) : 0 ≤ (u.map fun x => (f x) ^ 2).sum := by
  apply sum_nonneg
  intro y hy
  rw [mem_map] at hy
  obtain ⟨x, -, rfl⟩ := hy
  positivity

theorem det_nonneg (u : List K) : 0 ≤ sq u * cnt u - u.sum * u.sum := by
  rcases eq_or_ne u [] with rfl | hne
  · simp [sq, cnt]
  have hn : 0 < cnt u := by
    rw [cnt_eq]
    exact_mod_cast length_pos_iff.2 hne
  have h := sum_sq_nonneg u (fun x => cnt u * x - u.sum)
  rw [sum_sub_sq] at h
  have : cnt u ^ 2 * sq u - 2 * cnt u * u.sum * u.sum + u.sum ^ 2 * cnt u =
      cnt u * (sq u * cnt u - u.sum * u.sum) := by ring
  rw [this] at h
  exact nonneg_of_mul_nonneg_right h hn

theorem solve2_normal {u v : List K} (h : u.length = v.length) {p q : K} (hs : solve2 u v = some (p, q)) :
    0 < sq u * cnt u - u.sum * u.sum ∧ dot u v = p * sq u + q * u.sum ∧ v.sum = p * u.sum + q * cnt u := by
  unfold solve2 at hs
  simp only at hs
  rw [show (u.map fun x => x * x).sum = sq u from rfl, show (u.map fun _ => (1 : K)).sum = cnt u from rfl] at hs
  split at hs
  · simp at hs
  · next hD =>
    rw [dot_affine u v h, dot_affine u v h] at hs
    simp only [Option.some.injEq, Prod.mk.injEq] at hs
    obtain ⟨hp, hq⟩ := hs
    refine ⟨lt_of_le_of_ne (det_nonneg u) (Ne.symm hD), ?_, ?_⟩
    · generalize hd : sq u * cnt u - u.sum * u.sum = d at *
      rw [← hp, ← hq]; field_simp; linear_combination (dot u v) * (-hd)
    · generalize hd : sq u * cnt u - u.sum * u.sum = d at *
      rw [← hp, ← hq]; field_simp; linear_combination (v.sum) * (-hd)

/-- The solution of the normal equations is the unique minimiser. -/
theorem solve2_min {u v : List K} (h : u.length = v.length) {p q : K} (hs : solve2 u v = some (p, q))
    (p' q' : K) : Spec.sseY u v p q ≤ Spec.sseY u v p' q' ∧
      ((p', q') ≠ (p, q) → Spec.sseY u v p q < Spec.sseY u v p' q') := by
  obtain ⟨hD, h1, h2⟩ := solve2_normal h hs
  have hn : 0 < cnt u := by
    rw [cnt_eq]
    rcases eq_or_ne u [] with rfl | hne
    · simp [sq, cnt] at hD
    · exact_mod_cast length_pos_iff.2 hne
  have key : Spec.sseY u v p' q' = Spec.sseY u v p q +
      (((p' - p) * u.sum + (q' - q) * cnt u) ^ 2 + (p' - p) ^ 2 * (sq u * cnt u - u.sum * u.sum)) / cnt u := by
    rw [sseY_expand u v h, sseY_expand u v h, h1, h2]
    field_simp
    ring
  constructor
  · rw [key]
    have : 0 ≤ (((p' - p) * u.sum + (q' - q) * cnt u) ^ 2 +
        (p' - p) ^ 2 * (sq u * cnt u - u.sum * u.sum)) / cnt u := by positivity
    linarith
  · intro hne
    rw [key]
    have : 0 < (((p' - p) * u.sum + (q' - q) * cnt u) ^ 2 +
        (p' - p) ^ 2 * (sq u * cnt u - u.sum * u.sum)) / cnt u := by
      apply div_pos _ hn
      rcases eq_or_ne p' p with rfl | hp
      · have hq : q' - q ≠ 0 := by
          intro h0
          apply hne
          rw [sub_eq_zero.1 h0]
        have : 0 < ((q' - q) * cnt u) ^ 2 := by positivity
        simpa using this
      · have : 0 < (p' - p) ^ 2 := by
          have := sub_ne_zero.2 hp
          positivity
        positivity
    linarith

theorem solve1_min {u v : List K} (h : u.length = v.length) {p : K} (hs : solve1 u v = some p) (p' : K) :
    Spec.sseY u v p 0 ≤ Spec.sseY u v p' 0 ∧ (p' ≠ p → Spec.sseY u v p 0 < Spec.sseY u v p' 0) := by
  unfold solve1 at hs
  simp only at hs
  rw [show (u.map fun x => x * x).sum = sq u from rfl] at hs
  split at hs
  · simp at hs
  · next hD =>
    rw [dot_scale u v h] at hs
    simp only [Option.some.injEq] at hs
    have hpos : 0 < sq u := by
      have := sum_sq_nonneg u (fun x => x)
      have h' : 0 ≤ sq u := by simpa [sq, pow_two] using this
      exact lt_of_le_of_ne h' (Ne.symm hD)
    have h1 : dot u v = p * sq u := by rw [← hs]; field_simp
    have key : Spec.sseY u v p' 0 = Spec.sseY u v p 0 + (p' - p) ^ 2 * sq u := by
      rw [sseY_expand u v h, sseY_expand u v h, h1]
      ring
    rw [key]
    constructor
    · have : 0 ≤ (p' - p) ^ 2 * sq u := by positivity
      linarith
    · intro hne
      have : 0 < (p' - p) ^ 2 := by
        have := sub_ne_zero.2 hne
        positivity
      have : 0 < (p' - p) ^ 2 * sq u := by positivity
      linarith

/-! ### C49 -/

theorem zipWith_swap_sum (x y : List K) (f g : K → K → K) (hfg : ∀ a b, f a b = g b a) :
    (zipWith f x y).sum = (zipWith g y x).sum := by
  rw [zipWith_comm]
  congr 2
  funext a b
  exact hfg b a

theorem sseX_eq (x y : List K) (m c : K) : Spec.sseX x y m c = Spec.sseY y x (1 / m) (-c / m) := by
  unfold Spec.sseX Spec.sseY
  apply zipWith_swap_sum
  intro a b
  congr 1
  ring

/-- C49, regression on Y: the returned line is the unique line with the least sum of squared vertical
residuals. -/
theorem C49_RRY (x y : List K) (m c : Ext K)
    (h : linearRegression x y none none none .RRY = .ok (m, c)) :
    ∃ m₀ c₀, m = .fin m₀ ∧ c = .fin c₀ ∧ ∀ m' c', Spec.sseY x y m₀ c₀ ≤ Spec.sseY x y m' c' ∧
      ((m', c') ≠ (m₀, c₀) → Spec.sseY x y m₀ c₀ < Spec.sseY x y m' c') := by
  unfold linearRegression at h
  by_cases hl : x.length = y.length
  · simp only [hl, ne_eq, not_true_eq_false, if_false, reduceCtorEq, Option.isSome_none,
      Bool.false_eq_true, false_and, or_self, and_false, if_true] at h
    split at h
    · cases h
    · cases hs : solve2 x y with
      | none => rw [hs] at h; cases h
      | some pq =>
        obtain ⟨p, q⟩ := pq
        rw [hs] at h
        cases h
        exact ⟨p, q, rfl, rfl, fun m' c' => solve2_min hl hs m' c'⟩
  · simp [hl] at h

/-- C49, regression on X: if the returned slope is finite, the returned line is the unique
non-horizontal line with the least sum of squared horizontal residuals. -/
theorem C49_RRX (x y : List K) (m c : K)
    (h : linearRegression x y none none none .RRX = .ok (.fin m, .fin c)) :
    m ≠ 0 ∧ ∀ m' c', m' ≠ 0 → Spec.sseX x y m c ≤ Spec.sseX x y m' c' ∧
      ((m', c') ≠ (m, c) → Spec.sseX x y m c < Spec.sseX x y m' c') := by
  unfold linearRegression at h
  by_cases hl : x.length = y.length
  · simp only [hl, ne_eq, not_true_eq_false, if_false, reduceCtorEq, Option.isSome_none,
      Bool.false_eq_true, false_and, or_self, and_false] at h
    split at h
    · cases h
    · cases hs : solve2 y x with
      | none => rw [hs] at h; cases h
      | some pq =>
        obtain ⟨p, q⟩ := pq
        rw [hs] at h
        by_cases hp : p = 0
        · exfalso
          subst hp
          simp [Ext.divFin, Ext.infMul] at h
          split at h
          · simp at h
          · simp at h
        · simp only [Ext.divFin, if_neg hp, Except.ok.injEq, Prod.mk.injEq, Ext.fin.injEq] at h
          obtain ⟨rfl, rfl⟩ := h
          refine ⟨by positivity, ?_⟩
          intro m' c' hm'
          have e1 : (1 : K) / (1 / p) = p := by field_simp
          have e2 : -(-q / p) / (1 / p) = q := by field_simp
          rw [sseX_eq, sseX_eq, e1, e2]
          refine ⟨(solve2_min hl.symm hs _ _).1, ?_⟩
          intro hne
          apply (solve2_min hl.symm hs _ _).2
          intro heq
          apply hne
          simp only [Prod.mk.injEq] at heq ⊢
          obtain ⟨h1, h2⟩ := heq
          have hm1 : m' = 1 / p := by rw [← h1]; field_simp
          refine ⟨hm1, ?_⟩
          rw [← h2, hm1]; field_simp
  · simp [hl] at h

/-- C49, regression on Y through a forced intercept: the returned line passes through it and has the
least sum of squared vertical residuals of all such lines. -/
theorem C49_RRY_forced_intercept (x y : List K) (c₀ : K) (m c : Ext K)
    (h : linearRegression x y none none (some c₀) .RRY = .ok (m, c)) :
    c = .fin c₀ ∧ ∃ m₀, m = .fin m₀ ∧ ∀ m', Spec.sseY x y m₀ c₀ ≤ Spec.sseY x y m' c₀ ∧
      (m' ≠ m₀ → Spec.sseY x y m₀ c₀ < Spec.sseY x y m' c₀) := by
  unfold linearRegression at h
  by_cases hl : x.length = y.length
  · simp only [hl, ne_eq, not_true_eq_false, if_false, reduceCtorEq, Option.isSome_none,
      Bool.false_eq_true, false_and, and_false, if_true] at h
    split at h
    · cases h
    · cases hs : solve1 x (y.map fun b => b - c₀) with
      | none => rw [hs] at h; cases h
      | some p =>
        rw [hs] at h
        cases h
        refine ⟨rfl, p, rfl, ?_⟩
        have e : ∀ k, Spec.sseY x (y.map fun b => b - c₀) k 0 = Spec.sseY x y k c₀ := by
          intro k
          unfold Spec.sseY
          rw [zipWith_map_right]
          congr 2
          funext a b
          ring
        intro m'
        have := solve1_min (by simpa using hl) hs m'
        rw [e, e] at this
        exact this
  · simp [hl] at h

theorem sseY_ones (x v : List K) (hl : x.length = v.length) (k : K) :
    Spec.sseY (x.map fun _ => 1) v k 0 = Spec.sseY x v 0 k := by
  unfold Spec.sseY
  rw [zipWith_map_left]
  congr 2
  funext a b
  ring

/-- C49, regression on Y with a forced slope. -/
theorem C49_RRY_forced_slope (x y : List K) (m₀ : K) (m c : Ext K)
    (h : linearRegression x y (some m₀) none none .RRY = .ok (m, c)) :
    m = .fin m₀ ∧ ∃ c₀, c = .fin c₀ ∧ ∀ c', Spec.sseY x y m₀ c₀ ≤ Spec.sseY x y m₀ c' ∧
      (c' ≠ c₀ → Spec.sseY x y m₀ c₀ < Spec.sseY x y m₀ c') := by
  unfold linearRegression at h
  by_cases hl : x.length = y.length
  · simp only [hl, ne_eq, not_true_eq_false, if_false, reduceCtorEq, Option.isSome_none,
      Bool.false_eq_true, or_self, false_and, and_false, if_true] at h
    split at h
    · cases h
    · cases hs : solve1 (x.map fun _ => (1 : K)) (zipWith (fun a b => b - m₀ * a) x y) with
      | none => rw [hs] at h; cases h
      | some p =>
        rw [hs] at h
        cases h
        refine ⟨rfl, p, rfl, ?_⟩
        have hl2 : x.length = (zipWith (fun a b => b - m₀ * a) x y).length := by simp [hl]
        have e : ∀ k, Spec.sseY (x.map fun _ => (1 : K)) (zipWith (fun a b => b - m₀ * a) x y) k 0 =
            Spec.sseY x y m₀ k := by
          intro k
          rw [sseY_ones _ _ hl2]
          unfold Spec.sseY
          clear hs hl2; rename_i hlt; clear hlt
          induction x generalizing y with
          | nil => simp
          | cons a x ih =>
            cases y with
            | nil => simp at hl
            | cons b y =>
              simp only [zipWith_cons_cons, sum_cons]
              rw [ih y (by simpa using hl)]
              ring
        intro c'
        have := solve1_min (by simpa using hl2) hs c'
        rw [e, e] at this
        exact this
  · simp [hl] at h

/-- C49, regression on X through a forced x-intercept: the returned line meets the x axis at the given
point and has the least sum of squared horizontal residuals of all such non-horizontal lines. -/
theorem C49_RRX_forced_intercept (x y : List K) (x₀ : K) (m c : K)
    (h : linearRegression x y none (some x₀) none .RRX = .ok (.fin m, .fin c)) :
    m * x₀ + c = 0 ∧ ∀ m' c', m' ≠ 0 → m' * x₀ + c' = 0 → Spec.sseX x y m c ≤ Spec.sseX x y m' c' := by
  unfold linearRegression at h
  by_cases hl : x.length = y.length
  · simp only [hl, ne_eq, not_true_eq_false, if_false, reduceCtorEq, Option.isSome_none,
      Bool.false_eq_true, false_and, and_false] at h
    split at h
    · cases h
    · cases hs : solve1 y (x.map fun a => a - x₀) with
      | none => rw [hs] at h; cases h
      | some p =>
        rw [hs] at h
        by_cases hp : p = 0
        · exfalso
          subst hp
          simp [Ext.divFin, Ext.infMul] at h
          split at h <;> simp at h
        · simp only [Ext.divFin, if_neg hp, Except.ok.injEq, Prod.mk.injEq, Ext.fin.injEq] at h
          obtain ⟨rfl, rfl⟩ := h
          refine ⟨by field_simp; ring, ?_⟩
          intro m' c' hm' hc'
          have hc'' : c' = -(m' * x₀) := by linear_combination hc'
          have e : ∀ k, Spec.sseY y (x.map fun a => a - x₀) k 0 = Spec.sseY y x k x₀ := by
            intro k
            unfold Spec.sseY
            rw [zipWith_map_right]
            congr 2
            funext a b
            ring
          have := (solve1_min (by simpa using hl.symm) hs (1 / m')).1
          rw [e, e] at this
          rw [sseX_eq, sseX_eq]
          have e1 : (1 : K) / (1 / p) = p := by field_simp
          have e2 : -(-x₀ / p) / (1 / p) = x₀ := by field_simp
          have e3 : -c' / m' = x₀ := by rw [hc'']; field_simp
          rw [e1, e2, e3]
          exact this
  · simp [hl] at h

/-- C49, regression on X with a forced slope `dx/dy = s`. -/
theorem C49_RRX_forced_slope (x y : List K) (s : K) (m c : K)
    (h : linearRegression x y (some s) none none .RRX = .ok (.fin m, .fin c)) :
    m = 1 / s ∧ ∀ c', Spec.sseX x y m c ≤ Spec.sseX x y m c' := by
  unfold linearRegression at h
  by_cases hl : x.length = y.length
  · simp only [hl, ne_eq, not_true_eq_false, if_false, reduceCtorEq, Option.isSome_none,
      Bool.false_eq_true, or_self, false_and, and_false] at h
    split at h
    · cases h
    · cases hs : solve1 (y.map fun _ => (1 : K)) (zipWith (fun a b => a - s * b) x y) with
      | none => rw [hs] at h; cases h
      | some p =>
        rw [hs] at h
        by_cases hs0 : s = 0
        · simp [hs0] at h
        · simp only [if_neg hs0, Except.ok.injEq, Prod.mk.injEq, Ext.fin.injEq] at h
          obtain ⟨rfl, rfl⟩ := h
          refine ⟨rfl, ?_⟩
          have hl2 : y.length = (zipWith (fun a b => a - s * b) x y).length := by simp [hl]
          have e : ∀ k, Spec.sseY (y.map fun _ => (1 : K)) (zipWith (fun a b => a - s * b) x y) k 0 =
              Spec.sseY y x s k := by
            intro k
            rw [sseY_ones _ _ hl2]
            unfold Spec.sseY
            clear hs hl2; rename_i hlt; clear hlt
            induction x generalizing y with
            | nil => simp
            | cons a x ih =>
              cases y with
              | nil => simp at hl
              | cons b y =>
                simp only [zipWith_cons_cons, sum_cons]
                rw [ih y (by simpa using hl)]
                ring
          intro c'
          have := (solve1_min (by simpa using hl2) hs (-(c' * s))).1
          rw [e, e] at this
          rw [sseX_eq, sseX_eq]
          have e1 : (1 : K) / (1 / s) = s := by field_simp
          have e2 : -(-p / s) / (1 / s) = p := by field_simp
          have e3 : -c' / (1 / s) = -(c' * s) := by field_simp
          rw [e1, e2, e3]
          exact this
  · simp [hl] at h

/-- When the free regression on Y is refused with RuntimeError: exactly when the lengths agree, there
are at least two points and all x values are equal (so that no single best line exists). -/
theorem C49_singular_iff (x y : List K) :
    linearRegression x y none none none .RRY = .error .runtimeError ↔
      x.length = y.length ∧ 2 ≤ x.length ∧ ∃ a, ∀ b ∈ x, b = a := by
  unfold linearRegression
  by_cases hl : x.length = y.length
  · simp only [hl, ne_eq, not_true_eq_false, if_false, reduceCtorEq, Option.isSome_none,
      Bool.false_eq_true, or_self, false_and, and_false, if_true, true_and]
    rw [← hl]
    by_cases h2 : x.length < 2
    · simp only [if_pos h2]
      constructor
      · intro h; cases h
      · rintro ⟨h, -⟩; omega
    · simp only [if_neg h2]
      have hne : x ≠ [] := by rintro rfl; simp at h2
      have hn : 0 < cnt x := by
        rw [cnt_eq]; exact_mod_cast length_pos_iff.2 hne
      have hD : sq x * cnt x - x.sum * x.sum = 0 ↔ ∃ a, ∀ b ∈ x, b = a := by
        constructor
        · intro h
          refine ⟨x.sum / cnt x, ?_⟩
          have hz := sum_sub_sq x (cnt x) x.sum
          have : cnt x ^ 2 * sq x - 2 * cnt x * x.sum * x.sum + x.sum ^ 2 * cnt x =
              cnt x * (sq x * cnt x - x.sum * x.sum) := by ring
          rw [this, h, mul_zero] at hz
          intro b hb
          have hb0 : (cnt x * b - x.sum) ^ 2 ≤ 0 := by
            rw [← hz]
            apply single_le_sum
            · intro y hy
              rw [mem_map] at hy
              obtain ⟨z, -, rfl⟩ := hy
              positivity
            · exact mem_map.2 ⟨b, hb, rfl⟩
          have h0 : cnt x * b - x.sum = 0 := by
            have : (cnt x * b - x.sum) ^ 2 = 0 := le_antisymm hb0 (by positivity)
            exact pow_eq_zero_iff (by norm_num) |>.1 this
          rw [eq_div_iff hn.ne']
          linear_combination h0
        · rintro ⟨a, ha⟩
          have hrep : x = replicate x.length a := eq_replicate_of_mem ha
          rw [hrep]
          simp [sq, cnt]
          ring
      have hs : solve2 x y = none ↔ ∃ a, ∀ b ∈ x, b = a := by
        rw [← hD]
        unfold solve2
        simp only
        rw [show (x.map fun x => x * x).sum = sq x from rfl, show (x.map fun _ => (1 : K)).sum = cnt x from rfl]
        constructor
        · intro h
          by_contra hc
          rw [if_neg hc] at h
          simp at h
        · intro h
          rw [if_pos h]
      cases h : solve2 x y with
      | none =>
        simp only [true_iff]
        exact ⟨by omega, hs.1 h⟩
      | some pq =>
        simp only [reduceCtorEq, false_iff]
        rintro ⟨-, h'⟩
        rw [hs.2 h'] at h
        simp at h
  · simp [hl]

theorem solve1_none_iff (u v : List K) : solve1 u v = none ↔ ∀ a ∈ u, a = 0 := by
  unfold solve1
  simp only
  have h0 : (u.map fun x => x * x).sum = 0 ↔ ∀ a ∈ u, a = 0 := by
    constructor
    · intro h a ha
      have : a * a ≤ (u.map fun x => x * x).sum := by
        apply single_le_sum
        · intro y hy
          rw [mem_map] at hy
          obtain ⟨z, -, rfl⟩ := hy
          exact mul_self_nonneg z
        · exact mem_map.2 ⟨a, ha, rfl⟩
      have h2 : a * a = 0 := le_antisymm (h ▸ this) (mul_self_nonneg a)
      exact mul_self_eq_zero.1 h2
    · intro h
      apply sum_eq_zero
      intro y hy
      rw [mem_map] at hy
      obtain ⟨z, hz, rfl⟩ := hy
      rw [h z hz, mul_zero]
  rw [← h0]
  constructor
  · intro h
    by_contra hc
    rw [if_neg hc] at h
    simp at h
  · intro h
    rw [if_pos h]

theorem solve2_some {u v : List K} (h : ∃ a ∈ u, ∃ b ∈ u, a ≠ b) : ∃ r, solve2 u v = some r := by
  obtain ⟨a, ha, b, hb, hab⟩ := h
  have h2 : 2 ≤ u.length := by
    rcases u with _ | ⟨x, _ | ⟨y, u⟩⟩
    · simp at ha
    · simp only [mem_singleton] at ha hb
      exact absurd (ha.trans hb.symm) hab
    · simp
  have key := (C49_singular_iff u (u.map fun _ => (0 : K)))
  have hne : ¬ (u.length = (u.map fun _ => (0 : K)).length ∧ 2 ≤ u.length ∧ ∃ a, ∀ b ∈ u, b = a) := by
    rintro ⟨-, -, c, hc⟩
    exact hab ((hc a ha).trans (hc b hb).symm)
  have h3 : ¬ (linearRegression u (u.map fun _ => (0 : K)) none none none .RRY = .error .runtimeError) :=
    fun hh => hne (key.1 hh)
  have hD : sq u * cnt u - u.sum * u.sum ≠ 0 := by
    intro hD
    apply h3
    unfold linearRegression
    have hs : solve2 u (u.map fun _ => (0 : K)) = none := by
      unfold solve2
      simp only
      exact if_pos hD
    simp [hs, show ¬ u.length < 2 by omega, -map_const']
  unfold solve2
  simp only
  rw [if_neg (by exact hD)]
  exact ⟨_, rfl⟩

/-- C49, refusals: ValueError is raised exactly when the lists differ in length, the side is neither RRX
nor RRY, the wrong kind of intercept is forced, both a slope and an intercept are forced, or there are
too few points (two for a free line, one when slope or intercept is forced). -/
theorem C49_value_error (x y : List K) (slope x_intercept y_intercept : Option K) (side : Side) :
    linearRegression x y slope x_intercept y_intercept side = .error .valueError ↔
      x.length ≠ y.length ∨ side = .other ∨ (x_intercept ≠ none ∧ side = .RRY) ∨
      (y_intercept ≠ none ∧ side = .RRX) ∨
      (slope ≠ none ∧ (x_intercept ≠ none ∨ y_intercept ≠ none)) ∨
      x = [] ∨ (x.length = 1 ∧ slope = none ∧ x_intercept = none ∧ y_intercept = none) := by
  rcases x with _ | ⟨a, _ | ⟨b, x⟩⟩ <;> rcases slope with _ | s <;> rcases x_intercept with _ | xi <;>
    rcases y_intercept with _ | yi <;> cases side <;>
    unfold linearRegression <;> simp [valueErr] <;> (intros; (repeat' split) <;> simp)

/-- C49, success: with acceptable arguments the only other failures are degenerate geometry — RRY
succeeds when the x values are not all equal (free line), not all 0 (forced intercept), always (forced
slope); RRX succeeds when the y values are not all equal (free line), not all 0 (forced intercept), and
whenever the forced slope is not 0. -/
theorem C49_succeeds (x y : List K) (hl : x.length = y.length) (hx : x ≠ []) :
    ((∃ a ∈ x, ∃ b ∈ x, a ≠ b) → ∃ r, linearRegression x y none none none .RRY = .ok r) ∧
    (∀ c, (∃ a ∈ x, a ≠ 0) → ∃ r, linearRegression x y none none (some c) .RRY = .ok r) ∧
    (∀ s, ∃ r, linearRegression x y (some s) none none .RRY = .ok r) ∧
    ((∃ a ∈ y, ∃ b ∈ y, a ≠ b) → ∃ r, linearRegression x y none none none .RRX = .ok r) ∧
    (∀ c, (∃ a ∈ y, a ≠ 0) → ∃ r, linearRegression x y none (some c) none .RRX = .ok r) ∧
    (∀ s, s ≠ 0 → ∃ m c, linearRegression x y (some s) none none .RRX = .ok (.fin m, .fin c)) := by
  have two : ∀ u : List K, (∃ a ∈ u, ∃ b ∈ u, a ≠ b) → ¬ u.length < 2 := by
    rintro (_ | ⟨x, _ | ⟨y, u⟩⟩) ⟨a, ha, b, hb, hab⟩
    · simp at ha
    · simp only [mem_singleton] at ha hb
      exact absurd (ha.trans hb.symm) hab
    · simp
  have one : ¬ x.length < 1 := by
    have := length_pos_iff.2 hx
    omega
  have s1 : ∀ u v : List K, (∃ a ∈ u, a ≠ 0) → ∃ r, solve1 u v = some r := by
    rintro u v ⟨a, ha, h0⟩
    cases h : solve1 u v with
    | none => exact absurd ((solve1_none_iff u v).1 h a ha) h0
    | some r => exact ⟨r, rfl⟩
  have ones : ∀ u v : List K, u ≠ [] → ∃ r, solve1 (u.map fun _ => (1 : K)) v = some r := by
    intro u v hu
    obtain ⟨a, ha⟩ := exists_mem_of_ne_nil u hu
    exact s1 _ _ ⟨1, mem_map.2 ⟨a, ha, rfl⟩, one_ne_zero⟩
  have hy : y ≠ [] := by
    rintro rfl
    exact hx (length_eq_zero_iff.1 (by simpa using hl))
  refine ⟨fun h => ?_, fun c h => ?_, fun s => ?_, fun h => ?_, fun c h => ?_, fun s hs => ?_⟩
  · obtain ⟨r, hr⟩ := solve2_some (v := y) h
    have := two x h
    exact ⟨_, by unfold linearRegression; simp [hr, ← hl, this]; rfl⟩
  · obtain ⟨r, hr⟩ := s1 x (y.map fun b => b - c) h
    exact ⟨_, by unfold linearRegression; simp [hr, ← hl, one]; rfl⟩
  · obtain ⟨r, hr⟩ := ones x (zipWith (fun a b => b - s * a) x y) hx
    exact ⟨_, by unfold linearRegression; simp [← hl, one, hr, -map_const']; rfl⟩
  · obtain ⟨r, hr⟩ := solve2_some (v := x) h
    have := two y h
    exact ⟨_, by unfold linearRegression; simp [hr, hl, this]; rfl⟩
  · obtain ⟨r, hr⟩ := s1 y (x.map fun b => b - c) h
    exact ⟨_, by unfold linearRegression; simp [hr, ← hl, one]; rfl⟩
  · obtain ⟨r, hr⟩ := ones y (zipWith (fun a b => a - s * b) x y) hy
    exact ⟨_, _, by unfold linearRegression; simp [← hl, one, hr, hs, -map_const']; exact ⟨rfl, rfl⟩⟩

example : linearRegression (K := ℚ) [1, 2, 4] [3, 5, 6] none none none .RRY =
    .ok (.fin (13/14), .fin (5/2)) := by decide +kernel
example : linearRegression (K := ℚ) [1, 2, 4] [3, 5, 6] none none none .RRX =
    .ok (.fin (14/13), .fin (28/13)) := by decide +kernel
example : linearRegression (K := ℚ) [1, 2, 4] [3, 5, 6] none none (some 1) .RRY =
    .ok (.fin (10/7), .fin 1) := by decide +kernel
example : linearRegression (K := ℚ) [1, 2, 4] [3, 5, 6] (some 2) none none .RRX =
    .ok (.fin (1/2), .fin (7/2)) := by decide +kernel
example : linearRegression (K := ℚ) [2, 2] [3, 5] none none none .RRY = .error .runtimeError := by
  decide +kernel

end Reliability.LinReg

import Mathlib.Tactic.Ring
import Mathlib.Tactic.FieldSimp
import Mathlib.Tactic.Linarith
import Mathlib.Tactic.Positivity
import Mathlib.Tactic.Push
import Mathlib.Order.Lattice
import Verif.Model.NumPy

/-! Facts about the numpy primitives. -/

set_option linter.unusedSectionVars false

namespace Reliability.Np

open List

variable {K : Type _} [Field K] [LinearOrder K] [IsStrictOrderedRing K]

theorem max?_iff {K : Type _} [LinearOrder K] (l : List K) (a : K) :
    l.max? = some a ↔ a ∈ l ∧ ∀ b ∈ l, b ≤ a := by
  have : Std.LawfulOrderMax K :=
    { max_le_iff := fun a b c => max_le_iff, max_eq_or := fun a b => max_choice a b }
  exact List.max?_eq_some_iff

theorem min?_iff {K : Type _} [LinearOrder K] (l : List K) (a : K) :
    l.min? = some a ↔ a ∈ l ∧ ∀ b ∈ l, a ≤ b := by
  have : Std.LawfulOrderMin K :=
    { le_min_iff := fun a b c => le_min_iff, min_eq_or := fun a b => min_choice a b }
  exact List.min?_eq_some_iff

theorem sort_perm (l : List K) : sort l ~ l := perm_insertionSort _ _

theorem sort_sorted (l : List K) : (sort l).Pairwise (· ≤ ·) := pairwise_insertionSort _ _

theorem sort_congr {l l' : List K} (h : l ~ l') : sort l = sort l' := by
  apply Perm.eq_of_pairwise (le := (· ≤ ·))
  · intro a b _ _ h1 h2; exact le_antisymm h1 h2
  · exact sort_sorted _
  · exact sort_sorted _
  · exact (sort_perm l).trans (h.trans (sort_perm l').symm)

theorem sort_eq_self {l : List K} (h : l.Pairwise (· ≤ ·)) : sort l = l := by
  apply Perm.eq_of_pairwise (le := (· ≤ ·))
  · intro a b _ _ h1 h2; exact le_antisymm h1 h2
  · exact sort_sorted _
  · exact h
  · exact sort_perm l

theorem cumsum_length (s : K) (l : List K) : (cumsum s l).length = l.length := by
  induction l generalizing s with
  | nil => rfl
  | cons x xs ih => simp [cumsum, ih]

theorem cumsum_gt (s : K) (l : List K) (h : ∀ x ∈ l, 0 < x) : ∀ y ∈ cumsum s l, s < y := by
  induction l generalizing s with
  | nil => simp [cumsum]
  | cons x xs ih =>
    intro y hy
    have hx := h x (by simp)
    rw [cumsum, mem_cons] at hy
    rcases hy with rfl | hy
    · linarith
    · have := ih (s + x) (fun z hz => h z (by simp [hz])) y hy
      linarith

theorem cumsum_sorted (s : K) (l : List K) (h : ∀ x ∈ l, 0 < x) : (cumsum s l).Pairwise (· ≤ ·) := by
  induction l generalizing s with
  | nil => simp [cumsum]
  | cons x xs ih =>
    rw [cumsum, pairwise_cons]
    exact ⟨fun y hy => (cumsum_gt _ _ (fun z hz => h z (by simp [hz])) y hy).le,
      ih _ (fun z hz => h z (by simp [hz]))⟩

theorem cumsum_le (s : K) (l : List K) (h : ∀ x ∈ l, 0 < x) : ∀ y ∈ cumsum s l, y ≤ s + l.sum := by
  induction l generalizing s with
  | nil => simp [cumsum]
  | cons x xs ih =>
    intro y hy
    have h' : ∀ z ∈ xs, 0 < z := fun z hz => h z (by simp [hz])
    rw [cumsum, mem_cons] at hy
    rw [sum_cons]
    rcases hy with rfl | hy
    · have : 0 ≤ xs.sum := List.sum_nonneg fun z hz => (h' z hz).le
      linarith
    · have := ih (s + x) h' y hy
      linarith

theorem cumsum_append (s : K) (l r : List K) : cumsum s (l ++ r) = cumsum s l ++ cumsum (s + l.sum) r := by
  induction l generalizing s with
  | nil => simp [cumsum]
  | cons x xs ih => simp [cumsum, ih, add_assoc]

theorem cumsum_scale (k s : K) (l : List K) :
    cumsum (k * s) (l.map fun x => k * x) = (cumsum s l).map fun x => k * x := by
  induction l generalizing s with
  | nil => rfl
  | cons x xs ih =>
    simp only [map_cons, cumsum]
    rw [← mul_add, ih]

theorem cumsum_take (s : K) (l : List K) (n : Nat) : cumsum s (l.take n) = (cumsum s l).take n := by
  induction l generalizing s n with
  | nil => simp [cumsum]
  | cons x xs ih =>
    cases n with
    | zero => simp [cumsum]
    | succ n => simp [cumsum, ih]

theorem argminFrom_spec (l : List K) (pre : List K) (best : Nat × K)
    (hb : pre[best.1]? = some best.2) (hmin : ∀ x ∈ pre, best.2 ≤ x)
    (hfirst : ∀ j x, pre[j]? = some x → j < best.1 → best.2 < x) :
    let r := argminFrom pre.length best l
    (pre ++ l)[r.1]? = some r.2 ∧ (∀ x ∈ pre ++ l, r.2 ≤ x) ∧
      ∀ j x, (pre ++ l)[j]? = some x → j < r.1 → r.2 < x := by
  induction l generalizing pre best with
  | nil => simpa [argminFrom] using ⟨hb, hmin, hfirst⟩
  | cons a l ih =>
    have hlt : best.1 < pre.length := by
      by_contra hc
      rw [getElem?_eq_none (by omega)] at hb
      simp at hb
    have := ih (pre ++ [a]) (if a < best.2 then (pre.length, a) else best)
      (by
        split
        · simp
        · rw [getElem?_append_left hlt]; exact hb)
      (by
        intro x hx
        rw [mem_append, mem_singleton] at hx
        split
        · next hlt' =>
          rcases hx with hx | rfl
          · exact hlt'.le.trans (hmin x hx)
          · exact le_rfl
        · next hge =>
          rcases hx with hx | rfl
          · exact hmin x hx
          · exact not_lt.1 hge)
      (by
        intro j x hx hj
        split at hj
        · next hlt' =>
          rw [if_pos hlt']
          rw [getElem?_append_left hj] at hx
          exact hlt'.trans_le (hmin x (mem_of_getElem? hx))
        · next hge =>
          rw [if_neg hge]
          rw [getElem?_append_left (by omega)] at hx
          exact hfirst j x hx hj)
    simpa [argminFrom] using this

/-- `argmin` returns the first position of the least value. -/
theorem argmin_spec {l : List K} {i : Nat} (h : argmin l = some i) :
    ∃ m, l[i]? = some m ∧ (∀ x ∈ l, m ≤ x) ∧ ∀ j x, l[j]? = some x → j < i → m < x := by
  cases l with
  | nil => simp [argmin] at h
  | cons a l =>
    simp only [argmin, Option.some.injEq] at h
    have := argminFrom_spec l [a] (0, a) rfl (by simp) (by simp)
    simp only [length_cons, length_nil, Nat.zero_add] at this
    rw [h] at this
    exact ⟨_, this⟩

theorem argmin_isSome {l : List K} (h : l ≠ []) : ∃ i, argmin l = some i := by
  cases l with
  | nil => exact absurd rfl h
  | cons a l => exact ⟨_, rfl⟩

theorem linspace_length (a b : K) (n : Nat) : (linspace a b n).length = n := by simp [linspace]

theorem linspace_get (a b : K) (n i : Nat) (hi : i < n) :
    (linspace a b n)[i]? = some (a + (i : K) * ((b - a) / ((n - 1 : Nat) : K))) := by
  simp [linspace, hi]

theorem linspace_first (a b : K) (n : Nat) (hn : 0 < n) : (linspace a b n)[0]? = some a := by
  rw [linspace_get a b n 0 hn]; simp

theorem linspace_last (a b : K) (n : Nat) (hn : 2 ≤ n) : (linspace a b n)[n - 1]? = some b := by
  rw [linspace_get a b n (n - 1) (by omega)]
  have : ((n - 1 : Nat) : K) ≠ 0 := by
    have : n - 1 ≠ 0 := by omega
    exact_mod_cast this
  congr 1
  field_simp
  ring

theorem linspace_mem {a b : K} {n : Nat} (hab : a ≤ b) {x : K} (hx : x ∈ linspace a b n) : a ≤ x ∧ x ≤ b := by
  simp only [linspace, mem_map, mem_range] at hx
  obtain ⟨i, hi, rfl⟩ := hx
  have hd : 0 ≤ b - a := by linarith
  rcases Nat.lt_or_ge 1 n with hn | hn
  · have hpos : (0 : K) < ((n - 1 : Nat) : K) := by
      have : 0 < n - 1 := by omega
      exact_mod_cast this
    have hi' : (i : K) ≤ ((n - 1 : Nat) : K) := by
      have : i ≤ n - 1 := by omega
      exact_mod_cast this
    constructor
    · have : 0 ≤ (i : K) * ((b - a) / ((n - 1 : Nat) : K)) := by positivity
      linarith
    · have : (i : K) * ((b - a) / ((n - 1 : Nat) : K)) ≤ ((n - 1 : Nat) : K) * ((b - a) / ((n - 1 : Nat) : K)) := by
        apply mul_le_mul_of_nonneg_right hi'
        positivity
      have h2 : ((n - 1 : Nat) : K) * ((b - a) / ((n - 1 : Nat) : K)) = b - a := by field_simp
      linarith
  · have : i = 0 := by omega
    subst this
    simp [hab]

theorem linspace_strictMono {a b : K} {n : Nat} (hab : a < b) : (linspace a b n).Pairwise (· < ·) := by
  rw [linspace, pairwise_map]
  refine (pairwise_lt_range).imp_of_mem ?_
  intro i j hi hj hij
  rw [mem_range] at hj
  have hpos : (0 : K) < ((n - 1 : Nat) : K) := by
    have : 0 < n - 1 := by omega
    exact_mod_cast this
  have hd : 0 < (b - a) / ((n - 1 : Nat) : K) := div_pos (by linarith) hpos
  have : (i : K) < (j : K) := by exact_mod_cast hij
  nlinarith

end Reliability.Np

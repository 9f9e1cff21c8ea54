import Mathlib.Tactic.Ring
import Mathlib.Tactic.FieldSimp
import Mathlib.Tactic.Linarith
import Mathlib.Tactic.Positivity
import Mathlib.Tactic.Push
import Mathlib.Tactic.NormNum
import Mathlib.Algebra.BigOperators.Intervals
import Verif.Model.Nonparametric
import Verif.Spec.Nonparametric
import Verif.Lemmas.Sorting
import Verif.Lemmas.PlottingPositions

/-! Helper lemmas for the non-parametric estimators. -/

set_option linter.unusedSectionVars false

namespace Reliability.NP

open Reliability List

variable {K : Type _} [Field K] [LinearOrder K] [IsStrictOrderedRing K]

theorem sortedData_perm {argsort : List K → List Nat} (h : IsArgsort argsort) (f rc : List K) :
    sortedData argsort f rc ~ Spec.tagged f rc := sortValues_perm h _ _

theorem sortedData_sorted {argsort : List K → List Nat} (h : IsArgsort argsort) (f rc : List K) :
    (sortedData argsort f rc).Pairwise fun p q => p.1 ≤ q.1 := sortValues_sorted h _ _

/-- The per-row survival factor with `m` items in the rows after this one. -/
def factor (c : Bool) (m : Nat) : K := (((m + 1 : Nat) : K) - code c) / ((m + 1 : Nat) : K)

theorem factor_false (m : Nat) : factor (K := K) false m = 1 := by
  unfold factor code
  have : (m : K) + 1 ≠ 0 := by positivity
  simp [this]

theorem factor_true (m : Nat) : factor (K := K) true m = (m : K) / ((m : K) + 1) := by
  unfold factor code; simp

theorem factor_nonneg (c : Bool) (m : Nat) : 0 ≤ factor (K := K) c m := by
  cases c
  · rw [factor_false]; exact zero_le_one
  · rw [factor_true]; positivity

theorem factor_le_one (c : Bool) (m : Nat) : factor (K := K) c m ≤ 1 := by
  cases c
  · rw [factor_false]
  · rw [factor_true, div_le_one (by positivity)]; linarith

theorem factor_pos (c : Bool) (m : Nat) (h : c = false ∨ 0 < m) : 0 < factor (K := K) c m := by
  rcases h with rfl | h
  · rw [factor_false]; exact zero_lt_one
  · cases c
    · rw [factor_false]; exact zero_lt_one
    · rw [factor_true]
      have : (0 : K) < (m : K) := by exact_mod_cast h
      positivity

theorem factor_lt_one (m : Nat) : factor (K := K) true m < 1 := by
  rw [factor_true, div_lt_one (by positivity)]; linarith

theorem kmLoop_none (cs : List Bool) : kmLoop (K := K) none cs = kmLoop (some 1) cs := by
  cases cs <;> simp [kmLoop]

theorem kmLoop_cons (p : K) (c : Bool) (cs : List Bool) :
    kmLoop (some p) (c :: cs) = (factor c cs.length * p) :: kmLoop (some (factor c cs.length * p)) cs :=
  rfl

theorem kmLoop_length (p : Option K) (cs : List Bool) : (kmLoop p cs).length = cs.length := by
  induction cs generalizing p with
  | nil => rfl
  | cons c cs ih => simp [kmLoop, ih]

theorem kmLoop_scale (p q : K) (cs : List Bool) :
    kmLoop (some (p * q)) cs = (kmLoop (some q) cs).map (fun v => p * v) := by
  induction cs generalizing q with
  | nil => rfl
  | cons c cs ih =>
    rw [kmLoop_cons, kmLoop_cons, map_cons, ← ih]
    have : factor c cs.length * (p * q) = p * (factor c cs.length * q) := by ring
    rw [this]

theorem kmLoop_inv (p : K) (hp : 0 ≤ p) (cs : List Bool) :
    (kmLoop (some p) cs).Pairwise (· ≥ ·) ∧ ∀ v ∈ kmLoop (some p) cs, 0 ≤ v ∧ v ≤ p := by
  induction cs generalizing p with
  | nil => simp [kmLoop]
  | cons c cs ih =>
    rw [kmLoop_cons]
    have h0 := factor_nonneg (K := K) c cs.length
    have h1 := factor_le_one (K := K) c cs.length
    have hq0 : 0 ≤ factor c cs.length * p := mul_nonneg h0 hp
    have hq1 : factor c cs.length * p ≤ p := by nlinarith
    have := ih _ hq0
    refine ⟨pairwise_cons.2 ⟨fun v hv => (this.2 v hv).2, this.1⟩, ?_⟩
    intro v hv
    rcases mem_cons.1 hv with rfl | hv
    · exact ⟨hq0, hq1⟩
    · exact ⟨(this.2 v hv).1, (this.2 v hv).2.trans hq1⟩

/-! ### product-limit -/

section spec
variable (x : K × Bool) (R : List (K × Bool))

theorem deaths_cons (t : K) : Spec.deaths (x :: R) t =
    Spec.deaths R t + if x.2 = true ∧ x.1 = t then 1 else 0 := by
  unfold Spec.deaths
  rw [countP_cons]
  simp

theorem atRisk_cons (t : K) : Spec.atRisk (x :: R) t =
    Spec.atRisk R t + if t ≤ x.1 then 1 else 0 := by
  unfold Spec.atRisk
  rw [countP_cons]
  simp

theorem mem_failTimes (S : List (K × Bool)) (t : K) : t ∈ Spec.failTimes S ↔ (t, true) ∈ S := by
  simp [Spec.failTimes]

theorem deaths_eq_zero (S : List (K × Bool)) (t : K) (h : t ∉ Spec.failTimes S) :
    Spec.deaths S t = 0 := by
  rw [mem_failTimes] at h
  unfold Spec.deaths
  rw [countP_eq_zero]
  rintro ⟨a, b⟩ hp hc
  simp only [Bool.and_eq_true, decide_eq_true_eq] at hc
  obtain ⟨rfl, rfl⟩ := hc
  exact h hp

theorem atRisk_all (S : List (K × Bool)) (t : K) (h : ∀ p ∈ S, t ≤ p.1) :
    Spec.atRisk S t = S.length := by
  unfold Spec.atRisk
  rw [countP_eq_length]
  intro p hp
  simpa using h p hp

/-- The product may be taken over any finite set of times containing the failure times. -/
theorem productLimit_superset (S : List (K × Bool)) (t : K) (T : Finset K)
    (hT : Spec.failTimes S ⊆ T) :
    Spec.productLimit S t =
      ∏ s ∈ T.filter (· ≤ t), (1 - (Spec.deaths S s : K) / (Spec.atRisk S s : K)) := by
  unfold Spec.productLimit
  apply Finset.prod_subset (Finset.filter_subset_filter _ hT)
  intro s hs hns
  have : s ∉ Spec.failTimes S := fun h => hns (Finset.mem_filter.2 ⟨h, (Finset.mem_filter.1 hs).2⟩)
  simp [deaths_eq_zero S s this]

theorem productLimit_cons (t : K) (hle : ∀ q ∈ R, x.1 ≤ q.1)
    (hff : ∀ q ∈ R, x.1 = q.1 → q.2 = true → x.2 = true) (ht : x.1 ≤ t) :
    Spec.productLimit (x :: R) t = factor x.2 R.length * Spec.productLimit R t := by
  have hsub : Spec.failTimes R ⊆ Spec.failTimes (x :: R) := by
    intro s hs
    rw [mem_failTimes] at hs ⊢
    exact mem_cons_of_mem _ hs
  rw [productLimit_superset R t _ hsub, Spec.productLimit]
  -- times other than x.1 contribute equal factors
  have hother : ∀ s ∈ Spec.failTimes (x :: R), s ≠ x.1 →
      (1 - (Spec.deaths (x :: R) s : K) / (Spec.atRisk (x :: R) s : K)) =
      (1 - (Spec.deaths R s : K) / (Spec.atRisk R s : K)) := by
    intro s hs hne
    rw [mem_failTimes] at hs
    have hsR : (s, true) ∈ R := by
      rcases mem_cons.1 hs with h | h
      · exact absurd (by rw [← h]) hne
      · exact h
    have hlt : x.1 < s := lt_of_le_of_ne (hle _ hsR) (Ne.symm hne)
    rw [deaths_cons, atRisk_cons, if_neg (fun h => hne h.2.symm), if_neg (not_le.2 hlt)]
    simp
  cases hx : x.2 with
  | false =>
    rw [factor_false, one_mul]
    apply Finset.prod_congr rfl
    intro s hs
    have hs' := (Finset.mem_filter.1 hs).1
    apply hother s hs'
    rintro rfl
    rw [mem_failTimes] at hs'
    rcases mem_cons.1 hs' with h | h
    · rw [← h] at hx; simp at hx
    · have := hff _ h rfl rfl
      rw [hx] at this; simp at this
  | true =>
    have hmem : x.1 ∈ (Spec.failTimes (x :: R)).filter (· ≤ t) := by
      rw [Finset.mem_filter, mem_failTimes]
      refine ⟨?_, ht⟩
      rw [← hx]; simp
    rw [← Finset.mul_prod_erase _ _ hmem]
    conv_rhs => rw [← Finset.mul_prod_erase _ _ hmem]
    rw [← mul_assoc]
    congr 1
    · rw [deaths_cons, atRisk_cons, if_pos ⟨hx, rfl⟩, if_pos le_rfl, atRisk_all R x.1 hle, factor_true]
      by_cases h0 : R.length = 0
      · have : R = [] := by simpa using h0
        subst this
        simp [Spec.deaths]
      · have h1 : ((R.length : Nat) : K) ≠ 0 := by exact_mod_cast h0
        have h2 : ((R.length : Nat) : K) + 1 ≠ 0 := by positivity
        push_cast
        field_simp
        ring
    · apply Finset.prod_congr rfl
      intro s hs
      rw [Finset.mem_erase] at hs
      exact hother s (Finset.mem_filter.1 hs.2).1 hs.1

end spec

/-- The KM column is the product-limit estimate at every row after which no failure is tied. -/
theorem kmLoop_productLimit (S : List (K × Bool)) (hs : S.Pairwise fun p q => p.1 ≤ q.1)
    (hff : Spec.FailuresFirst S) (p : K) (i : Nat) (hi : i < S.length)
    (hlast : ∀ j, i < j → ∀ q, S[j]? = some q → q.1 = (S[i]).1 → q.2 = false) :
    (kmLoop (some p) (S.map Prod.snd))[i]? = some (p * Spec.productLimit S (S[i]).1) := by
  induction S generalizing p i with
  | nil => simp at hi
  | cons x R ih =>
    have hs' := pairwise_cons.1 hs
    have hff' := pairwise_cons.1 hff
    rw [map_cons, kmLoop_cons, length_map]
    cases i with
    | zero =>
      simp only [getElem?_cons_zero, getElem_cons_zero]
      rw [productLimit_cons x R _ hs'.1 (fun q hq => hff'.1 q hq) le_rfl]
      have h1 : Spec.productLimit R x.1 = 1 := by
        unfold Spec.productLimit
        apply Finset.prod_eq_one
        intro s hsm
        rw [Finset.mem_filter, mem_failTimes] at hsm
        have heq : s = x.1 := le_antisymm hsm.2 (hs'.1 _ hsm.1)
        obtain ⟨j, hj, hjs⟩ := mem_iff_getElem.1 hsm.1
        have := hlast (j + 1) (by omega) (s, true) (by simp [hj, hjs]) (by simpa using heq)
        simp at this
      rw [h1]; congr 1; ring
    | succ i =>
      have hi' : i < R.length := by simpa using hi
      simp only [getElem?_cons_succ, getElem_cons_succ]
      rw [ih hs'.2 hff'.2 _ i hi' (by
        intro j hj q hq he
        exact hlast (j + 1) (by omega) q (by simpa using hq) (by simpa using he))]
      rw [productLimit_cons x R _ hs'.1 (fun q hq => hff'.1 q hq) (hs'.1 _ (getElem_mem hi'))]
      congr 1; ring

/-! ### complete data and zero -/

theorem kmLoop_complete (p : K) (n : Nat) (i : Nat) (hi : i < n) :
    (kmLoop (some p) (replicate n true))[i]? = some (p * (((n - 1 - i : Nat) : K) / (n : K))) := by
  induction n generalizing p i with
  | zero => omega
  | succ n ih =>
    rw [replicate_succ, kmLoop_cons, length_replicate, factor_true]
    cases i with
    | zero =>
      simp only [getElem?_cons_zero]
      congr 1
      have : n + 1 - 1 - 0 = n := by omega
      rw [this]; push_cast; ring
    | succ i =>
      simp only [getElem?_cons_succ]
      rw [ih _ i (by omega)]
      congr 1
      have : n + 1 - 1 - (i + 1) = n - 1 - i := by omega
      rw [this]
      have h0 : (n : K) ≠ 0 := by
        have : n ≠ 0 := by omega
        exact_mod_cast this
      have h1 : (n : K) + 1 ≠ 0 := by positivity
      push_cast
      field_simp

/-- A row of the KM column is zero exactly when it is the last one and a failure. -/
theorem kmLoop_zero_iff (p : K) (hp : 0 < p) (cs : List Bool) (i : Nat) (hi : i < cs.length) :
    ∃ v, (kmLoop (some p) cs)[i]? = some v ∧ 0 ≤ v ∧ (v = 0 ↔ i + 1 = cs.length ∧ cs[i] = true) := by
  induction cs generalizing p i with
  | nil => simp at hi
  | cons c cs ih =>
    rw [kmLoop_cons]
    by_cases hz : c = false ∨ 0 < cs.length
    · have hf := factor_pos (K := K) c cs.length hz
      have hq := mul_pos hf hp
      cases i with
      | zero =>
        refine ⟨_, by simp, hq.le, ?_⟩
        simp only [length_cons, getElem_cons_zero]
        constructor
        · intro h; exact absurd h hq.ne'
        · rintro ⟨h1, h2⟩
          rcases hz with h | h
          · rw [h] at h2; simp at h2
          · omega
      | succ i =>
        obtain ⟨v, hv, h0, hiff⟩ := ih _ hq i (by simpa using hi)
        refine ⟨v, by simpa using hv, h0, ?_⟩
        simpa using hiff
    · push Not at hz
      have hcs : cs = [] := by
        have := hz.2
        simpa using this
      subst hcs
      have hc : c = true := by simpa using hz.1
      subst hc
      have : i = 0 := by simp at hi; omega
      subst this
      refine ⟨0, ?_, le_rfl, ?_⟩
      · simp [factor_true]
      · simp

end Reliability.NP

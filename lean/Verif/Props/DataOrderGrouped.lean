import Verif.Props.DataOrder
import Verif.Props.FitGrouped
import Verif.Props.Likelihood

/-! # C177: Fit_Weibull_2P_grouped depends only on how many items there are at each time -/

namespace Reliability.Props

open Reliability List InputCheck Fitters FitGlue FitGrouped Likelihood Spec
open Reliability.Spec.FitGrouped

variable {argsort argsort' : List ℝ → List ℕ}

theorem expand_order {cols cols' : List String} {rows rows' : List GRow} (hw : WellFormed cols rows) (hw' : WellFormed cols' rows')
    {c : String} (h : ∀ t, 0 < t → total c t rows = total c t rows') : expand c rows ~ expand c rows' := by
  rw [perm_iff_count]
  intro t
  rcases lt_or_ge 0 t with ht | ht
  · have key : ∀ {cols : List String} {rs : List GRow}, WellFormed cols rs →
        ((((rs.filter fun r => r.category = c ∧ r.time = t).map fun r => r.quantity.toNat).sum : ℕ) : ℤ) = total c t rs := by
      intro cols rs hw
      unfold total
      have hq : ∀ r ∈ rs.filter fun r => r.category = c ∧ r.time = t, 0 ≤ r.quantity := by
        intro r hr
        have h2 := (mem_filter.1 hr).2
        simp only [decide_eq_true_eq] at h2
        exact hw.quantities r (mem_filter.1 hr).1 (h2.2 ▸ ht)
      generalize rs.filter (fun r => decide (r.category = c ∧ r.time = t)) = l at hq
      induction l with
      | nil => rfl
      | cons r l ih =>
        simp only [map_cons, sum_cons, Nat.cast_add]
        rw [ih fun r hr => hq r (mem_cons_of_mem _ hr), Int.toNat_of_nonneg (hq r mem_cons_self)]
    have h1 := key hw
    have h2 := key hw'
    rw [(C109_counts c rows t).1 ht, (C109_counts c rows' t).1 ht]
    have := h t ht
    omega
  · rw [(C109_counts c rows t).2 ht, (C109_counts c rows' t).2 ht]

/-- **C177.** Tables of the same items give the same result, whatever the order of the rows and of the columns and however the
items at one time are spread over rows. -/
theorem C177_grouped (J : FunctionCI.Jac) (num : Option ℝ → Num2) (x : GArgs) {cols cols' : List String} {rows rows' : List GRow}
    (hw : WellFormed cols rows) (hw' : WellFormed cols' rows') (hs : SameItemsGrouped rows rows')
    (h : NoChoice argsort argsort' (expand "F" rows) (expand "C" rows)) :
    fitWeibull2PGrouped argsort J num (.frame cols rows) x = fitWeibull2PGrouped argsort' J num (.frame cols' rows') x := by
  have pF := expand_order hw hw' fun t ht => (hs t ht).1
  have pC := expand_order hw hw' fun t ht => (hs t ht).2
  rw [grouped_unfold hw, grouped_unfold hw']
  refine check_order (x := { failures := .array (expand "F" rows), right_censored := .array (expand "C" rows), CI := x.CI, quantiles := x.quantiles })
    (x' := { failures := .array (expand "F" rows'), right_censored := .array (expand "C" rows'), CI := x.CI, quantiles := x.quantiles })
    ⟨.reordered pF, .reordered pC, rfl⟩ _ _ _ _ _ _ _ _ fun i i' hf hc sf sc hr => ?_
  have h := h.sub sf sc
  obtain ⟨f, c, CI, met, opt, q, fb, fs, ct⟩ := i
  obtain ⟨f', c', CI', met', opt', q', fb', fs', ct'⟩ := i'
  simp only [Checked.mk.injEq, true_and] at hr
  obtain ⟨rfl, rfl, rfl, rfl, rfl, rfl, rfl⟩ := hr
  dsimp only at hf hc h
  have hL : ∀ a b, weibull2P_grouped_LL a b
        (counts ((rows.filter fun r => r.category = "F" ∧ 0 < r.time).map fun r => (r.time, r.quantity)))
        (counts ((rows.filter fun r => r.category = "C" ∧ 0 < r.time).map fun r => (r.time, r.quantity))) =
      weibull2P_grouped_LL a b
        (counts ((rows'.filter fun r => r.category = "F" ∧ 0 < r.time).map fun r => (r.time, r.quantity)))
        (counts ((rows'.filter fun r => r.category = "C" ∧ 0 < r.time).map fun r => (r.time, r.quantity))) := by
    intro a b
    rw [(C42_grouped a b _ _).1, (C42_grouped a b _ _).1, expand_counts, expand_counts, expand_counts, expand_counts]
    exact LL_order pF pC _ _
  have hN : ((counts ((rows.filter fun r => r.category = "F" ∧ 0 < r.time).map fun r => (r.time, r.quantity))).map Prod.snd).sum +
        ((counts ((rows.filter fun r => r.category = "C" ∧ 0 < r.time).map fun r => (r.time, r.quantity))).map Prod.snd).sum =
      ((counts ((rows'.filter fun r => r.category = "F" ∧ 0 < r.time).map fun r => (r.time, r.quantity))).map Prod.snd).sum +
        ((counts ((rows'.filter fun r => r.category = "C" ∧ 0 < r.time).map fun r => (r.time, r.quantity))).map Prod.snd).sum := by
    rw [(C42_grouped 1 1 _ _).2, (C42_grouped 1 1 _ _).2, expand_counts, expand_counts, expand_counts, expand_counts,
      pF.length_eq, pC.length_eq]
  have hG : ∀ (force : Option ℝ) p, LLg
        (counts ((rows.filter fun r => r.category = "F" ∧ 0 < r.time).map fun r => (r.time, r.quantity)))
        (counts ((rows.filter fun r => r.category = "C" ∧ 0 < r.time).map fun r => (r.time, r.quantity))) force p =
      LLg (counts ((rows'.filter fun r => r.category = "F" ∧ 0 < r.time).map fun r => (r.time, r.quantity)))
        (counts ((rows'.filter fun r => r.category = "C" ∧ 0 < r.time).map fun r => (r.time, r.quantity))) force p := by
    intro force p; unfold LLg; cases force <;> simp only [hL]
  have hG' := fun force => funext (hG force)
  unfold fitGroupedData
  simp only [hL, hG', hN, gof_order h hf hc]

/-- The hypotheses hold of two tables of five failures and two censored items: one with the failures at time 3 in one row
and one with them in two rows, in another order. -/
example : ∃ rows rows' : List GRow, WellFormed ["category", "time", "quantity"] rows ∧ WellFormed ["category", "time", "quantity"] rows' ∧
    rows.length = 3 ∧ rows'.length = 4 ∧ SameItemsGrouped rows rows' ∧
    NoChoice (refArgsort (K := ℝ)) refArgsort (expand "F" rows) (expand "C" rows) := by
  refine ⟨[⟨"F", 3, 4⟩, ⟨"F", 5, 1⟩, ⟨"C", 4, 2⟩], [⟨"C", 4, 2⟩, ⟨"F", 3, 1⟩, ⟨"F", 5, 1⟩, ⟨"F", 3, 3⟩],
    ⟨by simp, by simp, by simp⟩, ⟨by simp, by simp, by simp⟩, rfl, rfl, ?_, .inr ⟨refArgsort_isArgsort, refArgsort_isArgsort, ?_⟩⟩
  · intro t _
    unfold total
    constructor
    · by_cases h3 : (3 : ℝ) = t
      · subst h3; norm_num
      · by_cases h5 : (5 : ℝ) = t
        · subst h5; norm_num
        · simp [h3, h5]
    · by_cases h4 : (4 : ℝ) = t
      · subst h4; norm_num
      · simp [h4]
  · intro t ht hc
    unfold expand at ht hc
    simp at ht hc
    rcases ht with rfl | rfl <;> norm_num at hc

end Reliability.Props

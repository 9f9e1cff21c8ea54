import Mathlib.Tactic.Linarith
import Mathlib.Tactic.NormNum
import Mathlib.Tactic.FinCases
import Verif.Model.Fitters
import Verif.Spec.Fitters
import Verif.Lemmas.Sorting
import Verif.Lemmas.NumPy

/-! # C44, C45, C46: `Fit_Everything` -/

namespace Reliability.Props

open List Reliability.Fitters Reliability.Fitters.Dist Reliability.Spec

theorem aliasTable_eq : aliasTable =
    [Weibull_2P, Weibull_3P, Gamma_2P, Gamma_3P, Lognormal_2P, Lognormal_3P, Exponential_1P, Exponential_2P,
      Normal_2P, Gumbel_2P, Loglogistic_2P, Loglogistic_3P, Beta_2P, Weibull_Mixture, Weibull_CR, Weibull_DS].map
      fun d => (d, aliases d) := rfl

theorem mem_aliasTable (d : Dist) : (d, aliases d) ∈ aliasTable := by
  rw [aliasTable_eq, mem_map]
  exact ⟨d, by cases d <;> simp, rfl⟩

theorem aliasTable_spec {e : Dist × List String} (h : e ∈ aliasTable) : e.2 = aliases e.1 := by
  rw [aliasTable_eq, mem_map] at h
  obtain ⟨d, -, rfl⟩ := h
  rfl

theorem aliases_disjoint : ∀ e ∈ aliasTable, ∀ f ∈ aliasTable, ∀ a ∈ e.2, a ∈ f.2 → e.1 = f.1 := by
  decide +kernel

theorem resolve_iff (s : String) (d : Dist) : resolve s = some d ↔ up s ∈ aliases d := by
  unfold resolve
  constructor
  · intro h
    rw [Option.map_eq_some_iff] at h
    obtain ⟨e, he, rfl⟩ := h
    have h1 := find?_some he
    rw [← aliasTable_spec (mem_of_find?_eq_some he)]
    simpa using h1
  · intro h
    cases hf : aliasTable.find? fun e => decide (up s ∈ e.2) with
    | none =>
      have := find?_eq_none.1 hf _ (mem_aliasTable d)
      simp [h] at this
    | some e =>
      have h1 := find?_some hf
      have hm := mem_of_find?_eq_some hf
      simp only [Option.map_some, Option.some.injEq]
      exact aliases_disjoint e hm _ (mem_aliasTable d) (up s) (by simpa using h1) h

theorem resolveAll_ok {l : List Item} {ds : List Dist} (h : resolveAll l = .ok ds) (d : Dist) :
    d ∈ ds ↔ ∃ s, Item.str s ∈ l ∧ up s ∈ aliases d := by
  induction l generalizing ds with
  | nil => simp only [resolveAll, Except.ok.injEq] at h; subst h; simp
  | cons i l ih =>
    cases i with
    | other => simp [resolveAll, valueErr] at h
    | str s =>
      rw [resolveAll] at h
      cases hr : resolveAll l with
      | error e => rw [hr] at h; simp at h
      | ok ds' =>
        rw [hr] at h
        have ih := ih hr
        cases hs : resolve s with
        | none =>
          simp only [hs, Except.ok.injEq] at h
          subst h
          rw [ih]
          constructor
          · rintro ⟨t, ht, h⟩; exact ⟨t, mem_cons_of_mem _ ht, h⟩
          · rintro ⟨t, ht, h⟩
            rcases mem_cons.1 ht with h' | ht
            · cases h'
              rw [← resolve_iff, hs] at h
              simp at h
            · exact ⟨t, ht, h⟩
        | some d' =>
          simp only [hs, Except.ok.injEq] at h
          subst h
          rw [mem_cons, ih]
          constructor
          · rintro (rfl | ⟨t, ht, h⟩)
            · exact ⟨s, mem_cons_self, (resolve_iff _ _).1 hs⟩
            · exact ⟨t, mem_cons_of_mem _ ht, h⟩
          · rintro ⟨t, ht, h⟩
            rcases mem_cons.1 ht with h' | ht
            · cases h'
              rw [← resolve_iff, hs] at h
              left; simpa using h.symm
            · exact .inr ⟨t, ht, h⟩

theorem resolveAll_error {l : List Item} : (∃ ds, resolveAll l = .ok ds) ∨
    (Item.other ∈ l ∧ resolveAll l = .error .valueError) := by
  induction l with
  | nil => exact .inl ⟨_, rfl⟩
  | cons i l ih =>
    cases i with
    | other => exact .inr ⟨mem_cons_self, rfl⟩
    | str s =>
      rw [resolveAll]
      rcases ih with ⟨ds, h⟩ | ⟨hm, h⟩
      · rw [h]; exact .inl ⟨_, rfl⟩
      · rw [h]; exact .inr ⟨mem_cons_of_mem _ hm, rfl⟩

theorem threeP_spec (d : Dist) : (∃ s, Item.str s ∈ threeP ∧ up s ∈ aliases d) ↔
    d ∈ [Weibull_3P, Gamma_3P, Loglogistic_3P, Lognormal_3P, Weibull_Mixture, Weibull_CR] := by
  constructor
  · rintro ⟨s, hs, h⟩
    rw [← resolve_iff] at h
    simp only [threeP, map_cons, map_nil, mem_cons, Item.str.injEq, not_mem_nil, or_false] at hs
    rcases hs with rfl | rfl | rfl | rfl | rfl | rfl
    · have : resolve "Weibull_3P" = some Weibull_3P := by decide +kernel
      rw [this] at h; cases h; simp
    · have : resolve "Gamma_3P" = some Gamma_3P := by decide +kernel
      rw [this] at h; cases h; simp
    · have : resolve "Loglogistic_3P" = some Loglogistic_3P := by decide +kernel
      rw [this] at h; cases h; simp
    · have : resolve "Lognormal_3P" = some Lognormal_3P := by decide +kernel
      rw [this] at h; cases h; simp
    · have : resolve "Weibull_Mixture" = some Weibull_Mixture := by decide +kernel
      rw [this] at h; cases h; simp
    · have : resolve "Weibull_CR" = some Weibull_CR := by decide +kernel
      rw [this] at h; cases h; simp
  · intro h
    simp only [mem_cons, not_mem_nil, or_false] at h
    rcases h with rfl | rfl | rfl | rfl | rfl | rfl
    · exact ⟨"Weibull_3P", by simp [threeP], by decide +kernel⟩
    · exact ⟨"Gamma_3P", by simp [threeP], by decide +kernel⟩
    · exact ⟨"Loglogistic_3P", by simp [threeP], by decide +kernel⟩
    · exact ⟨"Lognormal_3P", by simp [threeP], by decide +kernel⟩
    · exact ⟨"Weibull_Mixture", by simp [threeP], by decide +kernel⟩
    · exact ⟨"Weibull_CR", by simp [threeP], by decide +kernel⟩

theorem workingExclude_ok {nf : Nat} {e : Exclude} {l : List Item} (h : workingExclude nf e = .ok l) :
    l = listed e ++ (if nf < 3 then threeP else []) := by
  cases e <;> by_cases hn : nf < 3 <;>
    simp_all [workingExclude, listed, valueErr]

theorem excludedDists_ok {nf : Nat} {allData : List ℝ} {e : Exclude} {ex : List Dist}
    (h : excludedDists nf allData e = .ok ex) (d : Dist) : d ∈ ex ↔ LeftOut nf allData e d := by
  unfold excludedDists at h
  cases hw : workingExclude nf e with
  | error x => rw [hw] at h; simp at h
  | ok l =>
    rw [hw] at h
    have hl := workingExclude_ok hw
    cases hr : resolveAll l with
    | error x => simp only [hr] at h; simp at h
    | ok ds =>
      simp only [hr] at h
      have hd : ∀ d, d ∈ ds ↔ (∃ s, Item.str s ∈ listed e ∧ up s ∈ aliases d) ∨
          (nf < 3 ∧ d ∈ [Weibull_3P, Gamma_3P, Loglogistic_3P, Lognormal_3P, Weibull_Mixture, Weibull_CR]) := by
        intro d
        rw [resolveAll_ok hr, ← threeP_spec, hl]
        by_cases hn : nf < 3
        · rw [if_pos hn]
          simp only [mem_append, hn, true_and, or_and_right, exists_or]
        · simp [hn]
      by_cases hb : Beta_2P ∉ ds
      · rw [if_pos hb] at h
        cases hm : allData.max? with
        | none => simp [hm, valueErr] at h
        | some m =>
          simp only [hm, Except.ok.injEq] at h
          have hmax := (Np.max?_iff allData m).1 hm
          unfold LeftOut
          by_cases h1 : 1 ≤ m
          · rw [if_pos h1] at h
            subst h
            rw [mem_append, mem_singleton, hd, or_assoc]
            constructor
            · rintro (h | h | rfl)
              · exact .inl h
              · exact .inr (.inl h)
              · exact .inr (.inr ⟨rfl, m, hmax.1, h1⟩)
            · rintro (h | h | ⟨h, -⟩)
              · exact .inl h
              · exact .inr (.inl h)
              · exact .inr (.inr h)
          · rw [if_neg h1] at h
            subst h
            rw [hd]
            constructor
            · rintro (h | h)
              · exact .inl h
              · exact .inr (.inl h)
            · rintro (h | h | ⟨-, x, hx, h⟩)
              · exact .inl h
              · exact .inr h
              · exact absurd (h.trans (hmax.2 x hx)) h1
      · rw [if_neg hb] at h
        simp only [Except.ok.injEq] at h
        subst h
        rw [not_not] at hb
        have hb' := (hd _).1 hb
        unfold LeftOut
        rw [hd]
        constructor
        · rintro (h | h)
          · exact .inl h
          · exact .inr (.inl h)
        · rintro (h | h | ⟨rfl, -⟩)
          · exact .inl h
          · exact .inr h
          · exact hb'

theorem fitOrder_all (d : Dist) : d ∈ fitOrder := by cases d <;> simp [fitOrder]

theorem fitOrder_nodup : fitOrder.Nodup := by decide

theorem sortRows_ok {argsort : List ℝ → List Nat} (ha : IsArgsort argsort) {sort_by : Option String}
    {rows out : List Row} (h : sortRows argsort sort_by rows = .ok out) : out ~ rows := by
  unfold sortRows at h
  cases he : effectiveSort sort_by rows with
  | none => simp [he, valueErr] at h
  | some s =>
    simp only [he] at h
    by_cases h1 : up s = "BIC"
    · rw [if_pos h1] at h; cases h; exact sortValues_perm ha _ _
    rw [if_neg h1] at h
    by_cases h2 : up s ∈ ["AICC", "AIC"]
    · rw [if_pos h2] at h
      split at h
      · cases h; exact sortValues_perm ha _ _
      · cases h
    rw [if_neg h2] at h
    by_cases h3 : up s = "AD"
    · rw [if_pos h3] at h; cases h; exact sortValues_perm ha _ _
    rw [if_neg h3] at h
    split at h
    · cases h; exact sortValues_perm ha _ _
    · cases h

theorem fitEverything_ok {argsort : List ℝ → List Nat} {fit : Dist → Row} {nf : Nat} {allData : List ℝ}
    {e : Exclude} {sb : Option String} {res : FEResult}
    (h : fitEverything argsort fit nf allData e sb = .ok res) :
    excludedDists nf allData e = .ok res.excluded ∧
      sortRows argsort sb (frame fit res.excluded) = .ok res.results ∧
      res.results.head?.map Row.dist = some res.best := by
  unfold fitEverything at h
  cases hx : excludedDists nf allData e with
  | error x => simp [hx] at h
  | ok ex =>
    simp only [hx] at h
    cases hs : sortRows argsort sb (frame fit ex) with
    | error x => simp [hs] at h
    | ok rows =>
      simp only [hs] at h
      cases rows with
      | nil => simp [valueErr] at h
      | cons r rs => cases h; exact ⟨rfl, hs, rfl⟩

/-- **C44 (contents).** Every distribution that is not to be left out appears exactly once in the results,
with the numbers its own fitter produced, and the ones left out never appear; `LeftOut` says why a
distribution is left out. -/
theorem C44_contents {argsort : List ℝ → List Nat} (ha : IsArgsort argsort) {fit : Dist → Row} {nf : Nat}
    {allData : List ℝ} {e : Exclude} {sb : Option String} {res : FEResult}
    (h : fitEverything argsort fit nf allData e sb = .ok res) :
    (res.results.map Row.dist).Nodup ∧
    (∀ d, d ∈ res.results.map Row.dist ↔ ¬ LeftOut nf allData e d) ∧
    (∀ r ∈ res.results, r = { fit r.dist with dist := r.dist }) ∧
    (∀ d, d ∈ res.excluded ↔ LeftOut nf allData e d) := by
  obtain ⟨h1, h2, -⟩ := fitEverything_ok h
  have hp := sortRows_ok ha h2
  have hf : (frame fit res.excluded).map Row.dist = fitOrder.filter fun d => d ∉ res.excluded := by
    unfold frame; rw [map_map]; exact map_id _
  have hpm := hp.map Row.dist
  rw [hf] at hpm
  refine ⟨hpm.nodup_iff.2 (fitOrder_nodup.filter _), fun d => ?_, fun r hr => ?_, excludedDists_ok h1⟩
  · rw [hpm.mem_iff, mem_filter, ← excludedDists_ok h1 d]
    simp [fitOrder_all]
  · have := hp.mem_iff.1 hr
    unfold frame at this
    rw [mem_map] at this
    obtain ⟨d, -, rfl⟩ := this
    rfl

/-- **C44 (order).** Whatever column is chosen, the rows ascend in that column and the reported best
distribution is the first row: no fitted distribution has a smaller value.  `sort_by` is any spelling the
documentation allows; asking for AICc when some fit has too few data silently sorts by BIC. -/
theorem C44_sorted {argsort : List ℝ → List Nat} (ha : IsArgsort argsort) {fit : Dist → Row} {nf : Nat}
    {allData : List ℝ} {e : Exclude} {s : String} {res : FEResult}
    (h : fitEverything argsort fit nf allData e (some s) = .ok res) :
    ∃ best ∈ res.results, res.results.head? = some best ∧ best.dist = res.best ∧
      (up s = "BIC" → res.results.Pairwise (fun a b => a.BIC ≤ b.BIC) ∧ ∀ r ∈ res.results, best.BIC ≤ r.BIC) ∧
      (up s = "AD" → res.results.Pairwise (fun a b => a.AD ≤ b.AD) ∧ ∀ r ∈ res.results, best.AD ≤ r.AD) ∧
      (s ∈ ["AIC", "aic", "aicc", "AICc"] → (∃ r ∈ res.results, r.AICc = none) →
        res.results.Pairwise (fun a b => a.BIC ≤ b.BIC) ∧ ∀ r ∈ res.results, best.BIC ≤ r.BIC) ∧
      (up s ∈ ["AIC", "AICC"] → (∀ r ∈ res.results, r.AICc ≠ none) →
        ∀ r ∈ res.results, ∃ x y, best.AICc = some x ∧ r.AICc = some y ∧ x ≤ y) := by
  obtain ⟨-, h2, h3⟩ := fitEverything_ok h
  have hp := sortRows_ok ha h2
  cases hres : res.results with
  | nil => rw [hres] at h3; simp at h3
  | cons best rest =>
  have hhead : ∀ {f : Row → ℝ}, (best :: rest).Pairwise (fun a b => f a ≤ f b) →
      ∀ r ∈ best :: rest, f best ≤ f r := by
    intro f hf r hr
    rcases mem_cons.1 hr with rfl | hr
    · exact le_refl _
    · exact rel_of_pairwise_cons hf hr
  rw [hres] at h3 h2 hp
  have keyBIC : effectiveSort (some s) (frame fit res.excluded) = some "BIC" ∨ (effectiveSort (some s)
      (frame fit res.excluded) = some s ∧ up s = "BIC") → (best :: rest).Pairwise (fun a b => a.BIC ≤ b.BIC) := by
    intro hs
    unfold sortRows at h2
    rcases hs with hs | ⟨hs, hu⟩
    · simp only [hs] at h2
      rw [if_pos (by decide)] at h2
      rw [← Except.ok.inj h2]; exact sortValues_sorted ha _ _
    · simp only [hs] at h2
      rw [if_pos hu] at h2
      rw [← Except.ok.inj h2]; exact sortValues_sorted ha _ _
  have upne : ∀ t ∈ ["AIC", "aic", "aicc", "AICc"], up t ∈ ["AICC", "AIC"] := by decide
  have efs : s ∉ ["AIC", "aic", "aicc", "AICc"] →
      effectiveSort (some s) (frame fit res.excluded) = some s := by
    intro hs
    unfold effectiveSort
    rw [if_neg]
    simp only [mem_cons, not_mem_nil, or_false] at hs
    simp only [Option.some.injEq]
    tauto
  refine ⟨best, mem_cons_self, rfl, by simpa using h3, fun hs => ?_, fun hs => ?_, fun hs hn => ?_, fun hs hn => ?_⟩
  · have hk := keyBIC (.inr ⟨efs (fun hm => by
      have := upne s hm; rw [hs] at this; revert this; decide), hs⟩)
    exact ⟨hk, hhead hk⟩
  · have he := efs (fun hm => by have := upne s hm; rw [hs] at this; revert this; decide)
    unfold sortRows at h2
    simp only [he] at h2
    rw [if_neg (by rw [hs]; decide), if_neg (by rw [hs]; decide), if_pos hs] at h2
    have hk : (best :: rest).Pairwise (fun a b => a.AD ≤ b.AD) := by rw [← Except.ok.inj h2]; exact sortValues_sorted ha _ _
    exact ⟨hk, hhead hk⟩
  · have he : effectiveSort (some s) (frame fit res.excluded) = some "BIC" := by
      unfold effectiveSort
      rw [if_pos]
      refine ⟨?_, ?_⟩
      · simp only [mem_cons, not_mem_nil, or_false] at hs
        simpa using hs
      · obtain ⟨r, hr, h⟩ := hn
        rw [any_eq_true]
        exact ⟨r, hp.mem_iff.1 hr, by simp [h]⟩
    have hk := keyBIC (.inl he)
    exact ⟨hk, hhead hk⟩
  · have he : effectiveSort (some s) (frame fit res.excluded) = some s := by
      unfold effectiveSort
      rw [if_neg]
      rintro ⟨-, h⟩
      rw [any_eq_true] at h
      obtain ⟨r, hr, h⟩ := h
      exact hn r (hp.mem_iff.2 hr) (by simpa using h)
    have hall : (frame fit res.excluded).all (fun r => r.AICc.isSome) = true := by
      rw [all_eq_true]
      intro r hr
      have := hn r (hp.mem_iff.2 hr)
      cases hr : r.AICc with
      | none => exact absurd hr this
      | some x => rfl
    unfold sortRows at h2
    simp only [he] at h2
    rw [if_neg (by intro hb; rw [hb] at hs; revert hs; decide),
      if_pos (by simp only [mem_cons, not_mem_nil, or_false] at hs ⊢; tauto), if_pos (.inl hall)] at h2
    have hk : (best :: rest).Pairwise (fun a b => a.AICc.getD 0 ≤ b.AICc.getD 0) := by
      rw [← Except.ok.inj h2]; exact sortValues_sorted ha _ _
    intro r hr
    have hle := hhead hk r hr
    cases hx : best.AICc with
    | none => exact absurd hx (hn best mem_cons_self)
    | some x =>
      cases hy : r.AICc with
      | none => exact absurd hy (hn r hr)
      | some y => exact ⟨x, y, rfl, rfl, by simpa [hx, hy] using hle⟩

/-- **C44 (refusals).** `exclude` that is not a list or array, or that contains something other than strings,
is a ValueError; so is an unknown or non-string `sort_by`, and so is excluding everything. -/
theorem C44_errors (argsort : List ℝ → List Nat) (fit : Dist → Row) (nf : Nat)
    (allData : List ℝ) (sb : Option String) :
    fitEverything argsort fit nf allData .other sb = .error .valueError ∧
    (∀ e, Item.other ∈ listed e → fitEverything argsort fit nf allData e sb = .error .valueError) ∧
    (∀ e, allData ≠ [] → Item.other ∉ listed e → e ≠ .other → (∀ d, LeftOut nf allData e d) →
      sb = some "BIC" → IsArgsort argsort → fitEverything argsort fit nf allData e sb = .error .valueError) ∧
    (∀ e res, fitEverything argsort fit nf allData e sb = .ok res →
      ∃ s, sb = some s ∧ up s ∈ ["BIC", "AICC", "AIC", "AD", "LOGLIK", "LOG LIK", "LOG-LIKELIHOOD", "LL",
        "LOGLIKELIHOOD", "LOG LIKELIHOOD"]) := by
  refine ⟨rfl, fun e he => ?_, fun e hd ho hne hall hsb ha => ?_, fun e res h => ?_⟩
  · unfold fitEverything excludedDists
    cases hw : workingExclude nf e with
    | error x => cases e <;> simp [workingExclude, valueErr] at hw; subst hw; rfl
    | ok l =>
      have hl := workingExclude_ok hw
      have hm : Item.other ∈ l := by rw [hl, mem_append]; exact .inl he
      have herr : resolveAll l = .error .valueError := by
        clear hl hw
        induction l with
        | nil => simp at hm
        | cons i l ih =>
          cases i with
          | other => rfl
          | str s =>
            rw [resolveAll, ih (by simpa using hm)]
      simp only [herr]
  · have hw : ∃ l, workingExclude nf e = .ok l := by
      cases e with
      | other => exact absurd rfl hne
      | none => exact ⟨_, rfl⟩
      | list l => exact ⟨_, rfl⟩
      | ndarray l => exact ⟨_, rfl⟩
    obtain ⟨l, hw⟩ := hw
    have hl := workingExclude_ok hw
    have hex : ∃ ex, excludedDists nf allData e = .ok ex := by
      unfold excludedDists
      simp only [hw]
      rcases resolveAll_error (l := l) with ⟨ds, h⟩ | ⟨hm, -⟩
      · simp only [h]
        by_cases hb : Beta_2P ∉ ds
        · rw [if_pos hb]
          cases hm : allData.max? with
          | none => rw [max?_eq_none_iff] at hm; exact absurd hm hd
          | some m => exact ⟨_, rfl⟩
        · rw [if_neg hb]; exact ⟨_, rfl⟩
      · rw [hl, mem_append] at hm
        rcases hm with hm | hm
        · exact absurd hm ho
        · split at hm <;> simp [threeP] at hm
    obtain ⟨ex, hex⟩ := hex
    have hframe : frame fit ex = [] := by
      unfold frame
      rw [map_eq_nil_iff, filter_eq_nil_iff]
      intro d _
      simp [(excludedDists_ok hex d).2 (hall d)]
    unfold fitEverything
    simp only [hex, hframe]
    have : sortRows argsort sb [] = .ok [] := by
      subst hsb
      have h0 : effectiveSort (some "BIC") [] = some "BIC" := by simp [effectiveSort]
      unfold sortRows
      simp only [h0]
      rw [if_pos (by decide)]
      have := (sortValues_perm ha Row.BIC []).eq_nil
      rw [this]
    simp only [this]
  · obtain ⟨-, h2, -⟩ := fitEverything_ok h
    unfold sortRows at h2
    cases sb with
    | none => simp [effectiveSort, valueErr] at h2
    | some s =>
      refine ⟨s, rfl, ?_⟩
      by_cases hs : s ∈ ["AIC", "aic", "aicc", "AICc"]
      · clear h2 h; revert s; decide
      have he : effectiveSort (some s) (frame fit res.excluded) = some s := by
        unfold effectiveSort
        rw [if_neg]
        simp only [mem_cons, not_mem_nil, or_false] at hs
        simp only [Option.some.injEq]
        tauto
      simp only [he] at h2
      by_contra hc
      simp only [mem_cons, not_mem_nil, or_false, not_or] at hc
      rw [if_neg (by tauto), if_neg (by simp; tauto), if_neg (by tauto), if_neg (by simp; tauto)] at h2
      simp [valueErr] at h2

/-- **C45.** Sorting by log-likelihood puts the largest log-likelihood first when no fitted log-likelihood is
positive.  (`C45_positive_loglik_finding` shows that this hypothesis is needed.) -/
theorem C45_loglik_partial {argsort : List ℝ → List Nat} (ha : IsArgsort argsort) {fit : Dist → Row} {nf : Nat}
    {allData : List ℝ} {e : Exclude} {s : String} {res : FEResult}
    (h : fitEverything argsort fit nf allData e (some s) = .ok res)
    (hs : up s ∈ ["LOGLIK", "LOG LIK", "LOG-LIKELIHOOD", "LL", "LOGLIKELIHOOD", "LOG LIKELIHOOD"])
    (hneg : ∀ r ∈ res.results, r.loglik ≤ 0) :
    res.results.Pairwise (fun a b => b.loglik ≤ a.loglik) ∧
    ∃ best ∈ res.results, best.dist = res.best ∧ ∀ r ∈ res.results, r.loglik ≤ best.loglik := by
  obtain ⟨-, h2, h3⟩ := fitEverything_ok h
  have upne : ∀ t ∈ ["AIC", "aic", "aicc", "AICc"], up t ∈ ["AICC", "AIC"] := by decide
  have he : effectiveSort (some s) (frame fit res.excluded) = some s := by
    unfold effectiveSort
    rw [if_neg]
    rintro ⟨hm, -⟩
    have : up s ∈ ["AICC", "AIC"] := upne s (by simpa using hm)
    generalize up s = u at hs this
    revert hs this; revert u; decide
  unfold sortRows at h2
  simp only [he] at h2
  have n1 : up s ≠ "BIC" := by generalize up s = u at hs; revert hs; revert u; decide
  have n2 : up s ∉ ["AICC", "AIC"] := by generalize up s = u at hs; revert hs; revert u; decide
  have n3 : up s ≠ "AD" := by generalize up s = u at hs; revert hs; revert u; decide
  rw [if_neg n1, if_neg n2, if_neg n3, if_pos hs] at h2
  have hk : res.results.Pairwise (fun a b => |a.loglik| ≤ |b.loglik|) := by
    simp only [Except.ok.injEq] at h2
    rw [← h2]; exact sortValues_sorted ha _ _
  have hk' : res.results.Pairwise (fun a b => b.loglik ≤ a.loglik) := by
    refine hk.imp_of_mem ?_
    intro a b ha' hb' hab
    rw [abs_of_nonpos (hneg a ha'), abs_of_nonpos (hneg b hb')] at hab
    linarith
  refine ⟨hk', ?_⟩
  cases hres : res.results with
  | nil => rw [hres] at h3; simp at h3
  | cons best rest =>
    rw [hres] at hk' h3
    refine ⟨best, mem_cons_self, by simpa using h3, fun r hr => ?_⟩
    rcases mem_cons.1 hr with rfl | hr
    · exact le_refl _
    · exact rel_of_pairwise_cons hk' hr

/-- Example fits used below. -/
noncomputable def exFit (f : Dist → ℝ) : Dist → Row := fun d => ⟨d, f d, some (f d), f d, f d⟩

theorem resolveAll_strs (l : List String) : resolveAll (l.map Item.str) = .ok (l.filterMap resolve) := by
  induction l with
  | nil => rfl
  | cons s l ih =>
    rw [map_cons, resolveAll, ih, filterMap_cons]
    cases resolve s <;> rfl

/-- Everything but two distributions excluded. -/
def exExclude : Exclude := .list (["weibull2", "Weibull_3P", "Gamma_2P", "gamma3p", "Lognormal_3P",
  "expon1", "Expon2P", "gumbel_2p", "Loglogistic_2P", "Loglogistic_3P", "Beta2", "mix", "CR", "ds"].map Item.str)

theorem exExclude_resolve : excludedDists 5 [2, 3] exExclude = .ok [Weibull_2P, Weibull_3P, Gamma_2P, Gamma_3P,
    Lognormal_3P, Exponential_1P, Exponential_2P, Gumbel_2P, Loglogistic_2P, Loglogistic_3P, Beta_2P,
    Weibull_Mixture, Weibull_CR, Weibull_DS] := by
  have h1 : workingExclude 5 exExclude = .ok (["weibull2", "Weibull_3P", "Gamma_2P", "gamma3p", "Lognormal_3P",
  "expon1", "Expon2P", "gumbel_2p", "Loglogistic_2P", "Loglogistic_3P", "Beta2", "mix", "CR", "ds"].map Item.str) := by
    rfl
  have h2 : resolveAll (["weibull2", "Weibull_3P", "Gamma_2P", "gamma3p", "Lognormal_3P",
      "expon1", "Expon2P", "gumbel_2p", "Loglogistic_2P", "Loglogistic_3P", "Beta2", "mix", "CR",
      "ds"].map Item.str) = .ok [Weibull_2P, Weibull_3P, Gamma_2P, Gamma_3P,
    Lognormal_3P, Exponential_1P, Exponential_2P, Gumbel_2P, Loglogistic_2P, Loglogistic_3P, Beta_2P,
    Weibull_Mixture, Weibull_CR, Weibull_DS] := by
    rw [resolveAll_strs]
    exact congrArg Except.ok (by decide +kernel)
  unfold excludedDists
  simp only [h1, h2]
  rw [if_neg (by decide)]

theorem exFrame (f : Dist → ℝ) : frame (exFit f) [Weibull_2P, Weibull_3P, Gamma_2P, Gamma_3P,
    Lognormal_3P, Exponential_1P, Exponential_2P, Gumbel_2P, Loglogistic_2P, Loglogistic_3P, Beta_2P,
    Weibull_Mixture, Weibull_CR, Weibull_DS] = [exFit f Normal_2P, exFit f Lognormal_2P] := by
  unfold frame
  have : fitOrder.filter (fun d => d ∉ [Weibull_2P, Weibull_3P, Gamma_2P, Gamma_3P,
    Lognormal_3P, Exponential_1P, Exponential_2P, Gumbel_2P, Loglogistic_2P, Loglogistic_3P, Beta_2P,
    Weibull_Mixture, Weibull_CR, Weibull_DS]) = [Normal_2P, Lognormal_2P] := by decide
  rw [this]
  rfl

/-- **C45, finding.** Log-likelihoods can be positive (densities above 1).  With `sort_by="Log-likelihood"` the
code sorts by the absolute value, so a distribution with log-likelihood 1 is ranked above one with
log-likelihood 2. -/
theorem C45_positive_loglik_finding {argsort : List ℝ → List Nat} (ha : IsArgsort argsort) :
    ∃ fit res, fitEverything argsort fit 5 [2, 3] exExclude (some "Log-likelihood") = .ok res ∧
      res.best = Normal_2P ∧ (fit Normal_2P).loglik < (fit Lognormal_2P).loglik ∧
      ∃ r ∈ res.results, r.dist = Lognormal_2P := by
  let f : Dist → ℝ := fun d => if d = Normal_2P then 1 else 2
  refine ⟨exFit f, ?_⟩
  have hs : ∃ rows, sortRows argsort (some "Log-likelihood") [exFit f Normal_2P, exFit f Lognormal_2P] = .ok rows ∧
      rows = sortValues argsort (fun r => |r.loglik|) [exFit f Normal_2P, exFit f Lognormal_2P] := by
    unfold sortRows
    have h0 : effectiveSort (some "Log-likelihood") [exFit f Normal_2P, exFit f Lognormal_2P] =
      some "Log-likelihood" := by simp [effectiveSort]
    simp only [h0]
    rw [if_neg (by decide), if_neg (by decide), if_neg (by decide), if_pos (by decide)]
    exact ⟨_, rfl, rfl⟩
  obtain ⟨rows, hrows, hr⟩ := hs
  have hperm : rows ~ [exFit f Normal_2P, exFit f Lognormal_2P] := hr ▸ sortValues_perm ha _ _
  have hsort : rows.Pairwise fun a b => |a.loglik| ≤ |b.loglik| := hr ▸ sortValues_sorted ha _ _
  have hlt : |(exFit f Normal_2P).loglik| < |(exFit f Lognormal_2P).loglik| := by
    simp [exFit, f]
  have : rows = [exFit f Normal_2P, exFit f Lognormal_2P] := by
    have hlen := hperm.length_eq
    match rows, hlen, hperm, hsort with
    | [a, b], _, hp, hsort =>
      rcases mem_cons.1 (hp.mem_iff.1 (mem_cons_self : a ∈ [a, b])) with rfl | ha'
      · have := hp.cons_inv
        rw [singleton_perm_singleton] at this
        rw [this]
      · rw [mem_singleton] at ha'
        subst ha'
        have hp2 : [exFit f Lognormal_2P, b] ~ [exFit f Lognormal_2P, exFit f Normal_2P] :=
          hp.trans (Perm.swap _ _ _)
        have := hp2.cons_inv
        rw [singleton_perm_singleton] at this
        subst this
        have := rel_of_pairwise_cons hsort (mem_singleton.2 rfl)
        linarith
  subst this
  have hok : ∃ res, fitEverything argsort (exFit f) 5 [2, 3] exExclude (some "Log-likelihood") = .ok res ∧
      res.best = Normal_2P ∧ ∃ r ∈ res.results, r.dist = Lognormal_2P := by
    unfold fitEverything
    simp only [exExclude_resolve, exFrame, hrows]
    exact ⟨_, rfl, rfl, exFit f Lognormal_2P, by simp, rfl⟩
  obtain ⟨res, h1, h2, h3⟩ := hok
  exact ⟨res, h1, h2, by simp [exFit, f], h3⟩

/-- **C44, finding.** `sort_by="AICC"` is accepted like "AICc", but when one fit lacks an AICc it is not
switched to BIC: the sort is over a mixture of numbers and strings and raises TypeError. -/
theorem C44_AICC_finding (argsort : List ℝ → List Nat) :
    ∃ fit, fitEverything argsort fit 5 [2, 3] exExclude (some "AICC") = .error .typeError ∧
      (IsArgsort argsort → ∃ res, fitEverything argsort fit 5 [2, 3] exExclude (some "AICc") = .ok res) := by
  let f : Dist → Row := fun d => ⟨d, 0, if d = Normal_2P then none else some 1, 0, 0⟩
  have hf : frame f [Weibull_2P, Weibull_3P, Gamma_2P, Gamma_3P,
    Lognormal_3P, Exponential_1P, Exponential_2P, Gumbel_2P, Loglogistic_2P, Loglogistic_3P, Beta_2P,
    Weibull_Mixture, Weibull_CR, Weibull_DS] = [f Normal_2P, f Lognormal_2P] := by
    unfold frame
    have : fitOrder.filter (fun d => d ∉ [Weibull_2P, Weibull_3P, Gamma_2P, Gamma_3P,
      Lognormal_3P, Exponential_1P, Exponential_2P, Gumbel_2P, Loglogistic_2P, Loglogistic_3P, Beta_2P,
      Weibull_Mixture, Weibull_CR, Weibull_DS]) = [Normal_2P, Lognormal_2P] := by decide
    rw [this]
    rfl
  refine ⟨f, ?_, fun ha => ?_⟩
  · unfold fitEverything
    simp only [exExclude_resolve, hf]
    have : sortRows argsort (some "AICC") [f Normal_2P, f Lognormal_2P] = .error .typeError := by
      unfold sortRows
      have h0 : effectiveSort (some "AICC") [f Normal_2P, f Lognormal_2P] = some "AICC" := by
        simp [effectiveSort]
      simp only [h0]
      rw [if_neg (by decide), if_pos (by decide), if_neg (by simp [f])]
    simp only [this]
  · unfold fitEverything
    simp only [exExclude_resolve, hf]
    have : sortRows argsort (some "AICc") [f Normal_2P, f Lognormal_2P] =
        .ok (sortValues argsort Row.BIC [f Normal_2P, f Lognormal_2P]) := by
      unfold sortRows
      have h0 : effectiveSort (some "AICc") [f Normal_2P, f Lognormal_2P] = some "BIC" := by
        simp [effectiveSort, f]
      simp only [h0]
      rw [if_pos (by decide)]
    simp only [this]
    cases hr : sortValues argsort Row.BIC [f Normal_2P, f Lognormal_2P] with
    | nil => have := sortValues_length ha Row.BIC [f Normal_2P, f Lognormal_2P]; rw [hr] at this; simp at this
    | cons r rs => exact ⟨_, rfl⟩

/-- **C46.** With three or more failures, or when `exclude` is an array or not given, the caller's object is
unchanged. -/
theorem C46_exclude_unchanged_partial (nf : Nat) (e : Exclude) (h : 3 ≤ nf ∨ ∀ l, e ≠ .list l) :
    callerExclude nf e = e := by
  cases e with
  | list l =>
    rcases h with h | h
    · simp [callerExclude, Nat.not_lt.2 h]
    · exact absurd rfl (h l)
  | none => rfl
  | ndarray l => rfl
  | other => rfl

/-- **C46, finding.** With fewer than three failures the caller's list itself grows by six entries, so passing
the same list to a later call with more data still leaves out those distributions. -/
theorem C46_exclude_mutated_finding (nf : Nat) (hnf : nf < 3) (l : List Item) :
    callerExclude nf (.list l) = .list (l ++ ["Weibull_3P", "Gamma_3P", "Loglogistic_3P", "Lognormal_3P", "Weibull_Mixture",
      "Weibull_CR"].map Item.str) ∧ callerExclude nf (.list l) ≠ .list l ∧
    ∀ nf' allData, LeftOut nf' allData (callerExclude nf (.list l)) Weibull_3P := by
  refine ⟨by simp [callerExclude, hnf, threeP], ?_, fun nf' allData => ?_⟩
  · simp [callerExclude, hnf, threeP]
  · left
    refine ⟨"Weibull_3P", ?_, by decide +kernel⟩
    simp [callerExclude, hnf, threeP, listed]

/-- The hypotheses of C44 and C45 are met. -/
example : ∃ res, fitEverything refArgsort (exFit fun d => if d = Normal_2P then -1 else -2) 5 [2, 3] exExclude
    (some "Log-likelihood") = .ok res := by
  unfold fitEverything
  simp only [exExclude_resolve, exFrame]
  unfold sortRows
  have h0 : effectiveSort (some "Log-likelihood") [exFit (fun d => if d = Normal_2P then -1 else -2) Normal_2P,
    exFit (fun d => if d = Normal_2P then -1 else -2) Lognormal_2P] = some "Log-likelihood" := by simp [effectiveSort]
  simp only [h0]
  rw [if_neg (by decide), if_neg (by decide), if_neg (by decide), if_pos (by decide)]
  cases hr : sortValues refArgsort (fun r => |r.loglik|) [exFit (fun d => if d = Normal_2P then -1 else -2) Normal_2P,
    exFit (fun d => if d = Normal_2P then -1 else -2) Lognormal_2P] with
  | nil =>
    have := sortValues_length refArgsort_isArgsort (fun r : Row => |r.loglik|)
      [exFit (fun d => if d = Normal_2P then -1 else -2) Normal_2P,
      exFit (fun d => if d = Normal_2P then -1 else -2) Lognormal_2P]
    rw [hr] at this; simp at this
  | cons r rs => exact ⟨_, rfl⟩

example : LeftOut 2 [1 / 2, 3] (.list [.str "weibull2p"]) Weibull_2P ∧
    ¬ LeftOut 5 [1 / 2, 3 / 4] (.list [.str "weibull2p"]) Beta_2P := by
  refine ⟨.inl ⟨"weibull2p", by simp [listed], by decide +kernel⟩, ?_⟩
  rintro (⟨s, hs, h⟩ | ⟨h, -⟩ | ⟨-, x, hx, h⟩)
  · simp [listed] at hs; subst hs; revert h; decide +kernel
  · omega
  · simp at hx; rcases hx with rfl | rfl <;> norm_num at h

end Reliability.Props

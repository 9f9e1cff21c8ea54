import Mathlib.Algebra.Order.BigOperators.Group.List
import Mathlib.Analysis.SpecialFunctions.Exp
import Mathlib.Analysis.Real.Sqrt
import Mathlib.Tactic.NormNum
import Verif.Lemmas.MCF

/-! # C19–C22: the non-parametric mean cumulative function -/

set_option linter.unusedSectionVars false

namespace Reliability.MCF

open Reliability List

variable {K : Type _} [Field K] [LinearOrder K] [IsStrictOrderedRing K]

theorem max?_isSome {l : List K} (h : l ≠ []) : ∃ m, l.max? = some m := by
  cases hm : l.max? with
  | none => exact absurd (by simpa using hm) h
  | some m => exact ⟨m, rfl⟩

theorem mem_repairs {systems : List (List K)} {t : K} (h : t ∈ Spec.repairs systems) :
    ∃ e ∈ Spec.ends systems, t ≤ e := by
  unfold Spec.repairs at h
  rw [mem_flatMap] at h
  obtain ⟨s, hs, ht⟩ := h
  cases hm : s.max? with
  | none => rw [hm] at ht; simp at ht
  | some m =>
    rw [hm] at ht
    refine ⟨m, ?_, ((max?_iff s m).1 hm).2 t (mem_of_mem_erase ht)⟩
    unfold Spec.ends
    rw [mem_filterMap]
    exact ⟨s, hs, hm⟩

theorem atRisk_pos {systems : List (List K)} {t : K} (h : t ∈ Spec.repairs systems) :
    0 < Spec.atRisk systems t := by
  obtain ⟨e, he, hte⟩ := mem_repairs h
  unfold Spec.atRisk
  rw [countP_pos_iff]
  exact ⟨e, he, by simpa using hte⟩

theorem times_perm (systems : List (List K)) : Spec.times systems ~ Spec.repairs systems :=
  perm_insertionSort _ _

theorem times_eq (systems : List (List K)) :
    (splitTimes systems).1.insertionSort (· ≤ ·) = Spec.times systems :=
  pySort_congr (splitTimes_repairs systems)

/-- The whole computation when the input is accepted. -/
theorem mcfSystems_eq (exp sqrt ppf : K → K) (systems : List (List K)) (CI : K)
    (hCI : 0 ≤ CI ∧ CI ≤ 1) (hne : Spec.repairs systems ≠ []) :
    mcfSystems exp sqrt ppf systems CI =
      .ok ((cum (Spec.atRisk systems) 0 0 (Spec.times systems)).map fun p =>
        outRow exp sqrt (-(ppf (1 - CI))) p.1 p.2.1 p.2.2) := by
  set rt := (splitTimes systems).1 with hrt
  have het : (splitTimes systems).2 = Spec.ends systems := splitTimes_ends systems
  have hperm : rt ~ Spec.repairs systems := splitTimes_repairs systems
  have hrne : rt ≠ [] := by
    rintro h
    rw [h] at hperm
    exact hne (Perm.nil_eq hperm).symm
  obtain ⟨t0, ht0⟩ := exists_mem_of_ne_nil _ hne
  obtain ⟨e0, he0, -⟩ := mem_repairs ht0
  have hene : Spec.ends systems ≠ [] := by
    intro h; rw [h] at he0; simp at he0
  obtain ⟨e, he⟩ := max?_isSome hene
  obtain ⟨t, ht⟩ := max?_isSome hrne
  have hte : ¬ e < t := by
    have h1 := ((max?_iff _ _).1 ht).1
    obtain ⟨e', he', hle⟩ := mem_repairs (hperm.mem_iff.1 h1)
    exact not_lt.2 (hle.trans (((max?_iff _ _).1 he).2 e' he'))
  have hCI' : ¬ (CI < 0 ∨ CI > 1) := by
    rintro (h | h)
    · exact absurd hCI.1 (not_le.2 h)
    · exact absurd hCI.2 (not_le.2 h)
  have hsp : splitTimes systems = (rt, Spec.ends systems) := by rw [← het]
  set rows := sortedRows rt (Spec.ends systems) with hrows
  have hrowsperm := sortedRows_perm rt (Spec.ends systems)
  rw [← hrows] at hrowsperm
  have hmem : ∀ p ∈ rows, p.2 = false → p.1 ∈ Spec.ends systems := by
    rintro ⟨u, b⟩ hp hb
    rw [hrowsperm.mem_iff] at hp
    simp only at hb
    subst hb
    simpa using hp
  have hlast : ∀ p, rows.getLast? = some p → p.2 = false := by
    intro p hp
    have hd := dropLast_append_getLast? p hp
    have hs := sortedRows_sorted rt (Spec.ends systems)
    rw [← hrows, ← hd, pairwise_append] at hs
    by_contra hb
    have hb' : p.2 = true := by simpa using hb
    have hpm : p ∈ rows := mem_of_getLast? hp
    rw [hrowsperm.mem_iff] at hpm
    have hprt : p.1 ∈ rt := by
      obtain ⟨u, b⟩ := p
      simp only at hb'
      subst hb'
      simpa using hpm
    obtain ⟨e', he', hle⟩ := mem_repairs (hperm.mem_iff.1 hprt)
    have hq : (e', false) ∈ rows := by rw [hrowsperm.mem_iff]; simp [he']
    rw [← hd] at hq
    rcases mem_append.1 hq with h | h
    · have := hs.2.2 (e', false) h p (by simp)
      rcases this with h1 | ⟨h1, h2⟩
      · exact absurd hle (not_le.2 h1)
      · have := h2 hb'
        simp at this
    · simp only [mem_singleton] at h
      rw [← h] at hb'
      simp at hb'
  have hcount := sortedRows_count rt (Spec.ends systems)
  rw [← hrows] at hcount
  obtain ⟨st', h1, h2⟩ := loop_vals (Spec.ends systems) rows ⟨[], (Spec.ends systems).length, 0⟩ none
    ⟨by simp, by simp⟩ hmem hcount.symm hlast
  unfold mcfSystems
  rw [hsp]
  simp only [if_neg hCI', he, ht, if_neg hte, ← hrows, h1, h2, nil_append]
  have hv := vals_cum (Spec.atRisk systems) rows none (Spec.ends systems).length hcount.symm
    (by
      intro L u rest h
      exact sortedRows_atRisk rt (Spec.ends systems) L u rest h)
  rw [sortedRows_repairs, times_eq] at hv
  simp only [accVal, Option.getD_none] at hv
  rw [← hv, map_filterMap]
  congr 1
  apply filterMap_congr
  rintro ⟨p, o⟩ -
  cases o <;> rfl

/-! ### C19 -/

/-- C19: with a CI in [0,1] and at least one repair the calculation never fails, reports one row per
repair in ascending order of time, and the row of the `k`-th repair carries the sum over the repairs so
far of one over the number of systems still observed, with the variance `∑ (1/r²)(1-1/r)`. -/
theorem C19_mcf_is_sum_of_reciprocals (exp sqrt ppf : K → K) (systems : List (List K)) (CI : K)
    (hCI : 0 ≤ CI ∧ CI ≤ 1) (hne : Spec.repairs systems ≠ []) :
    ∃ rows, mcfSystems exp sqrt ppf systems CI = .ok rows ∧
      rows.map (fun r => r.time) = Spec.times systems ∧
      ∀ k r, rows[k]? = some r →
        r.MCF = Spec.mcf systems k ∧ r.variance = Spec.variance systems k := by
  refine ⟨_, mcfSystems_eq exp sqrt ppf systems CI hCI hne, ?_, ?_⟩
  · rw [map_map]
    exact cum_map_time _ _ _ _
  · intro k r hk
    rw [getElem?_map] at hk
    have hlt : k < (Spec.times systems).length := by
      by_contra hc
      rw [getElem?_eq_none (by rw [cum_length]; omega)] at hk
      simp at hk
    rw [cum_get _ _ _ _ _ hlt] at hk
    simp only [Option.map_some, Option.some.injEq] at hk
    subst hk
    refine ⟨by simp [outRow, Spec.mcf], ?_⟩
    simp only [outRow, Spec.variance, zero_add]
    congr 1
    apply map_congr_left
    intro t ht
    exact varTerm_eq _ (atRisk_pos ((times_perm systems).mem_iff.1 (mem_of_mem_take ht)))

/-- The calculation fails exactly when the CI is out of range or there is no repair; the error is
ValueError. -/
theorem C19_accepts_iff (exp sqrt ppf : K → K) (systems : List (List K)) (CI : K) :
    ((∃ rows, mcfSystems exp sqrt ppf systems CI = .ok rows) ↔
      (0 ≤ CI ∧ CI ≤ 1) ∧ Spec.repairs systems ≠ []) ∧
    (¬ ((0 ≤ CI ∧ CI ≤ 1) ∧ Spec.repairs systems ≠ []) →
      mcfSystems exp sqrt ppf systems CI = valueErr) := by
  have herr : ¬ ((0 ≤ CI ∧ CI ≤ 1) ∧ Spec.repairs systems ≠ []) →
      mcfSystems exp sqrt ppf systems CI = valueErr := by
    intro h
    by_cases hCI : 0 ≤ CI ∧ CI ≤ 1
    · have hr : Spec.repairs systems = [] := by
        by_contra hc; exact h ⟨hCI, hc⟩
      have : (splitTimes systems).1 = [] := by
        have := splitTimes_repairs systems
        rw [hr] at this
        exact (Perm.nil_eq this.symm).symm
      unfold mcfSystems
      have hsp : splitTimes systems = ([], (splitTimes systems).2) := by rw [← this]
      rw [hsp]
      simp only [max?_nil]
      split
      · rfl
      · cases (splitTimes systems).2.max? <;> rfl
    · have : CI < 0 ∨ CI > 1 := by
        by_contra hc
        push Not at hc
        exact hCI hc
      unfold mcfSystems
      simp only [if_pos this]
  refine ⟨⟨?_, ?_⟩, herr⟩
  · rintro ⟨rows, h⟩
    by_contra hc
    rw [herr hc] at h
    cases h
  · rintro ⟨h1, h2⟩
    exact ⟨_, mcfSystems_eq exp sqrt ppf systems CI h1 h2⟩

theorem atRisk_le (systems : List (List K)) (t : K) :
    Spec.atRisk systems t ≤ systems.length := by
  unfold Spec.atRisk
  refine countP_le_length.trans ?_
  unfold Spec.ends
  exact length_filterMap_le _ _

/-- C19: the MCF values increase strictly from row to row, and after `k+1` repairs the MCF is at least
`(k+1)/(number of systems)`. -/
theorem C19_mcf_increasing (exp sqrt ppf : K → K) (systems : List (List K)) (CI : K)
    (rows : List (OutRow K)) (h : mcfSystems exp sqrt ppf systems CI = .ok rows) :
    (rows.map (fun r => r.time)).Pairwise (· ≤ ·) ∧
    (rows.map (fun r => r.MCF)).Pairwise (· < ·) ∧
    ∀ (k : Nat) r, rows[k]? = some r → ((k : K) + 1) / (systems.length : K) ≤ r.MCF := by
  obtain ⟨hCI, hne⟩ := (C19_accepts_iff exp sqrt ppf systems CI).1.1 ⟨rows, h⟩
  obtain ⟨rows', h', ht, hk⟩ := C19_mcf_is_sum_of_reciprocals exp sqrt ppf systems CI hCI hne
  rw [h] at h'
  cases h'
  have hlen : rows.length = (Spec.times systems).length := by
    rw [← ht, length_map]
  have hpos : ∀ t ∈ Spec.times systems, (0 : K) < Spec.atRisk systems t := by
    intro t hmem
    exact_mod_cast atRisk_pos ((times_perm systems).mem_iff.1 hmem)
  have hstep : ∀ k, (hk1 : k + 1 < (Spec.times systems).length) →
      Spec.mcf systems (k + 1) = Spec.mcf systems k + 1 / (Spec.atRisk systems (Spec.times systems)[k + 1] : K) := by
    intro k hk1
    unfold Spec.mcf
    rw [take_succ_eq_append_getElem hk1, map_append, sum_append]
    simp only [map_cons, map_nil, sum_cons, sum_nil, add_zero]
  refine ⟨?_, ?_, ?_⟩
  · rw [ht]; exact pairwise_insertionSort _ _
  · rw [← isChain_iff_pairwise, isChain_iff_getElem]
    intro k hk1
    rw [length_map, hlen] at hk1
    rw [getElem_map, getElem_map]
    rw [(hk k _ (getElem?_eq_getElem (by omega))).1, (hk (k + 1) _ (getElem?_eq_getElem (by omega))).1,
      hstep k hk1]
    have := hpos _ (getElem_mem hk1)
    have : (0 : K) < 1 / (Spec.atRisk systems (Spec.times systems)[k + 1] : K) := by positivity
    linarith
  · intro k r hkr
    rw [(hk k r hkr).1]
    have hlt : k < (Spec.times systems).length := by
      rw [← hlen]
      by_contra hc
      rw [getElem?_eq_none (by omega)] at hkr
      simp at hkr
    have hrec : ∀ t ∈ Spec.times systems, 1 / (systems.length : K) ≤ 1 / (Spec.atRisk systems t : K) := by
      intro t hmem
      apply one_div_le_one_div_of_le (hpos t hmem)
      exact_mod_cast atRisk_le systems t
    clear hkr h hk ht hlen
    induction k with
    | zero =>
      unfold Spec.mcf
      rw [take_succ_eq_append_getElem hlt]
      simp only [take_zero, nil_append, map_cons, map_nil, sum_cons, sum_nil]
      have := hrec _ (getElem_mem hlt)
      simpa using this
    | succ k ih =>
      rw [hstep k hlt]
      have := hrec _ (getElem_mem hlt)
      have h2 := ih (by omega)
      push_cast
      rw [add_div]
      linarith

example : ((mcfSystems (K := ℚ) (fun x => 1 + x) (fun x => x) (fun x => x)
    [[5, 10, 15, 17], [6, 13, 17, 19], [12]] (1/2)).toOption.map fun rows => rows.map fun r => (r.time, r.MCF)) =
    some [(5, 1/3), (6, 2/3), (10, 1), (13, 3/2), (15, 2), (17, 5/2)] := by decide +kernel

/-! ### C20 -/

theorem ends_congr {A B : List (List K)} (h : Forall₂ Perm A B) : Spec.ends A = Spec.ends B := by
  unfold Spec.ends
  induction h with
  | nil => rfl
  | cons h _ ih =>
    rw [filterMap_cons, filterMap_cons, ← pySort_getLast?, pySort_congr h, pySort_getLast?, ih]

theorem repairs_congr {A B : List (List K)} (h : Forall₂ Perm A B) :
    Spec.repairs A ~ Spec.repairs B := by
  unfold Spec.repairs
  induction h with
  | nil => exact Perm.refl _
  | @cons a b _ _ h _ ih =>
    rw [flatMap_cons, flatMap_cons]
    apply Perm.append _ ih
    rw [← pySort_getLast? a, pySort_congr h, pySort_getLast?]
    cases b.max? with
    | none => exact Perm.refl _
    | some m => exact h.erase m

/-- C20: listing the systems in another order, and each system's times in another order, changes
nothing (result or error). -/
theorem C20_order_irrelevant (exp sqrt ppf : K → K) (A B C : List (List K)) (CI : K)
    (h1 : Forall₂ Perm A B) (h2 : B ~ C) :
    mcfSystems exp sqrt ppf A CI = mcfSystems exp sqrt ppf C CI := by
  have he : Spec.ends A ~ Spec.ends C := by
    rw [ends_congr h1]; exact h2.filterMap _
  have hr : Spec.repairs A ~ Spec.repairs C :=
    (repairs_congr h1).trans (h2.flatMap_right _)
  have ht : Spec.times A = Spec.times C := pySort_congr hr
  have ha : Spec.atRisk A = Spec.atRisk C := by
    funext t
    exact he.countP_eq _
  have hnil : Spec.repairs A = [] ↔ Spec.repairs C = [] := by
    constructor <;> intro h
    · rw [h] at hr; exact (Perm.nil_eq hr).symm
    · rw [h] at hr; exact (Perm.nil_eq hr.symm).symm
  by_cases hacc : (0 ≤ CI ∧ CI ≤ 1) ∧ Spec.repairs A ≠ []
  · rw [mcfSystems_eq _ _ _ _ _ hacc.1 hacc.2, mcfSystems_eq _ _ _ _ _ hacc.1 (fun h => hacc.2 (hnil.2 h)),
      ht, ha]
  · rw [(C19_accepts_iff exp sqrt ppf A CI).2 hacc, (C19_accepts_iff exp sqrt ppf C CI).2
      (fun h => hacc ⟨h.1, fun h' => h.2 (hnil.1 h')⟩)]

/-- A list of lists is handled as the systems it contains. -/
theorem C20_list_of_lists (exp sqrt ppf : K → K) (systems : List (List K)) (hne : systems ≠ []) (CI : K) :
    (mcfNonparametric exp sqrt ppf (.list (systems.map .list)) CI).2 =
      mcfSystems exp sqrt ppf systems CI := by
  have hc : ∀ S : List (List K), checkItems (S.map Item.list) =
      (S.map Item.list, .ok (S.map fun _ => false)) := by
    intro S
    induction S with
    | nil => rfl
    | cons a S ih => simp [checkItems, ih, Except.map]
  unfold mcfNonparametric
  simp only [hc]
  obtain ⟨s, S, rfl⟩ := exists_cons_of_ne_nil hne
  simp [itemTimes, Function.comp_def]

/-- A single system may be given as a plain list of numbers. -/
theorem C20_single_system (exp sqrt ppf : K → K) (ts : List K) (CI : K) :
    (mcfNonparametric exp sqrt ppf (.list (ts.map .num)) CI).2 =
      mcfSystems exp sqrt ppf [ts] CI := by
  have hc : ∀ S : List K, checkItems (S.map Item.num) =
      (S.map Item.num, .ok (S.map fun _ => true)) := by
    intro S
    induction S with
    | nil => rfl
    | cons a S ih => simp [checkItems, ih, Except.map]
  have hf : (ts.map Item.num).flatMap itemNum = ts := by
    induction ts with
    | nil => rfl
    | cons a S ih => simp only [map_cons, flatMap_cons, ih]; rfl
  unfold mcfNonparametric
  simp only [hc, hf]
  simp

example : mcfSystems (K := ℚ) (fun x => 1 + x) (fun x => x) (fun x => x) [[5, 17, 10], [4, 9]] (1/2) =
    mcfSystems (fun x => 1 + x) (fun x => x) (fun x => x) [[9, 4], [5, 10, 17]] (1/2) :=
  C20_order_irrelevant _ _ _ _ [[5, 10, 17], [9, 4]] _ _
    (.cons (by decide) (.cons (by decide) .nil)) (by decide)

/-! ### C21 -/

theorem varTerm_nonneg (r : Nat) (hr : 0 < r) : (0 : K) ≤ (1 / (r : K)) ^ 2 * (1 - 1 / (r : K)) := by
  have h1 : (1 : K) ≤ r := by exact_mod_cast hr
  have : 1 / (r : K) ≤ 1 := by rw [div_le_one (by linarith)]; exact h1
  have h2 : (0 : K) ≤ 1 - 1 / (r : K) := by linarith
  positivity

/-- The variance reported is never negative. -/
theorem C21_variance_nonneg (exp sqrt ppf : K → K) (systems : List (List K)) (CI : K)
    (rows : List (OutRow K)) (h : mcfSystems exp sqrt ppf systems CI = .ok rows) :
    ∀ r ∈ rows, 0 ≤ r.variance := by
  obtain ⟨hCI, hne⟩ := (C19_accepts_iff exp sqrt ppf systems CI).1.1 ⟨rows, h⟩
  obtain ⟨rows', h', ht, hk⟩ := C19_mcf_is_sum_of_reciprocals exp sqrt ppf systems CI hCI hne
  rw [h] at h'
  cases h'
  intro r hr
  obtain ⟨k, hk'⟩ := mem_iff_getElem?.1 hr
  rw [(hk k r hk').2]
  unfold Spec.variance
  apply sum_nonneg
  intro x hx
  rw [mem_map] at hx
  obtain ⟨t, ht', rfl⟩ := hx
  exact varTerm_nonneg _ (atRisk_pos ((times_perm systems).mem_iff.1 (mem_of_mem_take ht')))

theorem row_bounds (exp sqrt ppf : K → K) (systems : List (List K)) (CI : K)
    (rows : List (OutRow K)) (h : mcfSystems exp sqrt ppf systems CI = .ok rows) :
    ∀ r ∈ rows, r = outRow exp sqrt (-(ppf (1 - CI))) r.time r.MCF r.variance := by
  obtain ⟨hCI, hne⟩ := (C19_accepts_iff exp sqrt ppf systems CI).1.1 ⟨rows, h⟩
  rw [mcfSystems_eq exp sqrt ppf systems CI hCI hne] at h
  cases h
  intro r hr
  rw [mem_map] at hr
  obtain ⟨p, -, rfl⟩ := hr
  rfl

theorem row_pos (exp sqrt ppf : K → K) (systems : List (List K)) (CI : K)
    (rows : List (OutRow K)) (h : mcfSystems exp sqrt ppf systems CI = .ok rows) :
    ∀ r ∈ rows, 0 < r.MCF := by
  intro r hr
  obtain ⟨k, hk⟩ := mem_iff_getElem?.1 hr
  have h1 := (C19_mcf_increasing exp sqrt ppf systems CI rows h).2.2 k r hk
  obtain ⟨hCI, hne⟩ := (C19_accepts_iff exp sqrt ppf systems CI).1.1 ⟨rows, h⟩
  have hs : 0 < systems.length := by
    apply length_pos_iff.2
    rintro rfl
    exact hne rfl
  have : (0 : K) < ((k : K) + 1) / (systems.length : K) := by positivity
  linarith

/-- C21 for confidence levels of at least one half: with the real `exp` and `sqrt`, and a quantile
function that is not positive below one half (as the standard normal's), every row has
`0 < lower ≤ MCF ≤ upper`.  Partial: the English claim is for every confidence level, and is false
below one half (`C21_inverted_below_half`). -/
theorem C21_bounds_bracket_partial (ppf : ℝ → ℝ) (hppf : ∀ p, p ≤ 1 / 2 → ppf p ≤ 0)
    (systems : List (List ℝ)) (CI : ℝ) (hCI : 1 / 2 ≤ CI) (rows : List (OutRow ℝ))
    (h : mcfSystems Real.exp Real.sqrt ppf systems CI = .ok rows) :
    ∀ r ∈ rows, 0 < r.lower ∧ r.lower ≤ r.MCF ∧ r.MCF ≤ r.upper := by
  intro r hr
  have hb := row_bounds _ _ _ _ _ _ h r hr
  have hm := row_pos _ _ _ _ _ _ h r hr
  have hZ : 0 ≤ -(ppf (1 - CI)) := by
    have := hppf (1 - CI) (by linarith)
    linarith
  have hx : 0 ≤ (-(ppf (1 - CI)) * Real.sqrt r.variance) / r.MCF := by
    have := Real.sqrt_nonneg r.variance
    positivity
  have he := Real.one_le_exp hx
  have hlo : r.lower = r.MCF / Real.exp ((-(ppf (1 - CI)) * Real.sqrt r.variance) / r.MCF) := by
    conv_lhs => rw [hb]
    rfl
  have hup : r.upper = r.MCF * Real.exp ((-(ppf (1 - CI)) * Real.sqrt r.variance) / r.MCF) := by
    conv_lhs => rw [hb]
    rfl
  rw [hlo, hup]
  refine ⟨by positivity, div_le_self hm.le he, le_mul_of_one_le_right hm.le he⟩

/-- C21 fails below one half: the code takes `Z = -ppf(1-CI)`, which is negative when `CI < 1/2`, so
that at every row with a positive variance the "lower" bound lies above the MCF and the "upper" bound
below it. -/
theorem C21_inverted_below_half (ppf : ℝ → ℝ) (hppf : ∀ p, 1 / 2 < p → 0 < ppf p)
    (systems : List (List ℝ)) (CI : ℝ) (hCI : CI < 1 / 2) (rows : List (OutRow ℝ))
    (h : mcfSystems Real.exp Real.sqrt ppf systems CI = .ok rows) :
    ∀ r ∈ rows, 0 < r.variance → r.upper < r.MCF ∧ r.MCF < r.lower := by
  intro r hr hv
  have hb := row_bounds _ _ _ _ _ _ h r hr
  have hm := row_pos _ _ _ _ _ _ h r hr
  have hZ : 0 < ppf (1 - CI) := hppf (1 - CI) (by linarith)
  have hs : 0 < Real.sqrt r.variance := Real.sqrt_pos.2 hv
  have hx : (-(ppf (1 - CI)) * Real.sqrt r.variance) / r.MCF < 0 := by
    apply div_neg_of_neg_of_pos _ hm
    nlinarith
  have he := (Real.exp_zero ▸ Real.exp_lt_exp.2 hx : Real.exp _ < 1)
  have hep := Real.exp_pos ((-(ppf (1 - CI)) * Real.sqrt r.variance) / r.MCF)
  have hlo : r.lower = r.MCF / Real.exp ((-(ppf (1 - CI)) * Real.sqrt r.variance) / r.MCF) := by
    conv_lhs => rw [hb]
    rfl
  have hup : r.upper = r.MCF * Real.exp ((-(ppf (1 - CI)) * Real.sqrt r.variance) / r.MCF) := by
    conv_lhs => rw [hb]
    rfl
  rw [hlo, hup]
  refine ⟨by nlinarith, ?_⟩
  rw [lt_div_iff₀ hep]
  nlinarith

/-- The hypotheses are met: two systems, one repair; the variance is 1/8 > 0 and with CI = 1/4 the
bounds come out inverted. -/
example (ppf : ℝ → ℝ) (hppf : ∀ p, 1 / 2 < p → 0 < ppf p) :
    ∃ r, mcfSystems Real.exp Real.sqrt ppf [[1, 2], [3]] (1/4) = .ok [r] ∧ r.upper < r.lower := by
  obtain ⟨rows, h, ht, hk⟩ := C19_mcf_is_sum_of_reciprocals Real.exp Real.sqrt ppf [[1, 2], [3]] (1/4)
    (by norm_num) (by simp [Spec.repairs, max?])
  have hrep : Spec.times [[(1 : ℝ), 2], [3]] = [1] := by
    have : Spec.repairs [[(1 : ℝ), 2], [3]] = [1] := by
      have h12 : ((1 : ℝ) == 2) = false := by simp
      simp [Spec.repairs, max?, List.erase, h12]
    simp [Spec.times, this]
  rw [hrep] at ht
  obtain ⟨r, rfl⟩ : ∃ r, rows = [r] := by
    rw [← length_eq_one_iff]
    have := congrArg length ht
    simpa using this
  refine ⟨r, h, ?_⟩
  have hv : 0 < r.variance := by
    rw [(hk 0 r rfl).2]
    simp [Spec.variance, hrep, Spec.atRisk, Spec.ends, max?]
    norm_num
  have := C21_inverted_below_half ppf hppf _ _ (by norm_num) _ h r (by simp) hv
  linarith

/-! ### C22 -/

/-- What a call leaves in a list of lists supplied by the caller: every system sorted. -/
theorem C22_caller_lists_sorted (exp sqrt ppf : K → K) (systems : List (List K)) (hne : systems ≠ [])
    (CI : K) :
    (mcfNonparametric exp sqrt ppf (.list (systems.map .list)) CI).1 =
      .list (systems.map fun s => .list (pySort s)) := by
  have hc : ∀ S : List (List K), checkItems (S.map Item.list) =
      (S.map Item.list, .ok (S.map fun _ => false)) := by
    intro S
    induction S with
    | nil => rfl
    | cons a S ih => simp [checkItems, ih, Except.map]
  unfold mcfNonparametric
  simp only [hc]
  obtain ⟨s, S, rfl⟩ := exists_cons_of_ne_nil hne
  simp [sortItem, Function.comp_def]

/-- C22, partial: a list of lists is left as it was exactly when every system was already in ascending
order; a numpy array is never modified.  Missing: unsorted lists, for which the claim is false. -/
theorem C22_untouched_iff_sorted_partial (exp sqrt ppf : K → K) (CI : K) :
    (∀ systems : List (List K), systems ≠ [] →
      ((mcfNonparametric exp sqrt ppf (.list (systems.map .list)) CI).1 = .list (systems.map .list) ↔
        ∀ s ∈ systems, s.Pairwise (· ≤ ·))) ∧
    (∀ rows, (mcfNonparametric exp sqrt ppf (.array2 rows) CI).1 = .array2 rows) := by
  refine ⟨?_, fun _ => rfl⟩
  intro systems hne
  rw [C22_caller_lists_sorted exp sqrt ppf systems hne CI]
  rw [Data.list.injEq, map_inj_left]
  constructor
  · intro h s hs
    have := h s hs
    rw [Item.list.injEq] at this
    rw [← this]
    exact pySort_sorted s
  · intro h s hs
    rw [Item.list.injEq]
    exact (pySort_perm s).eq_of_pairwise (le := (· ≤ ·)) (fun a b _ _ h1 h2 => le_antisymm h1 h2)
      (pySort_sorted s) (h s hs)

/-- C22 is false: a call with an unsorted system re-orders the caller's own list, even when the call
then fails on its CI; and an ndarray item of the caller's list is replaced by a list. -/
theorem C22_counterexample (exp sqrt ppf : ℚ → ℚ) :
    (mcfNonparametric exp sqrt ppf (.list [.list [5, 3, 9]]) (1/2)).1 = .list [.list [3, 5, 9]] ∧
    mcfNonparametric exp sqrt ppf (.list [.list [5, 3, 9]]) 2 = (.list [.list [3, 5, 9]], valueErr) ∧
    (mcfNonparametric exp sqrt ppf (.list [.arr [3, 5, 9]]) (1/2)).1 = .list [.list [3, 5, 9]] := by
  refine ⟨?_, ?_, ?_⟩
  · rfl
  · have h : pySort [(5 : ℚ), 3, 9] = [3, 5, 9] := by decide +kernel
    have h2 : mcfSystems exp sqrt ppf [[5, 3, 9]] 2 = valueErr :=
      (C19_accepts_iff exp sqrt ppf _ 2).2 (by norm_num)
    simp [mcfNonparametric, checkItems, Except.map, sortItem, itemTimes, h, h2]
  · rfl

/-- A single system given as a 1-D numpy array is rejected (its elements are numpy scalars, neither
`int` nor `float`), whatever the CI. -/
theorem C22_array1_rejected (exp sqrt ppf : K → K) (ts : List K) (CI : K) :
    (mcfNonparametric exp sqrt ppf (.array1 ts) CI).2 = valueErr := by
  unfold mcfNonparametric
  by_cases h : ts = []
  · subst h
    simp only [if_true]
    apply (C19_accepts_iff exp sqrt ppf [[]] CI).2
    rintro ⟨-, h⟩
    exact h rfl
  · simp [h]

end Reliability.MCF

import Verif.Model.ChiTest
import Verif.Props.Testing2
import Verif.Props.InputCheck

/-!
# C130: chi2test from the data to the verdict
-/

namespace Reliability.Props.ChiTest

open Reliability Reliability.ChiTest Reliability.Testing
open Reliability.Props (bind_ok)
open Reliability.Spec (expectedCounts)

/-- numpy's choice of edges: two edges or more, ascending, the first and the last being those of the data. -/
def Chooses (choose : String → List ℝ → Except Err (List ℝ)) : Prop :=
  ∀ s data e, choose s data = .ok e → 2 ≤ e.length ∧ e.Pairwise (· < ·) ∧
    ∀ x ∈ data, (∀ a ∈ e.head?, a ≤ x) ∧ ∀ b ∈ e.getLast?, x ≤ b

/-- Edges that ascend and have all of the data between the first and the last. -/
def Covers (e data : List ℝ) : Prop :=
  2 ≤ e.length ∧ e.Pairwise (· ≤ ·) ∧ ∀ x ∈ data, (∀ a ∈ e.head?, a ≤ x) ∧ ∀ b ∈ e.getLast?, x ≤ b

/-- The observations in bin `i`: from its left edge up to its right edge, which belongs to the next bin if there is one. -/
noncomputable def inBin (data e : List ℝ) (i : ℕ) : ℕ :=
  data.countP fun x => decide (e.getD i 0 ≤ x ∧ (x < e.getD (i + 1) 0 ∨ i + 2 = e.length ∧ x = e.getD (i + 1) 0))

theorem counts_length (data : List ℝ) : ∀ e : List ℝ, (counts data e).length = e.length - 1
  | [] => rfl
  | [_] => rfl
  | [a, b] => rfl
  | a :: b :: c :: l => by
    rw [counts, List.length_cons, counts_length data (b :: c :: l)]
    simp

theorem counts_get (data : List ℝ) : ∀ (e : List ℝ) (i : ℕ), i + 1 < e.length → (counts data e)[i]? = some (inBin data e i)
  | [], i, h => by simp at h
  | [_], i, h => by simp at h
  | [a, b], i, h => by
    obtain rfl : i = 0 := by simp at h; omega
    simp only [counts, inBin, List.getElem?_cons_zero, zero_add, List.getD_cons_zero, List.getD_cons_succ, List.length_cons,
      List.length_nil, true_and, le_iff_lt_or_eq (a := _) (b := b)]
  | a :: b :: c :: l, i, h => by
    cases i with
    | zero =>
      simp only [counts, inBin, List.getElem?_cons_zero, zero_add, List.getD_cons_zero, List.getD_cons_succ, List.length_cons]
      congr 2
      funext x
      rw [decide_eq_decide]
      constructor
      · rintro ⟨h1, h2⟩; exact ⟨h1, .inl h2⟩
      · rintro ⟨h1, h2 | h2⟩
        · exact ⟨h1, h2⟩
        · omega
    | succ i =>
      rw [counts, List.getElem?_cons_succ, counts_get data (b :: c :: l) i (by simp at h ⊢; omega)]
      unfold inBin
      simp only [List.getD_cons_succ, List.length_cons]
      congr 2
      funext x
      rw [decide_eq_decide]
      constructor <;> rintro ⟨h1, h2⟩ <;> exact ⟨h1, h2.imp_right fun h => ⟨by omega, h.2⟩⟩

/-- The counts of ascending edges add up to the number of observations between the first and the last. -/
theorem counts_sum (data : List ℝ) : ∀ (a : ℝ) (l : List ℝ) (hl : l ≠ []), (a :: l).Pairwise (· ≤ ·) →
    (counts data (a :: l)).sum = data.countP fun x => decide (a ≤ x ∧ x ≤ l.getLast hl)
  | a, [], h, _ => absurd rfl h
  | a, [b], _, _ => by simp only [counts, List.sum_cons, List.sum_nil, add_zero, List.getLast_singleton]; rfl
  | a, b :: c :: l, _, hp => by
    have hab : a ≤ b := (List.pairwise_cons.1 hp).1 b (by simp)
    have hlast : b ≤ (b :: c :: l).getLast (by simp) := by
      rw [List.getLast_cons (by simp)]
      exact (List.pairwise_cons.1 (List.pairwise_cons.1 hp).2).1 _ (List.getLast_mem _)
    rw [counts, List.sum_cons, counts_sum data b (c :: l) (by simp) (List.pairwise_cons.1 hp).2]
    set z := (c :: l).getLast (by simp) with hz
    have hz' : (b :: c :: l).getLast (by simp) = z := by rw [List.getLast_cons (by simp)]
    rw [hz'] at hlast
    rw [hz']
    clear hz hz' hp
    induction data with
    | nil => rfl
    | cons x data ih =>
      simp only [List.countP_cons, decide_eq_true_eq]
      have : ((if a ≤ x ∧ x < b then 1 else 0) + (if b ≤ x ∧ x ≤ z then 1 else 0) : ℕ) = if a ≤ x ∧ x ≤ z then 1 else 0 := by
        by_cases h1 : x < b
        · rw [if_neg (c := b ≤ x ∧ x ≤ z) (fun h => absurd h.1 (not_le.2 h1)), add_zero]
          by_cases h2 : a ≤ x
          · rw [if_pos ⟨h2, h1⟩, if_pos ⟨h2, (h1.trans_le hlast).le⟩]
          · rw [if_neg (fun h => h2 h.1), if_neg (fun h => h2 h.1)]
        · push Not at h1
          rw [if_neg (fun h => absurd h.2 (not_lt.2 h1)), zero_add]
          by_cases h2 : x ≤ z
          · rw [if_pos ⟨h1, h2⟩, if_pos ⟨hab.trans h1, h2⟩]
          · rw [if_neg (fun h => h2 h.2), if_neg (fun h => h2 h.2)]
      omega

theorem counts_sum_iff (data e : List ℝ) (hne : data ≠ []) (hp : e.Pairwise (· ≤ ·)) :
    (counts data e).sum = data.length ↔ Covers e data := by
  match e with
  | [] =>
    have := List.length_pos_iff.2 hne
    simp [counts, Covers]; omega
  | [a] =>
    have := List.length_pos_iff.2 hne
    simp [counts, Covers]; omega
  | a :: b :: l =>
    rw [counts_sum data a (b :: l) (by simp) hp, List.countP_eq_length]
    unfold Covers
    rw [List.getLast?_eq_getLast_of_ne_nil (by simp), List.getLast_cons (a := a) (l := b :: l) (by simp)]
    simp only [decide_eq_true_eq, List.head?_cons, Option.mem_some_iff, forall_eq', List.length_cons]
    constructor
    · intro h; exact ⟨by omega, hp, h⟩
    · rintro ⟨-, -, h⟩; exact h

theorem ascending_iff (e : List ℝ) : (List.zipWith (fun a b => decide (a > b)) e e.tail).any id = false ↔ e.Pairwise (· ≤ ·) := by
  induction e with
  | nil => simp
  | cons a l ih =>
    cases l with
    | nil => simp
    | cons b l =>
      simp only [List.tail_cons, List.zipWith_cons_cons, List.any_cons, id, Bool.or_eq_false_iff, decide_eq_false_iff_not, gt_iff_lt,
        not_lt] at ih ⊢
      rw [ih]
      constructor
      · rintro ⟨h1, h2⟩
        refine List.pairwise_cons.2 ⟨fun x hx => ?_, h2⟩
        rcases List.mem_cons.1 hx with rfl | hx
        · exact h1
        · exact h1.trans ((List.pairwise_cons.1 h2).1 x hx)
      · intro h
        exact ⟨(List.pairwise_cons.1 h).1 b (by simp), (List.pairwise_cons.1 h).2⟩

/-- The edges that `bins` asks for. -/
def Asked (choose : String → List ℝ → Except Err (List ℝ)) (data : List ℝ) (bins : Bins) (e : List ℝ) : Prop :=
  match bins with
  | .default => choose "auto" data = .ok e
  | .method s => choose s data = .ok e
  | .edges l => e = l ∧ l.Pairwise (· ≤ ·)
  | .other => False

theorem histogram_iff (choose : String → List ℝ → Except Err (List ℝ)) (data : List ℝ) (bins : Bins) (h : List ℕ × List ℝ) :
    histogram choose data bins = .ok h ↔ Asked choose data bins h.2 ∧ h.1 = counts data h.2 := by
  obtain ⟨c, e⟩ := h
  cases bins with
  | default =>
    simp only [histogram, bind_ok, Except.ok.injEq, Prod.mk.injEq, Asked]
    constructor
    · rintro ⟨e', h, rfl, rfl⟩; exact ⟨h, rfl⟩
    · rintro ⟨h, rfl⟩; exact ⟨e, h, rfl, rfl⟩
  | method s =>
    simp only [histogram, bind_ok, Except.ok.injEq, Prod.mk.injEq, Asked]
    constructor
    · rintro ⟨e', h, rfl, rfl⟩; exact ⟨h, rfl⟩
    · rintro ⟨h, rfl⟩; exact ⟨e, h, rfl, rfl⟩
  | edges l =>
    simp only [histogram, Asked]
    split_ifs with h
    · simp only [reduceCtorEq, false_iff]
      rintro ⟨⟨rfl, hp⟩, -⟩
      rw [(ascending_iff _).2 hp] at h
      cases h
    · rw [Bool.not_eq_true, ascending_iff] at h
      simp only [Except.ok.injEq, Prod.mk.injEq]
      constructor
      · rintro ⟨rfl, rfl⟩; exact ⟨⟨rfl, h⟩, rfl⟩
      · rintro ⟨⟨rfl, -⟩, rfl⟩; exact ⟨rfl, rfl⟩
  | other => simp [histogram, Asked]

theorem asked_sorted {choose : String → List ℝ → Except Err (List ℝ)} (hc : Chooses choose) {data : List ℝ} {bins : Bins} {e : List ℝ}
    (h : Asked choose data bins e) : e.Pairwise (· ≤ ·) := by
  cases bins with
  | default => exact (hc _ _ _ h).2.1.imp le_of_lt
  | method s => exact (hc _ _ _ h).2.1.imp le_of_lt
  | edges l => obtain ⟨rfl, h⟩ := h; exact h
  | other => exact h.elim

theorem chosen_covers {choose : String → List ℝ → Except Err (List ℝ)} (hc : Chooses choose) {s : String} {data e : List ℝ}
    (h : choose s data = .ok e) : Covers e data :=
  ⟨(hc _ _ _ h).1, (hc _ _ _ h).2.1.imp le_of_lt, (hc _ _ _ h).2.2⟩

/-- The edges that are used: those asked for if they cover the data, otherwise numpy's automatic ones. -/
def Used (choose : String → List ℝ → Except Err (List ℝ)) (data : List ℝ) (bins : Bins) (e : List ℝ) : Prop :=
  ∃ e', Asked choose data bins e' ∧ ((Covers e' data ∧ e = e') ∨ (¬ Covers e' data ∧ choose "auto" data = .ok e))

theorem used_covers {choose : String → List ℝ → Except Err (List ℝ)} (hc : Chooses choose) {data : List ℝ} {bins : Bins} {e : List ℝ}
    (h : Used choose data bins e) : Covers e data := by
  obtain ⟨e', -, ⟨h, rfl⟩ | ⟨-, h⟩⟩ := h
  · exact h
  · exact chosen_covers hc h

/-- The edges at which the CDF can be evaluated. -/
def Admits : Support → List ℝ → Prop
  | .real, _ => True
  | .nonneg, e => ∀ t ∈ e, 0 ≤ t
  | .unit, e => ∀ t ∈ e, 0 ≤ t ∧ t ≤ 1

theorem cdfAt_cases (d : Dist) (e : List ℝ) :
    (Admits d.support e → cdfAt d e = .ok (e.map d.F)) ∧ (¬ Admits d.support e → cdfAt d e = .error .valueError) := by
  unfold cdfAt
  cases h : d.support with
  | real => simp [Admits]
  | nonneg =>
    simp only [Admits, List.any_eq_true, decide_eq_true_eq]
    constructor
    · intro h; rw [if_neg]; rintro ⟨x, hx, hlt⟩; exact absurd (h x hx) (not_le.2 hlt)
    · intro h; push Not at h; rw [if_pos h]
  | unit =>
    simp only [Admits, List.any_eq_true, decide_eq_true_eq]
    constructor
    · intro h
      rw [if_neg, if_neg]
      · rintro ⟨x, hx, hlt⟩; exact absurd (h x hx).2 (not_le.2 hlt)
      · rintro ⟨x, hx, hlt⟩; exact absurd (h x hx).1 (not_le.2 hlt)
    · intro h
      push Not at h
      obtain ⟨t, ht, h⟩ := h
      by_cases h0 : 0 ≤ t
      · split_ifs with h1 h2
        · rfl
        · rfl
        · exact absurd ⟨t, ht, h h0⟩ h2
      · rw [if_pos ⟨t, ht, not_le.1 h0⟩]

/-- `k` parameters are counted: of a standard distribution those in the list, without a last one that is 0 (the location `gamma`,
or a parameter that happens to be 0). -/
def Counted : Params → ℕ → Prop
  | .standard p, k => (∃ q, p = q ++ [0] ∧ k = q.length) ∨ (∀ q, p ≠ q ++ [0]) ∧ k = p.length
  | .special n, k => k = n

theorem counted (p : Params) (k : ℕ) : Counted p k ↔ k = numParams p := by
  cases p with
  | special n => rfl
  | standard p =>
    simp only [Counted, numParams]
    by_cases h : p.getLast? = some 0
    · obtain ⟨q, rfl⟩ := List.getLast?_eq_some_iff.1 h
      rw [if_pos h, List.length_append, List.length_singleton, Nat.add_sub_cancel]
      constructor
      · rintro (⟨q', he, rfl⟩ | ⟨hn, -⟩)
        · rw [List.append_cancel_right he]
        · exact absurd rfl (hn q)
      · rintro rfl; exact .inl ⟨q, rfl, rfl⟩
    · rw [if_neg h]
      constructor
      · rintro (⟨q, rfl, -⟩ | ⟨-, rfl⟩)
        · exact absurd (List.getLast?_concat) h
        · rfl
      · rintro rfl
        refine .inr ⟨fun q e => h (by rw [e]; exact List.getLast?_concat), rfl⟩

/-- What the checks before the histogram ask for. -/
def Checked (d : Dist) (data : List ℝ) (significance : ℝ) : Prop :=
  data ≠ [] ∧ (d.normalOrGumbel = true ∨ ∀ x ∈ data, 0 ≤ x) ∧ 0 < significance ∧ significance ≤ 1 / 2

theorem chi2test_cases (chi2ppf : ℝ → ℕ → ℝ) {choose : String → List ℝ → Except Err (List ℝ)} (hc : Chooses choose) (d : Dist)
    (data : List ℝ) (significance : ℝ) (bins : Bins) :
    (¬ Checked d data significance → chi2test chi2ppf choose d data significance bins = .error .valueError) ∧
    (Checked d data significance → ∀ e, Used choose data bins e →
      chi2test chi2ppf choose d data significance bins = (do
        let cdf ← cdfAt d e
        let t ← chi2Test chi2ppf ((counts data e).map (Nat.cast : ℕ → ℝ)) cdf data.length (numParams d.params) significance
        .ok ⟨e, t⟩)) ∧
    (Checked d data significance → ∀ r, chi2test chi2ppf choose d data significance bins = .ok r → Used choose data bins r.bin_edges) := by
  have hneg : (data.any (fun x => decide (x < 0)) && !d.normalOrGumbel) = true ↔ ¬ (d.normalOrGumbel = true ∨ ∀ x ∈ data, 0 ≤ x) := by
    simp only [Bool.and_eq_true, List.any_eq_true, decide_eq_true_eq, Bool.not_eq_true', not_or, Bool.not_eq_true]
    push Not
    exact and_comm
  have hsig : (significance ≤ 0 ∨ significance > 1 / 2) ↔ ¬ (0 < significance ∧ significance ≤ 1 / 2) := by
    rw [not_and_or, not_lt, not_le]
  have heq : Checked d data significance → chi2test chi2ppf choose d data significance bins = (do
      let h ← histogram choose data bins
      let h ← (if h.1.sum ≠ data.length then histogram choose data (.method "auto") else .ok h)
      if h.2.all (fun t => decide (t < 0)) && !d.normalOrGumbel then .error .typeError
      else do
        let cdf ← cdfAt d h.2
        let t ← chi2Test chi2ppf (h.1.map (Nat.cast : ℕ → ℝ)) cdf data.length (numParams d.params) significance
        .ok ⟨h.2, t⟩) := by
    rintro ⟨h1, h2, h3⟩
    unfold chi2test
    rw [if_neg h1, if_neg (by rw [hneg]; exact not_not.2 h2), if_neg (by rw [hsig]; exact not_not.2 h3)]
  have hused : ∀ h h', histogram choose data bins = .ok h → (data ≠ []) →
      (if h.1.sum ≠ data.length then histogram choose data (.method "auto") else .ok h) = .ok h' →
      Used choose data bins h'.2 ∧ h'.1 = counts data h'.2 := by
    intro h h' hh hne hh'
    obtain ⟨ha, hcnt⟩ := (histogram_iff _ _ _ _).1 hh
    have hiff := counts_sum_iff data h.2 hne (asked_sorted hc ha)
    rw [← hcnt] at hiff
    split_ifs at hh' with hs
    · obtain ⟨hb, hcnt'⟩ := (histogram_iff _ _ _ _).1 hh'
      exact ⟨⟨h.2, ha, .inr ⟨fun hcov => hs (hiff.2 hcov), hb⟩⟩, hcnt'⟩
    · rw [Except.ok.injEq] at hh'
      subst hh'
      exact ⟨⟨h.2, ha, .inl ⟨hiff.1 (not_not.1 hs), rfl⟩⟩, hcnt⟩
  refine ⟨fun h => ?_, fun h e he => ?_, fun h r hr => ?_⟩
  · unfold chi2test
    split_ifs with h1 h2 h3
    · rfl
    · rfl
    · rfl
    · exact absurd ⟨h1, not_not.1 (fun hn => h2 (hneg.2 hn)), not_not.1 (fun hn => h3 (hsig.2 hn))⟩ h
  · rw [heq h]
    obtain ⟨e', ha, hor⟩ := he
    have hh := (histogram_iff choose data bins (counts data e', e')).2 ⟨ha, rfl⟩
    have hiff := counts_sum_iff data e' h.1 (asked_sorted hc ha)
    have hstep : (if (counts data e').sum ≠ data.length then histogram choose data (.method "auto") else .ok (counts data e', e')) =
        .ok (counts data e, e) := by
      rcases hor with ⟨hcov, rfl⟩ | ⟨hcov, hb⟩
      · rw [if_neg (not_not.2 (hiff.2 hcov))]
      · rw [if_pos (fun hn => hcov (hiff.1 hn))]
        exact (histogram_iff _ _ _ _).2 ⟨hb, rfl⟩
    have hcov : Covers e data := used_covers hc ⟨e', ha, hor⟩
    have hall : (e.all (fun t => decide (t < 0)) && !d.normalOrGumbel) = false := by
      by_contra hcon
      rw [Bool.not_eq_false, Bool.and_eq_true, List.all_eq_true] at hcon
      obtain ⟨hcon, hng⟩ := hcon
      obtain ⟨x, hx⟩ := List.exists_mem_of_ne_nil data h.1
      have h0 : 0 ≤ x := by
        rcases h.2.1 with hg | hg
        · rw [hg] at hng; cases hng
        · exact hg x hx
      have hne : e ≠ [] := by rintro rfl; exact absurd hcov.1 (by simp)
      have h1 := (hcov.2.2 x hx).2 (e.getLast hne) (by rw [List.getLast?_eq_getLast_of_ne_nil hne]; rfl)
      have h2 := hcon _ (List.getLast_mem hne)
      rw [decide_eq_true_eq] at h2
      linarith
    rw [hh]
    show (do
      let h ← (if (counts data e').sum ≠ data.length then histogram choose data (.method "auto") else .ok (counts data e', e'))
      if h.2.all (fun t => decide (t < 0)) && !d.normalOrGumbel then .error .typeError
      else do
        let cdf ← cdfAt d h.2
        let t ← chi2Test chi2ppf (h.1.map (Nat.cast : ℕ → ℝ)) cdf data.length (numParams d.params) significance
        .ok ⟨h.2, t⟩ : Except Err Result) = _
    rw [hstep]
    show (if e.all (fun t => decide (t < 0)) && !d.normalOrGumbel then .error .typeError
      else do
        let cdf ← cdfAt d e
        let t ← chi2Test chi2ppf ((counts data e).map (Nat.cast : ℕ → ℝ)) cdf data.length (numParams d.params) significance
        .ok ⟨e, t⟩ : Except Err Result) = _
    rw [hall]
    rfl
  · rw [heq h] at hr
    simp only [bind_ok] at hr
    obtain ⟨h1, hh1, h2, hh2, hr⟩ := hr
    split_ifs at hr with hall
    simp only [bind_ok, Except.ok.injEq] at hr
    obtain ⟨cdf, -, t, -, rfl⟩ := hr
    exact (hused h1 h2 hh1 h.1 hh2).1

theorem counts_eq_range (data e : List ℝ) : counts data e = (List.range (e.length - 1)).map (inBin data e) := by
  apply List.ext_getElem?
  intro i
  by_cases h : i + 1 < e.length
  · rw [counts_get data e i h, List.getElem?_map, List.getElem?_range (by omega)]; rfl
  · rw [List.getElem?_eq_none (by rw [counts_length]; omega), List.getElem?_eq_none (by simp; omega)]

/-- **C130 (accepted).** The test is carried out exactly if: there are data, none of them negative unless the distribution is a
Normal or a Gumbel one; the significance is above 0 and at most 0.5; the bins are of a kind that numpy accepts; the edges that are
used (those asked for if they cover all of the data, otherwise the automatic ones) are in the range of the distribution; and
there are at least two more bins than parameters. -/
theorem C130_accepts (chi2ppf : ℝ → ℕ → ℝ) {choose : String → List ℝ → Except Err (List ℝ)} (hc : Chooses choose) (d : Dist)
    (data : List ℝ) (significance : ℝ) (bins : Bins) :
    (∃ r, chi2test chi2ppf choose d data significance bins = .ok r) ↔
      Checked d data significance ∧ ∃ e k, Used choose data bins e ∧ Admits d.support e ∧ Counted d.params k ∧ k + 2 ≤ e.length - 1 := by
  obtain ⟨h1, h2, h3⟩ := chi2test_cases chi2ppf hc d data significance bins
  constructor
  · rintro ⟨r, hr⟩
    have hck : Checked d data significance := by
      by_contra hn; rw [h1 hn] at hr; cases hr
    have hu := h3 hck r hr
    rw [h2 hck _ hu] at hr
    simp only [bind_ok] at hr
    obtain ⟨cdf, hcdf, t, ht, -⟩ := hr
    refine ⟨hck, r.bin_edges, _, hu, ?_, (counted _ _).2 rfl, ?_⟩
    · by_contra hn
      rw [(cdfAt_cases d r.bin_edges).2 hn] at hcdf; cases hcdf
    · unfold chi2Test at ht
      rw [if_neg (by push Not; exact ⟨hck.2.2.1, hck.2.2.2⟩)] at ht
      simp only [List.length_map, counts_length] at ht
      split_ifs at ht with hk
      have := (used_covers hc hu).1
      omega
  · rintro ⟨hck, e, k, hu, ha, hc', hk⟩
    rw [counted] at hc'
    subst hc'
    rw [h2 hck e hu, (cdfAt_cases d e).1 ha]
    have : ∃ t, chi2Test chi2ppf ((counts data e).map (Nat.cast : ℕ → ℝ)) (e.map d.F) data.length (numParams d.params) significance = .ok t := by
      unfold chi2Test
      rw [if_neg (by push Not; exact ⟨hck.2.2.1, hck.2.2.2⟩)]
      simp only [List.length_map, counts_length]
      rw [if_neg (by omega)]
      exact ⟨_, rfl⟩
    obtain ⟨t, ht⟩ := this
    refine ⟨⟨e, t⟩, ?_⟩
    show (do
      let t ← chi2Test chi2ppf ((counts data e).map (Nat.cast : ℕ → ℝ)) (e.map d.F) data.length (numParams d.params) significance
      .ok ⟨e, t⟩ : Except Err Result) = _
    rw [ht]
    rfl

/-- **C130 (refused).** Whatever is refused is refused with a ValueError (if numpy's refusals of a binning method are). -/
theorem C130_errors (chi2ppf : ℝ → ℕ → ℝ) {choose : String → List ℝ → Except Err (List ℝ)} (hc : Chooses choose)
    (he : ∀ s data x, choose s data = .error x → x = .valueError) (d : Dist) (data : List ℝ) (significance : ℝ) (bins : Bins) (x : Err)
    (h : chi2test chi2ppf choose d data significance bins = .error x) : x = .valueError := by
  obtain ⟨h1, h2, -⟩ := chi2test_cases chi2ppf hc d data significance bins
  by_cases hck : Checked d data significance
  · by_cases hu : ∃ e, Used choose data bins e
    · obtain ⟨e, hu⟩ := hu
      rw [h2 hck e hu] at h
      by_cases ha : Admits d.support e
      · rw [(cdfAt_cases d e).1 ha] at h
        simp only [bind, Except.bind, chi2Test] at h
        rw [if_neg (by push Not; exact ⟨hck.2.2.1, hck.2.2.2⟩)] at h
        split at h
        · rename_i h'
          split_ifs at h' with hk
          cases h'; cases h; rfl
        · cases h
      · rw [(cdfAt_cases d e).2 ha] at h
        cases h; rfl
    · have hhist : ∀ b y, histogram choose data b = .error y → y = .valueError := by
        intro b y hy
        cases b with
        | default =>
          simp only [histogram] at hy
          cases hch : choose "auto" data with
          | error z => rw [hch] at hy; cases hy; exact he _ _ _ hch
          | ok z => rw [hch] at hy; cases hy
        | method s =>
          simp only [histogram] at hy
          cases hch : choose s data with
          | error z => rw [hch] at hy; cases hy; exact he _ _ _ hch
          | ok z => rw [hch] at hy; cases hy
        | edges l =>
          simp only [histogram] at hy
          split_ifs at hy
          cases hy; rfl
        | other => cases hy; rfl
      obtain ⟨c1, c2, c3⟩ := hck
      have hneg : ¬ ((data.any (fun x => decide (x < 0)) && !d.normalOrGumbel) = true) := by
        simp only [Bool.and_eq_true, List.any_eq_true, decide_eq_true_eq, Bool.not_eq_true', not_and]
        rintro ⟨y, hy, hlt⟩ hng
        rcases c2 with h | h
        · rw [h] at hng; cases hng
        · exact absurd (h y hy) (not_le.2 hlt)
      unfold chi2test at h
      rw [if_neg c1, if_neg hneg, if_neg (by push Not; exact c3)] at h
      cases hh : histogram choose data bins with
      | error y => rw [hh] at h; cases h; exact hhist _ _ hh
      | ok h0 =>
        rw [hh] at h
        obtain ⟨ha, hcnt⟩ := (histogram_iff _ _ _ _).1 hh
        have hiff := counts_sum_iff data h0.2 c1 (asked_sorted hc ha)
        rw [← hcnt] at hiff
        have hs : h0.1.sum ≠ data.length := fun hs => hu ⟨h0.2, h0.2, ha, .inl ⟨hiff.1 hs, rfl⟩⟩
        simp only [bind, Except.bind] at h
        rw [if_pos hs] at h
        cases hh' : histogram choose data (.method "auto") with
        | error y => rw [hh'] at h; cases h; exact hhist _ _ hh'
        | ok h' =>
          obtain ⟨hb, -⟩ := (histogram_iff _ _ _ _).1 hh'
          exact absurd ⟨h'.2, h0.2, ha, .inr ⟨fun hcov => hs (hiff.2 hcov), hb⟩⟩ hu
  · rw [h1 hck] at h
    cases h; rfl

/-- **C130 (result).** If the test is carried out: every observation is in exactly one of the bins that are reported (their counts
add up to the number of observations); the statistic is `∑ (observed - expected)² / expected` over these bins, with the
distribution's expected counts conditioned on the range of the bins; and the hypothesis is accepted exactly if it is below the
chi-squared quantile with bins - parameters - 1 degrees of freedom. -/
theorem C130_result (chi2ppf : ℝ → ℕ → ℝ) {choose : String → List ℝ → Except Err (List ℝ)} (hc : Chooses choose) (d : Dist)
    (data : List ℝ) (significance : ℝ) (bins : Bins) (r : Result) (h : chi2test chi2ppf choose d data significance bins = .ok r) :
    Used choose data bins r.bin_edges ∧
    ((List.range (r.bin_edges.length - 1)).map (inBin data r.bin_edges)).sum = data.length ∧
    (∃ lo ∈ r.bin_edges.head?, ∃ hi ∈ r.bin_edges.getLast?, (∀ x ∈ data, lo ≤ x ∧ x ≤ hi) ∧
      r.test.statistic = (List.zipWith (fun o e => (o - e) ^ 2 / e)
        ((List.range (r.bin_edges.length - 1)).map fun i => (inBin data r.bin_edges i : ℝ))
        (expectedCounts d.F data.length lo hi r.bin_edges)).sum) ∧
    ∃ k, Counted d.params k ∧
      (r.test.accept = true ↔ r.test.statistic < chi2ppf (1 - significance) (r.bin_edges.length - 1 - k - 1)) := by
  obtain ⟨h1, h2, h3⟩ := chi2test_cases chi2ppf hc d data significance bins
  have hck : Checked d data significance := by
    by_contra hn; rw [h1 hn] at h; cases h
  have hu := h3 hck r h
  have hcov := used_covers hc hu
  rw [h2 hck _ hu] at h
  simp only [bind_ok, Except.ok.injEq] at h
  obtain ⟨cdf, hcdf, t, ht, hr⟩ := h
  have hadm : Admits d.support r.bin_edges := by
    by_contra hn
    rw [(cdfAt_cases d r.bin_edges).2 hn] at hcdf; cases hcdf
  rw [(cdfAt_cases d r.bin_edges).1 hadm, Except.ok.injEq] at hcdf
  subst hcdf
  have hrt : r.test = t := by rw [← hr]
  rw [hrt]
  have hcs := (counts_sum_iff data r.bin_edges hck.1 hcov.2.1).2 hcov
  obtain ⟨a, b, l, he⟩ : ∃ a b l, r.bin_edges = a :: b :: l := by
    match r.bin_edges, hcov.1 with
    | a :: b :: l, _ => exact ⟨a, b, l, rfl⟩
  have hv := (C67_verdict (edges := l) (a := a) (b := b) chi2ppf d.F ((counts data r.bin_edges).map (Nat.cast : ℕ → ℝ)) data.length (numParams d.params)
    rfl hck.2.2.1 hck.2.2.2).2 t (by rw [← he]; exact ht)
  have hobs : (counts data r.bin_edges).map (Nat.cast : ℕ → ℝ) =
      (List.range (r.bin_edges.length - 1)).map fun i => (inBin data r.bin_edges i : ℝ) := by
    rw [counts_eq_range, List.map_map]; rfl
  refine ⟨hu, by rw [← counts_eq_range]; exact hcs, ⟨a, by rw [he]; rfl, (a :: b :: l).getLast (by simp), ?_, ?_, ?_⟩, _, (counted _ _).2 rfl, ?_⟩
  · rw [he, List.getLast?_eq_getLast_of_ne_nil (by simp)]; rfl
  · intro x hx
    obtain ⟨c1, c2⟩ := hcov.2.2 x hx
    refine ⟨c1 a (by rw [he]; rfl), c2 _ ?_⟩
    rw [he, List.getLast?_eq_getLast_of_ne_nil (by simp)]; rfl
  · rw [← hobs, hv.1]; simp only [he]
  · rw [hv.2, List.length_map, counts_length]

/-- **C130 (finding).** Bins given by the caller that cover the data and reach below 0 are not reset to the automatic ones, as the
code means to (its condition holds only if all edges are negative, which is impossible here): the test ends in a ValueError
for every distribution that is not defined below 0. -/
theorem C130_negative_edge_finding (chi2ppf : ℝ → ℕ → ℝ) {choose : String → List ℝ → Except Err (List ℝ)} (hc : Chooses choose)
    (d : Dist) (hd : d.support = .nonneg) (data : List ℝ) (significance : ℝ) (hck : Checked d data significance) (e : List ℝ)
    (hcov : Covers e data) (t : ℝ) (ht : t ∈ e) (hneg : t < 0) :
    chi2test chi2ppf choose d data significance (.edges e) = .error .valueError := by
  obtain ⟨-, h2, -⟩ := chi2test_cases chi2ppf hc d data significance (.edges e)
  rw [h2 hck e ⟨e, ⟨rfl, hcov.2.1⟩, .inl ⟨hcov, rfl⟩⟩]
  rw [(cdfAt_cases d e).2 (by rw [hd]; intro h; exact absurd (h t ht) (not_le.2 hneg))]
  rfl

/-- Five observations, four bins, a distribution with one parameter: the test is carried out, with the bins that were given. -/
example (chi2ppf : ℝ → ℕ → ℝ) {choose : String → List ℝ → Except Err (List ℝ)} (hc : Chooses choose) :
    ∃ r, chi2test chi2ppf choose ⟨false, .nonneg, fun x => x / 8, .standard [8, 0]⟩ [1, 2, 3, 5, 7] (1 / 20) (.edges [0, 2, 4, 6, 8]) = .ok r ∧
      r.bin_edges = [0, 2, 4, 6, 8] ∧ inBin [1, 2, 3, 5, 7] [0, 2, 4, 6, 8] 1 = 2 := by
  have hcov : Covers [0, 2, 4, 6, 8] [1, 2, 3, 5, 7] := by
    refine ⟨by simp, by norm_num, ?_⟩
    simp only [List.head?_cons, Option.mem_some_iff, forall_eq', List.getLast?_cons_cons, List.getLast?_singleton]
    intro x hx
    simp only [List.mem_cons, List.not_mem_nil, or_false] at hx
    rcases hx with rfl | rfl | rfl | rfl | rfl <;> norm_num
  have hu : ∀ e, Used choose [1, 2, 3, 5, 7] (.edges [0, 2, 4, 6, 8]) e ↔ e = [0, 2, 4, 6, 8] := by
    intro e
    constructor
    · rintro ⟨e', ⟨rfl, -⟩, ⟨-, rfl⟩ | ⟨h, -⟩⟩
      · rfl
      · exact absurd hcov h
    · rintro rfl
      exact ⟨_, ⟨rfl, hcov.2.1⟩, .inl ⟨hcov, rfl⟩⟩
  obtain ⟨r, hr⟩ := (C130_accepts chi2ppf hc ⟨false, .nonneg, fun x => x / 8, .standard [8, 0]⟩ [1, 2, 3, 5, 7] (1 / 20) (.edges [0, 2, 4, 6, 8])).2
    ⟨⟨by simp, .inr (by norm_num), by norm_num, by norm_num⟩, _, 1, (hu _).2 rfl, by norm_num [Admits], .inl ⟨[8], rfl, rfl⟩, by simp⟩
  refine ⟨r, hr, (hu _).1 (C130_result chi2ppf hc _ _ _ _ r hr).1, ?_⟩
  norm_num [inBin, List.countP_cons]

end Reliability.Props.ChiTest

import Verif.Spec.LifeStressPlot
import Verif.Props.ALTPlots

/-! # C135: the life-stress plot -/

namespace Reliability.ALTPlots

open Reliability
open Reliability.Props (bind_ok)
open List

theorem axOf_spec (ax : AxArg) (swap : Bool) : axOf ax = some swap ↔ Asks ax swap := by
  cases ax with
  | bool b => cases b <;> cases swap <;> simp [axOf, Asks]
  | axes => cases swap <;> simp [axOf, Asks]
  | str s =>
    have key : s ∈ swapNames ↔ ∃ w ∈ ["swap", "swapped", "flip", "flipped"], s = w ∨ s = w.toUpper ∨ s = w.capitalize := by
      have e : ["swap", "swapped", "flip", "flipped"].flatMap (fun w => [w, w.toUpper, w.capitalize]) = ["swap", "SWAP", "Swap", "swapped", "SWAPPED", "Swapped",
        "flip", "FLIP", "Flip", "flipped", "FLIPPED", "Flipped"] := by decide +kernel
      have : (∃ w ∈ ["swap", "swapped", "flip", "flipped"], s = w ∨ s = w.toUpper ∨ s = w.capitalize) ↔
          s ∈ ["swap", "swapped", "flip", "flipped"].flatMap (fun w => [w, w.toUpper, w.capitalize]) := by
        simp only [mem_flatMap, mem_cons, not_mem_nil, or_false]
      rw [this, e]
      exact (show swapNames ~ _ by decide +kernel).mem_iff
    change (if s ∈ swapNames then some true else none) = some swap ↔ swap = true ∧ _
    rw [← key]
    split_ifs with h <;> cases swap <;> simp [h]

/-- **C135 (the argument ax).** Without a request for a figure nothing is drawn; in particular, any string other than the twelve
spellings of swap, swapped, flip and flipped is ignored. -/
theorem C135_no_figure (colours : ℕ) (dist model : String) (ax : AxArg) (h : ∀ swap, ¬ Asks ax swap) :
    (∀ life fg stresses use left, lifeStressPlot colours dist model life fg stresses use left ax = .ok none) ∧
    ∀ life fg stresses use, lifeStressPlot2 colours dist model life fg stresses use ax = .ok none := by
  have : axOf ax = none := by
    cases hx : axOf ax with
    | none => rfl
    | some swap => exact absurd ((axOf_spec ax swap).1 hx) (h swap)
  constructor
  · intros; unfold lifeStressPlot; rw [this]
  · intros; unfold lifeStressPlot2; rw [this]

theorem widened_logWindow (lo hi : ℝ) : Widened lo hi (logWindow lo hi) := by
  refine ⟨Real.exp_pos _, Real.exp_pos _, ?_, ?_⟩ <;> simp only [logWindow, Real.log_exp] <;> ring

theorem widened_le {lo hi : ℝ} (h0 : 0 < lo) (h : lo ≤ hi) {w : ℝ × ℝ} (hw : Widened lo hi w) : w.1 ≤ lo ∧ hi ≤ w.2 := by
  obtain ⟨a, b, c, d⟩ := hw
  have := Real.log_le_log h0 h
  constructor
  · apply (Real.log_le_log_iff a h0).1; linarith
  · apply (Real.log_le_log_iff (h0.trans_le h) b).1; linarith

theorem place_eq (swap : Bool) (s t : ℝ) : place swap s t = position swap s t := by cases swap <;> rfl

theorem near_grid {a b : ℝ} (hab : a ≤ b) {n : ℕ} (hn : 0 < n) {s : ℝ} (h1 : a < s) (h2 : s ≤ b) :
    ∃ k : ℕ, 1 ≤ k ∧ k ≤ n ∧ |a + k * ((b - a) / n) - s| ≤ (b - a) / n := by
  have hn' : (0 : ℝ) < n := by exact_mod_cast hn
  have hba : 0 < b - a := by linarith
  set δ := (b - a) / n with hδ
  have hδ0 : 0 < δ := by positivity
  refine ⟨⌈(s - a) / δ⌉₊, ?_, ?_, ?_⟩
  · have : 0 < (s - a) / δ := div_pos (by linarith) hδ0
    exact Nat.ceil_pos.2 this
  · apply Nat.ceil_le.2
    rw [div_le_iff₀ hδ0, hδ]
    field_simp
    linarith
  · have h3 := Nat.le_ceil ((s - a) / δ)
    have h4 := Nat.ceil_lt_add_one (div_nonneg (by linarith : 0 ≤ s - a) hδ0.le)
    rw [div_le_iff₀ hδ0] at h3
    have h5 : (⌈(s - a) / δ⌉₊ : ℝ) * δ < s - a + δ := by
      have := mul_lt_mul_of_pos_right h4 hδ0
      rw [add_mul, div_mul_cancel₀ _ hδ0.ne'] at this
      linarith
    rw [abs_le]
    constructor <;> linarith

theorem mem_tail_linspace {b : ℝ} {n : ℕ} (hn : 0 < n) (x : ℝ) :
    x ∈ (Np.linspace 0 b (n + 1)).tail ↔ ∃ k : ℕ, 1 ≤ k ∧ k ≤ n ∧ x = k * (b / n) := by
  unfold Np.linspace
  rw [List.range_succ_eq_map, List.map_cons, List.tail_cons, List.map_map, List.mem_map]
  simp only [List.mem_range, Function.comp, sub_zero, zero_add, Nat.add_sub_cancel]
  constructor
  · rintro ⟨i, hi, rfl⟩; exact ⟨i + 1, by omega, by omega, rfl⟩
  · rintro ⟨k, h1, h2, rfl⟩; exact ⟨k - 1, by omega, by simp [Nat.sub_add_cancel h1, Nat.succ_eq_add_one]⟩

theorem forall₂_zipWith {α β γ : Type} (f : α → β → γ) (R : α × β → γ → Prop) (h : ∀ a b, R (a, b) (f a b)) :
    ∀ (l : List α) (m : List β), Forall₂ R (l.zip m) (zipWith f l m)
  | [], _ => by simp
  | _ :: _, [] => by simp
  | a :: l, b :: m => by
    simp only [zip_cons_cons, zipWith_cons_cons]
    exact .cons (h a b) (forall₂_zipWith f R h l m)

/-- **C135, one stress.** If a figure is asked for, then it is made exactly if the colour cycle has a colour for every stress and
for the use level; it shows the failures, the life-stress line and the use level; if the use stress is not above the test
stresses and life does not increase with stress, the corner of the marker is visible. -/
theorem C135_single (colours : ℕ) {dist model : String} (hd : dist ∈ ["Weibull", "Lognormal", "Normal", "Exponential"])
    (hm : model ∈ ["Exponential", "Eyring", "Power"]) (life : ℝ → ℝ) {fg : List (List ℝ)} {stresses : List ℝ}
    (h0 : stresses ≠ []) (hlen : fg.length = stresses.length) (hpos : ∀ s ∈ stresses, 0 < s)
    (hfg : ∀ l ∈ fg, l ≠ [] ∧ ∀ t ∈ l, 0 < t) {use : Option ℝ} (hu : ∀ u, use = some u → 0 < u) (left : ℝ) {ax : AxArg}
    {swap : Bool} (hax : Asks ax swap) :
    (stresses.length + (if use.isSome then 1 else 0) ≤ colours →
      ∃ P, lifeStressPlot colours dist model life fg stresses use left ax = .ok (some P) ∧
        P.Shows swap life stresses fg use ∧ P.Marks swap life use left ∧
        ((∀ s s', 0 < s → s ≤ s' → life s' ≤ life s ∧ 0 ≤ life s') →
          ∀ u, use = some u → (∃ s ∈ stresses, u ≤ s) → P.Visible (position swap u (life u)))) ∧
    (colours < stresses.length + (if use.isSome then 1 else 0) →
      lifeStressPlot colours dist model life fg stresses use left ax = .error .indexError) := by
  obtain ⟨lo, hi, hr, hlo, hhi, hb⟩ := ProbPaper.range_spec h0
  have hf0 : fg.flatten ≠ [] := by
    have : fg ≠ [] := by
      rw [← length_pos_iff_ne_nil, hlen, length_pos_iff_ne_nil]; exact h0
    obtain ⟨l, hl⟩ := exists_mem_of_ne_nil _ this
    obtain ⟨t, ht⟩ := exists_mem_of_ne_nil _ (hfg l hl).1
    exact ne_nil_of_mem (mem_flatten.2 ⟨l, hl, ht⟩)
  obtain ⟨flo, fhi, hfr, hflo, hfhi, hfb⟩ := ProbPaper.range_spec hf0
  obtain ⟨low, hlow⟩ : ∃ low : ℝ, low = use.elim lo (fun u => min lo u) := ⟨_, rfl⟩
  have hlow0 : 0 < low := by
    rw [hlow]
    cases use with
    | none => exact hpos _ hlo
    | some u => exact lt_min (hpos _ hlo) (hu u rfl)
  have hlowlo : low ≤ lo := by
    rw [hlow]
    cases use with
    | none => exact le_rfl
    | some u => exact min_le_left _ _
  have hlh : low ≤ hi := hlowlo.trans (hb _ hlo).2
  set w := logWindow low hi with hw
  have hW := widened_logWindow low hi
  rw [← hw] at hW
  obtain ⟨hw1, hw2⟩ := widened_le hlow0 hlh hW
  have key : lifeStressPlot colours dist model life fg stresses use left ax = (do
      let _ ← (if stresses.length ≤ colours then .ok () else .error .indexError : Except Err Unit)
      let _ ← (if use.isSome ∧ colours ≤ stresses.length then .error .indexError else .ok () : Except Err Unit)
      let top := 1.2 * max (life w.1) fhi
      pure (some ⟨(Np.linspace 0 (w.2 * 10) 1000).tail.map fun s => place swap s (life s),
        List.zipWith (fun s l => l.map (place swap s)) stresses fg,
        use.map fun u =>
          if swap then [(-1e20, u), (life u, u), (life u, left)] else [(u, -1e20), (u, life u), (left, life u)],
        if swap then (0, top) else w, if swap then w else (0, top)⟩)) := by
    unfold lifeStressPlot
    rw [(axOf_spec ax swap).2 hax]
    dsimp only
    rw [if_neg (not_not.2 hm), if_neg (not_not.2 hd)]
    unfold minMax
    rw [hr, hfr]
    dsimp only [bind, Except.bind]
    rw [← hlow]
  rw [key]
  have htop : ∀ t, t ≤ fhi → 0 < t → t ≤ 1.2 * max (life w.1) fhi := by
    intro t h1 h2
    have := le_max_right (life w.1) fhi
    rw [show (1.2 : ℝ) = 6 / 5 by norm_num]
    linarith
  have hfpos : 0 < fhi := by
    obtain ⟨l, hl, ht⟩ := mem_flatten.1 hfhi
    exact (hfg l hl).2 _ ht
  constructor
  · intro hc
    have c1 : stresses.length ≤ colours := by omega
    have c2 : ¬ (use.isSome ∧ colours ≤ stresses.length) := by
      rintro ⟨a, b⟩; rw [if_pos a] at hc; omega
    rw [if_pos c1, if_neg c2]
    set P : LSFigure := ⟨(Np.linspace 0 (w.2 * 10) 1000).tail.map fun s => place swap s (life s),
        List.zipWith (fun s l => l.map (place swap s)) stresses fg,
        use.map fun u =>
          if swap then [(-1e20, u), (life u, u), (life u, left)] else [(u, -1e20), (u, life u), (left, life u)],
        if swap then (0, 1.2 * max (life w.1) fhi) else w, if swap then w else (0, 1.2 * max (life w.1) fhi)⟩ with hP
    have hwin : P.window swap = w := by
      cases swap <;> rfl
    have vis : ∀ s t, P.Visible (position swap s t) ↔ (w.1 ≤ s ∧ s ≤ w.2) ∧ 0 ≤ t ∧ t ≤ 1.2 * max (life w.1) fhi := by
      intro s t
      cases swap
      · simp only [LSFigure.Visible, P, position, if_false, Bool.false_eq_true]; tauto
      · simp only [LSFigure.Visible, P, position, if_true]; tauto
    have hline : (∀ s s', 0 < s → s ≤ s' → life s' ≤ life s ∧ 0 ≤ life s') →
        ∀ s, w.1 ≤ s → s ≤ w.2 → P.Visible (position swap s (life s)) := by
      intro ha s h1 h2
      rw [vis]
      obtain ⟨a, b⟩ := ha w.1 s hW.1 h1
      refine ⟨⟨h1, h2⟩, b, ?_⟩
      have := le_max_left (life w.1) fhi
      rw [show (1.2 : ℝ) = 6 / 5 by norm_num]
      linarith
    refine ⟨P, rfl, ⟨?_, ?_, ?_, ?_, ?_, ?_, ?_⟩, ?_, ?_⟩
    · apply forall₂_zipWith
      intro a b
      apply map_congr_left
      intro t _
      exact place_eq _ _ _
    · intro pts hpts q hq
      obtain ⟨i, hi', rfl⟩ := mem_iff_getElem.1 hpts
      simp only [P, length_zipWith] at hi'
      simp only [P, getElem_zipWith, mem_map] at hq
      obtain ⟨t, ht, rfl⟩ := hq
      have hs := getElem_mem (l := stresses) (n := i) (by omega)
      have hl := getElem_mem (l := fg) (n := i) (by omega)
      rw [place_eq, vis]
      obtain ⟨b1, b2⟩ := hb _ hs
      have ht' := (hfb _ (mem_flatten.2 ⟨_, hl, ht⟩)).2
      have ht0 := (hfg _ hl).2 _ ht
      exact ⟨⟨by linarith, by linarith⟩, ht0.le, htop _ ht' ht0⟩
    · intro q hq
      simp only [P, mem_map] at hq
      obtain ⟨s, hs, rfl⟩ := hq
      obtain ⟨k, k1, -, rfl⟩ := (mem_tail_linspace (n := 999) (by norm_num) s).1 hs
      have : (0 : ℝ) < k := by exact_mod_cast k1
      have h2 := hW.2.1
      exact ⟨_, by positivity, place_eq _ _ _⟩
    · rw [hwin]
      intro s hs1 hs2
      obtain ⟨k, k1, k2, k3⟩ := near_grid (a := 0) (b := w.2 * 10) (by linarith) (n := 999) (by norm_num) hs1 (by linarith)
      refine ⟨k * (w.2 * 10 / 999), ?_, ?_⟩
      · simp only [zero_add, sub_zero] at k3
        rw [mul_comm 10]
        exact_mod_cast k3
      · simp only [P, mem_map]
        refine ⟨_, (mem_tail_linspace (n := 999) (by norm_num) _).2 ⟨k, k1, k2, rfl⟩, ?_⟩
        rw [place_eq]
        norm_num
    · rw [hwin]
      refine ⟨lo, hi, low, ⟨hlo, hhi, hb⟩, ?_, ?_, hW⟩
      · rintro u rfl; exact hlow
      · rintro rfl; exact hlow
    · rw [hwin]
      exact ⟨flo, fhi, ⟨hflo, hfhi, hfb⟩, by cases swap <;> rfl⟩
    · rw [hwin]; exact hline
    · unfold LSFigure.Marks
      cases use with
      | none => rfl
      | some u => exact ⟨-1e20, by norm_num, by cases swap <;> rfl⟩
    · rintro ha u rfl ⟨s, hs, hus⟩
      apply hline ha
      · exact hw1.trans (hlow ▸ min_le_right _ _)
      · exact (hus.trans (hb s hs).2).trans hw2
  · intro hc
    by_cases c1 : stresses.length ≤ colours
    · rw [if_pos c1, if_pos]
      · rfl
      · cases hus : use.isSome with
        | false => rw [hus] at hc; simp at hc; omega
        | true => rw [hus] at hc; simp at hc; exact ⟨rfl, by omega⟩
    · rw [if_neg c1]; rfl

theorem mem_linspace {a b : ℝ} {n : ℕ} (hn : 0 < n) (x : ℝ) :
    x ∈ Np.linspace a b (n + 1) ↔ ∃ k : ℕ, k ≤ n ∧ x = a + k * ((b - a) / n) := by
  unfold Np.linspace
  simp only [List.mem_map, List.mem_range, Nat.add_sub_cancel]
  constructor
  · rintro ⟨i, hi, rfl⟩; exact ⟨i, by omega, rfl⟩
  · rintro ⟨k, h2, rfl⟩; exact ⟨k, by omega, rfl⟩

theorem range_linspace {a b : ℝ} (hab : a ≤ b) {n : ℕ} (hn : 0 < n) : minMax (Np.linspace a b (n + 1)) = .ok (a, b) := by
  have ma : a ∈ Np.linspace a b (n + 1) := (mem_linspace hn a).2 ⟨0, by omega, by simp⟩
  have hn' : (n : ℝ) ≠ 0 := by exact_mod_cast hn.ne'
  have mb : b ∈ Np.linspace a b (n + 1) := (mem_linspace hn b).2 ⟨n, le_rfl, by field_simp; ring⟩
  obtain ⟨lo, hi, h, h1, h2, h3⟩ := ProbPaper.range_spec (ne_nil_of_mem ma)
  have e1 := Np.linspace_mem hab h1
  have e2 := Np.linspace_mem hab h2
  have e3 := h3 a ma
  have e4 := h3 b mb
  unfold minMax
  rw [h, le_antisymm e3.1 e1.1, le_antisymm e2.2 e4.2]

theorem near_linspace {a b : ℝ} (hab : a ≤ b) {n : ℕ} (hn : 0 < n) {s : ℝ} (h1 : a ≤ s) (h2 : s ≤ b) :
    ∃ x ∈ Np.linspace a b (n + 1), |x - s| ≤ (b - a) / n := by
  rcases h1.eq_or_lt with rfl | h
  · exact ⟨a, (mem_linspace hn a).2 ⟨0, by omega, by simp⟩, by simp; exact div_nonneg (by linarith) (Nat.cast_nonneg _)⟩
  · obtain ⟨k, -, k2, k3⟩ := near_grid hab hn h h2
    exact ⟨_, (mem_linspace hn _).2 ⟨k, k2, rfl⟩, k3⟩

/-- **C135, two stresses.** If a figure is asked for (swapping has no effect), then it is made exactly if the colour cycle has a
colour for every pair of stresses and for the use level; it shows the failures, the surface of the model over the two stress axes
and the use level. -/
theorem C135_dual (colours : ℕ) {dist model : String} (hd : dist ∈ ["Weibull", "Lognormal", "Normal", "Exponential"])
    (hm : model ∈ ["Dual_Exponential", "Power_Exponential", "Dual_Power"]) (life : ℝ × ℝ → ℝ) {fg : List (List ℝ)}
    {stresses : List (ℝ × ℝ)} (h0 : stresses ≠ []) (hpos : ∀ s ∈ stresses, 0 < s.1 ∧ 0 < s.2)
    {use : Option (ℝ × ℝ)} (hu : ∀ u, use = some u → 0 < u.1 ∧ 0 < u.2) {ax : AxArg} {swap : Bool} (hax : Asks ax swap) :
    (stresses.length + (if use.isSome then 1 else 0) ≤ colours →
      ∃ P, lifeStressPlot2 colours dist model life fg stresses use ax = .ok (some P) ∧ P.Shows life stresses fg use) ∧
    (colours < stresses.length + (if use.isSome then 1 else 0) →
      lifeStressPlot2 colours dist model life fg stresses use ax = .error .indexError) := by
  have hall : ∀ s ∈ stresses ++ use.toList, 0 < s.1 ∧ 0 < s.2 := by
    intro s hs
    rcases mem_append.1 hs with h | h
    · exact hpos s h
    · exact hu s (by simpa using h)
  have hne : stresses ++ use.toList ≠ [] := by simp [h0]
  obtain ⟨lo, hi, hr, hlo, hhi, hb⟩ := ProbPaper.range_spec (l := (stresses ++ use.toList).map Prod.fst) (by simpa using hne)
  obtain ⟨lo', hi', hr', hlo', hhi', hb'⟩ := ProbPaper.range_spec (l := (stresses ++ use.toList).map Prod.snd) (by simpa using hne)
  have hlo0 : 0 < lo := by obtain ⟨s, hs, rfl⟩ := mem_map.1 hlo; exact (hall s hs).1
  have hlo0' : 0 < lo' := by obtain ⟨s, hs, rfl⟩ := mem_map.1 hlo'; exact (hall s hs).2
  set w := logWindow lo hi with hw
  set w' := logWindow lo' hi' with hw'
  have hW := widened_logWindow lo hi
  have hW' := widened_logWindow lo' hi'
  rw [← hw] at hW
  rw [← hw'] at hW'
  obtain ⟨w1, w2⟩ := widened_le hlo0 (hb _ hlo).2 hW
  obtain ⟨w1', w2'⟩ := widened_le hlo0' (hb' _ hlo').2 hW'
  have ww : w.1 ≤ w.2 := w1.trans ((hb _ hlo).2.trans w2)
  have ww' : w'.1 ≤ w'.2 := w1'.trans ((hb' _ hlo').2.trans w2')
  have key : lifeStressPlot2 colours dist model life fg stresses use ax = (do
      let _ ← (if stresses.length ≤ colours then .ok () else .error .indexError : Except Err Unit)
      let _ ← (if use.isSome ∧ colours ≤ stresses.length then .error .indexError else .ok () : Except Err Unit)
      pure (some ⟨(Np.linspace w'.1 w'.2 50).flatMap fun b => (Np.linspace w.1 w.2 50).map fun a => (a, b, life (a, b)),
        List.zipWith (fun s l => l.map fun t => (s.1, s.2, t)) stresses fg, use.map fun u => (u.1, u.2, life u),
        (w.1, w.2), (w'.1, w'.2)⟩)) := by
    unfold lifeStressPlot2
    rw [(axOf_spec ax swap).2 hax]
    dsimp only
    rw [if_neg (not_not.2 hm), if_neg (not_not.2 hd), show minMax (map Prod.fst (stresses ++ use.toList)) = _ from hr,
      show minMax (map Prod.snd (stresses ++ use.toList)) = _ from hr']
    dsimp only [bind, Except.bind]
    rw [← hw, ← hw', range_linspace ww (n := 49) (by norm_num), range_linspace ww' (n := 49) (by norm_num)]
  rw [key]
  have vis : ∀ s ∈ stresses ++ use.toList, w.1 ≤ s.1 ∧ s.1 ≤ w.2 ∧ w'.1 ≤ s.2 ∧ s.2 ≤ w'.2 := by
    intro s hs
    obtain ⟨a, b⟩ := hb _ (mem_map_of_mem (f := Prod.fst) hs)
    obtain ⟨a', b'⟩ := hb' _ (mem_map_of_mem (f := Prod.snd) hs)
    exact ⟨w1.trans a, b.trans w2, w1'.trans a', b'.trans w2'⟩
  constructor
  · intro hc
    have c1 : stresses.length ≤ colours := by omega
    have c2 : ¬ (use.isSome ∧ colours ≤ stresses.length) := by
      rintro ⟨a, b⟩; rw [if_pos a] at hc; omega
    rw [if_pos c1, if_neg c2]
    refine ⟨_, rfl, ⟨?_, ⟨?_, ?_⟩, ?_, ?_, ?_, ?_, rfl⟩⟩
    · apply forall₂_zipWith
      intro a b
      rfl
    · intro s hs
      exact vis s (mem_append_left _ hs)
    · rintro u rfl
      exact vis u (by simp)
    · intro q hq
      obtain ⟨b, -, hq⟩ := mem_flatMap.1 hq
      obtain ⟨a, -, rfl⟩ := mem_map.1 hq
      rfl
    · rintro a b ⟨a1, a2, b1, b2⟩
      obtain ⟨x, hx, hxa⟩ := near_linspace ww (n := 49) (by norm_num) a1 a2
      obtain ⟨y, hy, hyb⟩ := near_linspace ww' (n := 49) (by norm_num) b1 b2
      exact ⟨(x, y, life (x, y)), mem_flatMap.2 ⟨y, hy, mem_map.2 ⟨x, hx, rfl⟩⟩, hxa, hyb⟩
    · intro q hq
      obtain ⟨b, hb1, hq⟩ := mem_flatMap.1 hq
      obtain ⟨a, ha1, rfl⟩ := mem_map.1 hq
      obtain ⟨x1, x2⟩ := Np.linspace_mem ww ha1
      obtain ⟨y1, y2⟩ := Np.linspace_mem ww' hb1
      exact ⟨x1, x2, y1, y2⟩
    · exact ⟨lo, hi, lo', hi', ⟨hlo, hhi, hb⟩, ⟨hlo', hhi', hb'⟩, hW, hW'⟩
  · intro hc
    by_cases c1 : stresses.length ≤ colours
    · rw [if_pos c1, if_pos]
      · rfl
      · cases hus : use.isSome with
        | false => rw [hus] at hc; simp at hc; omega
        | true => rw [hus] at hc; simp at hc; exact ⟨rfl, by omega⟩
    · rw [if_neg c1]; rfl

/-- C135_single applies: power law, three stresses, use stress below them; the figure and its swapped version. -/
example (swap : Bool) : ∃ P ax, Asks ax swap ∧ lifeStressPlot 10 "Weibull" "Power" (fun s => 100 * s ^ (-2 : ℝ)) [[110, 90], [24, 30], [10]]
      [1, 2, 3] (some 0.5) 0 ax = .ok (some P) ∧
    P.Shows swap (fun s => 100 * s ^ (-2 : ℝ)) [1, 2, 3] [[110, 90], [24, 30], [10]] (some 0.5) ∧
    P.Visible (position swap 0.5 (100 * (0.5 : ℝ) ^ (-2 : ℝ))) := by
  obtain ⟨ax, hax⟩ : ∃ ax, Asks ax swap := by
    cases swap
    · exact ⟨.bool true, rfl, rfl⟩
    · exact ⟨.str "swap", rfl, "swap", by simp, .inl rfl⟩
  obtain ⟨P, h1, h2, -, h4⟩ := (C135_single 10 (dist := "Weibull") (model := "Power") (by simp) (by simp)
    (fun s => 100 * s ^ (-2 : ℝ)) (fg := [[110, 90], [24, 30], [10]]) (stresses := [1, 2, 3]) (by simp) rfl (by simp) (by simp)
    (use := some 0.5) (by intro u h; cases h; norm_num) 0 hax).1 (by decide)
  refine ⟨P, ax, hax, h1, h2, h4 ?_ _ rfl ⟨1, by simp, by norm_num⟩⟩
  intro s s' hs hs'
  have hs0 := hs.trans_le hs'
  refine ⟨?_, by positivity⟩
  have := Real.rpow_le_rpow_of_nonpos hs hs' (by norm_num : (-2 : ℝ) ≤ 0)
  linarith

/-- C135_dual applies. -/
example : ∃ P, lifeStressPlot2 10 "Normal" "Dual_Power" (fun s => 100 / (s.1 * s.2)) [[110, 90], [24]] [(1, 10), (2, 20)] (some (0.5, 5))
      .axes = .ok (some P) ∧ P.Shows (fun s => 100 / (s.1 * s.2)) [(1, 10), (2, 20)] [[110, 90], [24]] (some (0.5, 5)) :=
  (C135_dual 10 (dist := "Normal") (model := "Dual_Power") (by simp) (by simp) _ (by simp) (by simp) (use := some (0.5, 5))
    (by intro u h; cases h; norm_num) (ax := .axes) (swap := false) rfl).1 (by decide)

/-- **C135 (finding).** The upper end of the stress axis ignores the use stress: if the use stress is so far above the test
stresses that it exceeds the widened range, the use level is not visible. -/
theorem C135_use_above_finding (colours : ℕ) {dist model : String} (hd : dist ∈ ["Weibull", "Lognormal", "Normal", "Exponential"])
    (hm : model ∈ ["Exponential", "Eyring", "Power"]) (life : ℝ → ℝ) {fg : List (List ℝ)} {stresses : List ℝ}
    (h0 : stresses ≠ []) (hlen : fg.length = stresses.length) (hpos : ∀ s ∈ stresses, 0 < s)
    (hfg : ∀ l ∈ fg, l ≠ [] ∧ ∀ t ∈ l, 0 < t) {u : ℝ} (left : ℝ) {ax : AxArg} {swap : Bool} (hax : Asks ax swap) {lo hi : ℝ}
    (hx : Extremes stresses lo hi) (hu : hi * (hi / lo) < u) (hc : stresses.length < colours) :
    ∃ P, lifeStressPlot colours dist model life fg stresses (some u) left ax = .ok (some P) ∧ ∀ t, ¬ P.Visible (position swap u t) := by
  have hlo := hpos _ hx.1
  have hhi := hpos _ hx.2.1
  have hlh := (hx.2.2 _ hx.1).2
  have hu0 : 0 < u := lt_trans (by positivity) hu
  obtain ⟨P, h1, h2, -⟩ := (C135_single colours hd hm life h0 hlen hpos hfg (use := some u) (by intro v h; cases h; exact hu0) left
    hax).1 (by simpa using hc)
  refine ⟨P, h1, fun t hv => ?_⟩
  obtain ⟨lo', hi', low, ⟨a1, a2, a3⟩, b1, -, ⟨c1, c2, c3, c4⟩⟩ := h2.window
  have e1 : lo' = lo := le_antisymm (a3 _ hx.1).1 (hx.2.2 _ a1).1
  have e2 : hi' = hi := le_antisymm (hx.2.2 _ a2).2 (a3 _ hx.2.1).2
  subst e1 e2
  have b1 := b1 u rfl
  have hlu : lo' ≤ u := by
    have : 1 ≤ hi' / lo' := (one_le_div hlo).2 hlh
    nlinarith
  rw [min_eq_left hlu] at b1
  subst b1
  have hw : u ≤ (P.window swap).2 := by
    cases swap
    · exact hv.2.1
    · exact hv.2.2.2
  have l1 := Real.log_lt_log (by positivity) hu
  rw [Real.log_mul hhi.ne' (by positivity), Real.log_div hhi.ne' hlo.ne'] at l1
  have l2 := Real.log_le_log hu0 hw
  have l3 := Real.log_le_log hlo hlh
  linarith

/-- **C135 (finding).** The life axis takes the life at the lowest stress for the largest: with a life that increases with stress
the line can be cut off at a test stress. -/
theorem C135_increasing_finding : ∃ P, lifeStressPlot 10 "Weibull" "Power" (fun s => 1 * s ^ (3 : ℝ)) [[1], [2]] [1, 2] none 0
    (.bool true) = .ok (some P) ∧ ¬ P.Visible (position false 2 (1 * 2 ^ (3 : ℝ))) := by
  obtain ⟨P, h1, h2, -⟩ := (C135_single 10 (dist := "Weibull") (model := "Power") (by simp) (by simp)
    (fun s => 1 * s ^ (3 : ℝ)) (fg := [[1], [2]]) (stresses := [1, 2]) (by simp) rfl (by simp) (by simp)
    (use := none) nofun 0 (ax := .bool true) (swap := false) ⟨rfl, rfl⟩).1 (by decide)
  refine ⟨P, h1, fun hv => ?_⟩
  obtain ⟨lo, hi, low, ⟨a1, a2, a3⟩, -, b, hW⟩ := h2.window
  obtain ⟨flo, fhi, ⟨-, d2, -⟩, d4⟩ := h2.life_axis
  have b := b rfl
  subst b
  simp only [mem_cons, not_mem_nil, or_false] at a1 a2
  have hlo1 : 0 < low := by rcases a1 with rfl | rfl <;> norm_num
  have w1 := (widened_le hlo1 ((a3 low (by simpa using a1)).2) hW).1
  have hl := (a3 1 (by simp)).1
  have hv := hv.2.2.2
  have e : P.ylim.2 = 1.2 * max (1 * (P.window false).1 ^ (3 : ℝ)) fhi := congrArg Prod.snd d4
  rw [e] at hv
  have hfhi : fhi ≤ 2 := by
    simp only [flatten_cons, flatten_nil, append_nil, cons_append, nil_append, mem_cons, not_mem_nil, or_false] at d2
    rcases d2 with rfl | rfl <;> norm_num
  have hp : (P.window false).1 ^ (3 : ℝ) ≤ 1 := Real.rpow_le_one hW.1.le (w1.trans hl) (by norm_num)
  have hm : max (1 * (P.window false).1 ^ (3 : ℝ)) fhi ≤ 2 := max_le (by linarith) hfhi
  simp only [position] at hv
  have h8 : (2 : ℝ) ^ (3 : ℝ) = 8 := by
    rw [show (3 : ℝ) = (3 : ℕ) by norm_num, Real.rpow_natCast]; norm_num
  rw [h8, show (1.2 : ℝ) = 6 / 5 by norm_num] at hv
  linarith

end Reliability.ALTPlots

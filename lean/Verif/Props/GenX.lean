import Mathlib.Tactic.Linarith
import Mathlib.Tactic.NormNum
import Mathlib.Tactic.FieldSimp
import Mathlib.Analysis.SpecialFunctions.Pow.Real
import Verif.Model.Utils
import Verif.Lemmas.NumPy
import Verif.Props.Transforms

/-! # C53: generate_X_array -/

namespace Reliability.Props

open List Reliability.Utils Reliability.Distributions Reliability.Spec

/-- Specification: a plotting grid of `n` points, ascending, from `a` to `b`. -/
structure Grid (l : List ℝ) (n : Nat) (a b : ℝ) : Prop where
  length : l.length = n
  first : l.head? = some a
  last : l.getLast? = some b
  sorted : l.Pairwise (· ≤ ·)
  within : ∀ x ∈ l, a ≤ x ∧ x ≤ b

/-- Specification: `n` points, the first `a` and the last `b`. -/
structure Ends (l : List ℝ) (n : Nat) (a b : ℝ) : Prop where
  length : l.length = n
  first : l.head? = some a
  last : l.getLast? = some b

theorem Grid.ends {l n a b} (h : Grid l n a b) : Ends l n a b := ⟨h.length, h.first, h.last⟩

theorem linspace_ends {a b : ℝ} {n : Nat} (hn : 2 ≤ n) : Ends (Np.linspace a b n) n a b := by
  refine ⟨Np.linspace_length _ _ _, ?_, ?_⟩
  · rw [head?_eq_getElem?]; exact Np.linspace_first _ _ _ (by omega)
  · rw [getLast?_eq_getElem?, Np.linspace_length]; exact Np.linspace_last _ _ _ hn

theorem linspace_grid {a b : ℝ} {n : Nat} (hn : 2 ≤ n) (hab : a ≤ b) : Grid (Np.linspace a b n) n a b := by
  obtain ⟨h1, h2, h3⟩ := linspace_ends (a := a) (b := b) hn
  refine ⟨h1, h2, h3, ?_, fun x hx => Np.linspace_mem hab hx⟩
  unfold Np.linspace
  rw [pairwise_map]
  refine (pairwise_lt_range (n := n)).imp fun h => ?_
  have h1 : 0 ≤ (b - a) / ((n - 1 : Nat) : ℝ) := div_nonneg (by linarith) (Nat.cast_nonneg _)
  have h2 := mul_le_mul_of_nonneg_right (Nat.cast_le (α := ℝ).2 h.le) h1
  linarith

theorem geomspace_ends {a b : ℝ} {n : Nat} (hn : 2 ≤ n) (ha : a ≠ 0) (hb : b ≠ 0) :
    ∃ l, geomspace a b n = .ok l ∧ Ends l n a b := by
  refine ⟨_, by unfold geomspace; rw [if_neg (by simp [ha, hb])], by simp, ?_, ?_⟩
  · rw [head?_eq_getElem?, getElem?_map, getElem?_range (by omega)]
    simp
  · rw [getLast?_eq_getElem?, length_map, length_range, getElem?_map, getElem?_range (by omega)]
    have h : ((n - 1 : Nat) : ℝ) ≠ 0 := by exact_mod_cast (by omega : n - 1 ≠ 0)
    simp only [Option.map_some, Option.some.injEq]
    rw [div_self h, Real.rpow_one]; field_simp

theorem geomspace_grid {a b : ℝ} {n : Nat} (hn : 2 ≤ n) (ha : 0 < a) (hab : a ≤ b) :
    ∃ l, geomspace a b n = .ok l ∧ Grid l n a b := by
  obtain ⟨l, hl, h1, h2, h3⟩ := geomspace_ends hn ha.ne' (by linarith : b ≠ 0)
  have hr : 1 ≤ b / a := by rw [le_div_iff₀ ha]; linarith
  have hn0 : (0 : ℝ) < ((n - 1 : Nat) : ℝ) := by exact_mod_cast (by omega : 0 < n - 1)
  refine ⟨l, hl, h1, h2, h3, ?_, ?_⟩
  · unfold geomspace at hl
    rw [if_neg (by simp [ha.ne', (by linarith : b ≠ 0)])] at hl
    rw [← Except.ok.inj hl, pairwise_map]
    refine (pairwise_lt_range (n := n)).imp fun {i j} h => ?_
    apply mul_le_mul_of_nonneg_left _ ha.le
    apply Real.rpow_le_rpow_of_exponent_le hr
    rw [div_le_div_iff_of_pos_right hn0]
    exact_mod_cast h.le
  · intro x hx
    unfold geomspace at hl
    rw [if_neg (by simp [ha.ne', (by linarith : b ≠ 0)])] at hl
    rw [← Except.ok.inj hl] at hx
    obtain ⟨i, hi, rfl⟩ := mem_map.1 hx
    have hi := mem_range.1 hi
    have e1 := Real.rpow_le_rpow_of_exponent_le hr (show (0 : ℝ) ≤ (i : ℝ) / ((n - 1 : Nat) : ℝ) by positivity)
    have e2 := Real.rpow_le_rpow_of_exponent_le hr (show (i : ℝ) / ((n - 1 : Nat) : ℝ) ≤ 1 by
      rw [div_le_one hn0]; exact_mod_cast (by omega : i ≤ n - 1))
    rw [Real.rpow_zero] at e1
    rw [Real.rpow_one] at e2
    constructor
    · have := mul_le_mul_of_nonneg_left e1 ha.le; linarith
    · have := mul_le_mul_of_nonneg_left e2 ha.le
      have h : a * (b / a) = b := by field_simp
      linarith

theorem geomShift_ends {g a b : ℝ} {n : Nat} (hn : 2 ≤ n) (ha : a ≠ g) (hb : b ≠ g) :
    ∃ l, geomShift g a b n = .ok l ∧ Ends l n a b := by
  obtain ⟨l, hl, h1, h2, h3⟩ := geomspace_ends hn (sub_ne_zero.2 ha) (sub_ne_zero.2 hb)
  refine ⟨l.map (· + g), by unfold geomShift; rw [hl], by simp [h1], ?_, ?_⟩
  · rw [head?_map, h2]; simp
  · rw [getLast?_map, h3]; simp

theorem geomShift_grid {g a b : ℝ} {n : Nat} (hn : 2 ≤ n) (ha : g < a) (hab : a ≤ b) :
    ∃ l, geomShift g a b n = .ok l ∧ Grid l n a b := by
  obtain ⟨l, hl, h1, h2, h3, h4, h5⟩ := geomspace_grid (n := n) hn (sub_pos.2 ha) (sub_le_sub_right hab g)
  refine ⟨l.map (· + g), by unfold geomShift; rw [hl], by simp [h1], ?_, ?_, ?_, ?_⟩
  · rw [head?_map, h2]; simp
  · rw [getLast?_map, h3]; simp
  · rw [pairwise_map]; exact h4.imp fun h => by linarith
  · intro x hx
    obtain ⟨y, hy, rfl⟩ := mem_map.1 hx
    have := h5 y hy
    constructor <;> linarith [this.1, this.2]

theorem Ends.cons {l n a b} (x : ℝ) (h : Ends l n a b) : Ends (x :: l) (n + 1) x b := by
  refine ⟨by simp [h.length], rfl, ?_⟩
  have hne : l ≠ [] := by rintro rfl; exact absurd h.first (by simp)
  rw [getLast?_cons_of_ne_nil hne, h.last]

theorem Ends.append {l r n m a b c d} (h : Ends l n a b) (h' : Ends r m c d) : Ends (l ++ r) (n + m) a d := by
  have hne : l ≠ [] := by rintro rfl; exact absurd h.first (by simp)
  have hne' : r ≠ [] := by rintro rfl; exact absurd h'.first (by simp)
  refine ⟨by simp [h.length, h'.length], ?_, ?_⟩
  · rw [head?_append_of_ne_nil _ hne, h.first]
  · rw [getLast?_append_of_ne_nil _ hne', h'.last]

theorem Grid.cons {l n a b} {x : ℝ} (h : Grid l n a b) (hx : x ≤ a) : Grid (x :: l) (n + 1) x b := by
  obtain ⟨h1, h2, h3⟩ := h.ends.cons x
  have hne : l ≠ [] := by rintro rfl; exact absurd h.first (by simp)
  have hab : a ≤ b := (h.within b (mem_of_getLast? h.last)).1
  refine ⟨h1, h2, h3, pairwise_cons.2 ⟨fun y hy => le_trans hx (h.within y hy).1, h.sorted⟩, ?_⟩
  intro y hy
  rcases mem_cons.1 hy with rfl | hy
  · exact ⟨le_refl _, by linarith⟩
  · exact ⟨le_trans hx (h.within y hy).1, (h.within y hy).2⟩

theorem Grid.append {l r n m a b c d} (h : Grid l n a b) (h' : Grid r m c d) (hbc : b ≤ c) :
    Grid (l ++ r) (n + m) a d := by
  obtain ⟨h1, h2, h3⟩ := h.ends.append h'.ends
  have hab : a ≤ b := (h.within b (mem_of_getLast? h.last)).1
  have hcd : c ≤ d := (h'.within d (mem_of_getLast? h'.last)).1
  refine ⟨h1, h2, h3, pairwise_append.2 ⟨h.sorted, h'.sorted, fun x hx y hy => ?_⟩, ?_⟩
  · exact le_trans (h.within x hx).2 (le_trans hbc (h'.within y hy).1)
  · intro y hy
    rcases mem_append.1 hy with hy | hy
    · exact ⟨(h.within y hy).1, by linarith [(h.within y hy).2]⟩
    · exact ⟨by linarith [(h'.within y hy).1], (h'.within y hy).2⟩

/-- Assumptions on a positive-support distribution: its location parameter is not negative and lies below its
quantiles, which increase (for real distributions: `positive_of_laws`). -/
structure PositiveDist (d : XDist) : Prop where
  fam : d.fam = .weibull ∨ d.fam = .lognormal ∨ d.fam = .loglogistic ∨ d.fam = .exponential ∨ d.fam = .gamma
  gamma_nonneg : 0 ≤ d.gamma
  gamma_lt : d.gamma < d.q (1 / 10000)
  low_lt : d.q (1 / 10000) < d.q (99 / 100)
  high_lt : d.q (99 / 100) < d.q (9999 / 10000)

theorem positive_of_laws (d : XDist) (F S R : ℝ → ℝ)
    (hf : d.fam = .weibull ∨ d.fam = .lognormal ∨ d.fam = .loglogistic ∨ d.fam = .exponential ∨ d.fam = .gamma)
    (hg : 0 ≤ d.gamma) (hS : SurvivalLaw F S) (hQ : QuantileLaw (Set.Ioi d.gamma) F S d.q R) : PositiveDist d := by
  have ax := axis_of_quantile Set.ordConnected_Ioi hS hQ
  have hm := ax.fwd_mono
  refine ⟨hf, hg, hQ.mem _ (by norm_num) (by norm_num), ?_, ?_⟩
  · exact hm ⟨by norm_num, by norm_num⟩ ⟨by norm_num, by norm_num⟩ (by norm_num)
  · exact hm ⟨by norm_num, by norm_num⟩ ⟨by norm_num, by norm_num⟩ (by norm_num)

theorem genPositive_ends (d : XDist) (h : PositiveDist d) (lo hi : ℝ) (hlh : lo ≤ hi) :
    ∃ l, genPositive d lo hi = .ok l ∧ Ends l 200 lo hi ∧
      ((d.gamma = 0 ∨ lo ≤ d.gamma - 1 / 10 ^ 8 ∨ d.q (1 / 10000) ≤ lo ∨ hi < d.q (1 / 10000)) →
        hi ≠ d.q (1 / 10000) ∨ d.q (1 / 10000) ≤ lo → lo ≠ d.q (99 / 100) ∨ hi ≤ d.q (99 / 100) → lo ≠ d.q (1 / 10000) ∨ hi ≤ d.q (99 / 100) →
        Grid l 200 lo hi) := by
  have hg := h.gamma_lt
  have hL := h.low_lt
  have hg0 := h.gamma_nonneg
  unfold genPositive
  generalize d.q (1 / 10000) = QL at *
  generalize d.q (99 / 100) = QU at *
  generalize d.gamma = g at *
  simp only
  by_cases c1 : (lo < QL ∧ hi < QL) ∨ (lo ≥ QL ∧ hi ≤ QU) ∨ (lo > QU ∧ hi > QU)
  · rw [if_pos c1]
    exact ⟨_, rfl, linspace_ends (by norm_num), fun _ _ _ _ => linspace_grid (by norm_num) hlh⟩
  rw [if_neg c1]
  push Not at c1
  obtain ⟨c1a, c1b, c1c⟩ := c1
  by_cases c2 : lo < QL ∧ hi > QL ∧ hi < QU
  · rw [if_pos c2]
    by_cases hg1 : g = 0
    · rw [if_pos hg1]
      cases d.pdf0zero
      · obtain ⟨l, hl, gl⟩ := geomspace_grid (a := QL) (b := hi) (n := 199) (by norm_num) (by linarith) (by linarith)
        simp only [hl, Bool.false_eq_true, if_false]
        exact ⟨_, rfl, gl.ends.cons lo, fun _ _ _ _ => gl.cons c2.1.le⟩
      · simp only [if_true]
        have gl := linspace_grid (a := QL) (b := hi) (n := 199) (by norm_num) (by linarith)
        exact ⟨_, rfl, gl.ends.cons lo, fun _ _ _ _ => gl.cons c2.1.le⟩
    · rw [if_neg hg1]
      cases d.pdf0zero
      · obtain ⟨l, hl, gl⟩ := geomShift_grid (g := g) (a := QL) (b := hi) (n := 198) (by norm_num) hg (by linarith)
        simp only [hl, Bool.false_eq_true, if_false]
        refine ⟨_, rfl, (gl.ends.cons _).cons lo, fun q1 _ _ _ => (gl.cons ?_).cons ?_⟩
        · norm_num; linarith
        · rcases q1 with q | q | q | q
          · exact absurd q hg1
          · exact q
          · linarith [c2.1]
          · linarith [c2.2.1]
      · simp only [if_true]
        have gl := linspace_grid (a := QL) (b := hi) (n := 198) (by norm_num) (by linarith)
        refine ⟨_, rfl, (gl.ends.cons _).cons lo, fun q1 _ _ _ => (gl.cons ?_).cons ?_⟩
        · norm_num; linarith
        · rcases q1 with q | q | q | q
          · exact absurd q hg1
          · exact q
          · linarith [c2.1]
          · linarith [c2.2.1]
  rw [if_neg c2]
  push Not at c2
  by_cases c3 : lo > QL ∧ lo < QU ∧ hi > QU
  · rw [if_pos c3]
    cases d.pdf0zero
    · obtain ⟨l, hl, gl⟩ := geomShift_grid (g := g) (a := lo) (b := QU) (n := 175) (by norm_num) (by linarith [c3.1])
        (by linarith [c3.2.1])
      obtain ⟨r, hr, gr⟩ := geomShift_grid (g := g) (a := QU) (b := hi) (n := 25) (by norm_num) (by linarith)
        (by linarith [c3.2.2])
      simp only [hl, hr, Bool.false_eq_true, if_false]
      exact ⟨_, rfl, gl.ends.append gr.ends, fun _ _ _ _ => gl.append gr (le_refl _)⟩
    · simp only [if_true]
      have gl := linspace_grid (a := lo) (b := QU) (n := 175) (by norm_num) (by linarith [c3.2.1])
      have gr := linspace_grid (a := QU) (b := hi) (n := 25) (by norm_num) (by linarith [c3.2.2])
      exact ⟨_, rfl, gl.ends.append gr.ends, fun _ _ _ _ => gl.append gr (le_refl _)⟩
  rw [if_neg c3]
  push Not at c3
  -- the last case
  have hhiQL : QL ≤ hi := by
    by_contra hc
    have := c1a (by linarith : lo < QL)
    linarith
  have hhig : hi ≠ g := by linarith
  have hord : (hi ≠ QL ∨ QL ≤ lo) → (lo ≠ QU ∨ hi ≤ QU) → (lo ≠ QL ∨ hi ≤ QU) → lo < QL ∧ QU ≤ hi := by
    intro q2 q3 q4
    have hlo : lo < QL := by
      by_contra hc
      have hc : QL ≤ lo := not_lt.1 hc
      have hhi : QU < hi := by
        by_contra h; exact absurd (c1b hc) (not_lt.2 (not_lt.1 h))
      have hneL : lo ≠ QL := by
        rcases q4 with q | q
        · exact q
        · linarith
      have hltL : QL < lo := lt_of_le_of_ne hc (Ne.symm hneL)
      have h1 : QU ≤ lo := by
        by_contra h; exact absurd (c3 hltL (not_le.1 h)) (not_le.2 hhi)
      have hneU : lo ≠ QU := by
        rcases q3 with q | q
        · exact q
        · linarith
      have h2 : QU < lo := lt_of_le_of_ne h1 (Ne.symm hneU)
      have := c1c h2
      linarith
    refine ⟨hlo, ?_⟩
    have hne : hi ≠ QL := by
      rcases q2 with q | q
      · exact q
      · linarith
    exact c2 hlo (lt_of_le_of_ne hhiQL (Ne.symm hne))
  by_cases hg1 : g = 0
  · rw [if_pos hg1]
    subst hg1
    obtain ⟨r, hr, er⟩ := geomspace_ends (a := QU) (b := hi) (n := 25) (by norm_num) (by linarith) hhig
    have gr : QU ≤ hi → Grid r 25 QU hi := by
      intro hq
      obtain ⟨r', hr', g'⟩ := geomspace_grid (a := QU) (b := hi) (n := 25) (by norm_num) (by linarith) hq
      rw [hr] at hr'; cases hr'; exact g'
    cases d.pdf0zero
    · obtain ⟨l, hl, gl⟩ := geomspace_grid (a := QL) (b := QU) (n := 174) (by norm_num) (by linarith) hL.le
      simp only [hl, hr, Bool.false_eq_true, if_false]
      refine ⟨_, rfl, (gl.ends.cons lo).append er, fun _ q2 q3 q4 => ?_⟩
      obtain ⟨k1, k2⟩ := hord q2 q3 q4
      exact (gl.cons k1.le).append (gr k2) (le_refl _)
    · simp only [hr, if_true]
      have gl := linspace_grid (a := QL) (b := QU) (n := 174) (by norm_num) hL.le
      refine ⟨_, rfl, (gl.ends.cons lo).append er, fun _ q2 q3 q4 => ?_⟩
      obtain ⟨k1, k2⟩ := hord q2 q3 q4
      exact (gl.cons k1.le).append (gr k2) (le_refl _)
  · rw [if_neg hg1]
    obtain ⟨r, hr, er⟩ := geomShift_ends (g := g) (a := QU) (b := hi) (n := 25) (by norm_num) (by linarith) hhig
    have gr : QU ≤ hi → Grid r 25 QU hi := by
      intro hq
      obtain ⟨r', hr', g'⟩ := geomShift_grid (g := g) (a := QU) (b := hi) (n := 25) (by norm_num) (by linarith) hq
      rw [hr] at hr'; cases hr'; exact g'
    have hlow : (g = 0 ∨ lo ≤ g - 1 / 10 ^ 8 ∨ QL ≤ lo ∨ hi < QL) → lo < QL → lo ≤ g - 1 / 10 ^ 8 := by
      rintro (q | q | q | q) hk
      · exact absurd q hg1
      · exact q
      · linarith
      · linarith
    have h8 : g - 1 / 10 ^ 8 ≤ QL := by norm_num; linarith
    cases d.pdf0zero
    · obtain ⟨l, hl, gl⟩ := geomShift_grid (g := g) (a := QL) (b := QU) (n := 173) (by norm_num) hg hL.le
      simp only [hl, hr, Bool.false_eq_true, if_false]
      refine ⟨_, rfl, ((gl.ends.cons _).cons lo).append er, fun q1 q2 q3 q4 => ?_⟩
      obtain ⟨k1, k2⟩ := hord q2 q3 q4
      exact ((gl.cons h8).cons (hlow q1 k1)).append (gr k2) (le_refl _)
    · simp only [hr, if_true]
      have gl := linspace_grid (a := QL) (b := QU) (n := 173) (by norm_num) hL.le
      refine ⟨_, rfl, ((gl.ends.cons _).cons lo).append er, fun q1 q2 q3 q4 => ?_⟩
      obtain ⟨k1, k2⟩ := hord q2 q3 q4
      exact ((gl.cons h8).cons (hlow q1 k1)).append (gr k2) (le_refl _)

theorem swap_min (a b : ℝ) : (if a > b then b else a) = min a b := by
  split
  · rw [min_eq_right (by linarith)]
  · rw [min_eq_left (by linarith)]

theorem swap_max (a b : ℝ) : (if a > b then a else b) = max a b := by
  split
  · rw [max_eq_left (by linarith)]
  · rw [max_eq_right (by linarith)]

/-- The arguments `xmin`, `xmax` in order, with a positive distribution's defaults. -/
noncomputable def lowEnd (d : XDist) (xmin xmax : Option ℝ) : ℝ := min (xmin.getD 0) (xmax.getD (d.q (9999 / 10000)))
noncomputable def highEnd (d : XDist) (xmin xmax : Option ℝ) : ℝ := max (xmin.getD 0) (xmax.getD (d.q (9999 / 10000)))

/-- **C53 (positive distributions).** With `xmin ≥ 0` (or None) the grid has exactly 200 points, the first the smaller
and the last the larger of the two bounds, whichever order they were given in.  The grid is ascending within those
bounds except in the corners `hi = Q(0.0001)`, `lo = Q(0.0001)`, `lo = Q(0.99)`, or `gamma - 1e-8 < lo < Q(0.0001)`.
A negative `xmin` is a ValueError. -/
theorem C53_positive (d : XDist) (h : PositiveDist d) (xmin xmax : Option ℝ) :
    (0 ≤ xmin.getD 0 → ∃ l, genX d xmin xmax = .ok l ∧ Ends l 200 (lowEnd d xmin xmax) (highEnd d xmin xmax) ∧
      ((d.gamma = 0 ∨ lowEnd d xmin xmax ≤ d.gamma - 1 / 10 ^ 8 ∨ d.q (1 / 10000) < lowEnd d xmin xmax) →
        highEnd d xmin xmax ≠ d.q (1 / 10000) → lowEnd d xmin xmax ≠ d.q (1 / 10000) →
        lowEnd d xmin xmax ≠ d.q (99 / 100) → Grid l 200 (lowEnd d xmin xmax) (highEnd d xmin xmax))) ∧
    (xmin.getD 0 < 0 → genX d xmin xmax = .error .valueError) := by
  have hgen : genX d xmin xmax = if xmin.getD 0 < 0 then valueErr else
      genPositive d (lowEnd d xmin xmax) (highEnd d xmin xmax) := by
    unfold genX lowEnd highEnd
    rcases h.fam with hf | hf | hf | hf | hf <;> rw [hf] <;> simp only [swap_min, swap_max]
  rw [hgen]
  constructor
  · intro h0
    rw [if_neg (not_lt.2 h0)]
    obtain ⟨l, hl, he, hgr⟩ := genPositive_ends d h (lowEnd d xmin xmax) (highEnd d xmin xmax) min_le_max
    refine ⟨l, hl, he, fun q1 q2 q3 q4 => hgr ?_ (.inl q2) (.inl q4) (.inl q3)⟩
    rcases q1 with q | q | q
    · exact .inl q
    · exact .inr (.inl q)
    · exact .inr (.inr (.inl q.le))
  · intro h0; rw [if_pos h0]

/-- **C53 (default call).** With no bounds a positive distribution with `gamma = 0` or `gamma ≥ 1e-8` gets 200 ascending
points from 0 to the 0.9999 quantile. -/
theorem C53_default (d : XDist) (h : PositiveDist d) (hg : d.gamma = 0 ∨ 1 / 10 ^ 8 ≤ d.gamma) :
    ∃ l, genX d none none = .ok l ∧ Grid l 200 0 (d.q (9999 / 10000)) := by
  obtain ⟨l, hl, -, hgr⟩ := (C53_positive d h none none).1 (le_refl _)
  have h1 := h.gamma_nonneg
  have h2 := h.gamma_lt
  have h3 := h.low_lt
  have h4 := h.high_lt
  have hlo : lowEnd d none none = 0 := by
    unfold lowEnd; simp only [Option.getD_none]; rw [min_eq_left (by linarith)]
  have hhi : highEnd d none none = d.q (9999 / 10000) := by
    unfold highEnd; simp only [Option.getD_none]; rw [max_eq_right (by linarith)]
  rw [hlo, hhi] at hgr
  refine ⟨l, hl, hgr ?_ (by linarith) (by linarith) (by linarith)⟩
  rcases hg with hg | hg
  · exact .inl hg
  · right; left; linarith

/-- **C53 (Normal and Gumbel).** 200 ascending points ending at the larger bound; the first is the smaller bound, or 0
when the smaller bound is positive and not above the 0.0001 quantile. -/
theorem C53_real_line (d : XDist) (hf : d.fam = .normal ∨ d.fam = .gumbel) (xmin xmax : Option ℝ) :
    let lo := min (xmin.getD (d.q (1 / 10000))) (xmax.getD (d.q (9999 / 10000)))
    let hi := max (xmin.getD (d.q (1 / 10000))) (xmax.getD (d.q (9999 / 10000)))
    ∃ l, genX d xmin xmax = .ok l ∧ Grid l 200 (if lo ≤ 0 ∨ lo > d.q (1 / 10000) then lo else 0) hi := by
  intro lo hi
  have hgen : genX d xmin xmax = if lo ≤ 0 ∨ lo > d.q (1 / 10000) then .ok (Np.linspace lo hi 200) else
      .ok (0 :: Np.linspace lo hi 199) := by
    unfold genX
    rcases hf with hf | hf <;> rw [hf] <;> simp only [swap_min, swap_max, lo, hi]
  rw [hgen]
  by_cases hc : lo ≤ 0 ∨ lo > d.q (1 / 10000)
  · rw [if_pos hc, if_pos hc]
    exact ⟨_, rfl, linspace_grid (by norm_num) min_le_max⟩
  · rw [if_neg hc, if_neg hc]
    push Not at hc
    exact ⟨_, rfl, (linspace_grid (by norm_num) min_le_max).cons hc.1.le⟩

/-- **C53 (Beta).** 200 ascending points between the bounds; `xmax > 1` is a ValueError. -/
theorem C53_beta (d : XDist) (hf : d.fam = .beta) (xmin xmax : Option ℝ) :
    (xmax.getD 1 ≤ 1 → ∃ l, genX d xmin xmax = .ok l ∧
      Grid l 200 (min (xmin.getD 0) (xmax.getD 1)) (max (xmin.getD 0) (xmax.getD 1))) ∧
    (1 < xmax.getD 1 → genX d xmin xmax = .error .valueError) := by
  have hgen : genX d xmin xmax = if xmax.getD 1 > 1 then valueErr else
      .ok (Np.linspace (min (xmin.getD 0) (xmax.getD 1)) (max (xmin.getD 0) (xmax.getD 1)) 200) := by
    unfold genX
    rw [hf]; simp only [swap_min, swap_max]
  rw [hgen]
  constructor
  · intro h; rw [if_neg (not_lt.2 h)]; exact ⟨_, rfl, linspace_grid (by norm_num) min_le_max⟩
  · intro h; rw [if_pos h]

/-- **C53 (xvals).** Given xvals are used as they are; an empty list, a negative value (except for Normal and Gumbel), a
value above 1 for Beta, or another type is a ValueError — and nothing else is refused. -/
theorem C53_xvals (fam : Fam) (l : List ℝ) :
    (genXvals fam (.list l) = .ok l ↔ l ≠ [] ∧ (fam = .normal ∨ fam = .gumbel ∨ ∀ x ∈ l, 0 ≤ x) ∧
      (fam = .beta → ∀ x ∈ l, x ≤ 1)) ∧
    (genXvals fam (.list l) ≠ .ok l → genXvals fam (.list l) = .error .valueError) ∧
    (∀ x, genXvals fam (.scalar x) = genXvals fam (.list [x])) ∧ genXvals fam .other = .error .valueError := by
  have hlist : (checkX fam l = .ok () ∧ (l ≠ [] ∧ (fam = .normal ∨ fam = .gumbel ∨ ∀ x ∈ l, 0 ≤ x) ∧
      (fam = .beta → ∀ x ∈ l, x ≤ 1))) ∨ (checkX fam l = .error .valueError ∧
      ¬ (l ≠ [] ∧ (fam = .normal ∨ fam = .gumbel ∨ ∀ x ∈ l, 0 ≤ x) ∧ (fam = .beta → ∀ x ∈ l, x ≤ 1))) := by
    unfold checkX
    cases h1 : l.min? with
    | none => rw [min?_eq_none_iff] at h1; right; simp [h1]
    | some lo =>
      have hne : l ≠ [] := by rintro rfl; cases h1
      cases h2 : l.max? with
      | none => rw [max?_eq_none_iff] at h2; exact absurd h2 hne
      | some hi =>
        have e1 := (Np.min?_iff l lo).1 h1
        have e2 := (Np.max?_iff l hi).1 h2
        simp only
        by_cases c1 : lo < 0 ∧ fam ≠ .normal ∧ fam ≠ .gumbel
        · rw [if_pos c1]; right
          refine ⟨rfl, ?_⟩
          rintro ⟨-, (h | h | h), -⟩
          · exact c1.2.1 h
          · exact c1.2.2 h
          · exact absurd (h lo e1.1) (not_le.2 c1.1)
        · rw [if_neg c1]
          by_cases c2 : hi > 1 ∧ fam = .beta
          · rw [if_pos c2]; right
            refine ⟨rfl, ?_⟩
            rintro ⟨-, -, h⟩
            exact absurd (h c2.2 hi e2.1) (not_le.2 c2.1)
          · rw [if_neg c2]; left
            refine ⟨rfl, hne, ?_, fun hb x hx => ?_⟩
            · by_cases hn : fam = .normal
              · exact .inl hn
              by_cases hgu : fam = .gumbel
              · exact .inr (.inl hgu)
              right; right
              intro x hx
              have : ¬ lo < 0 := fun h => c1 ⟨h, hn, hgu⟩
              exact le_trans (not_lt.1 this) (e1.2 x hx)
            · have : ¬ hi > 1 := fun h => c2 ⟨h, hb⟩
              exact le_trans (e2.2 x hx) (not_lt.1 this)
  refine ⟨?_, ?_, fun x => ?_, rfl⟩
  · simp only [genXvals]
    rcases hlist with ⟨h1, h2⟩ | ⟨h1, h2⟩
    · rw [h1]; exact ⟨fun _ => h2, fun _ => rfl⟩
    · rw [h1]; exact ⟨(fun h => nomatch h), (fun h => absurd h h2)⟩
  · simp only [genXvals]
    rcases hlist with ⟨h1, h2⟩ | ⟨h1, h2⟩
    · rw [h1]; intro h; exact absurd rfl h
    · rw [h1]; intro _; rfl
  · simp only [genXvals, checkX, min?_cons, min?_nil, max?_cons, max?_nil, Option.elim_none]
    split
    · rfl
    · split <;> rfl

/-! ### Findings -/

/-- **C53, finding.** `xmax` exactly at the 0.0001 quantile: the grid runs past `xmax` to the 0.99 quantile and comes back. -/
theorem C53_corner_finding (d : XDist) (h : PositiveDist d) (hg : d.gamma = 0) (hp : d.pdf0zero = true) :
    ∃ l, genX d (some 0) (some (d.q (1 / 10000))) = .ok l ∧ d.q (99 / 100) ∈ l ∧
      d.q (1 / 10000) < d.q (99 / 100) := by
  have h1 := h.gamma_lt
  have h2 := h.low_lt
  have hgen : genX d (some 0) (some (d.q (1 / 10000))) = genPositive d 0 (d.q (1 / 10000)) := by
    unfold genX
    rcases h.fam with hf | hf | hf | hf | hf <;> rw [hf] <;>
      simp only [swap_min, swap_max, Option.getD_some, lt_irrefl, if_false] <;>
      rw [min_eq_left (by linarith), max_eq_right (by linarith)]
  rw [hgen]
  unfold genPositive
  simp only
  rw [if_neg, if_neg, if_neg, if_pos hg, hp]
  · obtain ⟨r, hr, er⟩ := geomspace_ends (a := d.q (99 / 100)) (b := d.q (1 / 10000)) (n := 25) (by norm_num)
      (by linarith) (by linarith)
    simp only [hr, if_true]
    refine ⟨_, rfl, mem_append_right _ ?_, h2⟩
    exact mem_of_mem_head? (by rw [er.first]; rfl)
  · push Not; intro h; linarith
  · push Not; intro _ h; exact absurd h (lt_irrefl _)
  · push Not; exact ⟨fun _ => le_refl _, fun h => by linarith, fun h => by linarith⟩

/-- **C53, finding.** The check on negative bounds looks at `xmin` before the two are put in order: a negative `xmax`
is accepted for a positive distribution. -/
theorem C53_negative_finding (d : XDist) (h : PositiveDist d) : ∃ l, genX d (some 0) (some (-1)) = .ok l ∧
    l.head? = some (-1) := by
  obtain ⟨l, hl, he, -⟩ := (C53_positive d h (some 0) (some (-1))).1 (le_refl _)
  refine ⟨l, hl, ?_⟩
  rw [he.first]
  unfold lowEnd
  simp

/-- Concrete instances: every Weibull distribution with `gamma ≥ 0`. -/
example (alpha beta gamma : ℝ) (ha : 0 < alpha) (hb : 0 < beta) (hg : 0 ≤ gamma) (z : Bool) :
    PositiveDist ⟨.weibull, (Distributions.weibull alpha beta gamma).sp.ppf, gamma, z⟩ :=
  positive_of_laws _ _ _ _ (.inl rfl) hg (Distributions.C33_weibull alpha beta gamma ha hb).1
    (Distributions.C34_weibull alpha beta gamma ha hb)

end Reliability.Props

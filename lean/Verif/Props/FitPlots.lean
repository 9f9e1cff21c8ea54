import Verif.Model.FitPlots
import Verif.Props.Nonparametric
import Verif.Props.PlottingPositions
import Verif.Props.Arrays
import Mathlib.Algebra.Order.BigOperators.Group.List
import Mathlib.Tactic.FieldSimp
import Mathlib.Tactic.IntervalCases
import Mathlib.Data.List.GetD

/-! # C126: the figures of Fit_Everything -/

namespace Reliability.Props.FitPlots

open Reliability Reliability.FitPlots Reliability.Utils Reliability.NP Reliability.PP

theorem bind_ok' {α β : Type} {x : Except PlotErr α} {f : α → Except PlotErr β} {r : β} :
    (x >>= f) = .ok r ↔ ∃ a, x = .ok a ∧ f a = .ok r := by
  cases x with
  | ok a => exact ⟨fun h => ⟨a, rfl, h⟩, fun ⟨b, hb, h⟩ => by cases hb; exact h⟩
  | error e => exact ⟨fun h => (by cases h), fun ⟨b, hb, _⟩ => (by cases hb)⟩

theorem lift_ok {α : Type} {x : Except Err α} {a : α} : lift x = .ok a ↔ x = .ok a := by
  cases x <;> simp [lift]

/-! ## Layout -/

/-- **C126 (layout).** Every number of fitted distributions from 1 to 16 has a grid with enough places, and no more than one
row and one column of them too many; no other number has. -/
theorem C126_layout (n : ℕ) :
    (1 ≤ n ∧ n ≤ 16 → ∃ cols rows, layout n = some (cols, rows) ∧ n ≤ rows * cols ∧ (rows - 1) * cols < n ∧
      rows * (cols - 1) < n) ∧
    (n = 0 ∨ 16 < n → layout n = none) := by
  constructor
  · rintro ⟨h1, h2⟩
    interval_cases n <;> exact ⟨_, _, rfl, by decide, by decide, by decide⟩
  · intro h
    unfold layout
    simp only [List.mem_cons, List.not_mem_nil, or_false]
    rw [if_neg (by omega), if_neg (by omega), if_neg (by omega), if_neg (by omega), if_neg (by omega), if_neg (by omega),
      if_neg (by omega), if_neg (by omega), if_neg (by omega)]

/-! ## Largest and smallest -/

theorem maximum_spec {X : List ℝ} (h : X ≠ []) : maximum X ∈ X ∧ ∀ x ∈ X, x ≤ maximum X := by
  cases X with
  | nil => exact absurd rfl h
  | cons a l =>
    simp only [maximum, List.tail_cons, List.headD_cons]
    clear h
    induction l generalizing a with
    | nil => simp
    | cons b l ih =>
      obtain ⟨h1, h2⟩ := ih (max a b)
      simp only [List.foldl_cons, List.mem_cons] at h1 h2 ⊢
      refine ⟨?_, ?_⟩
      · rcases h1 with h1 | h1
        · rw [h1]
          rcases max_choice a b with h | h <;> rw [h] <;> simp
        · exact .inr (.inr h1)
      · have := h2 _ (.inl rfl)
        rintro x (rfl | rfl | hx)
        · exact (le_max_left _ _).trans this
        · exact (le_max_right _ _).trans this
        · exact h2 x (.inr hx)

theorem minimum_spec {X : List ℝ} (h : X ≠ []) : minimum X ∈ X ∧ ∀ x ∈ X, minimum X ≤ x := by
  cases X with
  | nil => exact absurd rfl h
  | cons a l =>
    simp only [minimum, List.tail_cons, List.headD_cons]
    clear h
    induction l generalizing a with
    | nil => simp
    | cons b l ih =>
      obtain ⟨h1, h2⟩ := ih (min a b)
      simp only [List.foldl_cons, List.mem_cons] at h1 h2 ⊢
      refine ⟨?_, ?_⟩
      · rcases h1 with h1 | h1
        · rw [h1]
          rcases min_choice a b with h | h <;> rw [h] <;> simp
        · exact .inr (.inr h1)
      · have := h2 _ (.inl rfl)
        rintro x (rfl | rfl | hx)
        · exact this.trans (min_le_left _ _)
        · exact this.trans (min_le_right _ _)
        · exact h2 x (.inr hx)

/-! ## The bars -/

theorem countP_or {α : Type} (p q : α → Bool) (l : List α) (h : ∀ a ∈ l, ¬ (p a = true ∧ q a = true)) :
    l.countP p + l.countP q = l.countP fun a => p a || q a := by
  induction l with
  | nil => rfl
  | cons a l ih =>
    have ih := ih fun b hb => h b (List.mem_cons_of_mem _ hb)
    have ha := h a List.mem_cons_self
    simp only [List.countP_cons]
    cases hp : p a <;> cases hq : q a <;> simp_all <;> omega

theorem edge_succ (X : List ℝ) (n i : ℕ) : edge X n (i + 1) = edge X n i + (maximum X - minimum X) / n := by
  unfold edge; push_cast; ring

theorem edge_last (X : List ℝ) {n : ℕ} (hn : 0 < n) : edge X n n = maximum X := by
  have : (n : ℝ) ≠ 0 := by exact_mod_cast hn.ne'
  unfold edge
  field_simp
  ring

/-- The observations in the first `k` bins. -/
theorem cum_count {X : List ℝ} {n : ℕ} (hn : 0 < n) (hX : X ≠ []) (hlt : minimum X < maximum X) :
    ∀ k ≤ n, ((List.range k).map fun i => binCount X n i).sum =
      X.countP fun x => decide (x < edge X n k ∨ k = n) := by
  have hn' : (0 : ℝ) < n := by exact_mod_cast hn
  have hw : 0 < (maximum X - minimum X) / n := div_pos (by linarith) hn'
  intro k
  induction k with
  | zero =>
    intro _
    simp only [List.range_zero, List.map_nil, List.sum_nil]
    symm
    rw [List.countP_eq_zero]
    intro x hx
    have := (minimum_spec hX).2 x hx
    simp only [decide_eq_true_eq, not_or, not_lt]
    refine ⟨by unfold edge; simpa using this, by omega⟩
  | succ k ih =>
    intro hk
    rw [List.range_succ, List.map_append, List.sum_append, ih (by omega), List.map_singleton, List.sum_singleton, binCount,
      countP_or]
    · refine List.countP_congr fun x hx => ?_
      have hmax : x ≤ maximum X := (maximum_spec hX).2 x hx
      have hs := edge_succ X n k
      simp only [Bool.or_eq_true, decide_eq_true_eq]
      have hkn : ¬ k = n := by omega
      constructor
      · rintro ((h | h) | ⟨-, h | ⟨h, -⟩⟩)
        · exact .inl (by linarith)
        · exact absurd h hkn
        · exact .inl h
        · exact .inr h
      · rintro (h | h)
        · rcases lt_or_ge x (edge X n k) with h' | h'
          · exact .inl (.inl h')
          · exact .inr ⟨h', .inl h⟩
        · rcases lt_or_ge x (edge X n k) with h' | h'
          · exact .inl (.inl h')
          · refine .inr ⟨h', .inr ⟨h, ?_⟩⟩
            have e := edge_last X hn
            rw [← h] at e
            rw [← h, e]; rw [← h] at *; exact hmax
    · intro x hx
      simp only [decide_eq_true_eq, not_and]
      intro h h'
      rcases h with h | h
      · exact absurd h' (not_le.2 h)
      · omega

theorem cumsum_get (l : List ℝ) (s : ℝ) (i : ℕ) (hi : i < l.length) :
    (Np.cumsum s l)[i]? = some (s + (l.take (i + 1)).sum) := by
  induction l generalizing s i with
  | nil => simp at hi
  | cons a l ih =>
    cases i with
    | zero => simp [Np.cumsum]
    | succ i =>
      simp only [Np.cumsum, List.getElem?_cons_succ, List.take_succ_cons, List.sum_cons]
      rw [ih (s + a) i (by simpa using hi), add_assoc]

theorem sum_div_const {α : Type} (l : List α) (f : α → ℝ) (c : ℝ) : (l.map fun a => f a / c).sum = (l.map f).sum / c := by
  induction l with
  | nil => simp
  | cons a l ih => simp only [List.map_cons, List.sum_cons, ih]; ring

theorem cast_sum (l : List ℕ) (f : ℕ → ℕ) : ((l.map fun i => (f i : ℝ)).sum) = ((l.map f).sum : ℕ) := by
  induction l with
  | nil => simp
  | cons a l ih => simp only [List.map_cons, List.sum_cons, ih]; push_cast; ring

theorem plot_ok {argsort : List ℝ → List ℕ} {f rc : List ℝ} {b : Bars} (h : histogramPlot argsort f rc = .ok b) :
    ∃ n x y, numBins f = .ok n ∧ 0 < n ∧ plottingPositions argsort f (some rc) none true = .ok (x, y) ∧
      b.edges = (List.range (n + 1)).map (edge f n) ∧
      b.pdf = (density f n).map (· * ((f.length : ℝ) / (f ++ rc).length)) ∧
      b.cdf = ((Np.cumsum 0 (density f n)).map (· / (density f n).sum)).map (· * maximum y) := by
  unfold histogramPlot at h
  simp only [bind_ok'] at h
  obtain ⟨n, hn, u, hu, p, hp, h⟩ := h
  cases h
  split_ifs at hu with h0
  exact ⟨n, p.1, p.2, hn, Nat.pos_of_ne_zero h0, by rw [lift_ok.1 hp], rfl, rfl, rfl⟩

theorem density_take (X : List ℝ) {n k : ℕ} (hk : k ≤ n) (hn : 0 < n) :
    ((density X n).take k).sum =
      ((List.range k).map fun i => binCount X n i).sum / (X.length : ℝ) / ((maximum X - minimum X) / n) := by
  have e : ∀ i, edge X n (i + 1) - edge X n i = (maximum X - minimum X) / n := fun i => by rw [edge_succ]; ring
  unfold density
  rw [← List.map_take, List.take_range, min_eq_left hk]
  simp only [e]
  rw [sum_div_const, sum_div_const, cast_sum]

/-- **C126 (bars).** Failures at two different times or more, a histogram plot that is drawn: the bins divide the interval
from the first to the last failure equally.  In the plot of densities the area of a bar is the number of failures in its bin
(a failure on an edge belongs to the bin to the right, the last one to the last bin) over the number of units, censored ones
included, so that the total area is the fraction failed.  In the plot of distribution functions the height of a bar is the
share of the failures before its right edge times the largest plotting position, and that of the last bar is the largest
plotting position. -/
theorem C126_bars {argsort : List ℝ → List ℕ} (harg : IsArgsort argsort) (f rc : List ℝ) (b : Bars)
    (h : histogramPlot argsort f rc = .ok b) (h2 : ∃ s ∈ f, ∃ t ∈ f, s < t) :
    ∃ (n : ℕ) (lo hi top : ℝ) (x y : List ℝ), 0 < n ∧ lo ∈ f ∧ hi ∈ f ∧ (∀ t ∈ f, lo ≤ t ∧ t ≤ hi) ∧
      plottingPositions argsort f (some rc) none true = .ok (x, y) ∧ top ∈ y ∧ (∀ z ∈ y, z ≤ top) ∧
      b.edges.length = n + 1 ∧ (∀ i ≤ n, b.edges[i]? = some (lo + i * ((hi - lo) / n))) ∧
      b.pdf.length = n ∧ b.cdf.length = n ∧
      (∀ i < n, ∃ a c p q, b.edges[i]? = some a ∧ b.edges[i + 1]? = some c ∧ b.pdf[i]? = some p ∧ b.cdf[i]? = some q ∧
        p * (c - a) = (f.countP fun t => decide (a ≤ t ∧ (t < c ∨ i + 1 = n ∧ t = c)) : ℕ) / ((f.length + rc.length : ℕ) : ℝ) ∧
        q = (f.countP fun t => decide (t < c ∨ i + 1 = n) : ℕ) / (f.length : ℝ) * top ∧ (i + 1 = n → q = top)) ∧
      (b.pdf.map (· * ((hi - lo) / n))).sum = (f.length : ℝ) / ((f.length + rc.length : ℕ) : ℝ) := by
  obtain ⟨n, x, y, hnb, hn, hpp, he, hpdf, hcdf⟩ := plot_ok h
  obtain ⟨s, hs, t, ht, hst⟩ := h2
  have hne : f ≠ [] := List.ne_nil_of_mem hs
  have hlt : minimum f < maximum f := ((minimum_spec hne).2 s hs).trans_lt (hst.trans_le ((maximum_spec hne).2 t ht))
  have hn' : (0 : ℝ) < n := by exact_mod_cast hn
  have hw : 0 < (maximum f - minimum f) / n := div_pos (by linarith) hn'
  have hN : (0 : ℝ) < f.length := by exact_mod_cast List.length_pos_iff.2 hne
  have hM : (0 : ℝ) < ((f.length + rc.length : ℕ) : ℝ) := by push_cast; positivity
  have hyne : y ≠ [] := by
    obtain ⟨x', y', h1, -, -, h3, -⟩ := C09_strictly_increasing_probabilities harg f (some rc) none hne (by norm_num)
      (by norm_num) (by norm_num)
    rw [h1] at hpp
    cases hpp
    intro h0
    rw [h0] at h3
    exact hne (List.length_eq_zero_iff.1 h3.symm)
  have hdl : (density f n).length = n := by simp [density]
  have hedge : ∀ i ≤ n, b.edges[i]? = some (edge f n i) := by
    intro i hi
    rw [he, List.getElem?_map, List.getElem?_range (by omega)]; rfl
  have hfull : (density f n).sum = 1 / ((maximum f - minimum f) / n) := by
    have := density_take f (le_refl n) hn
    rw [List.take_of_length_le hdl.le] at this
    rw [this, cum_count hn hne hlt n le_rfl]
    have : (f.countP fun x => decide (x < edge f n n ∨ n = n)) = f.length := by
      rw [List.countP_eq_length]; simp
    rw [this, div_self hN.ne']
  refine ⟨n, minimum f, maximum f, maximum y, x, y, hn, (minimum_spec hne).1, (maximum_spec hne).1,
    fun t ht => ⟨(minimum_spec hne).2 t ht, (maximum_spec hne).2 t ht⟩, hpp, (maximum_spec hyne).1,
    (maximum_spec hyne).2, by rw [he]; simp, hedge, by rw [hpdf]; simpa using hdl,
    ?_, ?_, ?_⟩
  · rw [hcdf]; simp [Np.cumsum_length, hdl]
  · intro i hi
    have hd : (density f n)[i]? = some (binCount f n i / (f.length : ℝ) / (edge f n (i + 1) - edge f n i)) := by
      unfold density
      rw [List.getElem?_map, List.getElem?_range hi]; rfl
    refine ⟨_, _, _, _, hedge i (by omega), hedge (i + 1) (by omega), by rw [hpdf, List.getElem?_map, hd]; rfl,
      by rw [hcdf, List.getElem?_map, List.getElem?_map, cumsum_get _ _ _ (by rw [hdl]; exact hi)]; rfl, ?_, ?_, ?_⟩
    · have e : edge f n (i + 1) - edge f n i = (maximum f - minimum f) / n := by rw [edge_succ]; ring
      rw [e, List.length_append]
      have hc : (f.countP fun t => decide (edge f n i ≤ t ∧ (t < edge f n (i + 1) ∨ i + 1 = n ∧ t = edge f n (i + 1)))) =
          binCount f n i := by
        unfold binCount
        refine List.countP_congr fun t ht => ?_
        simp only [decide_eq_true_eq]
        constructor
        · rintro ⟨h1, h2 | ⟨h2, h3⟩⟩
          · exact ⟨h1, .inl h2⟩
          · exact ⟨h1, .inr ⟨h2, h3.le⟩⟩
        · rintro ⟨h1, h2 | ⟨h2, h3⟩⟩
          · exact ⟨h1, .inl h2⟩
          · rcases h3.lt_or_eq with h | h
            · exact ⟨h1, .inl h⟩
            · exact ⟨h1, .inr ⟨h2, h⟩⟩
      rw [hc]
      have h0 : maximum f - minimum f ≠ 0 := by linarith
      field_simp
    · rw [density_take f (by omega) hn, hfull, cum_count hn hne hlt _ (by omega)]
      have h0 : (maximum f - minimum f) / n ≠ 0 := hw.ne'
      congr 1
      beta_reduce
      rw [zero_add, one_div, div_inv_eq_mul, div_mul_cancel₀ _ h0]
    · intro hin
      beta_reduce
      rw [hin, List.take_of_length_le hdl.le, zero_add, div_self (by rw [hfull]; positivity), one_mul]
  · rw [hpdf, List.map_map]
    have : ∀ l : List ℝ, (l.map ((fun z => z * ((maximum f - minimum f) / n)) ∘ fun z => z * ((f.length : ℝ) / (f ++ rc).length))).sum =
        l.sum * ((maximum f - minimum f) / n) * ((f.length : ℝ) / (f ++ rc).length) := by
      intro l
      induction l with
      | nil => simp
      | cons a l ih => simp only [List.map_cons, List.sum_cons, ih, Function.comp]; ring
    rw [this, hfull, one_div, inv_mul_cancel₀ hw.ne', one_mul, List.length_append]

/-! ## The number of bins -/

theorem getD_mono {s : List ℝ} (hs : s.Pairwise (· ≤ ·)) {i j : ℕ} (hij : i ≤ j) (hj : j < s.length) :
    s.getD i 0 ≤ s.getD j 0 := by
  rw [List.getD_eq_getElem _ _ (by omega), List.getD_eq_getElem _ _ hj]
  rcases hij.lt_or_eq with h | h
  · exact List.pairwise_iff_getElem.1 hs _ _ _ _ h
  · subst h; exact le_rfl

theorem percentile_mono {X : List ℝ} (hX : X ≠ []) {p q : ℝ} (h0 : 0 ≤ p) (hpq : p ≤ q) (h1 : q ≤ 100) :
    percentile p X ≤ percentile q X := by
  unfold percentile
  simp only
  set s := Np.sort X with hs
  have hsort : s.Pairwise (· ≤ ·) := Np.sort_sorted X
  have hlen : 1 ≤ s.length := by
    rw [hs, (Np.sort_perm X).length_eq]
    exact List.length_pos_iff.2 hX
  have hl : (1 : ℝ) ≤ s.length := by exact_mod_cast hlen
  set a := ((s.length : ℝ) - 1) * (p / 100) with ha
  set b := ((s.length : ℝ) - 1) * (q / 100) with hb
  have ha0 : 0 ≤ a := mul_nonneg (by linarith) (by positivity)
  have hab : a ≤ b := mul_le_mul_of_nonneg_left (by linarith) (by linarith)
  have hbn : b ≤ (s.length : ℝ) - 1 := by
    have := mul_le_mul_of_nonneg_left (show q / 100 ≤ 1 by linarith) (show (0 : ℝ) ≤ s.length - 1 by linarith)
    linarith
  have hkb : ⌊b⌋₊ < s.length := by
    have := Nat.floor_le (ha0.trans hab)
    have h : (⌊b⌋₊ : ℝ) < s.length := by linarith
    exact_mod_cast h
  have hk : ⌊a⌋₊ ≤ ⌊b⌋₊ := Nat.floor_mono hab
  have next : ∀ k, k < s.length → s.getD k 0 ≤ s.getD (k + 1) (s.getD k 0) := by
    intro k hk
    by_cases h : k + 1 < s.length
    · have := getD_mono hsort (Nat.le_succ k) h
      rwa [List.getD_eq_getElem _ _ h, ← List.getD_eq_getElem _ 0 h]
    · rw [List.getD_eq_default (d := s.getD k 0) _ (by omega)]
  have fa1 : (⌊a⌋₊ : ℝ) ≤ a := Nat.floor_le ha0
  have fa2 : a < ⌊a⌋₊ + 1 := Nat.lt_floor_add_one a
  have fb1 : (⌊b⌋₊ : ℝ) ≤ b := Nat.floor_le (ha0.trans hab)
  rcases hk.lt_or_eq with h | h
  · have e1 : s.getD (⌊a⌋₊ + 1) (s.getD ⌊a⌋₊ 0) = s.getD (⌊a⌋₊ + 1) 0 := by
      rw [List.getD_eq_getElem _ _ (by omega), List.getD_eq_getElem _ _ (by omega)]
    have h2 := next ⌊a⌋₊ (by omega)
    have h3 := getD_mono hsort h hkb
    have h4 := next ⌊b⌋₊ hkb
    rw [e1] at h2 ⊢
    have h5 : (a - ⌊a⌋₊) * (s.getD (⌊a⌋₊ + 1) 0 - s.getD ⌊a⌋₊ 0) ≤ 1 * (s.getD (⌊a⌋₊ + 1) 0 - s.getD ⌊a⌋₊ 0) :=
      mul_le_mul_of_nonneg_right (by linarith) (by linarith)
    have h6 : 0 ≤ (b - ⌊b⌋₊) * (s.getD (⌊b⌋₊ + 1) (s.getD ⌊b⌋₊ 0) - s.getD ⌊b⌋₊ 0) :=
      mul_nonneg (by linarith) (by linarith)
    linarith
  · rw [h]
    have h4 := next ⌊b⌋₊ hkb
    have : (a - ⌊b⌋₊) * (s.getD (⌊b⌋₊ + 1) (s.getD ⌊b⌋₊ 0) - s.getD ⌊b⌋₊ 0) ≤
        (b - ⌊b⌋₊) * (s.getD (⌊b⌋₊ + 1) (s.getD ⌊b⌋₊ 0) - s.getD ⌊b⌋₊ 0) :=
      mul_le_mul_of_nonneg_right (by linarith) (by linarith)
    linarith

/-- **C126 (number of bins).** If the quartiles of the failures differ, the histogram plot is drawn, and the number of its
bins is the least for which no bin is wider than the Freedman-Diaconis width `2 IQR / n^(1/3)`. -/
theorem C126_bins {argsort : List ℝ → List ℕ} (harg : IsArgsort argsort) (f rc : List ℝ) (h2 : ∃ s ∈ f, ∃ t ∈ f, s < t)
    (hq : percentile 25 f ≠ percentile 75 f) :
    ∃ b, histogramPlot argsort f rc = .ok b ∧
      ∀ n, b.pdf.length = n → ∀ m : ℕ, 0 < m →
        ((maximum f - minimum f) / m ≤ 2 * (percentile 75 f - percentile 25 f) / (f.length : ℝ) ^ (1 / 3 : ℝ) ↔ n ≤ m) := by
  obtain ⟨s, hs, t, ht, hst⟩ := h2
  have hne : f ≠ [] := List.ne_nil_of_mem hs
  have hlt : minimum f < maximum f := ((minimum_spec hne).2 s hs).trans_lt (hst.trans_le ((maximum_spec hne).2 t ht))
  have hN : (0 : ℝ) < f.length := by exact_mod_cast List.length_pos_iff.2 hne
  have hiqr : 0 < percentile 75 f - percentile 25 f := by
    have := percentile_mono hne (p := 25) (q := 75) (by norm_num) (by norm_num) (by norm_num)
    have := lt_of_le_of_ne this hq
    linarith
  set w := 2 * (percentile 75 f - percentile 25 f) * (f.length : ℝ) ^ (-(1 / 3 : ℝ)) with hwdef
  have hw : 0 < w := mul_pos (by linarith) (Real.rpow_pos_of_pos hN _)
  have hwe : w = 2 * (percentile 75 f - percentile 25 f) / (f.length : ℝ) ^ (1 / 3 : ℝ) := by
    rw [hwdef, Real.rpow_neg hN.le]; rfl
  have hquot : 0 < (maximum f - minimum f) / w := div_pos (by linarith) hw
  have hnb : numBins f = .ok ⌈(maximum f - minimum f) / w⌉.toNat := by
    unfold numBins
    simp only
    rw [if_neg hw.ne']
  have hceil : 0 < ⌈(maximum f - minimum f) / w⌉ := Int.ceil_pos.2 hquot
  obtain ⟨x, y, hpp, -⟩ := C09_strictly_increasing_probabilities harg f (some rc) none hne (by norm_num)
      (by norm_num) (by norm_num)
  have hb : ∃ b, histogramPlot argsort f rc = .ok b := by
    unfold histogramPlot
    simp only [bind_ok']
    exact ⟨_, _, hnb, (), by rw [if_neg (by omega)], _, lift_ok.2 hpp, rfl⟩
  obtain ⟨b, hb⟩ := hb
  refine ⟨b, hb, ?_⟩
  intro n hn m hm
  obtain ⟨n', -, -, hnb', -, -, -, hpdf, -⟩ := plot_ok hb
  rw [hnb] at hnb'
  cases hnb'
  rw [hpdf] at hn
  simp only [List.length_map, density, List.length_range] at hn
  subst hn
  have hm' : (0 : ℝ) < m := by exact_mod_cast hm
  rw [← hwe, div_le_iff₀ hm', mul_comm, ← div_le_iff₀ hw, Int.toNat_le, Int.ceil_le]
  simp

/-- **C126 (finding).** If the quartiles coincide, as they do for the failures 1, 2, 2, 2, 3, the histogram plot ends in an
OverflowError (the default of Fit_Everything is to draw it), whatever the censored data. -/
theorem C126_overflow_finding (argsort : List ℝ → List ℕ) (f rc : List ℝ) (h2 : ∃ s ∈ f, ∃ t ∈ f, s < t) :
    (percentile 25 f = percentile 75 f → histogramPlot argsort f rc = .error .overflow) ∧
    histogramPlot argsort [1, 2, 2, 2, 3] rc = .error .overflow := by
  have key : ∀ f : List ℝ, (∃ s ∈ f, ∃ t ∈ f, s < t) → percentile 25 f = percentile 75 f →
      histogramPlot argsort f rc = .error .overflow := by
    rintro f ⟨s, hs, t, ht, hst⟩ hq
    have hne : f ≠ [] := List.ne_nil_of_mem hs
    have hlt : minimum f < maximum f := ((minimum_spec hne).2 s hs).trans_lt (hst.trans_le ((maximum_spec hne).2 t ht))
    have hnb : numBins f = .error .overflow := by
      unfold numBins
      simp only
      rw [if_pos (by rw [hq]; simp), if_neg (by linarith)]
    unfold histogramPlot
    rw [hnb]; rfl
  refine ⟨key f h2, key _ ⟨1, by simp, 2, by simp, by norm_num⟩ ?_⟩
  have hs : Np.sort [(1 : ℝ), 2, 2, 2, 3] = [1, 2, 2, 2, 3] := Np.sort_eq_self (by norm_num)
  unfold percentile
  simp only [hs, List.length_cons, List.length_nil]
  have f1 : ⌊(((0 + 1 + 1 + 1 + 1 + 1 : ℕ) : ℝ) - 1) * (25 / 100)⌋₊ = 1 := by
    rw [Nat.floor_eq_iff (by norm_num)]; norm_num
  have f2 : ⌊(((0 + 1 + 1 + 1 + 1 + 1 : ℕ) : ℝ) - 1) * (75 / 100)⌋₊ = 3 := by
    rw [Nat.floor_eq_iff (by norm_num)]; norm_num
  rw [f1, f2]
  norm_num

/-! ## The probability-probability plot -/

theorem panels_ok {rows cols : ℕ} {xx d : List ℝ} {factor : Factor} :
    ∀ {fits : List (String × (ℝ → ℝ))} {place : ℕ} {ps : List Panel}, panels rows cols xx d factor place fits = .ok ps →
      ps.length = fits.length ∧ ∀ i name F, fits[i]? = some (name, F) → ∃ P s, ps[i]? = some P ∧
        P.rows = rows ∧ P.cols = cols ∧ P.place = place + i ∧ P.title = name ∧
        xyDownsample xx (d.map F) factor 1000 = .ok s ∧ P.points = s.1.zip s.2 ∧
        P.lower = -(max (maximum xx) (maximum (d.map F))) * 0.05 ∧ P.upper = max (maximum xx) (maximum (d.map F)) * 1.05 := by
  intro fits
  induction fits with
  | nil =>
    intro place ps h
    cases h
    simp
  | cons a fits ih =>
    intro place ps h
    obtain ⟨name, F⟩ := a
    simp only [panels, bind_ok'] at h
    obtain ⟨s, hs, rest, hrest, h⟩ := h
    cases h
    obtain ⟨h1, h2⟩ := ih hrest
    refine ⟨by simp [h1], ?_⟩
    intro i name' F' hi
    cases i with
    | zero =>
      simp only [List.getElem?_cons_zero, Option.some.injEq, Prod.mk.injEq] at hi
      obtain ⟨rfl, rfl⟩ := hi
      refine ⟨_, s, rfl, rfl, rfl, rfl, rfl, lift_ok.1 hs, rfl, ?_, ?_⟩ <;>
      · have : (if maximum xx < maximum (d.map F) then maximum (d.map F) else maximum xx) =
            max (maximum xx) (maximum (d.map F)) := by
          split_ifs with h
          · exact (max_eq_right h.le).symm
          · exact (max_eq_left (not_lt.1 h)).symm
        simp only [this]
    | succ i =>
      obtain ⟨P, s', hP, a1, a2, a3, a4⟩ := h2 i name' F' (by simpa using hi)
      exact ⟨P, s', by simpa using hP, a1, a2, by omega, a4⟩

/-- The points of a panel before they are thinned: the horizontal coordinate is the fraction failed by the item (1 minus the
Kaplan-Meier estimate), the vertical one the fitted probability of failure by its time. -/
def Pairs (times km : List ℝ) (F : ℝ → ℝ) : List (ℝ × ℝ) := (km.zip times).map fun p => (1 - p.1, F p.2)

/-- What a panel shows: points among those pairs, in their order; all of them if they are fewer than 1000, otherwise between
500 and 1000 of them, the first and the last always included. -/
structure ShowsFit (times km : List ℝ) (F : ℝ → ℝ) (points : List (ℝ × ℝ)) : Prop where
  sublist : points.Sublist (Pairs times km F)
  all_points : times.length < 1000 → points = Pairs times km F
  many : 1000 ≤ times.length → 500 ≤ points.length ∧ points.length ≤ 1000
  ends : points.head? = (Pairs times km F).head? ∧ points.getLast? = (Pairs times km F).getLast?

theorem zip_head {α β : Type} {xs xs' : List α} {ys ys' : List β} (h1 : xs.head? = xs'.head?) (h2 : ys.head? = ys'.head?) :
    (xs.zip ys).head? = (xs'.zip ys').head? := by
  cases xs <;> cases xs' <;> cases ys <;> cases ys' <;> simp_all

theorem zip_last {α β : Type} {xs xs' : List α} {ys ys' : List β} (h1 : xs.getLast? = xs'.getLast?)
    (h2 : ys.getLast? = ys'.getLast?) (l : ys.length = xs.length) (l' : ys'.length = xs'.length) :
    (xs.zip ys).getLast? = (xs'.zip ys').getLast? := by
  rw [← List.head?_reverse, ← List.head?_reverse]
  unfold List.zip
  rw [List.reverse_zipWith l.symm, List.reverse_zipWith l'.symm]
  refine zip_head ?_ ?_
  · rw [List.head?_reverse, List.head?_reverse, h1]
  · rw [List.head?_reverse, List.head?_reverse, h2]

/-- **C126 (P-P plot).** Two failures or more, one to sixteen fitted distributions: the plot has one panel for each of them, in
their order, at consecutive places of a grid that has enough of them; the panel of a distribution has its name as title, shows
the Kaplan-Meier estimates against its fitted probabilities (`ShowsFit`; without thinning if that is turned off), and every
point lies within its limits. -/
theorem C126_pp {argsort : List ℝ → List ℕ} (harg : IsArgsort argsort) (sqrt : ℝ → ℝ) (ppf : ℝ → Ext ℝ) (f rc : List ℝ)
    (fits : List (String × (ℝ → ℝ))) (hF : ∀ p ∈ fits, Monotone p.2 ∧ ∀ t, 0 ≤ p.2 t ∧ p.2 t ≤ 1) (h2 : 2 ≤ f.length)
    (h1 : 1 ≤ fits.length) (h16 : fits.length ≤ 16) (thin : Bool) :
    ∃ r ps, kaplanMeier argsort sqrt ppf (some f) (some rc) 0.95 "SF" = .ok r ∧
      ppPlot argsort sqrt ppf f rc fits (.bool thin) = .ok ps ∧ ps.length = fits.length ∧
      ∀ i name F, fits[i]? = some (name, F) → ∃ P, ps[i]? = some P ∧ P.title = name ∧ P.place = i + 1 ∧
        P.place ≤ P.rows * P.cols ∧ (thin = true → ShowsFit r.data r.est F P.points) ∧
        (thin = false → P.points = Pairs r.data r.est F) ∧
        ∀ q ∈ P.points, (P.lower ≤ q.1 ∧ q.1 ≤ P.upper) ∧ P.lower ≤ q.2 ∧ q.2 ≤ P.upper := by
  obtain ⟨r, hr⟩ := (C12_accepts_iff (argsort := argsort) (sqrt := sqrt) (ppf := ppf) (failures := some f)
    (right_censored := some rc) (CI := (0.95 : ℝ)) (plot_type := "SF")).2 ⟨f, rfl, h2, by norm_num, by norm_num, by decide⟩
  obtain ⟨hperm, hsorted, hcl, hel, hanti, h01⟩ := C12_survival_curve harg hr
  obtain ⟨cols, rows, hlay, hroom, -⟩ := (C126_layout fits.length).1 ⟨h1, h16⟩
  have hd : Np.sort (f ++ rc) = r.data := by
    have : r.data.Perm (f ++ rc) := by
      have := hperm.map Prod.fst
      rw [List.map_fst_zip hcl.le] at this
      simpa [Spec.tagged, Function.comp_def] using this
    rw [← Np.sort_congr this, Np.sort_eq_self hsorted]
  set xx := r.est.map (1 - ·) with hxx
  have hne : r.data ≠ [] := by
    intro h0
    have := congrArg List.length hd
    rw [h0, (Np.sort_perm _).length_eq, List.length_append, List.length_nil] at this
    omega
  have hlx : ∀ F : ℝ → ℝ, (r.data.map F).length = xx.length := fun F => by simp [hxx, hel]
  have hxs : xx.Pairwise (· ≤ ·) := by
    rw [hxx, List.pairwise_map]
    exact hanti.imp fun h => by linarith
  have hpairs : ∀ F : ℝ → ℝ, xx.zip (r.data.map F) = Pairs r.data r.est F := by
    intro F
    rw [hxx, List.zip_map]; rfl
  have down : ∀ F : ℝ → ℝ, Monotone F → ∃ s, xyDownsample xx (r.data.map F) (.bool thin) 1000 = .ok s ∧
      (thin = true → ShowsFit r.data r.est F (s.1.zip s.2)) ∧ (thin = false → s.1.zip s.2 = Pairs r.data r.est F) := by
    intro F hF
    have hys : (r.data.map F).Pairwise (· ≤ ·) := by
      rw [List.pairwise_map]
      exact hsorted.imp fun h => hF h
    have hlen : (Pairs r.data r.est F).length = r.data.length := by simp [Pairs, hel]
    have hxl : xx.length = r.data.length := by simp [hxx, hel]
    cases thin with
    | false => exact ⟨_, (C55_unchanged xx (r.data.map F) 1000).1, by simp, fun _ => hpairs F⟩
    | true =>
      by_cases hsm : xx.length < 1000
      · refine ⟨_, ((C55_unchanged xx (r.data.map F) 1000).2.1 hsm).2, fun _ => ?_, by simp⟩
        dsimp only
        rw [hpairs]
        exact ⟨List.Sublist.refl _, fun _ => rfl, fun h => by omega, rfl, rfl⟩
      · obtain ⟨xs, ys, st, -, hdn, hD, -, hm1, hm2⟩ := C55_default xx (r.data.map F) (hlx F) 1000 (by norm_num) (by omega)
        refine ⟨_, hdn, fun _ => ⟨?_, fun h => by omega, fun _ => ?_, ?_, ?_⟩, by simp⟩
        · have := C55_pairs_kept _ _ _ _ _ hD hxs hys
          rwa [hpairs] at this
        · rw [List.length_zip, hD.same_length, min_self]
          dsimp only
          constructor <;> omega
        · rw [← hpairs]
          have := hD.first
          rw [Np.sort_eq_self hxs, Np.sort_eq_self hys] at this
          exact zip_head this.1 this.2
        · rw [← hpairs]
          have := hD.last
          rw [Np.sort_eq_self hxs, Np.sort_eq_self hys] at this
          exact zip_last this.1 this.2 hD.same_length (hlx F)
  have hall : ∀ (fs : List (String × (ℝ → ℝ))) (place : ℕ), (∀ p ∈ fs, Monotone p.2 ∧ ∀ t, 0 ≤ p.2 t ∧ p.2 t ≤ 1) →
      ∃ ps, panels rows cols xx r.data (.bool thin) place fs = .ok ps := by
    intro fs
    induction fs with
    | nil => exact fun _ _ => ⟨[], rfl⟩
    | cons a fs ih =>
      intro place ha
      obtain ⟨name, F⟩ := a
      obtain ⟨s, hs, -⟩ := down F (ha _ List.mem_cons_self).1
      obtain ⟨ps, hps⟩ := ih (place + 1) fun p hp => ha p (List.mem_cons_of_mem _ hp)
      exact ⟨_, by simp only [panels, bind_ok']; exact ⟨s, lift_ok.2 hs, ps, hps, rfl⟩⟩
  obtain ⟨ps, hps⟩ := hall fits 1 hF
  obtain ⟨hlen, hget⟩ := panels_ok hps
  refine ⟨r, ps, hr, ?_, hlen, ?_⟩
  · unfold ppPlot
    simp only [bind_ok']
    exact ⟨r, lift_ok.2 hr, (cols, rows), by rw [hlay], by rw [hd]; exact hps⟩
  · intro i name F hi
    obtain ⟨P, s, hP, p1, p2, p3, p4, hs, hpts, hlo, hup⟩ := hget i name F hi
    obtain ⟨hmono, hF01⟩ := hF _ (List.mem_of_getElem? hi)
    obtain ⟨s', hs', hshow, hplain⟩ := down F hmono
    rw [hs] at hs'
    cases hs'
    have hilt : i < fits.length := (List.getElem?_eq_some_iff.1 hi).1
    refine ⟨P, hP, p4, by omega, by rw [p1, p2, p3]; omega, fun h => by rw [hpts]; exact hshow h,
      fun h => by rw [hpts]; exact hplain h, ?_⟩
    have hsub : P.points.Sublist (Pairs r.data r.est F) := by
      rw [hpts]
      cases thin with
      | true => exact (hshow rfl).sublist
      | false => rw [hplain rfl]
    have hxne : xx ≠ [] := by
      intro h0
      have := hlx F
      rw [h0] at this
      simp at this
      exact hne this
    have hyne : r.data.map F ≠ [] := by simpa using hne
    have hmx := maximum_spec hxne
    have hmy := maximum_spec hyne
    have hm0 : 0 ≤ max (maximum xx) (maximum (r.data.map F)) := by
      refine le_max_of_le_right ?_
      obtain ⟨t, -, ht⟩ := List.mem_map.1 hmy.1
      rw [← ht]; exact (hF01 t).1
    intro q hq
    have hq' := hsub.subset hq
    rw [← hpairs] at hq'
    obtain ⟨hq1, hq2⟩ := List.of_mem_zip (show (q.1, q.2) ∈ xx.zip (r.data.map F) from hq')
    have u1 := (hmx.2 _ hq1).trans (le_max_left _ (maximum (r.data.map F)))
    have u2 := (hmy.2 _ hq2).trans (le_max_right (maximum xx) _)
    have l1 : 0 ≤ q.1 := by
      obtain ⟨v, hv, hv'⟩ := List.mem_map.1 hq1
      have := (h01 v hv).2
      rw [← hv']; linarith
    have l2 : 0 ≤ q.2 := by
      obtain ⟨t, -, ht⟩ := List.mem_map.1 hq2
      rw [← ht]; exact (hF01 t).1
    rw [hlo, hup]
    norm_num
    refine ⟨⟨?_, ?_⟩, ?_, ?_⟩ <;> linarith

/-- The axes are not those of the title, "Parametric (x-axis) vs Non-Parametric (y-axis)": the hypotheses of `C126_pp` are met by
two failures and one fit, and the first point has the fitted probability as its vertical coordinate. -/
example {argsort : List ℝ → List ℕ} (harg : IsArgsort argsort) (sqrt : ℝ → ℝ) (ppf : ℝ → Ext ℝ) :
    ∃ ps P, ppPlot argsort sqrt ppf [1, 2] [3] [("unit step", fun t => if t < 2 then 0 else 1)] (.bool false) = .ok ps ∧
      ps[0]? = some P ∧ P.points.map Prod.snd = [0, 1, 1] := by
  obtain ⟨r, ps, hr, h, -, hp⟩ := C126_pp harg sqrt ppf [1, 2] [3] [("unit step", fun t => if t < 2 then 0 else 1)] (by
    intro p hp
    simp only [List.mem_singleton] at hp
    subst hp
    constructor
    · intro a b hab
      dsimp only
      split_ifs <;> first | (exfalso; linarith) | norm_num
    · intro t
      dsimp only
      split_ifs <;> norm_num) (by simp) (by simp) (by simp) false
  obtain ⟨P, hP, -, -, -, -, hpts, -⟩ := hp 0 _ _ rfl
  refine ⟨ps, P, h, hP, ?_⟩
  obtain ⟨hperm, hsorted, hcl, hel, -⟩ := C12_survival_curve harg hr
  have hd : r.data = [1, 2, 3] := by
    have : r.data.Perm [1, 2, 3] := by
      have := hperm.map Prod.fst
      rw [List.map_fst_zip hcl.le] at this
      simpa [Spec.tagged] using this
    rw [← Np.sort_eq_self hsorted, Np.sort_congr this]
    exact Np.sort_eq_self (by norm_num)
  have : (Pairs r.data r.est fun t => if t < 2 then (0 : ℝ) else 1).map Prod.snd =
      r.data.map fun t => if t < 2 then (0 : ℝ) else 1 := by
    unfold Pairs
    rw [List.map_map]
    have e : (Prod.snd ∘ fun p : ℝ × ℝ => (1 - p.1, if p.2 < 2 then (0 : ℝ) else 1)) = (fun t => if t < 2 then (0 : ℝ) else 1) ∘ Prod.snd := rfl
    rw [e, ← List.map_map, List.map_snd_zip hel.ge]
  rw [hpts rfl, this, hd]
  norm_num

end Reliability.Props.FitPlots

import Mathlib.Analysis.Complex.ExponentialBounds
import Verif.Lemmas.SimpsonMono
import Verif.Props.CombinedInit

/-!
# C120: the mean residual life and random samples of the combined models
-/

namespace Reliability.Props.Combined

open Reliability Reliability.Distributions Reliability.Combined Spec List
open Reliability.Props.Distributions

theorem split_any {X : List ℝ} (hX : X.Pairwise (· ≤ ·) ∨ ∀ x ∈ X, 0 ≤ x) (neg : ℝ) (g : ℝ → ℝ) :
    (X.filter fun x => decide (x < 0)).map (fun _ => neg) ++ (X.filter fun x => decide (0 ≤ x)).map g =
      X.map fun x => if 0 ≤ x then g x else neg := by
  rcases hX with hX | hX
  · exact hstack_sorted hX neg g
  · have h1 : (X.filter fun x => decide (x < 0)) = [] := by
      rw [filter_eq_nil_iff]
      intro x hx
      simpa using hX x hx
    have h2 : (X.filter fun x => decide (0 ≤ x)) = X := by
      rw [filter_eq_self]
      intro x hx
      simpa using hX x hx
    rw [h1, h2]
    exact map_congr_left fun x hx => by rw [if_pos (hX x hx)]

theorem SF_map (d : Dist) (X Y : List ℝ) (h : SF d X = .ok Y) : Y = X.map d.sp.sf := by
  simp only [SF] at h
  cases hc : checkX d.fam X with
  | error e => simp [hc] at h
  | ok u => simp only [hc, Except.ok.injEq] at h; exact h.symm

theorem contribution_any {f : Dist → List ℝ → Except Err (List ℝ)} {g : Dist → ℝ → ℝ} {neg : ℝ} {X Y : List ℝ} {d : Dist}
    (hf : ∀ d X Y, f d X = .ok Y → Y = X.map (g d)) (hX : Half d → X.Pairwise (· ≤ ·) ∨ ∀ x ∈ X, 0 ≤ x)
    (h : contribution f neg X d = .ok Y) : Y = X.map fun x => if twoSided d ∨ 0 ≤ x then g d x else neg := by
  simp only [contribution] at h
  by_cases ht : twoSided d
  · rw [if_pos ht] at h
    rw [hf d X Y h]
    exact map_congr_left fun x _ => by simp [ht]
  · rw [if_neg ht] at h
    cases hc : f d (X.filter fun x => decide (0 ≤ x)) with
    | error e => simp [hc] at h
    | ok Z =>
      simp only [hc, Except.ok.injEq] at h
      rw [← h, hf d _ Z hc, split_any (hX (half_iff.1 (by simpa using ht)))]
      exact map_congr_left fun x _ => by simp [ht]

theorem weighted_any {f : Dist → List ℝ → Except Err (List ℝ)} {g : Dist → ℝ → ℝ} {X Y : List ℝ} {dp : Dist × ℝ}
    (hf : ∀ d X Y, f d X = .ok Y → Y = X.map (g d)) (hX : Half dp.1 → X.Pairwise (· ≤ ·) ∨ ∀ x ∈ X, 0 ≤ x)
    (h : weighted f X dp = .ok Y) : Y = X.map fun x => (if twoSided dp.1 ∨ 0 ≤ x then g dp.1 x else 0) * dp.2 := by
  simp only [weighted] at h
  by_cases ht : twoSided dp.1
  · rw [if_pos ht] at h
    cases hc : f dp.1 X with
    | error e => simp [hc] at h
    | ok Z =>
      simp only [hc, Except.ok.injEq] at h
      rw [← h, hf _ X Z hc, map_map]
      exact map_congr_left fun x _ => by simp [ht]
  · rw [if_neg ht] at h
    cases hc : f dp.1 (X.filter fun x => decide (0 ≤ x)) with
    | error e => simp [hc] at h
    | ok Z =>
      simp only [hc, Except.ok.injEq] at h
      rw [← h, hf _ _ Z hc, map_map, split_any (hX (half_iff.1 (by simpa using ht)))]
      exact map_congr_left fun x _ => by simp only [Function.comp]; split <;> simp_all

/-- What the mean residual life needs of the grid. -/
structure GridOk (ds : List Dist) (X : List ℝ) : Prop where
  ne : X ≠ []
  nonneg : ∀ d ∈ ds, Half d → ∃ x ∈ X, 0 ≤ x
  beta : ∀ d ∈ ds, d.fam = .beta → ∀ x ∈ X, x ≤ 1
  order : ∀ d ∈ ds, Half d → X.Pairwise (· ≤ ·) ∨ ∀ x ∈ X, 0 ≤ x

theorem competingSF_eq {ds : List Dist} {X : List ℝ} (hd : ∀ d ∈ ds, Proper d) (h : GridOk ds X) :
    competingSF ds X = .ok (X.map fun x => (ds.map fun d => d.sp.sf x).prod) := by
  have herr : ∀ d e, contribution SF 1 X d = .error e → e = .valueError :=
    fun d e h => contribution_error (fun d X e => SF_error) 1 X d e h
  rcases collect_isOk _ herr ds with ⟨-, ss, h2⟩ | ⟨⟨d, m, hd'⟩, -⟩
  · unfold competingSF
    have e1 := collect_ok h2 (fun d => X.map fun x => if twoSided d ∨ 0 ≤ x then d.sp.sf x else 1)
      (fun d m Y hY => contribution_any SF_map (h.order d m) hY)
    rw [h2]
    dsimp only
    rw [e1, foldl_zipWith]
    simp only [foldl_mul, one_mul]
    congr 1
    refine map_congr_left fun x _ => ?_
    congr 1
    exact map_congr_left fun d m => (hd d m).sfValue x
  · obtain ⟨Y, hY⟩ := (contribution_isOk SF_isOk 1 X h.ne d).2 fun hh => ⟨h.nonneg d m hh, h.beta d m⟩
    rw [hY, valueErr] at hd'
    cases hd'

theorem mixtureSF_eq {ds : List Dist} {p X : List ℝ} (hl : p.length = ds.length) (hd : ∀ d ∈ ds, Proper d) (h : GridOk ds X) :
    mixtureSF ds p X = .ok (X.map fun x => 1 - wsum ds p fun d => d.sp.cdf x) := by
  rcases collect_weighted CDF_isOk CDF_error ds p X hl h.ne with ⟨⟨cs, h1⟩, -⟩ | ⟨-, h2⟩
  · unfold mixtureSF
    have e1 := collect_ok h1 (fun dp => X.map fun x => (if twoSided dp.1 ∨ 0 ≤ x then dp.1.sp.cdf x else 0) * dp.2)
      (fun dp m Y hY => weighted_any CDF_map (h.order dp.1 (List.of_mem_zip m).1) hY)
    rw [h1]
    dsimp only
    rw [e1, foldl_zipWith, map_map]
    simp only [foldl_add, zero_add]
    congr 1
    refine map_congr_left fun x _ => ?_
    simp only [Function.comp, wsum]
    congr 2
    refine map_congr_left fun dp m => ?_
    congr 1
    exact (hd dp.1 (List.of_mem_zip m).1).cdfValue x
  · exact absurd (fun d m hh => ⟨h.nonneg d m hh, h.beta d m⟩) h2

/-! ## At a single time -/

theorem Lib.sf_zero {d : Dist} (h : Lib d) (hh : Half d) : d.sp.sf 0 = 1 := by
  cases h with
  | weibull a b g ha hb hg => exact ((C33_weibull a b g ha hb).2 0 hg).2
  | exponential l g hl hg => exact ((C33_exponential l g hl).2 0 hg).2
  | normal m s hs => exact absurd rfl hh.1
  | lognormal m s g hs hg => exact ((C33_lognormal m s g hs).2 0 hg).2
  | gamma a b g ha hb hg => exact ((C33_gamma a b g ha hb).2 0 hg).2
  | beta a b ha hb => exact ((C33_beta a b ha hb).2.1 0 le_rfl).2
  | loglogistic a b g ha hb hg => exact ((C33_loglogistic a b g ha hb).2 0 hg).2
  | gumbel m s hs => exact absurd rfl hh.2

/-- Survival is possible at every time below 1, and at every time unless the distribution is a Beta. -/
theorem Lib.sf_pos {d : Dist} (h : Lib d) {x : ℝ} (hx : d.fam = .beta → x < 1) : 0 < d.sp.sf x := by
  by_cases hb : d.fam = .beta
  · replace hx := hx hb
    cases h with
    | beta a b ha hb' =>
      rcases le_or_gt x 0 with h0 | h0
      · rw [((C33_beta a b ha hb').2.1 x h0).2]; exact one_pos
      · have h2 := ((C34_beta a b ha hb').range x ⟨h0, hx⟩).2
        have := (C33_beta a b ha hb').1.compl x
        linarith
    | weibull a b g ha hb' hg => cases hb
    | exponential l g hl hg => cases hb
    | normal m s hs => cases hb
    | lognormal m s g hs hg => cases hb
    | gamma a b g ha hb' hg => cases hb
    | loglogistic a b g ha hb' hg => cases hb
    | gumbel m s hs => cases hb
  · exact h.component.sf_pos hb x

theorem single_eq {f : Dist → List ℝ → Except Err (List ℝ)} {g : Dist → ℝ → ℝ}
    (hf : ∀ d X Y, f d X = .ok Y → Y = X.map (g d)) (hok : ∀ d X, (∃ Y, f d X = .ok Y) ↔ checkX d.fam X = .ok ())
    {d : Dist} {t : ℝ} (h : twoSided d ∨ 0 < t) (hb : d.fam = .beta → t ≤ 1) : single f d t = .ok (g d t) := by
  have hc : checkX d.fam [t] = .ok () := by
    rw [checkX_ok]
    refine ⟨by simp, fun h1 h2 x hx => ?_, fun h1 x hx => ?_⟩
    · rw [mem_singleton] at hx
      subst hx
      rcases h with h | h
      · rcases (by simpa [twoSided] using h : d.fam = .normal ∨ d.fam = .gumbel) with h' | h'
        · exact absurd h' h1
        · exact absurd h' h2
      · exact h.le
    · rw [mem_singleton] at hx
      subst hx
      exact hb h1
  obtain ⟨Y, hY⟩ := (hok d [t]).2 hc
  unfold single
  rw [hY, hf d [t] Y hY]
  rfl

theorem competingSF1_eq {ds : List Dist} (hd : ∀ d ∈ ds, Lib d) {t : ℝ} (hb : ∀ d ∈ ds, d.fam = .beta → t ≤ 1) (acc : ℝ) :
    competingSF1 t ds acc = .ok (acc * (ds.map fun d => d.sp.sf t).prod) := by
  induction ds generalizing acc with
  | nil => simp [competingSF1]
  | cons d ds ih =>
    unfold competingSF1
    rw [map_cons, prod_cons, ← mul_assoc]
    by_cases h : twoSided d ∨ 0 < t
    · rw [if_pos h, single_eq SF_map SF_isOk h (hb d (by simp))]
      exact ih (fun d m => hd d (by simp [m])) (fun d m => hb d (by simp [m])) _
    · rw [if_neg h, ih (fun d m => hd d (by simp [m])) (fun d m => hb d (by simp [m]))]
      rw [not_or, not_lt] at h
      have hh : Half d := half_iff.1 (by simpa using h.1)
      have : d.sp.sf t = 1 := by
        rcases h.2.eq_or_lt with e | e
        · rw [e]; exact (hd d (by simp)).sf_zero hh
        · exact (hd d (by simp)).component.proper.pos hh t e
      rw [this, mul_one]

theorem mixtureSF1_eq {ds : List Dist} {p : List ℝ} (hd : ∀ d ∈ ds, Lib d) {t : ℝ} (hb : ∀ d ∈ ds, d.fam = .beta → t ≤ 1) (acc : ℝ) :
    mixtureSF1 t (ds.zip p) acc = .ok (1 - (acc + wsum ds p fun d => d.sp.cdf t)) := by
  induction ds generalizing acc p with
  | nil => simp [mixtureSF1, wsum]
  | cons d ds ih =>
    cases p with
    | nil => simp [mixtureSF1, wsum]
    | cons a p =>
      rw [zip_cons_cons, wsum_cons, ← add_assoc]
      unfold mixtureSF1
      by_cases h : twoSided d ∨ 0 < t
      · rw [if_pos h, single_eq CDF_map CDF_isOk h (hb d (by simp))]
        dsimp only
        rw [ih (fun d m => hd d (by simp [m])) (fun d m => hb d (by simp [m]))]
      · rw [if_neg h, ih (fun d m => hd d (by simp [m])) (fun d m => hb d (by simp [m]))]
        rw [not_or, not_lt] at h
        have hh : Half d := half_iff.1 (by simpa using h.1)
        have : d.sp.sf t = 1 := by
          rcases h.2.eq_or_lt with e | e
          · rw [e]; exact (hd d (by simp)).sf_zero hh
          · exact (hd d (by simp)).component.proper.pos hh t e
        have hc := (hd d (by simp)).component.proper.law.compl t
        have : d.sp.cdf t = 0 := by linarith
        rw [this]
        simp

/-! ## The quotient -/

theorem quadSum_const {a b : ℝ} {X w : List ℝ} (h : Quadrature a b X w) (c : ℝ) : quadSum w X (fun _ => c) = c * (b - a) := by
  have := h.exact c 0 0
  simp only [zero_mul, add_zero, intervalIntegral.integral_const, smul_eq_mul] at this
  rw [this]; ring

theorem quadSum_mono {w X : List ℝ} {f g : ℝ → ℝ} (hw : ∀ v ∈ w, 0 ≤ v) (h : ∀ x ∈ X, f x ≤ g x) :
    quadSum w X f ≤ quadSum w X g := by
  have h0 := quadSum_nonneg (g := fun x => g x + -1 * f x) hw (fun x hx => by linarith [h x hx])
  rw [quadSum_add, quadSum_mul] at h0
  linarith

theorem quadSum_pos {a b : ℝ} {X w : List ℝ} (h : Quadrature a b X w) {f : ℝ → ℝ} (hf : ∀ x ∈ X, 0 ≤ f x)
    {x : ℝ} (hx : x ∈ X) (hp : 0 < f x) : 0 < quadSum w X f := by
  refine lt_of_le_of_ne (quadSum_nonneg (fun v hv => (h.pos v hv).le) hf) fun h0 => ?_
  obtain ⟨i, hi, rfl⟩ := mem_iff_getElem.1 hx
  have hnn : ∀ y ∈ zipWith (fun v x => v * f x) w X, 0 ≤ y := by
    intro y hy
    obtain ⟨j, hj, rfl⟩ := mem_iff_getElem.1 hy
    simp only [getElem_zipWith]
    exact mul_nonneg (h.pos _ (getElem_mem _)).le (hf _ (getElem_mem _))
  have hl := h.length
  have hm : w[i] * f X[i] ∈ zipWith (fun v x => v * f x) w X :=
    mem_iff_getElem.2 ⟨i, by simp [hl, hi], by simp⟩
  have hle := List.single_le_sum hnn _ hm
  have : 0 < w[i] * f X[i] := mul_pos (h.pos _ (getElem_mem _)) hp
  unfold quadSum at h0
  linarith

theorem quotient_bounds {t b : ℝ} (ht : t < b) {n : ℕ} (hn : 3 ≤ n) {S : ℝ → ℝ} (hS : Antitone S) (h0 : ∀ x, 0 ≤ S x) (hp : 0 < S t) :
    let r := quadSum (simpsonRule t b n) (Np.linspace t b n) S / S t
    0 < r ∧ r ≤ b - t ∧ |r - (∫ x in t..b, S x) / S t| ≤ (b - t) / (n - 1) := by
  intro r
  have hq := simpsonRule_quadrature ht hn
  refine ⟨div_pos (quadSum_pos hq (fun x _ => h0 x) (mem_linspace_first hn) hp) hp, ?_, ?_⟩
  · rw [div_le_iff₀ hp]
    have := quadSum_mono (X := Np.linspace t b n) (f := S) (g := fun _ => S t) (fun v hv => (hq.pos v hv).le)
      (fun x hx => hS (Np.linspace_mem ht.le hx).1)
    rw [quadSum_const hq] at this
    linarith
  · have he := simpson_antitone ht hn hS
    have hst : 0 ≤ (b - t) / ((n : ℝ) - 1) := by
      have : (3 : ℝ) ≤ n := by exact_mod_cast hn
      exact div_nonneg (by linarith) (by linarith)
    rw [← sub_div, abs_div, abs_of_pos hp, div_le_iff₀ hp]
    refine he.trans (mul_le_mul_of_nonneg_left ?_ hst)
    linarith [h0 b]

theorem simpsonRule_swap (a b : ℝ) (n : ℕ) : simpsonRule b a n = (simpsonRule a b n).map fun v => -v := by
  unfold simpsonRule
  rw [map_map]
  refine map_congr_left fun v _ => ?_
  simp only [Function.comp]
  ring

theorem quadSum_neg_weights (w X : List ℝ) (f : ℝ → ℝ) : quadSum (w.map fun v => -v) X f = -quadSum w X f := by
  unfold quadSum
  induction w generalizing X with
  | nil => simp
  | cons v w ih =>
    cases X with
    | nil => simp
    | cons x X => simp only [map_cons, zipWith_cons_cons, sum_cons, ih]; ring

/-- From a later time back to an earlier one the sum of a positive function is negative. -/
theorem quotient_neg {t b : ℝ} (ht : b < t) {n : ℕ} (hn : 3 ≤ n) {S : ℝ → ℝ} (h0 : ∀ x, 0 < S x) :
    quadSum (simpsonRule t b n) (Np.linspace t b n) S / S t < 0 := by
  refine div_neg_of_neg_of_pos ?_ (h0 t)
  rw [simpsonRule_swap, quadSum_neg_weights, neg_lt_zero]
  have hq := simpsonRule_quadrature ht hn
  have hnn : ∀ y ∈ zipWith (fun v x => v * S x) (simpsonRule b t n) (Np.linspace t b n), 0 < y := by
    intro y hy
    obtain ⟨j, hj, rfl⟩ := mem_iff_getElem.1 hy
    simp only [getElem_zipWith]
    exact mul_pos (hq.pos _ (getElem_mem _)) (h0 _)
  refine List.sum_pos _ hnn ?_
  rw [← length_pos_iff_ne_nil]
  have := hq.length
  simp [Np.linspace_length] at this ⊢
  omega

theorem competingMRL_eq {n : ℕ} {ds : List Dist} (hd : ∀ d ∈ ds, Lib d) {m : Built} {t : ℝ}
    (hg : GridOk ds (Np.linspace t m.xmax_inf n)) (hb : ∀ d ∈ ds, d.fam = .beta → t ≤ 1) :
    competingMRL n ds m t = .ok (quadSum (simpsonRule t m.xmax_inf n) (Np.linspace t m.xmax_inf n)
      (fun x => (ds.map fun d => d.sp.sf x).prod) / (ds.map fun d => d.sp.sf t).prod) := by
  unfold competingMRL
  rw [competingSF_eq (fun d m => (hd d m).component.proper) hg]
  dsimp only
  rw [competingSF1_eq hd hb]
  dsimp only
  rw [simpson_eq, one_mul]

theorem mixtureMRL_eq {n : ℕ} {ds : List Dist} {p : List ℝ} (hl : p.length = ds.length) (hd : ∀ d ∈ ds, Lib d) {m : Built} {t : ℝ}
    (hg : GridOk ds (Np.linspace t m.xmax_inf n)) (hb : ∀ d ∈ ds, d.fam = .beta → t ≤ 1) :
    mixtureMRL n ds p m t = .ok (quadSum (simpsonRule t m.xmax_inf n) (Np.linspace t m.xmax_inf n)
      (fun x => 1 - wsum ds p fun d => d.sp.cdf x) / (1 - wsum ds p fun d => d.sp.cdf t)) := by
  unfold mixtureMRL
  rw [mixtureSF_eq hl (fun d m => (hd d m).component.proper) hg]
  dsimp only
  rw [mixtureSF1_eq hd hb]
  dsimp only
  rw [simpson_eq, zero_add]

theorem gridOk_before {ds : List Dist} {t b : ℝ} (ht : t < b) {n : ℕ} (hn : 3 ≤ n) (h0 : (∃ d ∈ ds, Half d) → 0 ≤ b)
    (hb : ∀ d ∈ ds, d.fam = .beta → b ≤ 1) : GridOk ds (Np.linspace t b n) :=
  ⟨linspace_ne hn, fun d m hh => ⟨b, mem_linspace_last hn, h0 ⟨d, m, hh⟩⟩,
    fun d m hf x hx => (Np.linspace_mem ht.le hx).2.trans (hb d m hf), fun _ _ _ => .inl (linspace_le ht n)⟩

theorem linspace_ge {t b : ℝ} (ht : b < t) {n : ℕ} (hn : 3 ≤ n) {x : ℝ} (hx : x ∈ Np.linspace t b n) : b ≤ x := by
  unfold Np.linspace at hx
  obtain ⟨i, hi, rfl⟩ := mem_map.1 hx
  rw [mem_range] at hi
  have h1 : (i : ℝ) ≤ ((n - 1 : ℕ) : ℝ) := by exact_mod_cast (by omega : i ≤ n - 1)
  have h2 : (0 : ℝ) < ((n - 1 : ℕ) : ℝ) := by
    have : 0 < n - 1 := by omega
    exact_mod_cast this
  have h3 : (b - t) / ((n - 1 : ℕ) : ℝ) * ((n - 1 : ℕ) : ℝ) = b - t := div_mul_cancel₀ _ h2.ne'
  have h4 : (b - t) / ((n - 1 : ℕ) : ℝ) < 0 := div_neg_of_neg_of_pos (by linarith) h2
  nlinarith

theorem gridOk_after {ds : List Dist} {t b : ℝ} (ht : b < t) {n : ℕ} (hn : 3 ≤ n) (h0 : (∃ d ∈ ds, Half d) → 0 ≤ b)
    (hb : ∀ d ∈ ds, d.fam ≠ .beta) : GridOk ds (Np.linspace t b n) :=
  ⟨linspace_ne hn, fun d m hh => ⟨b, mem_linspace_last hn, h0 ⟨d, m, hh⟩⟩, fun d m hf => absurd hf (hb d m),
    fun d m hh => .inr fun _ hx => (h0 ⟨d, m, hh⟩).trans (linspace_ge ht hn hx)⟩

/-- What the constructor leaves behind for the mean residual life. -/
theorem competing_max {n : ℕ} (hn : 3 ≤ n) {ds : List Dist} (hne : ds ≠ []) (hd : ∀ d ∈ ds, Lib d) (hr : InRange ds) {m : Built}
    (h : competingInit n ds = .ok m) : m.xmax_inf = (gridEnds ds).2 ∧ ((∃ d ∈ ds, Half d) → 0 ≤ m.xmax_inf) ∧
      ∀ d ∈ ds, d.fam = .beta → m.xmax_inf ≤ 1 := by
  have hd' := fun d h => (hd d h).component
  obtain ⟨⟨-, hb⟩, -, -, hb0⟩ := gridEnds_spec hne hd' hr
  have hx : m.xmax_inf = (gridEnds ds).2 := by
    rcases competingInit_eq hn hne hd' hr with ⟨A, hA, hI⟩ | ⟨hA, hI⟩
    · rw [hI] at h; cases h; rfl
    · rw [hI] at h; cases h
  rw [hx]
  refine ⟨rfl, hb0, fun d md hf => ?_⟩
  obtain ⟨d', m', e⟩ := hb.1
  rw [e]
  exact (C119_competing_builds n hn ds hne hd hr).1.1 ⟨m, h⟩ d md hf d' m'

theorem mixture_max {n : ℕ} (hn : 3 ≤ n) {ds : List Dist} (hne : ds ≠ []) (hd : ∀ d ∈ ds, Lib d) (hr : InRange ds)
    {pr : Option (List ℝ)} {p : List ℝ} {m : Built} (h : mixtureBuild n ds pr = .ok (p, m)) :
    p.length = ds.length ∧ p.sum = 1 ∧ m.xmax_inf = (gridEnds ds).2 ∧ ((∃ d ∈ ds, Half d) → 0 ≤ m.xmax_inf) ∧
      ∀ d ∈ ds, d.fam = .beta → m.xmax_inf ≤ 1 := by
  have hd' := fun d h => (hd d h).component
  obtain ⟨⟨-, hb⟩, -, -, hb0⟩ := gridEnds_spec hne hd' hr
  cases hp : mixtureInit ds pr with
  | error e => simp only [mixtureBuild, hp] at h; cases h
  | ok p' =>
    obtain ⟨hl, hs, hB⟩ := mixtureBuild_eq hn hne hd' hr hp
    rcases hB with ⟨A, hA, hI⟩ | ⟨hA, hI⟩
    swap
    · rw [hI] at h; cases h
    have h' := h
    rw [hI] at h
    cases h
    refine ⟨hl, hs, rfl, hb0, fun d md hf => ?_⟩
    obtain ⟨d', m', e⟩ := hb.1
    dsimp only
    rw [e]
    exact (C119_mixture_builds n hn ds hne hd hr pr p hp).1.1 ⟨_, h'⟩ d md hf d' m'

theorem prod_antitone' {ds : List Dist} (hd : ∀ d ∈ ds, Proper d) : Antitone fun x => (ds.map fun d => d.sp.sf x).prod := by
  intro x y hxy
  have := prod_antitone hd hxy
  simp only at this ⊢
  linarith

theorem prod_sf_nonneg {ds : List Dist} (hd : ∀ d ∈ ds, Proper d) (x : ℝ) : 0 ≤ (ds.map fun d => d.sp.sf x).prod := by
  refine List.prod_nonneg fun y hy => ?_
  obtain ⟨d, m, rfl⟩ := mem_map.1 hy
  have h1 := (hd d m).law.compl x
  have h2 := ((hd d m).law.range x).2
  linarith

theorem prod_sf_pos {ds : List Dist} (hd : ∀ d ∈ ds, Lib d) {x : ℝ} (hb : ∀ d ∈ ds, d.fam = .beta → x < 1) :
    0 < (ds.map fun d => d.sp.sf x).prod := by
  refine List.prod_pos fun y hy => ?_
  obtain ⟨d, m, rfl⟩ := mem_map.1 hy
  exact (hd d m).sf_pos (hb d m)

/-- The survival function of a mixture. -/
theorem mix_sf {ds : List Dist} {p : List ℝ} (hd : ∀ d ∈ ds, Proper d) (hl : p.length = ds.length) (hs : p.sum = 1) (x : ℝ) :
    (1 - wsum ds p fun d => d.sp.cdf x) = wsum ds p fun d => d.sp.sf x := by
  have := wsum_compl (ds := ds) (p := p) (v := fun d => d.sp.cdf x) (w := fun d => d.sp.sf x) hl
    (fun d m => (hd d m).law.compl x)
  linarith

theorem mix_sf_pos {ds : List Dist} {p : List ℝ} (hd : ∀ d ∈ ds, Lib d) (hl : p.length = ds.length) (hs : p.sum = 1)
    (h0 : ∀ a ∈ p, 0 ≤ a) {x : ℝ} (hb : ∀ d ∈ ds, d.fam = .beta → x < 1) : 0 < wsum ds p fun d => d.sp.sf x := by
  have key : ∀ (ds : List Dist) (p : List ℝ), (∀ d ∈ ds, 0 < d.sp.sf x) → p.length = ds.length → 0 < p.sum → (∀ a ∈ p, 0 ≤ a) →
      0 < wsum ds p fun d => d.sp.sf x := by
    intro ds
    induction ds with
    | nil => intro p _ hl hs; rw [length_nil, length_eq_zero_iff] at hl; subst hl; simp at hs
    | cons d ds ih =>
      intro p hd hl hs h0
      cases p with
      | nil => simp at hl
      | cons a p =>
        rw [wsum_cons]
        have ha := h0 a (by simp)
        have hnn : 0 ≤ wsum ds p fun d => d.sp.sf x := by
          refine List.sum_nonneg fun y hy => ?_
          obtain ⟨dp, m, rfl⟩ := mem_map.1 hy
          exact mul_nonneg (hd dp.1 (by simp [(List.of_mem_zip m).1])).le (h0 dp.2 (by simp [(List.of_mem_zip m).2]))
        rcases ha.eq_or_lt with e | e
        · rw [← e]
          have := ih p (fun d m => hd d (by simp [m])) (by simpa using hl) (by rw [sum_cons, ← e] at hs; simpa using hs)
            (fun b hb => h0 b (by simp [hb]))
          simpa using this
        · have := mul_pos (hd d (by simp)) e
          linarith
  exact key ds p (fun d m => (hd d m).sf_pos (hb d m)) hl (by rw [hs]; exact one_pos) h0

/-- **C120 (mean residual life, Competing risks).** At every time before the effective end of life `b` (the largest 1 - 1e-10
quantile of the components), `mean_residual_life(t)` is positive, at most `b - t`, and within one grid step
`(b - t) / (n - 1)` of the integral of the survival function from `t` to `b` divided by its value at `t`. -/
theorem C120_competing (n : ℕ) (hn : 3 ≤ n) (ds : List Dist) (hne : ds ≠ []) (hd : ∀ d ∈ ds, Lib d) (hr : InRange ds)
    (m : Built) (h : competingInit n ds = .ok m) (t : ℝ) (ht : t < m.xmax_inf) :
    ∃ r, competingMRL n ds m t = .ok r ∧ 0 < r ∧ r ≤ m.xmax_inf - t ∧
      |r - (∫ x in t..m.xmax_inf, (ds.map fun d => d.sp.sf x).prod) / (ds.map fun d => d.sp.sf t).prod| ≤
        (m.xmax_inf - t) / (n - 1) := by
  obtain ⟨-, h0, hb⟩ := competing_max hn hne hd hr h
  have hp := fun d m => (hd d m).component.proper
  refine ⟨_, competingMRL_eq hd (gridOk_before ht hn h0 hb) (fun d m hf => ht.le.trans (hb d m hf)), ?_⟩
  exact quotient_bounds ht hn (prod_antitone' hp) (prod_sf_nonneg hp) (prod_sf_pos hd fun d m hf => ht.trans_le (hb d m hf))

/-- **C120 (mean residual life, Mixture).** The same for a mixture with proportions that are not negative; its survival
function is the weighted sum of the components'. -/
theorem C120_mixture (n : ℕ) (hn : 3 ≤ n) (ds : List Dist) (hne : ds ≠ []) (hd : ∀ d ∈ ds, Lib d) (hr : InRange ds)
    (pr : Option (List ℝ)) (p : List ℝ) (m : Built) (h : mixtureBuild n ds pr = .ok (p, m)) (hp0 : ∀ a ∈ p, 0 ≤ a)
    (t : ℝ) (ht : t < m.xmax_inf) :
    ∃ r, mixtureMRL n ds p m t = .ok r ∧ 0 < r ∧ r ≤ m.xmax_inf - t ∧
      |r - (∫ x in t..m.xmax_inf, ((ds.zip p).map fun dp => dp.1.sp.sf x * dp.2).sum) /
          ((ds.zip p).map fun dp => dp.1.sp.sf t * dp.2).sum| ≤ (m.xmax_inf - t) / (n - 1) := by
  obtain ⟨hl, hs, -, h0, hb⟩ := mixture_max hn hne hd hr h
  have hp := fun d m => (hd d m).component.proper
  refine ⟨_, mixtureMRL_eq hl hd (gridOk_before ht hn h0 hb) (fun d m hf => ht.le.trans (hb d m hf)), ?_⟩
  have e : ∀ x, (1 - wsum ds p fun d => d.sp.cdf x) = wsum ds p fun d => d.sp.sf x := mix_sf hp hl hs
  have hpos : 0 < wsum ds p fun d => d.sp.sf t := mix_sf_pos hd hl hs hp0 fun d m hf => ht.trans_le (hb d m hf)
  have hanti : Antitone fun x => wsum ds p fun d => d.sp.sf x := by
    intro x y hxy
    have := wsum_mono hp0 hp hxy
    simp only [← e] at this ⊢
    linarith
  have hnn : ∀ x, 0 ≤ wsum ds p fun d => d.sp.sf x := by
    intro x
    refine List.sum_nonneg fun y hy => ?_
    obtain ⟨dp, mm, rfl⟩ := mem_map.1 hy
    have h1 := (hp dp.1 (List.of_mem_zip mm).1).law.compl x
    have h2 := ((hp dp.1 (List.of_mem_zip mm).1).law.range x).2
    exact mul_nonneg (by linarith) (hp0 dp.2 (List.of_mem_zip mm).2)
  simp only [e]
  exact quotient_bounds ht hn hanti hnn hpos

/-- **C120 (finding).** At every time after the effective end of life the reported mean residual life is negative, for both
models (without Beta components), although survival is still possible. -/
theorem C120_negative_finding (n : ℕ) (hn : 3 ≤ n) (ds : List Dist) (hne : ds ≠ []) (hd : ∀ d ∈ ds, Lib d) (hr : InRange ds)
    (hb : ∀ d ∈ ds, d.fam ≠ .beta) (t : ℝ) :
    (∀ m, competingInit n ds = .ok m → m.xmax_inf < t → ∃ r, competingMRL n ds m t = .ok r ∧ r < 0) ∧
    ∀ pr p m, mixtureBuild n ds pr = .ok (p, m) → (∀ a ∈ p, 0 ≤ a) → m.xmax_inf < t →
      ∃ r, mixtureMRL n ds p m t = .ok r ∧ r < 0 := by
  have hp := fun d m => (hd d m).component.proper
  constructor
  · intro m h ht
    obtain ⟨-, h0, -⟩ := competing_max hn hne hd hr h
    refine ⟨_, competingMRL_eq hd (gridOk_after ht hn h0 hb) (fun d m hf => absurd hf (hb d m)), ?_⟩
    exact quotient_neg (S := fun x => (ds.map fun d => d.sp.sf x).prod) ht hn
      fun x => prod_sf_pos hd fun d m hf => absurd hf (hb d m)
  · intro pr p m h hp0 ht
    obtain ⟨hl, hs, -, h0, -⟩ := mixture_max hn hne hd hr h
    refine ⟨_, mixtureMRL_eq hl hd (gridOk_after ht hn h0 hb) (fun d m hf => absurd hf (hb d m)), ?_⟩
    refine quotient_neg (S := fun x => 1 - wsum ds p fun d => d.sp.cdf x) ht hn fun x => ?_
    rw [mix_sf hp hl hs]
    exact mix_sf_pos hd hl hs hp0 fun d m hf => absurd hf (hb d m)

/-! ## Random samples -/

/-- From its quantiles on, a component that is not a Beta has a positive density and hazard. -/
theorem Lib.density_pos {d : Dist} (h : Lib d) (hb : d.fam ≠ .beta) {q : ℝ} (h0 : 0 < q) (h1 : q < 1) {x : ℝ} (hx : d.sp.ppf q ≤ x) :
    0 < pdfValue d x ∧ 0 < hfValue d x := by
  have hc := h.component
  have hcond : twoSided d ∨ 0 ≤ x := by
    by_cases ht : twoSided d
    · exact .inl ht
    · exact .inr ((quant_nonneg hc (half_iff.1 (by simpa using ht)) h0 h1).trans hx)
  have ratio : ∀ {fam : Fam} {sp : Scipy} {lo up : Option ℝ}, SurvivalLaw sp.cdf sp.sf → 0 < sp.pdf x → 0 < sp.sf x →
      0 < hfOwn (ofScipy fam sp lo up) x := by
    intro fam sp lo up law hp hs
    have := law.compl x
    simp only [hfOwn, ofScipy]
    exact div_pos hp (by linarith)
  have hs := hc.sf_pos hb x
  unfold pdfValue hfValue
  rw [if_pos hcond, if_pos hcond]
  cases h with
  | weibull a b g ha hb' hg =>
    have hg' : 0 < x - g := by
      have := (C34_weibull a b g ha hb').mem q h0 h1
      have : g < x := lt_of_lt_of_le this hx
      linarith
    have hr : 0 < (x - g) / a := div_pos hg' ha
    constructor
    · simp only [Distributions.weibull, locScale, weibullStd]
      rw [if_neg (not_lt.2 hr.le)]
      positivity
    · simp only [Distributions.weibull, hfOwn]
      rw [if_neg (by rintro ⟨_, h⟩; linarith)]
      positivity
  | exponential l g hl hg =>
    have hg' : 0 < x - g := by
      have := (C34_exponential l g hl).mem q h0 h1
      have : g < x := lt_of_lt_of_le this hx
      linarith
    have hr : 0 < (x - g) / (1 / l) := div_pos hg' (by positivity)
    constructor
    · simp only [Distributions.exponential, locScale, exponStd]
      rw [if_neg (not_lt.2 hr.le)]
      positivity
    · simp only [Distributions.exponential, hfOwn]
      rw [if_neg (by rintro ⟨_, h⟩; linarith)]
      positivity
  | normal m s hs' =>
    have hp : 0 < (locScale normStd m s).pdf x := by
      simp only [locScale, normStd, ofDensity, normStdPdf]
      positivity
    exact ⟨hp, ratio (C33_normal m s hs') hp hs⟩
  | lognormal m s g hs' hg =>
    have hg' : 0 < x - g := by
      have := (C34_lognormal m s g hs').mem q h0 h1
      have : g < x := lt_of_lt_of_le this hx
      linarith
    have hr : 0 < (x - g) / Real.exp m := div_pos hg' (Real.exp_pos m)
    have hp : 0 < (locScale (lognormStd s) g (Real.exp m)).pdf x := by
      simp only [locScale, lognormStd, normStdPdf]
      rw [if_neg (not_le.2 hr)]
      positivity
    exact ⟨hp, ratio (C33_lognormal m s g hs').1 hp hs⟩
  | gamma a b g ha hb' hg =>
    have hg' : 0 < x - g := by
      have := (C34_gamma a b g ha hb').mem q h0 h1
      have : g < x := lt_of_lt_of_le this hx
      linarith
    have hr : 0 < (x - g) / a := div_pos hg' ha
    have hp : 0 < (locScale (ofDensity (gammaStdPdf b)) g a).pdf x := by
      simp only [locScale, ofDensity, gammaStdPdf]
      have := Real.Gamma_pos_of_pos hb'
      rw [if_neg (not_lt.2 hr.le)]
      positivity
    exact ⟨hp, ratio (C33_gamma a b g ha hb').1 hp hs⟩
  | beta a b ha hb' => exact absurd rfl hb
  | loglogistic a b g ha hb' hg =>
    have hg' : 0 < x - g := by
      have := (C34_loglogistic a b g ha hb').mem q h0 h1
      have : g < x := lt_of_lt_of_le this hx
      linarith
    have hr : 0 < (x - g) / a := div_pos hg' ha
    constructor
    · simp only [Distributions.loglogistic, locScale, fiskStd]
      rw [if_neg (not_lt.2 hr.le)]
      positivity
    · simp only [Distributions.loglogistic, hfOwn]
      rw [if_neg (by rintro ⟨_, h⟩; linarith)]
      positivity
  | gumbel m s hs' =>
    constructor
    · simp only [Distributions.gumbel, locScale, gumbelStd]
      positivity
    · simp only [Distributions.gumbel, hfOwn]
      positivity

/-- What numpy's `random.choice` is trusted to do: draw as many indices as asked for, each of positive probability. -/
def Draws (choice : ℕ → List ℝ → List ℕ) : Prop :=
  ∀ k p, (∀ x ∈ p, 0 ≤ x) → p.sum = 1 → (choice k p).length = k ∧ ∀ i ∈ choice k p, ∃ v, p[i]? = some v ∧ 0 < v

/-- The samples drawn from a model with the arrays `X` and `pdf`: `number` points of `X`, all of positive density, at indices
drawn with probabilities proportional to the density. -/
structure SamplesFrom (choice : ℕ → List ℝ → List ℕ) (X pdf : List ℝ) (number : ℤ) (l : List ℝ) : Prop where
  length : (l.length : ℤ) = number
  mem : ∀ x ∈ l, ∃ (i : ℕ) (f : ℝ), X[i]? = some x ∧ pdf[i]? = some f ∧ 0 < f
  drawn : ∃ (p : List ℝ) (c : ℝ), 0 < c ∧ p.map (fun v => c * v) = pdf ∧ p.sum = 1 ∧
    l.map some = (choice number.toNat p).map fun i => X[i]?

theorem samples_ok {choice : ℕ → List ℝ → List ℕ} (hc : Draws choice) {m : Built} (hl : m.X.length = m.pdf.length)
    (hnn : ∀ f ∈ m.pdf, 0 ≤ f) (hpos : ∃ f ∈ m.pdf, 0 < f) (number : ℤ) :
    (number < 1 → modelSamples choice m number = valueErr) ∧
    (1 ≤ number → ∃ l, modelSamples choice m number = .ok l ∧ SamplesFrom choice m.X m.pdf number l) := by
  have hs : 0 < m.pdf.sum := by
    obtain ⟨f, hf, h0⟩ := hpos
    exact h0.trans_le (List.single_le_sum hnn f hf)
  set p := m.pdf.map fun f => f / m.pdf.sum with hp
  have hp0 : ∀ x ∈ p, 0 ≤ x := by
    intro x hx
    obtain ⟨f, hf, rfl⟩ := mem_map.1 hx
    exact div_nonneg (hnn f hf) hs.le
  have hp1 : p.sum = 1 := by
    have : p = m.pdf.map fun f => f * m.pdf.sum⁻¹ := rfl
    rw [this, List.sum_map_mul_right]
    simp only [map_id']
    exact mul_inv_cancel₀ hs.ne'
  constructor
  · intro h
    unfold modelSamples
    rw [if_pos h]
  · intro h
    unfold modelSamples
    rw [if_neg (by omega)]
    dsimp only
    have hbad : ¬ badProbabilities p := by
      rintro (⟨x, hx, h⟩ | h)
      · exact absurd (hp0 x hx) (not_le.2 h)
      · exact h hp1
    rw [if_neg hbad]
    obtain ⟨hlen, hind⟩ := hc number.toNat p hp0 hp1
    have hget : ∀ i ∈ choice number.toNat p, ∃ x f, m.X[i]? = some x ∧ m.pdf[i]? = some f ∧ 0 < f := by
      intro i hi
      obtain ⟨v, hv, h0⟩ := hind i hi
      rw [hp, getElem?_map] at hv
      obtain ⟨f, hf, rfl⟩ := Option.map_eq_some_iff.1 hv
      obtain ⟨hlt, -⟩ := List.getElem?_eq_some_iff.1 hf
      have hfp : 0 < f := by
        rcases (div_pos_iff.1 h0) with h | h
        · exact h.1
        · linarith [h.2]
      exact ⟨m.X[i]'(by omega), f, getElem?_eq_getElem (by omega), hf, hfp⟩
    refine ⟨_, rfl, ⟨?_, ?_, p, m.pdf.sum, hs, ?_, hp1, ?_⟩⟩
    · rw [length_map, hlen]; omega
    · intro x hx
      obtain ⟨i, hi, rfl⟩ := mem_map.1 hx
      obtain ⟨x, f, h1, h2, h3⟩ := hget i hi
      refine ⟨i, f, ?_, h2, h3⟩
      rw [getD_eq_getElem?_getD, h1]; rfl
    · rw [hp, map_map]
      conv_rhs => rw [← map_id m.pdf]
      refine map_congr_left fun f _ => ?_
      simp only [Function.comp, id]
      field_simp
    · rw [map_map]
      refine map_congr_left fun i hi => ?_
      obtain ⟨x, f, h1, -, -⟩ := hget i hi
      simp only [Function.comp]
      rw [getD_eq_getElem?_getD, h1]; rfl

theorem exists_pos_of_last {X : List ℝ} {f : ℝ → ℝ} {b : ℝ} (hb : b ∈ X) (h : 0 < f b) : ∃ y ∈ X.map f, 0 < y :=
  ⟨f b, mem_map_of_mem hb, h⟩

/-- **C120 (random samples, Competing risks).** `random_samples(number)` raises ValueError for a number below 1; otherwise it
returns that many points of the grid, all of positive density, drawn with probabilities proportional to the model's PDF on
the grid. -/
theorem C120_competing_samples (n : ℕ) (hn : 3 ≤ n) (ds : List Dist) (hne : ds ≠ []) (hd : ∀ d ∈ ds, Lib d) (hr : InRange ds)
    (hb : ∀ d ∈ ds, d.fam ≠ .beta) (m : Built) (h : competingInit n ds = .ok m)
    (choice : ℕ → List ℝ → List ℕ) (hc : Draws choice) (number : ℤ) :
    (number < 1 → modelSamples choice m number = valueErr) ∧
    (1 ≤ number → ∃ l, modelSamples choice m number = .ok l ∧ SamplesFrom choice m.X m.pdf number l) := by
  have hd' := fun d h => (hd d h).component
  obtain ⟨⟨-, hB⟩, hab, -, -⟩ := gridEnds_spec hne hd' hr
  rcases competingInit_eq hn hne hd' hr with ⟨A, hA, hI⟩ | ⟨hA, hI⟩
  swap
  · rw [hI] at h; cases h
  rw [hI] at h
  cases h
  obtain ⟨-, -, e, -, -⟩ := competing_sorted (linspace_le hab n) hA
  have hsv : ∀ d ∈ ds, ∀ x, 0 < sfValue d x := fun d m x => by
    rw [(hd' d m).proper.sfValue]; exact (hd' d m).sf_pos (hb d m) x
  have hprod : ∀ x, 0 < (ds.map fun d => sfValue d x).prod := fun x => by
    refine List.prod_pos fun y hy => ?_
    obtain ⟨d, m, rfl⟩ := mem_map.1 hy
    exact hsv d m x
  have hhn : ∀ x, ∀ y ∈ ds.map fun d => hfValue d x, 0 ≤ y := fun x y hy => by
    obtain ⟨d, m, rfl⟩ := mem_map.1 hy
    exact (hd' d m).hf_nonneg x
  apply samples_ok hc
  · dsimp only; rw [e, length_map]
  · dsimp only
    rw [e]
    intro f hf
    obtain ⟨x, -, rfl⟩ := mem_map.1 hf
    exact mul_nonneg (hprod x).le (List.sum_nonneg (hhn x))
  · dsimp only
    rw [e]
    refine exists_pos_of_last (mem_linspace_last hn) (mul_pos (hprod _) ?_)
    obtain ⟨d, md, he⟩ := hB.1
    have h1 : 0 < hfValue d (gridEnds ds).2 :=
      ((hd d md).density_pos (hb d md) (q := 1 - 1 / 10 ^ 10) (by norm_num) (by norm_num) he.ge).2
    exact h1.trans_le (List.single_le_sum (hhn _) _ (mem_map_of_mem (f := fun d => hfValue d (gridEnds ds).2) md))

/-- **C120 (random samples, Mixture).** The same for a mixture with proportions that are not negative. -/
theorem C120_mixture_samples (n : ℕ) (hn : 3 ≤ n) (ds : List Dist) (hne : ds ≠ []) (hd : ∀ d ∈ ds, Lib d) (hr : InRange ds)
    (hb : ∀ d ∈ ds, d.fam ≠ .beta) (pr : Option (List ℝ)) (p : List ℝ) (m : Built) (h : mixtureBuild n ds pr = .ok (p, m))
    (hp0 : ∀ a ∈ p, 0 ≤ a) (choice : ℕ → List ℝ → List ℕ) (hc : Draws choice) (number : ℤ) :
    (number < 1 → modelSamples choice m number = valueErr) ∧
    (1 ≤ number → ∃ l, modelSamples choice m number = .ok l ∧ SamplesFrom choice m.X m.pdf number l) := by
  have hd' := fun d h => (hd d h).component
  obtain ⟨⟨-, hB⟩, hab, -, -⟩ := gridEnds_spec hne hd' hr
  cases hp : mixtureInit ds pr with
  | error e => simp only [mixtureBuild, hp] at h; cases h
  | ok p' =>
    obtain ⟨hl, hs, hM⟩ := mixtureBuild_eq hn hne hd' hr hp
    rcases hM with ⟨A, hA, hI⟩ | ⟨hA, hI⟩
    swap
    · rw [hI] at h; cases h
    rw [hI] at h
    cases h
    obtain ⟨-, e, -, -, -⟩ := mixture_sorted (linspace_le hab n) hA
    have hpn : ∀ x, ∀ dp ∈ ds.zip p, 0 ≤ pdfValue dp.1 x * dp.2 := fun x dp md => by
      refine mul_nonneg ?_ (hp0 _ (List.of_mem_zip md).2)
      unfold pdfValue
      split
      · exact (hd' _ (List.of_mem_zip md).1).pdf_nonneg x
      · exact le_rfl
    have hnn : ∀ x, ∀ y ∈ (ds.zip p).map fun dp => pdfValue dp.1 x * dp.2, 0 ≤ y := fun x y hy => by
      obtain ⟨dp, md, rfl⟩ := mem_map.1 hy
      exact hpn x dp md
    apply samples_ok hc
    · dsimp only; rw [e, length_map]
    · dsimp only
      rw [e]
      intro f hf
      obtain ⟨x, -, rfl⟩ := mem_map.1 hf
      exact List.sum_nonneg (hnn x)
    · dsimp only
      rw [e]
      refine exists_pos_of_last (mem_linspace_last hn) ?_
      -- some proportion is positive
      have hex : ∃ dp ∈ ds.zip p, 0 < dp.2 := by
        by_contra hno
        push Not at hno
        have hz : ∀ a ∈ p, a = 0 := by
          intro a ha
          have : p = (ds.zip p).map Prod.snd := by rw [map_snd_zip (by omega)]
          rw [this] at ha
          obtain ⟨dp, md, rfl⟩ := mem_map.1 ha
          exact le_antisymm (hno dp md) (hp0 _ (List.of_mem_zip md).2)
        have : p.sum = 0 := List.sum_eq_zero hz
        rw [hs] at this
        exact one_ne_zero this
      obtain ⟨dp, md, hdp⟩ := hex
      have mdd := (List.of_mem_zip md).1
      have h1 : 0 < pdfValue dp.1 (gridEnds ds).2 :=
        ((hd _ mdd).density_pos (hb _ mdd) (q := 1 - 1 / 10 ^ 10) (by norm_num) (by norm_num) (hB.2 ⟨dp.1, mdd, rfl⟩)).1
      exact (mul_pos h1 hdp).trans_le (List.single_le_sum (hnn _) _
        (mem_map_of_mem (f := fun dp : Dist × ℝ => pdfValue dp.1 (gridEnds ds).2 * dp.2) md))

/-- **C120 (finding).** A model whose PDF is negative at one grid point and positive at another (as a mixture with a negative
proportion, which the constructor accepts, can be) can never be sampled: ValueError. -/
theorem C120_negative_pdf_finding (choice : ℕ → List ℝ → List ℕ) (m : Built) (f g : ℝ) (hf : f ∈ m.pdf) (hg : g ∈ m.pdf)
    (h1 : f < 0) (h2 : 0 < g) (number : ℤ) : modelSamples choice m number = valueErr := by
  unfold modelSamples
  split
  · rfl
  · dsimp only
    rw [if_pos]
    rcases lt_trichotomy m.pdf.sum 0 with h | h | h
    · exact .inl ⟨_, mem_map_of_mem hg, div_neg_of_pos_of_neg h2 h⟩
    · refine .inr ?_
      have : (m.pdf.map fun x => x / m.pdf.sum) = m.pdf.map fun _ => (0 : ℝ) := by
        refine map_congr_left fun x _ => ?_
        rw [h, div_zero]
      rw [this]
      simp
    · exact .inl ⟨_, mem_map_of_mem hf, div_neg_of_neg_of_pos h1 h⟩

/-! ## Cases -/

theorem lib_two_exp : ∀ d ∈ [exponential 1 0, exponential 2 0], Lib d := by
  intro d hd
  simp only [mem_cons, not_mem_nil, or_false] at hd
  rcases hd with rfl | rfl
  · exact .exponential 1 0 one_pos le_rfl
  · exact .exponential 2 0 (by norm_num) le_rfl

theorem exp_ppf (l q : ℝ) : (exponential l 0).sp.ppf q = 0 + 1 / l * -Real.log (1 - q) := by
  simp only [exponential, locScale, exponStd]
  ring

theorem inRange_two_exp : InRange [exponential 1 0, exponential 2 0] := by
  have hlog : ∀ y : ℝ, 1 / 10 ^ 10 ≤ y → y ≤ 1 → 0 ≤ -Real.log y ∧ -Real.log y ≤ 10 ^ 10 := by
    intro y h1 h2
    have h0 : 0 < y := lt_of_lt_of_le (by norm_num) h1
    refine ⟨by linarith [Real.log_nonpos h0.le h2], ?_⟩
    rw [← Real.log_inv]
    refine (Real.log_le_self (by positivity)).trans ?_
    rw [inv_le_comm₀ h0 (by norm_num)]
    simpa using h1
  obtain ⟨a1, a2⟩ := hlog (1 - 1 / 10 ^ 10) (by norm_num) (by norm_num)
  obtain ⟨b1, b2⟩ := hlog (1 - (1 - 1 / 10 ^ 10)) (by norm_num) (by norm_num)
  have hbig : (10 : ℝ) ^ 10 ≤ 10 ^ 100 := by norm_num
  have hpos : (0 : ℝ) ≤ 10 ^ 100 := by positivity
  intro d hd
  simp only [mem_cons, not_mem_nil, or_false] at hd
  rcases hd with rfl | rfl <;> rw [exp_ppf, exp_ppf] <;> constructor <;> linarith

/-- **C120 (finding, a case).** The mixture of two Exponentials with proportions -1 and 2 is accepted by the constructor, but
no sample can be drawn from it. -/
theorem C120_negative_proportion_finding (n : ℕ) (hn : 3 ≤ n) (choice : ℕ → List ℝ → List ℕ) :
    ∃ m, mixtureBuild n [exponential 1 0, exponential 2 0] (some [-1, 2]) = .ok ([-1, 2], m) ∧
      ∀ number, modelSamples choice m number = valueErr := by
  have hd' := fun d h => (lib_two_exp d h).component
  have hp : mixtureInit [exponential 1 0, exponential 2 0] (some [-1, 2]) = .ok [-1, 2] :=
    (C38_proportions _ (by simp) [-1, 2]).2.2.1 (by norm_num) rfl
  obtain ⟨⟨hA1, hB⟩, hab, h0, -⟩ := gridEnds_spec (by simp) hd' inRange_two_exp
  have hbeta : ∀ d ∈ [exponential 1 0, exponential 2 0], d.fam = .beta →
      ∀ d' ∈ [exponential 1 0, exponential 2 0], d'.sp.ppf (1 - 1 / 10 ^ 10) ≤ 1 := by
    intro d hd h
    simp only [mem_cons, not_mem_nil, or_false] at hd
    rcases hd with rfl | rfl <;> cases h
  obtain ⟨m0, hm0⟩ := (C119_mixture_builds n hn _ (by simp) lib_two_exp inRange_two_exp _ _ hp).1.2 hbeta
  obtain ⟨-, -, hM⟩ := mixtureBuild_eq hn (by simp) hd' inRange_two_exp hp
  rcases hM with ⟨A, hA, hI⟩ | ⟨hA, hI⟩
  swap
  · rw [hI] at hm0; cases hm0
  refine ⟨_, hI, fun number => ?_⟩
  obtain ⟨-, e, -, -, -⟩ := mixture_sorted (linspace_le hab n) hA
  have ha0 : 0 ≤ (gridEnds [exponential 1 0, exponential 2 0]).1 := h0 fun d hd => by
    simp only [mem_cons, not_mem_nil, or_false] at hd
    rcases hd with rfl | rfl <;> simp [Half, exponential]
  have hval : ∀ x : ℝ, 0 ≤ x → (wsum [exponential 1 0, exponential 2 0] [-1, 2] fun d => pdfValue d x) =
      -Real.exp (-x) + 4 * Real.exp (-x) ^ 2 := by
    intro x hx
    have h2 : Real.exp (-(2 * x)) = Real.exp (-x) ^ 2 := by rw [← Real.exp_nat_mul]; push_cast; ring_nf
    have hx2 : ¬ x * 2 < 0 := by linarith
    simp only [wsum, zip_cons_cons, zip_nil_right, map_cons, map_nil, sum_cons, sum_nil, pdfValue, hx, or_true, if_true,
      exponential, locScale, exponStd]
    simp only [sub_zero, one_div, inv_one, div_one, div_inv_eq_mul, not_lt.2 hx, hx2, if_false]
    rw [show -(x * 2) = -(2 * x) by ring, h2]
    ring
  have hlow : (gridEnds [exponential 1 0, exponential 2 0]).1 ≤ 1 := by
    refine (hA1.2 ⟨exponential 2 0, by simp, rfl⟩).trans ?_
    rw [exp_ppf]
    have : -Real.log (1 - 1 / 10 ^ 10) ≤ 1 := by
      rw [← Real.log_inv]
      have := Real.log_le_sub_one_of_pos (x := (1 - 1 / 10 ^ 10 : ℝ)⁻¹) (by norm_num)
      refine this.trans (by norm_num)
    linarith
  have hhigh : 2 ≤ (gridEnds [exponential 1 0, exponential 2 0]).2 := by
    refine le_trans ?_ (hB.2 ⟨exponential 1 0, by simp, rfl⟩)
    rw [exp_ppf, ← Real.log_inv]
    have h1 : (2 : ℝ) ≤ Real.log ((1 - (1 - 1 / 10 ^ 10))⁻¹) := by
      rw [Real.le_log_iff_exp_le (by norm_num)]
      have : Real.exp 2 = Real.exp 1 ^ 2 := by rw [← Real.exp_nat_mul]; norm_num
      rw [this]
      have := Real.exp_one_lt_d9
      have h0 := Real.exp_pos 1
      calc Real.exp 1 ^ 2 ≤ 3 ^ 2 := by gcongr; linarith
        _ ≤ _ := by norm_num
    linarith
  have hE := Real.exp_one_gt_d9
  have hE' := Real.exp_one_lt_d9
  have f1 : (wsum [exponential 1 0, exponential 2 0] [-1, 2] fun d => pdfValue d (gridEnds [exponential 1 0, exponential 2 0]).2) < 0 := by
    rw [hval _ (by linarith)]
    set b := (gridEnds [exponential 1 0, exponential 2 0]).2
    have h1 : Real.exp (-b) < 1 / 4 := by
      rw [Real.exp_neg, inv_lt_comm₀ (Real.exp_pos _) (by norm_num)]
      have : Real.exp 2 ≤ Real.exp b := Real.exp_le_exp.2 hhigh
      have h2 : Real.exp 2 = Real.exp 1 ^ 2 := by rw [← Real.exp_nat_mul]; norm_num
      rw [h2] at this
      norm_num
      nlinarith
    have h2 := Real.exp_pos (-b)
    nlinarith
  have f2 : 0 < wsum [exponential 1 0, exponential 2 0] [-1, 2] fun d => pdfValue d (gridEnds [exponential 1 0, exponential 2 0]).1 := by
    rw [hval _ ha0]
    set a := (gridEnds [exponential 1 0, exponential 2 0]).1
    have h1 : 1 / 4 < Real.exp (-a) := by
      rw [Real.exp_neg, lt_inv_comm₀ (by norm_num) (Real.exp_pos _)]
      have : Real.exp a ≤ Real.exp 1 := Real.exp_le_exp.2 hlow
      norm_num
      linarith
    have h2 := Real.exp_pos (-a)
    nlinarith
  refine C120_negative_pdf_finding choice _ _ _ ?_ ?_ f1 f2 number
  · dsimp only; rw [e]
    exact mem_map_of_mem (f := fun x => wsum [exponential 1 0, exponential 2 0] [-1, 2] fun d => pdfValue d x) (mem_linspace_last hn)
  · dsimp only; rw [e]
    exact mem_map_of_mem (f := fun x => wsum [exponential 1 0, exponential 2 0] [-1, 2] fun d => pdfValue d x) (mem_linspace_first hn)

/-- A generator that draws as trusted: always the first index of positive probability. -/
theorem draws_first : Draws fun k p => replicate k (p.findIdx fun v => decide (0 < v)) := by
  intro k p h0 h1
  refine ⟨by simp, fun i hi => ?_⟩
  rw [mem_replicate] at hi
  have hex : ∃ v ∈ p, decide (0 < v) = true := by
    by_contra hno
    push Not at hno
    have hz : ∀ v ∈ p, v = 0 := fun v hv => le_antisymm (by simpa using hno v hv) (h0 v hv)
    have := List.sum_eq_zero hz
    rw [h1] at this
    exact one_ne_zero this
  have hlt : p.findIdx (fun v => decide (0 < v)) < p.length := findIdx_lt_length.2 hex
  refine ⟨p[p.findIdx fun v => decide (0 < v)], ?_, ?_⟩
  · rw [hi.2]; exact getElem?_eq_getElem hlt
  · have := findIdx_getElem (w := hlt)
    simpa using this

/-- The mean residual life at time 0 of an Exponential competing with a Weibull, and five samples from them. -/
example : ∃ m r l, competingInit 1000000 [exponential 1 0, weibull 2 1 0] = .ok m ∧
    competingMRL 1000000 [exponential 1 0, weibull 2 1 0] m 0 = .ok r ∧ 0 < r ∧
    modelSamples (fun k p => replicate k (p.findIdx fun v => decide (0 < v))) m 5 = .ok l ∧ l.length = 5 := by
  have hb : ∀ d ∈ [exponential 1 0, weibull 2 1 0], d.fam ≠ .beta := by
    intro d hd h
    simp only [mem_cons, not_mem_nil, or_false] at hd
    rcases hd with rfl | rfl <;> cases h
  obtain ⟨m, hm⟩ := (C119_competing_builds 1000000 (by norm_num) _ (by simp) lib_example inRange_example).1.2
    fun d hd h => absurd h (hb d hd)
  have ht : 0 < m.xmax_inf := by
    obtain ⟨-, hab, h0, -⟩ := gridEnds_spec (by simp) (fun d h => (lib_example d h).component) inRange_example
    rw [(competing_max (by norm_num) (by simp) lib_example inRange_example hm).1]
    refine lt_of_le_of_lt (h0 fun d hd => ?_) hab
    simp only [mem_cons, not_mem_nil, or_false] at hd
    rcases hd with rfl | rfl <;> simp [Half, exponential, weibull]
  obtain ⟨r, hr, h0, -⟩ := C120_competing 1000000 (by norm_num) _ (by simp) lib_example inRange_example m hm 0 ht
  obtain ⟨l, hl, hs⟩ := (C120_competing_samples 1000000 (by norm_num) _ (by simp) lib_example inRange_example hb m hm _
    draws_first 5).2 (by norm_num)
  exact ⟨m, r, l, hm, hr, h0, hl, by have := hs.length; omega⟩

end Reliability.Props.Combined

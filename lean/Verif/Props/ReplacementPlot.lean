import Verif.Model.ReplacementPlot
import Verif.Props.Repairable
import Verif.Props.InputCheck

/-! # C147: the plots of optimal_replacement_time -/

namespace Reliability.Repairable

open Reliability List
open Reliability.Props (bind_ok)

theorem replacementPlots_inv {quad : (ℝ → ℝ) → ℝ → ℝ} {rs str : ℝ → String} {PM CM α β q : ℝ} {time ratio : Option RCanvas}
    {r : Replacement} {a b : Option RCanvas} (h : replacementPlots quad rs str PM CM α β q time ratio = .ok (r, a, b)) :
    optimalReplacementTime quad PM CM α β q = .ok r ∧ a = time.map (timePlot quad rs PM CM α β q r) ∧
      b = ratio.map (ratioPlot quad rs str PM CM α β q r) := by
  unfold replacementPlots at h
  rw [bind_ok] at h
  obtain ⟨r', h1, h2⟩ := h
  simp only [pure, Except.pure, Except.ok.injEq, Prod.mk.injEq] at h2
  obtain ⟨rfl, rfl, rfl⟩ := h2
  exact ⟨h1, rfl, rfl⟩

/-- **C147 (accepted).** The plots never make a call fail, and the results do not depend on them. -/
theorem C147_accepts (quad : (ℝ → ℝ) → ℝ → ℝ) (rs str : ℝ → String) (PM CM α β q : ℝ) (time ratio : Option RCanvas) (r : Replacement) :
    optimalReplacementTime quad PM CM α β q = .ok r ↔
      ∃ time' ratio', replacementPlots quad rs str PM CM α β q time ratio = .ok (r, time', ratio') ∧
        time'.isSome = time.isSome ∧ ratio'.isSome = ratio.isSome := by
  constructor
  · intro h
    refine ⟨_, _, by simp only [replacementPlots, h, bind, Except.bind, pure, Except.pure]; rfl, ?_, ?_⟩ <;> simp
  · rintro ⟨a, b, h, -⟩
    exact (replacementPlots_inv h).1

/-- `n` points in equal steps from 1 to `b`, with the values of `f` there. -/
def IsCurve (f : ℝ → ℝ) (b : ℝ) (n : Nat) (xs ys : List ℝ) : Prop :=
  xs.length = n ∧ ys.length = n ∧
    ∀ i : Nat, i < n → xs[i]? = some (1 + i * ((b - 1) / (n - 1))) ∧ ys[i]? = some (f (1 + i * ((b - 1) / (n - 1))))

theorem isCurve_linspace (f : ℝ → ℝ) (b : ℝ) (n : Nat) (hn : 1 ≤ n) : IsCurve f b n (Np.linspace 1 b n) ((Np.linspace 1 b n).map f) := by
  refine ⟨Np.linspace_length _ _ _, by rw [length_map, Np.linspace_length], fun i hi => ?_⟩
  have := Np.linspace_get (1 : ℝ) b n i hi
  rw [Nat.cast_sub hn, Nat.cast_one] at this
  refine ⟨this, ?_⟩
  rw [getElem?_map, this]
  rfl

theorem step_bounds {b : ℝ} {n i : Nat} (hi : i < n) (hb : 1 ≤ b) : 1 ≤ 1 + (i : ℝ) * ((b - 1) / (n - 1)) ∧ 1 + (i : ℝ) * ((b - 1) / (n - 1)) ≤ b := by
  have h1 : (i : ℝ) + 1 ≤ n := by exact_mod_cast hi
  rcases Nat.eq_zero_or_pos i with rfl | hpos
  · simp [hb]
  · have h0 : (1 : ℝ) ≤ i := by exact_mod_cast hpos
    have hn : (0 : ℝ) < n - 1 := by linarith
    constructor
    · have : 0 ≤ (i : ℝ) * ((b - 1) / (n - 1)) := mul_nonneg (by linarith) (div_nonneg (by linarith) hn.le)
      linarith
    · have : (i : ℝ) * ((b - 1) / (n - 1)) ≤ (n - 1) * ((b - 1) / (n - 1)) :=
        mul_le_mul_of_nonneg_right (by linarith) (div_nonneg (by linarith) hn.le)
      rw [mul_div_cancel₀ _ hn.ne'] at this
      linarith

theorem step_pos {b : ℝ} {n i : Nat} (hi : i < n) (hb : 0 < b) : 0 < 1 + (i : ℝ) * ((b - 1) / (n - 1)) := by
  have h1 : (i : ℝ) + 1 ≤ n := by exact_mod_cast hi
  rcases Nat.eq_zero_or_pos i with rfl | hpos
  · simp
  · have h0 : (1 : ℝ) ≤ i := by exact_mod_cast hpos
    have hn : (0 : ℝ) < n - 1 := by linarith
    have e : 1 + (i : ℝ) * ((b - 1) / (n - 1)) = ((n - 1 - i) + i * b) / (n - 1) := by
      field_simp
      ring
    rw [e]
    exact div_pos (add_pos_of_nonneg_of_pos (by linarith) (by positivity)) hn

/-- **C147 (time plot, as good as old).** One line is added: the cost per unit time of replacing at each of 100000 times from 1 to 4α. One point is
added, the optimal time with its cost; it is nowhere above the line. The vertical axis goes from 0 to twice the least cost. The point is within
the axes if and only if CM ≤ PM (β - 1) 4^β. -/
theorem C147_time_old (quad : (ℝ → ℝ) → ℝ → ℝ) (rs str : ℝ → String) (PM CM α β : ℝ) (hPM : 0 < PM) (hle : PM ≤ CM) (hα : 0 < α) (hβ : 1 < β)
    (c : RCanvas) (ratio : Option RCanvas) (r : Replacement) (c' : RCanvas) (b : Option RCanvas)
    (h : replacementPlots quad rs str PM CM α β 1 (some c) ratio = .ok (r, some c', b)) :
    ∃ xs ys, c'.lines = c.lines ++ [(xs, ys)] ∧ IsCurve (costRate PM CM α β) (α * 4) 100000 xs ys ∧
      (∀ y ∈ ys, r.min_cost ≤ y) ∧
      c'.points = c.points ++ [([r.ORT], [r.min_cost])] ∧ c'.xlim = (0, α * 4) ∧ c'.ylim = (0, r.min_cost * 2) ∧
      c'.texts = c.texts ++ [((r.ORT, r.min_cost), "\nMinimum cost per unit time is " ++ rs r.min_cost ++ "\nOptimal replacement time is " ++ rs r.ORT)] ∧
      0 < r.min_cost ∧ 0 < r.ORT ∧ (r.ORT ≤ c'.xlim.2 ↔ CM ≤ PM * (β - 1) * 4 ^ β) := by
  obtain ⟨hr, hc, -⟩ := replacementPlots_inv h
  simp only [Option.map_some, Option.some.injEq] at hc
  subst hc
  obtain ⟨r', hr', hpos, hcost, hmin⟩ := C24_as_good_as_old quad PM CM α β hPM hle hα hβ
  rw [hr] at hr'
  cases hr'
  have hCM : 0 < CM := lt_of_lt_of_le hPM hle
  have hf : cput quad PM CM α β 1 = costRate PM CM α β := by
    funext t; unfold cput costRate; rw [if_pos rfl]
  have hg : gridTimes α 1 = Np.linspace 1 (α * 4) 100000 := by
    unfold gridTimes alphaMultiple gridSize; rw [if_pos rfl, if_pos rfl]
  have hcur := isCurve_linspace (costRate PM CM α β) (α * 4) 100000 (by norm_num)
  refine ⟨_, _, rfl, ?_, ?_, rfl, ?_, rfl, rfl, ?_, hpos, ?_⟩
  · rw [hf, hg]; exact hcur
  · intro y hy
    rw [hf, hg] at hy
    obtain ⟨x, hx, rfl⟩ := mem_map.1 hy
    obtain ⟨i, hi, hxi⟩ := getElem_of_mem hx
    have hi' : i < 100000 := by rwa [Np.linspace_length] at hi
    have hget := (hcur.2.2 i hi').1
    rw [getElem?_eq_getElem hi, hxi, Option.some.injEq] at hget
    refine (hmin x ?_).1
    rw [hget]
    exact step_pos hi' (by linarith)
  · unfold timePlot alphaMultiple; rw [if_pos rfl]
  · rw [hcost]
    unfold costRate
    exact div_pos (add_pos_of_nonneg_of_pos (mul_nonneg hPM.le (Real.rpow_nonneg (div_pos hpos hα).le _)) hCM) hpos
  · have hORT : r.ORT = α * (CM / (PM * (β - 1))) ^ (1 / β) := by
      unfold optimalReplacementTime at hr
      rw [if_neg (not_lt.2 hle), if_pos rfl] at hr
      cases hr
      rfl
    have hβ1 : 0 < β - 1 := by linarith
    have hw : 0 < CM / (PM * (β - 1)) := by positivity
    have hx : (timePlot quad rs PM CM α β 1 r c).xlim.2 = α * 4 := by
      unfold timePlot alphaMultiple; rw [if_pos rfl]
    rw [hx, hORT, mul_le_mul_iff_right₀ hα, one_div, Real.rpow_inv_le_iff_of_pos hw.le (by norm_num) (by linarith), div_le_iff₀ (by positivity)]
    rw [mul_comm ((4 : ℝ) ^ β)]

/-- **C147 (time plot, as good as new).** One line is added: the renewal cost per unit time of replacing at each of 10000 times from 1 to 3α. One
point is added, the optimal time with its cost: it is the first of the lowest points of the line. The axes begin at 0 and end at 3α and twice the
least cost. For α of at least 1/3 the point, and all times of the line, are within the axes. -/
theorem C147_time_new (quad : (ℝ → ℝ) → ℝ → ℝ) (rs str : ℝ → String) (PM CM α β : ℝ) (hle : PM ≤ CM)
    (c : RCanvas) (ratio : Option RCanvas) (r : Replacement) (c' : RCanvas) (b : Option RCanvas)
    (h : replacementPlots quad rs str PM CM α β 0 (some c) ratio = .ok (r, some c', b)) :
    ∃ xs ys, c'.lines = c.lines ++ [(xs, ys)] ∧ IsCurve (renewalCost quad PM CM α β) (α * 3) 10000 xs ys ∧
      (∃ i : Nat, xs[i]? = some r.ORT ∧ ys[i]? = some r.min_cost ∧ ∀ (j : Nat) y, j < i → ys[j]? = some y → r.min_cost < y) ∧
      (∀ y ∈ ys, r.min_cost ≤ y) ∧
      c'.points = c.points ++ [([r.ORT], [r.min_cost])] ∧ c'.xlim = (0, α * 3) ∧ c'.ylim = (0, r.min_cost * 2) ∧
      c'.texts = c.texts ++ [((r.ORT, r.min_cost), "\nMinimum cost per unit time is " ++ rs r.min_cost ++ "\nOptimal replacement time is " ++ rs r.ORT)] ∧
      (1 / 3 ≤ α → ∀ x ∈ r.ORT :: xs, 0 < x ∧ x ≤ c'.xlim.2) := by
  obtain ⟨hr, hc, -⟩ := replacementPlots_inv h
  simp only [Option.map_some, Option.some.injEq] at hc
  subst hc
  obtain ⟨r', i, hr', hi, hORT, hcost, hmin⟩ := C24_as_good_as_new quad PM CM α β hle
  rw [hr] at hr'
  cases hr'
  have hf : cput quad PM CM α β 0 = renewalCost quad PM CM α β := by
    funext t; unfold cput; rw [if_neg (by norm_num)]; rfl
  have hg : gridTimes α 0 = Np.linspace 1 (α * 3) 10000 := by
    unfold gridTimes alphaMultiple gridSize; rw [if_neg (by norm_num), if_neg (by norm_num)]
  have hcur := isCurve_linspace (renewalCost quad PM CM α β) (α * 3) 10000 (by norm_num)
  have hgp : ∀ j : Nat, gridPoint α j = 1 + j * ((α * 3 - 1) / ((10000 : Nat) - 1)) := by
    intro j; unfold gridPoint; norm_num
  have hx : (timePlot quad rs PM CM α β 0 r c).xlim.2 = α * 3 := by
    unfold timePlot alphaMultiple; rw [if_neg (by norm_num)]
  have hmem : ∀ x ∈ Np.linspace 1 (α * 3) 10000, ∃ j : Nat, j < 10000 ∧ x = gridPoint α j := by
    intro x hx
    obtain ⟨j, hj, hxj⟩ := getElem_of_mem hx
    have hj' : j < 10000 := by rwa [Np.linspace_length] at hj
    have hget := (hcur.2.2 j hj').1
    rw [getElem?_eq_getElem hj, hxj, Option.some.injEq] at hget
    exact ⟨j, hj', by rw [hget, hgp]⟩
  have hb : 1 / 3 ≤ α → ∀ j : Nat, j < 10000 → 0 < gridPoint α j ∧ gridPoint α j ≤ α * 3 := by
    intro ha j hj
    rw [hgp]
    have := step_bounds (b := α * 3) hj (by linarith)
    exact ⟨by linarith [this.1], this.2⟩
  refine ⟨_, _, rfl, ?_, ⟨i, ?_, ?_, ?_⟩, ?_, rfl, ?_, rfl, rfl, ?_⟩
  · rw [hf, hg]; exact hcur
  · rw [hg, (hcur.2.2 i hi).1, hORT, hgp]
  · rw [hf, hg, (hcur.2.2 i hi).2, hcost, hORT, hgp]
  · intro j y hji hy
    rw [hf, hg, (hcur.2.2 j (hji.trans hi)).2, Option.some.injEq, ← hgp] at hy
    rw [← hy]
    exact (hmin j (hji.trans hi)).2 hji
  · intro y hy
    rw [hf, hg] at hy
    obtain ⟨x, hx, rfl⟩ := mem_map.1 hy
    obtain ⟨j, hj, rfl⟩ := hmem x hx
    exact (hmin j hj).1
  · unfold timePlot alphaMultiple; rw [if_neg (by norm_num)]
  · intro ha x hx'
    rw [hx]
    rw [hg] at hx'
    rcases mem_cons.1 hx' with rfl | hx'
    · rw [hORT]; exact hb ha i hi
    · obtain ⟨j, hj, rfl⟩ := hmem x hx'
      exact hb ha j hj

theorem roundHalfEven_bounds (x : ℝ) : x - 1 / 2 ≤ roundHalfEven x ∧ (roundHalfEven x : ℝ) ≤ x + 1 / 2 := by
  have h1 := Int.floor_le x
  have h2 := Int.lt_floor_add_one x
  unfold roundHalfEven
  split_ifs <;> push_cast <;> constructor <;> linarith

/-- What the optimum is in the model of the ratio plot is what the function itself returns for that cost. -/
theorem calcORT_eq {quad : (ℝ → ℝ) → ℝ → ℝ} {PM α β q x : ℝ} (hx : PM ≤ x) (hq : q = 1 ∨ q = 0) :
    ∃ r, optimalReplacementTime quad PM x α β q = .ok r ∧ r.ORT = calcORT quad PM α β q x := by
  rcases hq with rfl | rfl
  · refine ⟨_, by unfold optimalReplacementTime; rw [if_neg (not_lt.2 hx), if_pos rfl], ?_⟩
    unfold calcORT
    rw [if_pos rfl]
  · obtain ⟨r, i, hr, -⟩ := C24_as_good_as_new quad PM x α β hx
    refine ⟨r, hr, ?_⟩
    unfold optimalReplacementTime at hr
    rw [if_neg (not_lt.2 hx), if_neg (by norm_num), if_pos rfl] at hr
    unfold calcORT gridTimes alphaMultiple gridSize
    rw [if_neg (by norm_num), if_neg (by norm_num), if_neg (by norm_num)]
    dsimp only at hr ⊢
    split at hr
    · cases hr
    · next idx hidx =>
      rw [hidx]
      rw [Except.ok.injEq] at hr
      rw [← hr]
      simp only [Option.getD_some]

/-- **C147 (ratio plot).** One line of 200 points in equal steps from the cost ratio 1 to an end of at least 2 and at least the ratio CM/PM is added. At
every point it shows what optimal_replacement_time returns for the PM cost and the CM cost with that ratio. The point (CM/PM, optimal time) is
added; it is within the axes, with the text beside it at a height within the axes. -/
theorem C147_ratio (quad : (ℝ → ℝ) → ℝ → ℝ) (rs str : ℝ → String) (PM CM α β q : ℝ) (hPM : 0 < PM) 
    (c : RCanvas) (time : Option RCanvas) (r : Replacement) (c' : RCanvas) (a : Option RCanvas)
    (h : replacementPlots quad rs str PM CM α β q time (some c) = .ok (r, a, some c')) :
    ∃ xs ys, c'.lines = c.lines ++ [(xs, ys)] ∧ 2 ≤ c'.xlim.2 ∧ xs.length = 200 ∧ ys.length = 200 ∧
      (∀ i : Nat, i < 200 → xs[i]? = some (1 + i * ((c'.xlim.2 - 1) / 199))) ∧
      (∀ (i : Nat) x y, xs[i]? = some x → ys[i]? = some y → ∃ r', optimalReplacementTime quad PM (x * PM) α β q = .ok r' ∧ r'.ORT = y) ∧
      c'.points = c.points ++ [([CM / PM], [r.ORT])] ∧ c'.xlim.1 = 1 ∧ 1 ≤ CM / PM ∧ CM / PM ≤ c'.xlim.2 ∧ c'.ylim = (0, r.ORT * 2) ∧
      ∃ tx ty, c'.texts = c.texts ++ [((tx, ty), "$cost_{CM} = $" ++ str CM ++ "\n$cost_{PM} = $" ++ str PM ++ "\nInterval = " ++ rs r.ORT)] ∧
        (0 < r.ORT → 0 < ty ∧ ty < c'.ylim.2) := by
  obtain ⟨hr, -, hc⟩ := replacementPlots_inv h
  simp only [Option.map_some, Option.some.injEq] at hc
  subst hc
  have hle : PM ≤ CM := by
    by_contra hc
    unfold optimalReplacementTime at hr
    rw [if_pos (not_le.1 hc)] at hr
    cases hr
  have hq : q = 1 ∨ q = 0 := by
    by_contra hc
    push Not at hc
    unfold optimalReplacementTime at hr
    rw [if_neg (not_lt.2 hle), if_neg hc.1, if_neg hc.2] at hr
    cases hr
  have hrat : 1 ≤ CM / PM := (one_le_div hPM).2 hle
  have hb := roundHalfEven_bounds (CM / PM)
  have hone : (1 : ℤ) ≤ roundHalfEven (CM / PM) := by
    have : (0 : ℝ) < roundHalfEven (CM / PM) := by linarith
    exact_mod_cast this
  have hone' : (1 : ℝ) ≤ roundHalfEven (CM / PM) := by exact_mod_cast hone
  have hcur := isCurve_linspace (fun x => calcORT quad PM α β q (x * PM)) ((roundHalfEven (CM / PM) : ℝ) * 2) 200 (by norm_num)
  have hys : ((Np.linspace (1 : ℝ) ((roundHalfEven (CM / PM) : ℝ) * 2) 200).map (· * PM)).map (calcORT quad PM α β q) =
      (Np.linspace (1 : ℝ) ((roundHalfEven (CM / PM) : ℝ) * 2) 200).map (fun x => calcORT quad PM α β q (x * PM)) := by
    rw [map_map]; rfl
  have hx2 : (ratioPlot quad rs str PM CM α β q r c).xlim.2 = (roundHalfEven (CM / PM) : ℝ) * 2 := rfl
  rw [← hys] at hcur
  refine ⟨_, _, rfl, by rw [hx2]; linarith, hcur.1, hcur.2.1, ?_, ?_, rfl, rfl, hrat, by rw [hx2]; linarith, rfl, _, _, rfl, ?_⟩
  · intro i hi
    rw [hx2, (hcur.2.2 i hi).1]
    norm_num
  · intro i x y hx hy
    have hi : i < 200 := by
      have := (List.getElem?_eq_some_iff.1 hx).1
      rwa [Np.linspace_length] at this
    rw [(hcur.2.2 i hi).1, Option.some.injEq] at hx
    rw [(hcur.2.2 i hi).2, Option.some.injEq] at hy
    rw [hx] at hy
    rw [← hy]
    refine calcORT_eq ?_ hq
    have h1 : 1 ≤ x := by
      rw [← hx]; exact (step_bounds hi (by linarith)).1
    nlinarith
  · intro hO
    show 0 < r.ORT * textMult _ ∧ r.ORT * textMult _ < r.ORT * 2
    have : 0 < textMult (((Np.linspace (1 : ℝ) ((roundHalfEven (CM / PM) : ℝ) * 2) 200).map (· * PM)).map (calcORT quad PM α β q)) ∧
      textMult (((Np.linspace (1 : ℝ) ((roundHalfEven (CM / PM) : ℝ) * 2) 200).map (· * PM)).map (calcORT quad PM α β q)) < 2 := by
      unfold textMult
      split_ifs <;> norm_num
    exact ⟨mul_pos hO this.1, mul_lt_mul_of_pos_left this.2 hO⟩

theorem roundHalfEven_nearest (x : ℝ) : |x - roundHalfEven x| ≤ 1 / 2 ∧ (|x - roundHalfEven x| = 1 / 2 → Even (roundHalfEven x)) := by
  have h1 := Int.floor_le x
  have h2 := Int.lt_floor_add_one x
  unfold roundHalfEven
  split_ifs with a b c
  · rw [abs_of_nonneg (by linarith)]
    exact ⟨by linarith, fun h => absurd h (by linarith)⟩
  · push_cast
    rw [abs_of_nonpos (by linarith)]
    exact ⟨by linarith, fun h => absurd h (by linarith)⟩
  · rw [abs_of_nonneg (by linarith)]
    exact ⟨by linarith, fun _ => c⟩
  · push_cast
    rw [abs_of_nonpos (by linarith)]
    exact ⟨by linarith, fun _ => by rw [Int.even_add_one]; exact c⟩

/-- **C147 (ratio plot, its end and its text).** The line ends at twice the integer nearest to CM/PM (of two the even one). The text is 5% to the
right of the point; it is 5% below it where the line is higher at its 51st point than at its 41st, and 5% above it otherwise. -/
theorem C147_ratio_end (quad : (ℝ → ℝ) → ℝ → ℝ) (rs str : ℝ → String) (PM CM α β q : ℝ) (c : RCanvas) (time : Option RCanvas) (r : Replacement)
    (c' : RCanvas) (a : Option RCanvas) (h : replacementPlots quad rs str PM CM α β q time (some c) = .ok (r, a, some c')) :
    (∃ n : ℤ, c'.xlim = (1, 2 * (n : ℝ)) ∧ |CM / PM - n| ≤ 1 / 2 ∧ (|CM / PM - n| = 1 / 2 → Even n)) ∧
    ∃ xs ys y40 y50 p s, c'.lines = c.lines ++ [(xs, ys)] ∧ ys[40]? = some y40 ∧ ys[50]? = some y50 ∧ c'.texts = c.texts ++ [(p, s)] ∧
      p.1 = CM / PM * 1.05 ∧ (y40 < y50 → p.2 = r.ORT * 0.95) ∧ (y50 ≤ y40 → p.2 = r.ORT * 1.05) := by
  obtain ⟨hr, -, hc⟩ := replacementPlots_inv h
  simp only [Option.map_some, Option.some.injEq] at hc
  subst hc
  refine ⟨⟨roundHalfEven (CM / PM), ?_, roundHalfEven_nearest _⟩, ?_⟩
  · show ((1 : ℝ), (roundHalfEven (CM / PM) : ℝ) * 2) = _
    rw [mul_comm]
  · set ys := ((Np.linspace (1 : ℝ) ((roundHalfEven (CM / PM) : ℝ) * 2) 200).map (· * PM)).map (calcORT quad PM α β q) with hys
    have hl : ys.length = 200 := by rw [hys, length_map, length_map, Np.linspace_length]
    have e40 : ys[40]? = some (ys[40]'(by omega)) := getElem?_eq_getElem _
    have e50 : ys[50]? = some (ys[50]'(by omega)) := getElem?_eq_getElem _
    have d40 : ys.getD 40 0 = ys[40]'(by omega) := by rw [getD_eq_getElem?_getD, e40]; rfl
    have d50 : ys.getD 50 0 = ys[50]'(by omega) := by rw [getD_eq_getElem?_getD, e50]; rfl
    refine ⟨_, ys, _, _, (CM / PM * 1.05, r.ORT * textMult ys), _, rfl, e40, e50, rfl, rfl, ?_, ?_⟩
    · intro hlt
      show r.ORT * textMult ys = _
      rw [textMult, d40, d50, if_pos hlt]
    · intro hle
      show r.ORT * textMult ys = _
      rw [textMult, d40, d50, if_neg (not_lt.2 hle)]

/-- **Finding (C147).** As good as old, with PM = 1, CM = 100, α = 10 and β = 2: the optimal time is 100 and the time axis ends at 40. -/
theorem C147_old_outside_finding (quad : (ℝ → ℝ) → ℝ → ℝ) (rs str : ℝ → String) (c : RCanvas) :
    ∃ r c', replacementPlots quad rs str 1 100 10 2 1 (some c) none = .ok (r, some c', none) ∧ r.ORT = 100 ∧ c'.xlim.2 = 40 := by
  obtain ⟨r, hr, -⟩ := C24_as_good_as_old quad 1 100 10 2 (by norm_num) (by norm_num) (by norm_num) (by norm_num)
  refine ⟨r, _, by simp only [replacementPlots, hr, bind, Except.bind, pure, Except.pure]; rfl, ?_, ?_⟩
  · unfold optimalReplacementTime at hr
    rw [if_neg (by norm_num), if_pos rfl] at hr
    cases hr
    show (10 : ℝ) * (100 / (1 * (2 - 1))) ^ ((1 : ℝ) / 2) = 100
    rw [show (100 : ℝ) / (1 * (2 - 1)) = 10 ^ (2 : ℝ) by norm_num, ← Real.rpow_mul (by norm_num)]
    norm_num
  · unfold timePlot alphaMultiple
    rw [if_pos rfl]
    norm_num

/-- **Finding (C147).** As good as new, with α below 1/3: the times run down from 1 to 3α, and all of the line but its last point is outside the axes. -/
theorem C147_small_alpha_finding (quad : (ℝ → ℝ) → ℝ → ℝ) (rs str : ℝ → String) (PM CM α β : ℝ) (hle : PM ≤ CM) (hα' : α < 1 / 3)
    (c : RCanvas) : ∃ r c' xs ys, replacementPlots quad rs str PM CM α β 0 (some c) none = .ok (r, some c', none) ∧
      c'.lines = c.lines ++ [(xs, ys)] ∧ ∀ (i : Nat) x, i < 9999 → xs[i]? = some x → c'.xlim.2 < x := by
  obtain ⟨r, -, hr, -⟩ := C24_as_good_as_new quad PM CM α β hle
  have h : replacementPlots quad rs str PM CM α β 0 (some c) none = .ok (r, some (timePlot quad rs PM CM α β 0 r c), none) := by
    simp only [replacementPlots, hr, bind, Except.bind, pure, Except.pure]; rfl
  obtain ⟨xs, ys, h1, h2, -, -, -, h3, -⟩ := C147_time_new quad rs str PM CM α β hle c none r _ none h
  refine ⟨r, _, xs, ys, h, h1, ?_⟩
  intro i x hi hx
  rw [(h2.2.2 i (by omega)).1, Option.some.injEq] at hx
  rw [h3, ← hx]
  have : (i : ℝ) + 1 ≤ 9999 := by exact_mod_cast hi
  show α * 3 < _
  push_cast
  nlinarith

/-- A case that meets the hypotheses of both time plots and of the ratio plot. -/
example (quad : (ℝ → ℝ) → ℝ → ℝ) (rs str : ℝ → String) (c d : RCanvas) :
    (∃ x, replacementPlots quad rs str 1 5 1000 2.5 0 (some c) (some d) = .ok x) ∧
    ∃ x, replacementPlots quad rs str 1 5 1000 2.5 1 (some c) (some d) = .ok x := by
  obtain ⟨r, -, hr, -⟩ := C24_as_good_as_new quad 1 5 1000 2.5 (by norm_num)
  obtain ⟨s, hs, -⟩ := C24_as_good_as_old quad 1 5 1000 2.5 (by norm_num) (by norm_num) (by norm_num) (by norm_num)
  obtain ⟨_, _, h, -⟩ := (C147_accepts quad rs str 1 5 1000 2.5 0 (some c) (some d) r).1 hr
  obtain ⟨_, _, h', -⟩ := (C147_accepts quad rs str 1 5 1000 2.5 1 (some c) (some d) s).1 hs
  exact ⟨⟨_, h⟩, ⟨_, h'⟩⟩

end Reliability.Repairable

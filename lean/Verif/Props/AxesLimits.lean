import Verif.Model.AxesLimits
import Verif.Spec.AxesLimits
import Verif.Props.InputCheck
import Mathlib.Tactic.Linarith
import Mathlib.Tactic.NormNum
import Mathlib.Tactic.Positivity
import Mathlib.Tactic.FieldSimp
import Mathlib.Analysis.SpecialFunctions.Log.Basic

/-!
# C127: the limits of plots of distribution functions; C128: data and axes coordinates
-/

namespace Reliability.Props.AxesLimits

open Reliability Reliability.AxesLimits Reliability.Spec.AxesLimits
open Reliability.Props (bind_ok)

/-! ## Smallest and largest -/

theorem minimum_spec {α : Type} [LinearOrder α] {X : List α} {m : α} (h : minimum X = .ok m) : m ∈ X ∧ ∀ x ∈ X, m ≤ x := by
  cases X with
  | nil => cases h
  | cons a l =>
    simp only [minimum, Except.ok.injEq] at h
    subst h
    induction l generalizing a with
    | nil => simp
    | cons b l ih =>
      obtain ⟨h1, h2⟩ := ih (min a b)
      simp only [List.foldl_cons, List.mem_cons] at h1 h2 ⊢
      refine ⟨?_, ?_⟩
      · rcases h1 with h1 | h1
        · rw [h1]
          rcases min_choice a b with h | h <;> rw [h] <;> simp
        · exact .inr (.inr h1)
      · have := h2 _ (.inl rfl)
        rintro x (rfl | rfl | hx)
        · exact this.trans (min_le_left _ _)
        · exact this.trans (min_le_right _ _)
        · exact h2 x (.inr hx)

theorem maximum_spec {α : Type} [LinearOrder α] {X : List α} {m : α} (h : maximum X = .ok m) : m ∈ X ∧ ∀ x ∈ X, x ≤ m := by
  cases X with
  | nil => cases h
  | cons a l =>
    simp only [maximum, Except.ok.injEq] at h
    subst h
    induction l generalizing a with
    | nil => simp
    | cons b l ih =>
      obtain ⟨h1, h2⟩ := ih (max a b)
      simp only [List.foldl_cons, List.mem_cons] at h1 h2 ⊢
      refine ⟨?_, ?_⟩
      · rcases h1 with h1 | h1
        · rw [h1]
          rcases max_choice a b with h | h <;> rw [h] <;> simp
        · exact .inr (.inr h1)
      · have := h2 _ (.inl rfl)
        rintro x (rfl | rfl | hx)
        · exact (le_max_left _ _).trans this
        · exact (le_max_right _ _).trans this
        · exact h2 x (.inr hx)

theorem minimum_ok {α : Type} [LinearOrder α] {X : List α} (h : X ≠ []) : ∃ m, minimum X = .ok m := by
  cases X with
  | nil => exact absurd rfl h
  | cons a l => exact ⟨_, rfl⟩

theorem maximum_ok {α : Type} [LinearOrder α] {X : List α} (h : X ≠ []) : ∃ m, maximum X = .ok m := by
  cases X with
  | nil => exact absurd rfl h
  | cons a l => exact ⟨_, rfl⟩

/-! ## The window -/

theorem left_spec {d : Dist} {X : List ℝ} {l : ℝ} (h : ownLower d X none = .ok l) : Left d.name d.gamma d.quantile X l := by
  unfold ownLower at h
  simp only at h
  split_ifs at h with h1 h2 h3 h4 h5
  · cases h; exact .inl ⟨h1, h2, rfl⟩
  · simp only [Except.ok.injEq] at h
    refine .inr (.inl ⟨h1, h2, ?_⟩)
    rw [← h]
    have e1 : (0.001 : ℝ) = 1 / 1000 := by norm_num
    have e2 : (0.999 : ℝ) = 999 / 1000 := by norm_num
    rw [e1, e2]
    congr 1
    ring
  · simp only [Except.ok.injEq] at h
    have e1 : (0.001 : ℝ) = 1 / 1000 := by norm_num
    exact .inr (.inr (.inl ⟨h3, by rw [← h, e1]⟩))
  · cases h; exact .inr (.inr (.inr (.inl ⟨h4, rfl⟩)))
  · exact .inr (.inr (.inr (.inr ⟨h5, (minimum_spec h).1, (minimum_spec h).2⟩)))

theorem right_spec (d : Dist) : Right d.name d.quantile (ownUpper d none) := by
  unfold ownUpper
  simp only
  have e2 : (0.999 : ℝ) = 999 / 1000 := by norm_num
  split_ifs with h
  · exact .inl ⟨h, rfl⟩
  · exact .inr ⟨h, by rw [e2]⟩

theorem window_spec {d : Dist} {X : List ℝ} {xvals : Option (List ℝ)} {xmin xmax : Option ℝ} {own : ℝ × ℝ}
    (h : ownX d X xvals xmin xmax = .ok own) :
    Window d.name d.gamma d.quantile X xvals xmin xmax own.1 own.2 ∧ own.1 ≤ own.2 := by
  unfold ownX at h
  cases xvals with
  | some v =>
    simp only [bind_ok, Except.ok.injEq] at h
    obtain ⟨lo, h1, hi, h2, rfl⟩ := h
    have m1 := minimum_spec h1
    have m2 := maximum_spec h2
    exact ⟨⟨m1.1, m2.1, fun t ht => ⟨m1.2 t ht, m2.2 t ht⟩⟩, m1.2 _ m2.1⟩
  | none =>
    simp only [bind_ok] at h
    obtain ⟨l, hl, h⟩ := h
    have hL : GivenOr xmin (Left d.name d.gamma d.quantile X) l := by
      cases xmin with
      | none => exact left_spec hl
      | some x => simp only [ownLower, Except.ok.injEq] at hl; exact hl.symm
    have hR : GivenOr xmax (Right d.name d.quantile) (ownUpper d xmax) := by
      cases xmax with
      | none => exact right_spec d
      | some x => rfl
    split_ifs at h with hlt
    · simp only [Except.ok.injEq] at h
      subst h
      exact ⟨⟨l, _, hL, hR, (min_eq_right hlt.le).symm, (max_eq_left hlt.le).symm⟩, hlt.le⟩
    · simp only [Except.ok.injEq] at h
      subst h
      push Not at hlt
      exact ⟨⟨l, _, hL, hR, (min_eq_left hlt).symm, (max_eq_right hlt).symm⟩, hlt⟩

theorem plot_ok {a b : Axes} {r : Request} (h : plot a r = .ok b) :
    ∃ own up, ownX r.dist r.X r.xvals r.xmin r.xmax = .ok own ∧
      b.xlim = newX (getAxesLimits a) { a with xlim := r.drawn.1, ylim := r.drawn.2 } r.X own ∧
      ownY r.dist r.func r.X r.Y own.2 b.xlim.2 = .ok up ∧
      b.ylim = newY (getAxesLimits a) { a with xlim := r.drawn.1, ylim := r.drawn.2 } r.Y up ∧
      b.xlinear = a.xlinear ∧ b.ylinear = a.ylinear ∧ b.widen = a.widen := by
  unfold plot restoreAxesLimits at h
  simp only [bind_ok, Except.ok.injEq] at h
  obtain ⟨own, h1, up, h2, rfl⟩ := h
  exact ⟨own, up, h1, rfl, h2, rfl, rfl, rfl, rfl⟩

/-- A figure on which nothing has been plotted (as far as the code can tell): both limits are 0 and 1. -/
def Fresh (a : Axes) : Prop := a.xlim = (0, 1) ∧ a.ylim = (0, 1)

/-- **C127 (window).** A plot of at least two points on linear axes: on fresh axes the limits become the window of the plot
(`Window`: the range of the x-values; or from xmin to xmax in whichever order; or the ends chosen for the distribution), on
others the smallest interval that has both that window and the previous limits. -/
theorem C127_window (a b : Axes) (r : Request) (h : plot a r = .ok b) (hlin : a.xlinear = true) (hX : 2 ≤ r.X.length) :
    ∃ lo hi, Window r.dist.name r.dist.gamma r.dist.quantile r.X r.xvals r.xmin r.xmax lo hi ∧ lo ≤ hi ∧
      (Fresh a → lo < hi → b.xlim = (lo, hi)) ∧
      (¬ Fresh a → a.xlim.1 < a.xlim.2 → b.xlim = (min lo a.xlim.1, max hi a.xlim.2)) := by
  obtain ⟨own, up, h1, hx, -⟩ := plot_ok h
  obtain ⟨hw, hle⟩ := window_spec h1
  refine ⟨own.1, own.2, hw, hle, fun hf hlt => ?_, fun hf hlt => ?_⟩
  · rw [hx]
    have hu : (getAxesLimits a).usePrev = false := by
      simp only [getAxesLimits, Bool.not_eq_false', decide_eq_true_eq]; exact hf
    simp only [newX, hu, hlin, true_and]
    rw [if_pos (by omega)]
    simp only [setLim, Bool.false_eq_true, if_false]
    rw [if_neg hlt.ne]
  · rw [hx]
    have hu : (getAxesLimits a).usePrev = true := by
      simp only [getAxesLimits, Bool.not_eq_true', decide_eq_false_iff_not]; exact hf
    simp only [newX, hu, hlin, true_and]
    rw [if_pos (by omega)]
    simp only [setLim, if_true, getAxesLimits]
    rw [if_neg]
    have := min_le_right own.1 a.xlim.1
    have := le_max_right own.2 a.xlim.2
    intro h; linarith

theorem last_ok {Y : List EReal} (h : Y ≠ []) : last Y = .ok (Y.getLast h) := by
  unfold last
  rw [List.getLast?_eq_getLast_of_ne_nil h]

theorem firstFrom_lt {X : List ℝ} (h : X ≠ []) (x : ℝ) : firstFrom X x < X.length := by
  have := List.length_pos_iff.2 h
  unfold firstFrom
  simp only
  split_ifs with h1
  · omega
  · have := List.findIdx_le_length (p := fun t => decide (x ≤ t)) (xs := X)
    omega

theorem item_ok {Y : List EReal} {i : ℕ} (h : i < Y.length) : item Y i = .ok Y[i] := by
  unfold item
  rw [List.getElem?_eq_getElem h]

theorem ownLower_ok {d : Dist} {X : List ℝ} {xmin : Option ℝ} (hX : X ≠ []) :
    (∃ l, ownLower d X xmin = .ok l) ∨ ownLower d X xmin = .error .valueError := by
  cases xmin with
  | some x => exact .inl ⟨_, rfl⟩
  | none =>
    unfold ownLower
    obtain ⟨m, hm⟩ := minimum_ok hX
    simp only [hm]
    split_ifs <;> simp

theorem ownLower_iff {d : Dist} {X : List ℝ} {xmin : Option ℝ} (hX : X ≠ []) :
    (∃ l, ownLower d X xmin = .ok l) ↔ (xmin = none → d.name ∈ Names) := by
  cases xmin with
  | some x => simp [ownLower]
  | none =>
    unfold ownLower
    obtain ⟨m, hm⟩ := minimum_ok hX
    simp only [hm, Names, List.mem_cons, List.not_mem_nil, or_false, true_implies]
    split_ifs with h1 h2 h3 h4 h5
    · simp; tauto
    · simp; tauto
    · simp; tauto
    · simp; tauto
    · simp; tauto
    · simp; tauto

theorem ownX_ok {d : Dist} {X : List ℝ} {xvals : Option (List ℝ)} {xmin xmax : Option ℝ} (hX : X ≠ []) :
    ((∃ o, ownX d X xvals xmin xmax = .ok o) ↔ xvals ≠ some [] ∧ (xvals = none → xmin = none → d.name ∈ Names)) ∧
    ((∃ o, ownX d X xvals xmin xmax = .ok o) ∨ ownX d X xvals xmin xmax = .error .valueError) := by
  cases xvals with
  | some v =>
    cases v with
    | nil => simp [ownX, minimum, bind, Except.bind]
    | cons x l => simp [ownX, minimum, maximum, bind, Except.bind]
  | none =>
    simp only [ne_eq, reduceCtorEq, not_false_eq_true, true_implies, true_and]
    rw [← ownLower_iff (d := d) (xmin := xmin) hX]
    have key : ∀ l, ∃ o, (if l > ownUpper d xmax then (.ok (ownUpper d xmax, l) : Except Err (ℝ × ℝ)) else .ok (l, ownUpper d xmax)) = .ok o := by
      intro l; split_ifs <;> simp
    unfold ownX
    rcases ownLower_ok (d := d) (xmin := xmin) hX with ⟨l, hl⟩ | hl
    · obtain ⟨o, ho⟩ := key l
      simp only [hl, bind, Except.bind, ho]; simp
    · simp only [hl, bind, Except.bind]; simp

theorem upperPDF_ok {d : Dist} {Y : List EReal} (hY : Y ≠ []) : ∃ u, upperPDF d Y = .ok u := by
  unfold upperPDF
  obtain ⟨m, hm⟩ := minimum_ok hY
  obtain ⟨M, hM⟩ := maximum_ok hY
  simp only [last_ok hY, hm, hM, bind, Except.bind]
  split_ifs <;> simp

theorem upperHF_ok {d : Dist} {X : List ℝ} {Y : List EReal} (hY : Y ≠ []) (hl : X.length = Y.length) (x : ℝ) :
    ∃ u, upperHF d X Y x = .ok u := by
  have hX : X ≠ [] := by rintro rfl; exact hY (List.length_eq_zero_iff.1 hl.symm)
  unfold upperHF
  obtain ⟨m, hm⟩ := minimum_ok hY
  obtain ⟨M, hM⟩ := maximum_ok hY
  simp only [last_ok hY, hm, hM, bind, Except.bind, item_ok (hl ▸ firstFrom_lt hX x : firstFrom X x < Y.length)]
  split_ifs <;> simp

theorem upperCHF_ok {X : List ℝ} {Y : List EReal} (hY : Y ≠ []) (hl : X.length = Y.length) (x : ℝ) :
    ∃ u, upperCHF X Y x = .ok u := by
  have hX : X ≠ [] := by rintro rfl; exact hY (List.length_eq_zero_iff.1 hl.symm)
  have hi := (hl ▸ firstFrom_lt hX x : firstFrom X x < Y.length)
  have hb : ∃ z, before Y (firstFrom X x) = .ok z := by
    unfold before
    split_ifs
    · exact ⟨_, last_ok hY⟩
    · exact ⟨_, item_ok (by omega)⟩
  obtain ⟨z, hz⟩ := hb
  unfold upperCHF
  simp only [item_ok hi, bind, Except.bind, hz]
  split_ifs <;> simp

theorem ownY_ok {d : Dist} {func : String} {X : List ℝ} {Y : List EReal} (hY : Y ≠ []) (hl : X.length = Y.length) (x x' : ℝ) :
    ((∃ u, ownY d func X Y x x' = .ok u) ↔ func ∈ Functions) ∧
    ((∃ u, ownY d func X Y x x' = .ok u) ∨ ownY d func X Y x x' = .error .valueError) := by
  obtain ⟨u1, h1⟩ := upperPDF_ok (d := d) hY
  obtain ⟨u2, h2⟩ := upperHF_ok (d := d) hY hl x'
  obtain ⟨u3, h3⟩ := upperCHF_ok hY hl x
  unfold ownY
  simp only [h1, h2, h3, Functions, List.mem_cons, List.not_mem_nil, or_false]
  split_ifs with g1 g2 g3 g4 <;> simp <;> tauto

/-- **C127 (errors).** For a curve of one point or more, a plot is refused exactly for a function that is none of PDF, CDF, SF,
HF and CHF (in capitals or not), an empty list of x-values, or a distribution of unknown name where its name is needed (neither
x-values nor xmin given); and always with a ValueError. -/
theorem C127_errors (a : Axes) (r : Request) (hY : r.Y ≠ []) (hl : r.X.length = r.Y.length) :
    ((∃ b, plot a r = .ok b) ↔
      r.func ∈ Functions ∧ r.xvals ≠ some [] ∧ (r.xvals = none → r.xmin = none → r.dist.name ∈ Names)) ∧
    ((∃ b, plot a r = .ok b) ∨ plot a r = .error .valueError) := by
  have hX : r.X ≠ [] := by intro h; rw [h] at hl; exact hY (List.length_eq_zero_iff.1 hl.symm)
  obtain ⟨x1, x2⟩ := ownX_ok (d := r.dist) (xvals := r.xvals) (xmin := r.xmin) (xmax := r.xmax) hX
  rcases x2 with ⟨o, ho⟩ | ho
  · have hx := x1.1 ⟨o, ho⟩
    obtain ⟨y1, y2⟩ := ownY_ok (d := r.dist) (func := r.func) hY hl o.2
      (newX (getAxesLimits a) { a with xlim := r.drawn.1, ylim := r.drawn.2 } r.X o).2
    unfold plot restoreAxesLimits
    simp only [ho, bind, Except.bind]
    rcases y2 with ⟨u, hu⟩ | hu
    · have := y1.1 ⟨u, hu⟩
      simp only [hu]
      exact ⟨⟨fun _ => ⟨this, hx⟩, fun _ => ⟨_, rfl⟩⟩, .inl ⟨_, rfl⟩⟩
    · have : r.func ∉ Functions := fun h => by obtain ⟨u, h⟩ := y1.2 h; rw [hu] at h; cases h
      simp only [hu]
      simp [this]
  · have hx : ¬ (r.xvals ≠ some [] ∧ (r.xvals = none → r.xmin = none → r.dist.name ∈ Names)) := fun h => by
      obtain ⟨u, h⟩ := x1.2 h; rw [ho] at h; cases h
    unfold plot restoreAxesLimits
    simp only [ho, bind, Except.bind]
    refine ⟨⟨fun ⟨_, h⟩ => (by cases h), fun h => absurd h.2 hx⟩, .inr trivial⟩

/-! ## What is visible -/

theorem finite_coe (x : ℝ) : Finite (x : EReal) := ⟨EReal.coe_ne_top x, EReal.coe_ne_bot x⟩

theorem coe_spacing (x : ℝ) : (x : EReal) * topSpacing = ((x * 1.1 : ℝ) : EReal) := by
  unfold topSpacing
  rw [EReal.coe_mul]

/-- What matplotlib makes of two equal limits has them in it. -/
def Widens (a : Axes) : Prop := ∀ x, (a.widen x).1 ≤ x ∧ x ≤ (a.widen x).2

theorem newY_visible {l : Limits} {a : Axes} {Y : List EReal} {u y : ℝ} (hw : Widens a) (hlin : a.ylinear = true)
    (hY : 2 ≤ Y.length) (h0 : 0 ≤ y) (hu : y ≤ u) (hd : y ≤ a.ylim.2) :
    (newY l a Y u).1 ≤ y ∧ y ≤ (newY l a Y u).2 := by
  set lo : ℝ := if l.usePrev then min 0 l.ylims.1 else 0 with hlo
  set hi : ℝ := if l.usePrev then max u l.ylims.2 else u with hhi
  have hlo0 : lo ≤ 0 := by rw [hlo]; split_ifs; exacts [min_le_left _ _, le_rfl]
  have hhiu : u ≤ hi := by rw [hhi]; split_ifs; exacts [le_max_left _ _, le_rfl]
  have he : newY l a Y u = if (lo : EReal) ≠ (hi : EReal) ∧ Finite (hi : EReal) then (lo, hi) else setLim a.widen lo a.ylim.2 := by
    unfold newY
    simp only [hlin, true_and]
    rw [if_pos (by omega)]
    have e : (if l.usePrev = true then max (u : EReal) (l.ylims.2 : EReal) else u) = (hi : EReal) := by
      rw [hhi]
      split_ifs
      · exact (EReal.coe_strictMono.monotone.map_max).symm
      · rfl
    rw [e, ← hlo, EReal.toReal_coe]
  rw [he]
  split_ifs with h
  · exact ⟨hlo0.trans h0, hu.trans hhiu⟩
  · have e : lo = hi := by
      by_contra hne
      exact h ⟨fun h' => hne (EReal.coe_injective h'), finite_coe _⟩
    unfold setLim
    have hy : y = lo := by linarith
    split_ifs with h2
    · rw [hy]; exact hw lo
    · exact ⟨hy.ge, hd⟩

theorem mem_coe {ys : List ℝ} {m : EReal} (h : m ∈ ys.map Real.toEReal) : ∃ y ∈ ys, m = (y : EReal) := by
  obtain ⟨y, hy, rfl⟩ := List.mem_map.1 h
  exact ⟨y, hy, rfl⟩

theorem last_coe {ys : List ℝ} {m : EReal} (h : last (ys.map Real.toEReal) = .ok m) : ∃ hne : ys ≠ [], m = (ys.getLast hne : EReal) := by
  have hne : ys ≠ [] := by rintro rfl; cases h
  have hne' : ys.map Real.toEReal ≠ [] := by simpa using hne
  rw [last_ok hne', Except.ok.injEq, List.getLast_map hne'] at h
  exact ⟨hne, h.symm⟩

/-- The upper limit of a PDF of finite values is a number that no value exceeds. -/
theorem upperPDF_spec {d : Dist} {ys : List ℝ} {u : EReal} (h0 : ∀ y ∈ ys, 0 ≤ y) (h : upperPDF d (ys.map Real.toEReal) = .ok u) :
    ∃ v : ℝ, u = v ∧ ∀ y ∈ ys, y ≤ v := by
  unfold upperPDF at h
  simp only [bind_ok] at h
  obtain ⟨l, hl, h⟩ := h
  obtain ⟨hne, rfl⟩ := last_coe hl
  rw [if_neg (fun h => h.2 (finite_coe _))] at h
  split_ifs at h with h1
  · obtain ⟨hm, hM⟩ := maximum_spec h
    obtain ⟨m, hm, rfl⟩ := mem_coe hm
    exact ⟨m, rfl, fun y hy => EReal.coe_le_coe_iff.1 (hM _ (List.mem_map_of_mem hy))⟩
  · simp only [bind_ok, Except.ok.injEq] at h
    obtain ⟨m, h, rfl⟩ := h
    obtain ⟨hm, hM⟩ := maximum_spec h
    obtain ⟨m, hm', rfl⟩ := mem_coe hm
    refine ⟨m * 1.1, coe_spacing m, fun y hy => ?_⟩
    have := EReal.coe_le_coe_iff.1 (hM _ (List.mem_map_of_mem hy))
    have := h0 m hm'
    norm_num
    linarith

theorem firstFrom_spec {X : List ℝ} (hX : X.Pairwise (· < ·)) {x : ℝ} {i : ℕ} (hi : i < X.length) (h : X[i] ≤ x) : i ≤ firstFrom X x := by
  unfold firstFrom
  simp only
  split_ifs with h1
  · omega
  · by_contra hlt
    push Not at hlt
    have h2 : X.findIdx (fun t => decide (x ≤ t)) < X.length := by omega
    have h3 := List.findIdx_getElem (w := h2)
    simp only [decide_eq_true_eq] at h3
    have := List.pairwise_iff_getElem.1 hX _ i h2 hi hlt
    linarith

theorem upperHF_spec {d : Dist} {X ys : List ℝ} {x : ℝ} {u : EReal} (h0 : ∀ y ∈ ys, 0 ≤ y) (hl : X.length = ys.length)
    (hX : X.Pairwise (· < ·)) (hshape : ys.Pairwise (· ≤ ·) ∨ ∃ y ∈ ys, ∃ z ∈ ys.getLast?, z < y)
    (h : upperHF d X (ys.map Real.toEReal) x = .ok u) :
    ∃ v : ℝ, u = v ∧ ∀ i (hi : i < ys.length), X[i] ≤ x → ys[i] ≤ v := by
  unfold upperHF at h
  simp only [bind_ok] at h
  obtain ⟨l, hl', h⟩ := h
  obtain ⟨hne, rfl⟩ := last_coe hl'
  rw [if_neg (fun h => h.2 (finite_coe _))] at h
  split_ifs at h with h1
  · obtain ⟨hm, hM⟩ := maximum_spec h
    obtain ⟨m, hm, rfl⟩ := mem_coe hm
    exact ⟨m, rfl, fun i hi _ => EReal.coe_le_coe_iff.1 (hM _ (List.mem_map_of_mem (List.getElem_mem hi)))⟩
  · simp only [bind_ok] at h
    obtain ⟨m, h2, h⟩ := h
    obtain ⟨hm, hM⟩ := maximum_spec h2
    obtain ⟨m, hm', rfl⟩ := mem_coe hm
    split_ifs at h with h3
    · simp only [Except.ok.injEq] at h
      subst h
      refine ⟨m * 1.1, coe_spacing m, fun i hi _ => ?_⟩
      have := EReal.coe_le_coe_iff.1 (hM _ (List.mem_map_of_mem (List.getElem_mem hi)))
      have := h0 m hm'
      norm_num
      linarith
    · simp only [bind_ok, Except.ok.injEq] at h
      obtain ⟨y, hy, rfl⟩ := h
      have hX0 : X ≠ [] := by rintro rfl; exact hne (List.length_eq_zero_iff.1 hl.symm)
      have hk : firstFrom X x < ys.length := hl ▸ firstFrom_lt hX0 x
      rw [item_ok (by simpa using hk), Except.ok.injEq, List.getElem_map] at hy
      subst hy
      refine ⟨ys[firstFrom X x] * 1.1, coe_spacing _, fun i hi hxi => ?_⟩
      have hs : ys.Pairwise (· ≤ ·) := by
        rcases hshape with hs | ⟨y, hy, z, hz, hlt⟩
        · exact hs
        · exfalso
          apply h3
          rw [List.getLast?_eq_getLast_of_ne_nil hne, Option.mem_some_iff] at hz
          subst hz
          exact (EReal.coe_lt_coe_iff.2 hlt).trans_le (hM _ (List.mem_map_of_mem hy))
      have hle := firstFrom_spec hX (hl.symm ▸ hi) hxi
      have h5 : ys[i] ≤ ys[firstFrom X x] := by
        rcases hle.lt_or_eq with hlt | he
        · exact List.pairwise_iff_getElem.1 hs _ _ hi hk hlt
        · simp [he]
      have := h0 _ (List.getElem_mem hk)
      norm_num
      linarith

theorem upperCHF_spec {X ys : List ℝ} {x : ℝ} {u : EReal} (h0 : ∀ y ∈ ys, 0 ≤ y) (hl : X.length = ys.length)
    (hX : X.Pairwise (· < ·)) (hs : ys.Pairwise (· ≤ ·)) (h : upperCHF X (ys.map Real.toEReal) x = .ok u) :
    ∃ v : ℝ, u = v ∧ ∀ i (hi : i < ys.length), X[i] ≤ x → ys[i] ≤ v := by
  unfold upperCHF at h
  simp only [bind_ok] at h
  obtain ⟨y, hy, h⟩ := h
  have hk : firstFrom X x < ys.length := by
    by_contra hn
    unfold item at hy
    rw [List.getElem?_eq_none (by simpa using hn)] at hy
    cases hy
  rw [item_ok (by simpa using hk), Except.ok.injEq, List.getElem_map] at hy
  subst hy
  rw [if_pos (finite_coe _), Except.ok.injEq] at h
  refine ⟨ys[firstFrom X x] * 1.1, by rw [← h, coe_spacing], fun i hi hxi => ?_⟩
  have hle := firstFrom_spec hX (hl.symm ▸ hi) hxi
  have h5 : ys[i] ≤ ys[firstFrom X x] := by
    rcases hle.lt_or_eq with hlt | he
    · exact List.pairwise_iff_getElem.1 hs _ _ hi hk hlt
    · simp [he]
  have := h0 _ (List.getElem_mem hk)
  norm_num
  linarith

theorem newY_fresh {a : Axes} {r : Request} (ha : Fresh a) (hlin : a.ylinear = true) (hY : 2 ≤ r.Y.length) {u : ℝ} (hu : 0 < u) :
    newY (getAxesLimits a) { a with xlim := r.drawn.1, ylim := r.drawn.2 } r.Y (u : EReal) = (0, u) := by
  have hp : (getAxesLimits a).usePrev = false := by
    simp [getAxesLimits, ha.1, ha.2]
  unfold newY
  simp only [hp, Bool.false_eq_true, if_false, hlin, true_and]
  rw [if_pos (by omega), if_pos]
  · simp
  · refine ⟨?_, finite_coe _⟩
    exact_mod_cast hu.ne

/-- **C127 (infinite values).** A plot of two or more points on fresh linear axes, some of the values infinite.  A PDF or HF that is
infinite at 0 and at the last point is shown up to five times its smallest value; one that is finite at the last point, but at 0
infinite or above 10, up to its largest value; a CHF that is infinite where its own window ends is shown up to 1.1 times the
value before. -/
theorem C127_infinite (a b : Axes) (r : Request) (h : plot a r = .ok b) (ha : Fresh a) (hlin : a.ylinear = true)
    (hY : 2 ≤ r.Y.length) :
    ((r.func ∈ ["pdf", "PDF"] ∧ ¬ Finite r.dist.pdf0 ∨ r.func ∈ ["hf", "HF"] ∧ ¬ Finite r.dist.hf0) →
      (∃ l, r.Y.getLast? = some l ∧ ¬ Finite l) → ∀ m : ℝ, 0 < m → (m : EReal) ∈ r.Y → (∀ y ∈ r.Y, (m : EReal) ≤ y) →
      b.ylim = (0, 5 * m)) ∧
    ((r.func ∈ ["pdf", "PDF"] ∧ (r.dist.pdf0 = ⊤ ∨ 10 < r.dist.pdf0) ∨ r.func ∈ ["hf", "HF"] ∧ (r.dist.hf0 = ⊤ ∨ 10 < r.dist.hf0)) →
      (∃ l, r.Y.getLast? = some l ∧ Finite l) → ∀ m : ℝ, 0 < m → (m : EReal) ∈ r.Y → (∀ y ∈ r.Y, y ≤ (m : EReal)) →
      b.ylim = (0, m)) ∧
    (r.func ∈ ["chf", "CHF"] → ∃ lo right, Window r.dist.name r.dist.gamma r.dist.quantile r.X r.xvals r.xmin r.xmax lo right ∧
      ∀ i t s (z : ℝ), r.X[i]? = some s → s < right → r.X[i + 1]? = some t → right ≤ t → r.X.Pairwise (· < ·) →
        r.Y[i]? = some (z : EReal) → 0 < z → r.Y[i + 1]? = some ⊤ → b.ylim = (0, z * 1.1)) := by
  obtain ⟨own, up, h1, hx, hup, hy, -⟩ := plot_ok h
  have hne : r.Y ≠ [] := by rintro e; rw [e] at hY; simp at hY
  have key : ∀ {u : ℝ}, 0 < u → up = (u : EReal) → b.ylim = (0, u) := by
    intro u hu e
    rw [hy, e]
    exact newY_fresh ha hlin hY hu
  have hmin : ∀ m : ℝ, (m : EReal) ∈ r.Y → (∀ y ∈ r.Y, (m : EReal) ≤ y) → minimum r.Y = .ok (m : EReal) := by
    intro m hm hle
    obtain ⟨m', hm'⟩ := minimum_ok hne
    obtain ⟨a1, a2⟩ := minimum_spec hm'
    rw [hm', le_antisymm (a2 _ hm) (hle _ a1)]
  have hmax : ∀ m : ℝ, (m : EReal) ∈ r.Y → (∀ y ∈ r.Y, y ≤ (m : EReal)) → maximum r.Y = .ok (m : EReal) := by
    intro m hm hle
    obtain ⟨m', hm'⟩ := maximum_ok hne
    obtain ⟨a1, a2⟩ := maximum_spec hm'
    rw [hm', le_antisymm (hle _ a1) (a2 _ hm)]
  have pdf : r.func ∈ ["pdf", "PDF"] → upperPDF r.dist r.Y = .ok up := by
    intro hf
    unfold ownY at hup
    rwa [if_pos hf] at hup
  have hf : r.func ∈ ["hf", "HF"] → upperHF r.dist r.X r.Y b.xlim.2 = .ok up := by
    intro hf
    unfold ownY at hup
    simp only [List.mem_cons, List.not_mem_nil, or_false] at hf
    rcases hf with e | e <;> rw [e] at hup <;> simpa using hup
  have chf : r.func ∈ ["chf", "CHF"] → upperCHF r.X r.Y own.2 = .ok up := by
    intro hf
    unfold ownY at hup
    simp only [List.mem_cons, List.not_mem_nil, or_false] at hf
    rcases hf with e | e <;> rw [e] at hup <;> simpa using hup
  have hlast : ∀ l, r.Y.getLast? = some l → last r.Y = .ok l := by
    intro l hl
    unfold last
    rw [hl]
  refine ⟨?_, ?_, ?_⟩
  · rintro hc ⟨l, hl, hl'⟩ m hm0 hm hle
    apply key (by positivity)
    have e5 : (m : EReal) * 5 = ((5 * m : ℝ) : EReal) := by
      rw [mul_comm]; push_cast; rfl
    rcases hc with ⟨hf', h0⟩ | ⟨hf', h0⟩
    · have := pdf hf'
      unfold upperPDF at this
      rw [hlast l hl] at this
      simp only [bind, Except.bind] at this
      rw [if_pos ⟨h0, hl'⟩, hmin m hm hle] at this
      rw [← e5]
      exact (Except.ok.inj this).symm
    · have := hf hf'
      unfold upperHF at this
      rw [hlast l hl] at this
      simp only [bind, Except.bind] at this
      rw [if_pos ⟨h0, hl'⟩, hmin m hm hle] at this
      rw [← e5]
      exact (Except.ok.inj this).symm
  · rintro hc ⟨l, hl, hl'⟩ m hm0 hm hle
    apply key hm0
    rcases hc with ⟨hf', h0⟩ | ⟨hf', h0⟩
    · have := pdf hf'
      unfold upperPDF at this
      rw [hlast l hl] at this
      simp only [bind, Except.bind] at this
      rw [if_neg (fun h => h.2 hl'), if_pos (.inr h0), hmax m hm hle] at this
      exact (Except.ok.inj this).symm
    · have := hf hf'
      unfold upperHF at this
      rw [hlast l hl] at this
      simp only [bind, Except.bind] at this
      rw [if_neg (fun h => h.2 hl'), if_pos (.inr h0), hmax m hm hle] at this
      exact (Except.ok.inj this).symm
  · intro hf'
    have hup := chf hf'
    refine ⟨own.1, own.2, (window_spec h1).1, fun i t s z hs hs' ht ht' hX hz hz0 hinf => ?_⟩
    obtain ⟨i1, e1⟩ := List.getElem?_eq_some_iff.1 hs
    obtain ⟨i2, e2⟩ := List.getElem?_eq_some_iff.1 ht
    have hfirst : firstFrom r.X own.2 = i + 1 := by
      have hidx : r.X.findIdx (fun t => decide (own.2 ≤ t)) = i + 1 := by
        rw [List.findIdx_eq i2]
        refine ⟨by rw [e2]; exact decide_eq_true ht', fun j hj => decide_eq_false (not_le.2 ?_)⟩
        rcases (Nat.lt_succ_iff.1 hj).lt_or_eq with h | rfl
        · have := List.pairwise_iff_getElem.1 hX j i (by omega) i1 h
          rw [e1] at this
          exact this.trans hs'
        · rw [e1]; exact hs'
      unfold firstFrom
      simp only [hidx]
      rw [if_neg (by omega)]
    apply key (u := z * 1.1) (by positivity)
    unfold upperCHF at hup
    simp only [hfirst, item, hinf, bind, Except.bind] at hup
    rw [if_neg (fun h => h.1 rfl)] at hup
    simp only [before, Nat.add_eq_zero_iff, one_ne_zero, and_false, if_false, Nat.add_sub_cancel, item, hz, topSpacing] at hup
    have := (Except.ok.inj hup).symm
    rw [this]
    push_cast
    rfl

/-- **C127 (visible).** A plot of two or more points with finite values, none negative, in ascending order of x, on linear axes
whose autoscaling shows what is drawn.  Whatever the previous limits, the vertical limits show every point of a CDF or SF and
of a PDF; of a HF that never falls or whose last value is not its largest, every point as far as the right limit; of a CHF,
every point as far as the right end of its own window. -/
theorem C127_visible (a b : Axes) (r : Request) (ys : List ℝ) (h : plot a r = .ok b) (hlin : a.ylinear = true) (hw : Widens a)
    (hY : r.Y = ys.map Real.toEReal) (hlen : 2 ≤ ys.length) (hl : r.X.length = ys.length) (hX : r.X.Pairwise (· < ·))
    (h0 : ∀ y ∈ ys, 0 ≤ y) (hd : ∀ y ∈ ys, y ≤ r.drawn.2.2) :
    (r.func ∈ ["cdf", "CDF", "sf", "SF"] → (∀ y ∈ ys, y ≤ 1) → ∀ y ∈ ys, b.ylim.1 ≤ y ∧ y ≤ b.ylim.2) ∧
    (r.func ∈ ["pdf", "PDF"] → ∀ y ∈ ys, b.ylim.1 ≤ y ∧ y ≤ b.ylim.2) ∧
    (r.func ∈ ["hf", "HF"] → (ys.Pairwise (· ≤ ·) ∨ ∃ y ∈ ys, ∃ z ∈ ys.getLast?, z < y) →
      ∀ i (hi : i < ys.length), r.X[i] ≤ b.xlim.2 → b.ylim.1 ≤ ys[i] ∧ ys[i] ≤ b.ylim.2) ∧
    (r.func ∈ ["chf", "CHF"] → ys.Pairwise (· ≤ ·) → ∃ lo right,
      Window r.dist.name r.dist.gamma r.dist.quantile r.X r.xvals r.xmin r.xmax lo right ∧
      ∀ i (hi : i < ys.length), r.X[i] ≤ right → b.ylim.1 ≤ ys[i] ∧ ys[i] ≤ b.ylim.2) := by
  obtain ⟨own, up, h1, hx, hup, hy, -⟩ := plot_ok h
  rw [hY] at hup
  have hlen' : 2 ≤ r.Y.length := by rw [hY]; simpa using hlen
  refine ⟨fun hf h1 y hy' => ?_, fun hf y hy' => ?_, fun hf hs i hi hxi => ?_, fun hf hs => ?_⟩
  · have : up = ((1.1 : ℝ) : EReal) := by
      unfold ownY at hup
      rw [if_neg, if_pos] at hup
      · simpa [topSpacing] using hup.symm
      · simp only [List.mem_cons, List.not_mem_nil, or_false] at hf ⊢; tauto
      · simp only [List.mem_cons, List.not_mem_nil, or_false] at hf ⊢
        rcases hf with h | h | h | h <;> rw [h] <;> decide
    subst this
    rw [hy]
    refine newY_visible hw hlin hlen' (h0 y hy') ((h1 y hy').trans (by norm_num)) (hd y hy')
  · unfold ownY at hup
    rw [if_pos hf] at hup
    obtain ⟨v, rfl, hv⟩ := upperPDF_spec h0 hup
    rw [hy]
    exact newY_visible hw hlin hlen' (h0 y hy') (hv y hy') (hd y hy')
  · have hup : upperHF r.dist r.X (ys.map Real.toEReal) b.xlim.2 = .ok up := by
      unfold ownY at hup
      simp only [List.mem_cons, List.not_mem_nil, or_false] at hf
      rcases hf with hf | hf <;> rw [hf] at hup <;> simpa using hup
    obtain ⟨v, rfl, hv⟩ := upperHF_spec h0 hl hX hs hup
    rw [hy]
    exact newY_visible hw hlin hlen' (h0 _ (List.getElem_mem hi)) (hv i hi hxi) (hd _ (List.getElem_mem hi))
  · have hup : upperCHF r.X (ys.map Real.toEReal) own.2 = .ok up := by
      unfold ownY at hup
      simp only [List.mem_cons, List.not_mem_nil, or_false] at hf
      rcases hf with hf | hf <;> rw [hf] at hup <;> simpa using hup
    obtain ⟨v, rfl, hv⟩ := upperCHF_spec h0 hl hX hs hup
    refine ⟨own.1, own.2, (window_spec h1).1, fun i hi hxi => ?_⟩
    rw [hy]
    exact newY_visible hw hlin hlen' (h0 _ (List.getElem_mem hi)) (hv i hi hxi) (hd _ (List.getElem_mem hi))

/-! ## Several plots on the same axes -/

theorem ownY_finite {d : Dist} {func : String} {X ys : List ℝ} {x x' : ℝ} {u : EReal}
    (h : ownY d func X (ys.map Real.toEReal) x x' = .ok u) : ∃ v : ℝ, u = v := by
  unfold ownY at h
  split_ifs at h with g1 g2 g3 g4
  · unfold upperPDF at h
    simp only [bind_ok] at h
    obtain ⟨l, hl, h⟩ := h
    obtain ⟨hne, rfl⟩ := last_coe hl
    rw [if_neg (fun h => h.2 (finite_coe _))] at h
    split_ifs at h with h1
    · obtain ⟨m, -, rfl⟩ := mem_coe (maximum_spec h).1
      exact ⟨m, rfl⟩
    · simp only [bind_ok, Except.ok.injEq] at h
      obtain ⟨m, h, rfl⟩ := h
      obtain ⟨m, -, rfl⟩ := mem_coe (maximum_spec h).1
      exact ⟨_, coe_spacing m⟩
  · simp only [Except.ok.injEq] at h
    exact ⟨_, h.symm⟩
  · unfold upperHF at h
    simp only [bind_ok] at h
    obtain ⟨l, hl, h⟩ := h
    obtain ⟨hne, rfl⟩ := last_coe hl
    rw [if_neg (fun h => h.2 (finite_coe _))] at h
    split_ifs at h with h1
    · obtain ⟨m, -, rfl⟩ := mem_coe (maximum_spec h).1
      exact ⟨m, rfl⟩
    · simp only [bind_ok] at h
      obtain ⟨m, h2, h⟩ := h
      obtain ⟨m, -, rfl⟩ := mem_coe (maximum_spec h2).1
      split_ifs at h with h3
      · simp only [Except.ok.injEq] at h
        exact ⟨_, by rw [← h, coe_spacing m]⟩
      · simp only [bind_ok, Except.ok.injEq] at h
        obtain ⟨y, hy, rfl⟩ := h
        unfold item at hy
        split at hy
        · rename_i y' hy'
          obtain ⟨z, -, rfl⟩ := mem_coe (List.mem_of_getElem? hy')
          cases hy
          exact ⟨_, coe_spacing z⟩
        · cases hy
  · unfold upperCHF at h
    simp only [bind_ok] at h
    obtain ⟨y, hy, h⟩ := h
    unfold item at hy
    split at hy
    · rename_i y' hy'
      obtain ⟨z, -, rfl⟩ := mem_coe (List.mem_of_getElem? hy')
      cases hy
      rw [if_pos (finite_coe _), Except.ok.injEq] at h
      exact ⟨_, by rw [← h, coe_spacing z]⟩
    · cases hy

/-- Limits in ascending order. -/
def Proper (a : Axes) : Prop := a.xlim.1 < a.xlim.2 ∧ a.ylim.1 < a.ylim.2

/-- A plot of two or more points of a function with finite values. -/
def FinitePlot (r : Request) : Prop :=
  ∃ ys : List ℝ, r.Y = ys.map Real.toEReal ∧ r.X.length = ys.length ∧ 2 ≤ ys.length

/-- **C127 (previous limits).** On linear axes with limits other than the fresh ones, a plot of two or more finite values leaves
everything visible that was. -/
theorem C127_keeps (a b : Axes) (r : Request) (h : plot a r = .ok b) (hx : a.xlinear = true) (hy : a.ylinear = true)
    (hr : FinitePlot r) (ha : Proper a) (hf : ¬ Fresh a) : Within a.xlim b.xlim ∧ Within a.ylim b.ylim ∧ Proper b := by
  obtain ⟨ys, hY, hl, hlen⟩ := hr
  obtain ⟨own, up, h1, hxe, hup, hye, -⟩ := plot_ok h
  obtain ⟨lo, hi, hw, hle, -, hb⟩ := C127_window a b r h hx (by omega)
  have hbx := hb hf ha.1
  have hu : (getAxesLimits a).usePrev = true := by
    simp only [getAxesLimits, Bool.not_eq_true', decide_eq_false_iff_not]; exact hf
  rw [hY] at hup
  obtain ⟨v, rfl⟩ := ownY_finite hup
  have hby : b.ylim = (min 0 a.ylim.1, max v a.ylim.2) := by
    rw [hye]
    unfold newY
    simp only [hy, true_and, hu, if_true]
    rw [if_pos (by rw [hY, List.length_map]; omega)]
    have e : max (v : EReal) ((getAxesLimits a).ylims.2 : EReal) = ((max v a.ylim.2 : ℝ) : EReal) :=
      (EReal.coe_strictMono.monotone.map_max).symm
    have hne : ((min 0 a.ylim.1 : ℝ) : EReal) ≠ ((max v a.ylim.2 : ℝ) : EReal) := by
      intro he
      have he : min 0 a.ylim.1 = max v a.ylim.2 := EReal.coe_injective he
      have := min_le_right 0 a.ylim.1
      have := le_max_right v a.ylim.2
      have := ha.2
      linarith
    rw [e]
    exact if_pos ⟨hne, finite_coe _⟩
  have m1 := min_le_right lo a.xlim.1
  have m2 := le_max_right hi a.xlim.2
  have m3 := min_le_right 0 a.ylim.1
  have m4 := le_max_right v a.ylim.2
  have := ha.1
  have := ha.2
  refine ⟨⟨?_, ?_⟩, ⟨?_, ?_⟩, ?_, ?_⟩
  · rw [hbx]; exact m1
  · rw [hbx]; exact m2
  · rw [hby]; exact m3
  · rw [hby]; exact m4
  · rw [hbx]; dsimp only; linarith
  · rw [hby]; dsimp only; linarith

theorem plot_linear {a b : Axes} {r : Request} (h : plot a r = .ok b) : b.xlinear = a.xlinear ∧ b.ylinear = a.ylinear := by
  obtain ⟨own, up, -, -, -, -, h1, h2, -⟩ := plot_ok h
  exact ⟨h1, h2⟩

theorem within_trans {p q s : ℝ × ℝ} (h1 : Within p q) (h2 : Within q s) : Within p s := ⟨h2.1.trans h1.1, h1.2.trans h2.2⟩

theorem plots_keep (rs : List Request) : ∀ (a b : Axes), plots a rs = .ok b → a.xlinear = true → a.ylinear = true →
    (∀ r ∈ rs, FinitePlot r) → Proper a → (∀ rs1 rs2 c, rs = rs1 ++ rs2 → plots a rs1 = .ok c → ¬ Fresh c) →
    Within a.xlim b.xlim ∧ Within a.ylim b.ylim := by
  induction rs with
  | nil =>
    intro a b h _ _ _ _ _
    cases h
    exact ⟨⟨le_rfl, le_rfl⟩, ⟨le_rfl, le_rfl⟩⟩
  | cons r rs ih =>
    intro a b h hx hy hr ha hf
    simp only [plots, bind_ok] at h
    obtain ⟨c, hc, h⟩ := h
    obtain ⟨k1, k2, k3⟩ := C127_keeps a c r hc hx hy (hr r (by simp)) ha (hf [] _ a rfl rfl)
    obtain ⟨l1, l2⟩ := plot_linear hc
    obtain ⟨i1, i2⟩ := ih c b h (l1.trans hx) (l2.trans hy) (fun s hs => hr s (by simp [hs])) k3 (fun rs1 rs2 d he hd => by
      refine hf (r :: rs1) rs2 d (by rw [he]; rfl) ?_
      simp only [plots, bind_ok]
      exact ⟨c, hc, hd⟩)
    exact ⟨within_trans k1 i1, within_trans k2 i2⟩

theorem plots_append (rs1 rs2 : List Request) : ∀ (a b : Axes), plots a (rs1 ++ rs2) = .ok b →
    ∃ c, plots a rs1 = .ok c ∧ plots c rs2 = .ok b := by
  induction rs1 with
  | nil => intro a b h; exact ⟨a, rfl, h⟩
  | cons r rs ih =>
    intro a b h
    simp only [List.cons_append, plots, bind_ok] at h
    obtain ⟨c, hc, h⟩ := h
    obtain ⟨d, hd, h⟩ := ih c b h
    exact ⟨d, by simp only [plots, bind_ok]; exact ⟨c, hc, hd⟩, h⟩

theorem plots_snoc (rs : List Request) (r : Request) : ∀ (a b c : Axes), plots a rs = .ok b → plot b r = .ok c →
    plots a (rs ++ [r]) = .ok c := by
  induction rs with
  | nil =>
    intro a b c h h2
    cases h
    simp only [List.nil_append, plots, h2, bind, Except.bind]
  | cons s rs ih =>
    intro a b c h h2
    simp only [List.cons_append, plots, bind_ok] at h ⊢
    obtain ⟨d, hd, h⟩ := h
    exact ⟨d, hd, ih d b c h h2⟩

theorem plots_linear (rs : List Request) : ∀ (a b : Axes), plots a rs = .ok b → b.xlinear = a.xlinear ∧ b.ylinear = a.ylinear := by
  induction rs with
  | nil => intro a b h; cases h; exact ⟨rfl, rfl⟩
  | cons r rs ih =>
    intro a b h
    simp only [plots, bind_ok] at h
    obtain ⟨c, hc, h⟩ := h
    obtain ⟨h1, h2⟩ := plot_linear hc
    obtain ⟨h3, h4⟩ := ih c b h
    exact ⟨h3.trans h1, h4.trans h2⟩

/-- **C127 (history).** Any number of plots of finite values, one after the other, on linear axes, none of which leaves limits
that are empty or exactly those of fresh axes: after the last one the window of every one of them is visible, and everything
that was visible after any one of them. -/
theorem C127_history (rs : List Request) (a b : Axes) (h : plots a rs = .ok b) (hx : a.xlinear = true) (hy : a.ylinear = true)
    (hr : ∀ r ∈ rs, FinitePlot r)
    (hlim : ∀ rs1 rs2 c, rs = rs1 ++ rs2 → rs1 ≠ [] → plots a rs1 = .ok c → Proper c ∧ ¬ Fresh c) (ha : a.xlim.1 < a.xlim.2) :
    (∀ rs1 rs2 c, rs = rs1 ++ rs2 → rs1 ≠ [] → plots a rs1 = .ok c → Within c.xlim b.xlim ∧ Within c.ylim b.ylim) ∧
    ∀ r ∈ rs, ∃ lo hi, Window r.dist.name r.dist.gamma r.dist.quantile r.X r.xvals r.xmin r.xmax lo hi ∧
      (lo < hi → b.xlim.1 ≤ lo ∧ hi ≤ b.xlim.2) := by
  have key : ∀ rs1 rs2 c, rs = rs1 ++ rs2 → rs1 ≠ [] → plots a rs1 = .ok c → Within c.xlim b.xlim ∧ Within c.ylim b.ylim := by
    intro rs1 rs2 c he hne hc
    rw [he] at h
    obtain ⟨c', hc', h2⟩ := plots_append rs1 rs2 a b h
    rw [hc, Except.ok.injEq] at hc'
    subst hc'
    obtain ⟨l1, l2⟩ := plots_linear rs1 a c hc
    refine plots_keep rs2 c b h2 (l1.trans hx) (l2.trans hy) (fun r hr' => hr r (by rw [he]; simp [hr'])) (hlim rs1 rs2 c he hne hc).1 ?_
    intro s1 s2 d he2 hd
    have hd' : plots a (rs1 ++ s1) = .ok d := by
      clear * - hc hd
      induction rs1 generalizing a with
      | nil => cases hc; exact hd
      | cons r rs ih =>
        simp only [List.cons_append, plots, bind_ok] at hc ⊢
        obtain ⟨e, he, hc⟩ := hc
        exact ⟨e, he, ih e hc⟩
    exact (hlim (rs1 ++ s1) s2 d (by rw [he, he2, List.append_assoc]) (by simp [hne]) hd').2
  refine ⟨key, fun r hr' => ?_⟩
  obtain ⟨rs1, rs2, he⟩ := List.append_of_mem hr'
  have h' := h
  rw [he] at h'
  obtain ⟨c, hc, h2⟩ := plots_append rs1 (r :: rs2) a b h'
  simp only [plots, bind_ok] at h2
  obtain ⟨d, hd, h2⟩ := h2
  obtain ⟨l1, l2⟩ := plots_linear rs1 a c hc
  obtain ⟨ys, hY, hlen, hlen2⟩ := hr r hr'
  obtain ⟨lo, hi, hw, hle, w1, w2⟩ := C127_window c d r hd (l1.trans hx) (by omega)
  have hcx : c.xlim.1 < c.xlim.2 := by
    by_cases hn : rs1 = []
    · subst hn; cases hc; exact ha
    · exact (hlim rs1 _ c he hn hc).1.1
  obtain ⟨k, -⟩ := key (rs1 ++ [r]) rs2 d (by rw [he]; simp) (by simp) (plots_snoc rs1 r a c d hc hd)
  refine ⟨lo, hi, hw, fun hlt => ?_⟩
  by_cases hf : Fresh c
  · rw [w1 hf hlt] at k; exact k
  · rw [w2 hf hcx] at k
    exact ⟨k.1.trans (min_le_left _ _), (le_max_left _ _).trans k.2⟩

/-! ## Findings -/

/-- Fresh linear axes. -/
def fresh : Axes := { xlim := (0, 1), ylim := (0, 1), xlinear := true, ylinear := true, widen := fun x => (x - 1, x + 1) }

theorem fresh_fresh : Fresh fresh := ⟨rfl, rfl⟩

theorem fresh_usePrev : (getAxesLimits fresh).usePrev = false := by
  simp only [getAxesLimits, Bool.not_eq_false', decide_eq_true_eq]; exact fresh_fresh

/-- **C127 (finding).** A shifted distribution below 0 (a negative `gamma` is accepted): on fresh axes the window is from the
99.9% quantile to 0, and shows nothing of the distribution between its 0.1% and 99.9% quantiles. -/
theorem C127_negative_gamma_finding (a : Axes) (r : Request) (b : Axes) (ha : Fresh a) (hx : a.xlinear = true)
    (hX : 2 ≤ r.X.length) (h : plot a r = .ok b) (hv : r.xvals = none) (h1 : r.xmin = none) (h2 : r.xmax = none)
    (hn : r.dist.name ∈ ["Weibull", "Gamma", "Loglogistic", "Exponential", "Lognormal"]) (hg : r.dist.gamma ≠ 0)
    (hq : r.dist.quantile (1 / 1000) < r.dist.quantile (999 / 1000)) (hneg : r.dist.quantile (999 / 1000) < 0) :
    b.xlim = (r.dist.quantile (999 / 1000), 0) := by
  obtain ⟨lo, hi, hw, hle, w1, -⟩ := C127_window a b r h hx hX
  rw [hv, h1, h2] at hw
  obtain ⟨l, u, hl, hu, rfl, rfl⟩ := hw
  have hl0 : l = 0 := by
    rcases hl with ⟨-, hg', -⟩ | ⟨-, -, rfl⟩ | ⟨hn', -⟩ | ⟨hn', -⟩ | ⟨hn', -⟩
    · exact absurd hg' hg
    · exact max_eq_left (by linarith)
    all_goals
      exfalso
      simp only [List.mem_cons, List.not_mem_nil, or_false] at hn hn'
      rcases hn with h | h | h | h | h <;> rw [h] at hn' <;> revert hn' <;> decide
  have hu0 : u = r.dist.quantile (999 / 1000) := by
    rcases hu with ⟨hn', -⟩ | ⟨-, rfl⟩
    · exfalso
      simp only [List.mem_cons, List.not_mem_nil, or_false] at hn
      rcases hn with h | h | h | h | h <;> rw [h] at hn' <;> revert hn' <;> decide
    · rfl
  subst hl0 hu0
  rw [min_eq_right hneg.le, max_eq_left hneg.le] at w1
  exact w1 ha hneg

theorem plot_of {a : Axes} {r : Request} {own : ℝ × ℝ} {up : EReal} (h1 : ownX r.dist r.X r.xvals r.xmin r.xmax = .ok own)
    (h2 : ownY r.dist r.func r.X r.Y own.2 (newX (getAxesLimits a) { a with xlim := r.drawn.1, ylim := r.drawn.2 } r.X own).2 = .ok up) :
    ∃ b, plot a r = .ok b ∧ b.xlim = newX (getAxesLimits a) { a with xlim := r.drawn.1, ylim := r.drawn.2 } r.X own ∧
      b.ylim = newY (getAxesLimits a) { a with xlim := r.drawn.1, ylim := r.drawn.2 } r.Y up := by
  refine ⟨⟨newX (getAxesLimits a) { a with xlim := r.drawn.1, ylim := r.drawn.2 } r.X own,
    newY (getAxesLimits a) { a with xlim := r.drawn.1, ylim := r.drawn.2 } r.Y up, a.xlinear, a.ylinear, a.widen⟩, ?_, rfl, rfl⟩
  unfold plot restoreAxesLimits
  simp only [h1, h2, bind, Except.bind]

/-- A curve for the findings: the points, and a distribution with the given 99.9% quantile. -/
noncomputable def sample (func : String) (ys : List ℝ) (q : ℝ) : Request :=
  { dist := { name := "Mixture", gamma := 0, quantile := fun _ => q, pdf0 := 0, hf0 := 0 }, func := func, X := [0, 1, 2, 3],
    Y := ys.map Real.toEReal, xvals := none, xmin := some 0, xmax := none, drawn := ((0, 3), (0, 7)) }

theorem sample_x (func : String) (ys : List ℝ) (q : ℝ) (hq : 0 < q) :
    ownX (sample func ys q).dist (sample func ys q).X (sample func ys q).xvals (sample func ys q).xmin (sample func ys q).xmax =
      .ok (0, q) := by
  have : ownUpper (sample func ys q).dist (sample func ys q).xmax = q := by
    simp [ownUpper, sample]
  have h0 : ownLower (sample func ys q).dist (sample func ys q).X (sample func ys q).xmin = .ok 0 := rfl
  have hv : (sample func ys q).xvals = none := rfl
  unfold ownX
  rw [hv, h0, this]
  show (if (0 : ℝ) > q then (.ok (q, 0) : Except Err (ℝ × ℝ)) else .ok (0, q)) = .ok (0, q)
  rw [if_neg (by linarith)]

/-- **C127 (finding).** A hazard function with a peak that is not its last value: the limits are those of its value at the right
limit, and the peak is cut off. The curve has the points (0, 1), (1, 5), (2, 2), (3, 6); the right limit is 2; the vertical
axis ends at 2.2. -/
theorem C127_hf_peak_finding : ∃ b, plot fresh (sample "HF" [1, 5, 2, 6] 2) = .ok b ∧ b.xlim = (0, 2) ∧ b.ylim = (0, 2.2) := by
  have hx := sample_x "HF" [1, 5, 2, 6] 2 (by norm_num)
  have hnx : newX (getAxesLimits fresh) { fresh with xlim := (sample "HF" [1, 5, 2, 6] 2).drawn.1, ylim := (sample "HF" [1, 5, 2, 6] 2).drawn.2 }
      (sample "HF" [1, 5, 2, 6] 2).X (0, 2) = (0, 2) := by
    simp [newX, fresh_usePrev, sample, setLim]
    simp [fresh]
  have hi : firstFrom [0, 1, 2, 3] 2 = 2 := by
    norm_num [firstFrom, List.findIdx_cons]
  have hy : ownY (sample "HF" [1, 5, 2, 6] 2).dist (sample "HF" [1, 5, 2, 6] 2).func (sample "HF" [1, 5, 2, 6] 2).X
      (sample "HF" [1, 5, 2, 6] 2).Y 2 2 = .ok ((2.2 : ℝ) : EReal) := by
    have : upperHF (sample "HF" [1, 5, 2, 6] 2).dist [0, 1, 2, 3] ([1, 5, 2, 6].map Real.toEReal) 2 = .ok ((2.2 : ℝ) : EReal) := by
      unfold upperHF
      obtain ⟨M, hM⟩ := maximum_ok (X := [1, 5, 2, 6].map Real.toEReal) (by simp)
      have hM6 : M ≤ ((6 : ℝ) : EReal) := by
        obtain ⟨m, hm, rfl⟩ := mem_coe (maximum_spec hM).1
        rw [EReal.coe_le_coe_iff]
        simp only [List.mem_cons, List.not_mem_nil, or_false] at hm
        rcases hm with rfl | rfl | rfl | rfl <;> norm_num
      have hl : last ([1, 5, 2, 6].map Real.toEReal) = .ok ((6 : ℝ) : EReal) := rfl
      simp only [hl, hM, bind, Except.bind]
      rw [if_neg (fun h => h.2 (finite_coe _)), if_neg, if_neg (not_lt.2 hM6), hi]
      · simp only [item, List.map_cons, List.map_nil]
        simp only [List.getElem?_cons_succ, List.getElem?_cons_zero]
        rw [coe_spacing]
        norm_num
      · rintro (h | h | h)
        · exact h (finite_coe _)
        · simp [sample] at h
        · simp only [sample, gt_iff_lt] at h
          exact absurd h (not_lt.2 (by norm_num))
    unfold ownY
    simpa [sample] using this
  obtain ⟨b, hb, h1, h2⟩ := plot_of (a := fresh) hx (by rw [hnx]; exact hy)
  refine ⟨b, hb, h1.trans hnx, ?_⟩
  rw [h2]
  unfold newY
  simp only [fresh_usePrev, Bool.false_eq_true, if_false]
  have : fresh.ylinear = true ∧ 1 < (sample "HF" [1, 5, 2, 6] 2).Y.length := ⟨rfl, by simp [sample]⟩
  have hne : ((0 : ℝ) : EReal) ≠ ((2.2 : ℝ) : EReal) := by
    rw [Ne, EReal.coe_eq_coe_iff]
    norm_num
  rw [if_pos this]
  exact if_pos ⟨hne, finite_coe _⟩

/-- **C127 (finding).** A cumulative hazard function on axes that already reach further to the right than its own window: its
points beyond that window are on the plot horizontally but cut off above. -/
theorem C127_chf_cut_finding : ∃ a b, plot a (sample "CHF" [0, 1, 2, 3] 1) = .ok b ∧ ¬ Fresh a ∧ b.xlim = (0, 3) ∧ b.ylim = (0, 1.1) := by
  let a : Axes := { fresh with xlim := (0, 3) }
  have hfa : ¬ Fresh a := fun h => by have := congrArg Prod.snd h.1; norm_num [a] at this
  have hu : (getAxesLimits a).usePrev = true := by
    simp only [getAxesLimits, Bool.not_eq_true', decide_eq_false_iff_not]; exact hfa
  have hx := sample_x "CHF" [0, 1, 2, 3] 1 (by norm_num)
  have hi : firstFrom [0, 1, 2, 3] 1 = 1 := by
    norm_num [firstFrom, List.findIdx_cons]
  have hy : ∀ z, ownY (sample "CHF" [0, 1, 2, 3] 1).dist (sample "CHF" [0, 1, 2, 3] 1).func (sample "CHF" [0, 1, 2, 3] 1).X
      (sample "CHF" [0, 1, 2, 3] 1).Y 1 z = .ok ((1.1 : ℝ) : EReal) := by
    intro z
    have : upperCHF [0, 1, 2, 3] ([0, 1, 2, 3].map Real.toEReal) 1 = .ok ((1.1 : ℝ) : EReal) := by
      unfold upperCHF
      rw [hi]
      have : item ([0, 1, 2, 3].map Real.toEReal) 1 = .ok ((1 : ℝ) : EReal) := rfl
      simp only [this, bind, Except.bind]
      rw [if_pos (finite_coe _), coe_spacing]
      norm_num
    unfold ownY
    simpa [sample] using this
  obtain ⟨b, hb, h1, h2⟩ := plot_of (a := a) hx (hy _)
  refine ⟨a, b, hb, hfa, ?_, ?_⟩
  · rw [h1]
    unfold newX
    simp only [hu, if_true]
    have : a.xlinear = true ∧ 1 < (sample "CHF" [0, 1, 2, 3] 1).X.length := ⟨rfl, by simp [sample]⟩
    rw [if_pos this]
    norm_num [setLim, getAxesLimits, a]
  · rw [h2]
    unfold newY
    simp only [hu, if_true]
    have : a.ylinear = true ∧ 1 < (sample "CHF" [0, 1, 2, 3] 1).Y.length := ⟨rfl, by simp [sample]⟩
    have e1 : min 0 (getAxesLimits a).ylims.1 = 0 := by simp [getAxesLimits, a, fresh]
    have e2 : max (((1.1 : ℝ)) : EReal) ((getAxesLimits a).ylims.2 : EReal) = ((1.1 : ℝ) : EReal) := by
      apply max_eq_left
      rw [EReal.coe_le_coe_iff]
      norm_num [getAxesLimits, a, fresh]
    have hne : ((0 : ℝ) : EReal) ≠ ((1.1 : ℝ) : EReal) := by
      rw [Ne, EReal.coe_eq_coe_iff]
      norm_num
    rw [if_pos this, e1, e2]
    exact if_pos ⟨hne, finite_coe _⟩

/-- **C127 (finding).** Axes on which something has been plotted with limits that are exactly 0 and 1 are taken for fresh ones: a
further plot does not keep them. -/
theorem C127_unit_square_finding : ∃ r b, FinitePlot r ∧ plot fresh r = .ok b ∧ b.xlim = (5, 6) := by
  let r : Request := { sample "CDF" [0, 1] 1 with X := [5, 6], xvals := some [5, 6] }
  have hx : ownX r.dist r.X r.xvals r.xmin r.xmax = .ok (5, 6) := by
    have h1 : minimum [(5 : ℝ), 6] = .ok 5 := by norm_num [minimum]
    have h2 : maximum [(5 : ℝ), 6] = .ok 6 := by norm_num [maximum]
    simp only [ownX, r, h1, h2, bind, Except.bind]
  obtain ⟨b, hb, h1, -⟩ := plot_of (a := fresh) (up := topSpacing) hx (by simp [ownY, r, sample])
  refine ⟨r, b, ⟨[0, 1], rfl, rfl, le_rfl⟩, hb, ?_⟩
  rw [h1]
  unfold newX
  simp only [fresh_usePrev, Bool.false_eq_true, if_false]
  have : fresh.xlinear = true ∧ 1 < r.X.length := ⟨rfl, by simp [r]⟩
  rw [if_pos this]
  norm_num [setLim]

/-- The hypotheses of the theorems above are met: two points of a Beta CDF, drawn on fresh axes with `xmin` and `xmax` in the
wrong order. -/
example : ∃ r b, FinitePlot r ∧ r.xmin = some 3 ∧ r.xmax = some 2 ∧ plot fresh r = .ok b ∧ b.xlim = (2, 3) := by
  let r : Request := { sample "CDF" [0, 1] 1 with X := [2, 3], xmin := some 3, xmax := some 2 }
  have hr : FinitePlot r := ⟨[0, 1], rfl, rfl, le_rfl⟩
  obtain ⟨b, hb⟩ := (C127_errors fresh r (by simp [r, sample]) rfl).1.2 ⟨by simp [r, sample, Functions], by simp [r, sample], by simp [r]⟩
  obtain ⟨lo, hi, ⟨l, u, rfl, rfl, rfl, rfl⟩, -, h, -⟩ := C127_window fresh b r hb rfl le_rfl
  refine ⟨r, b, hr, rfl, rfl, hb, ?_⟩
  have := h fresh_fresh (by norm_num)
  rw [this]; norm_num

/-- The hypotheses of `C127_infinite` are met: a U-shaped density, infinite at both ends, whose smallest value is 2; the axis
ends at 10. And one that is infinite only at the left end and is drawn from 7 down to 1; the axis ends at 7. -/
example : (∃ b, plot fresh { sample "PDF" [] 1 with dist := { (sample "PDF" [] 1).dist with pdf0 := ⊤ }, X := [0, 1, 2], Y := [⊤, ((2 : ℝ) : EReal), ⊤], xmax := some 2 } = .ok b ∧
      b.ylim = (0, 5 * 2)) ∧
    ∃ b, plot fresh { sample "PDF" [7, 3, 1] 1 with dist := { (sample "PDF" [] 1).dist with pdf0 := ⊤ }, X := [0, 1, 2], xmax := some 2 } = .ok b ∧
      b.ylim = (0, 7) := by
  constructor
  · obtain ⟨b, hb⟩ := (C127_errors fresh { sample "PDF" [] 1 with dist := { (sample "PDF" [] 1).dist with pdf0 := ⊤ }, X := [0, 1, 2], Y := [⊤, ((2 : ℝ) : EReal), ⊤], xmax := some 2 } (by simp) rfl).1.2
      ⟨by simp [sample, Functions], by simp [sample], by simp [sample]⟩
    refine ⟨b, hb, ?_⟩
    refine (C127_infinite fresh b _ hb fresh_fresh rfl (by simp)).1 (Or.inl ⟨by simp [sample], by simp [AxesLimits.Finite]⟩)
      ⟨⊤, rfl, by simp [AxesLimits.Finite]⟩ 2 (by norm_num) (by simp) ?_
    intro y hy
    simp only [List.mem_cons, List.not_mem_nil, or_false] at hy
    rcases hy with rfl | rfl | rfl <;> simp
  · obtain ⟨b, hb⟩ := (C127_errors fresh { sample "PDF" [7, 3, 1] 1 with dist := { (sample "PDF" [] 1).dist with pdf0 := ⊤ }, X := [0, 1, 2], xmax := some 2 } (by simp [sample]) rfl).1.2
      ⟨by simp [sample, Functions], by simp [sample], by simp [sample]⟩
    refine ⟨b, hb, ?_⟩
    refine (C127_infinite fresh b _ hb fresh_fresh rfl (by simp [sample])).2.1 (Or.inl ⟨by simp [sample], Or.inl rfl⟩)
      ⟨((1 : ℝ) : EReal), rfl, finite_coe _⟩ 7 (by norm_num) (by simp [sample]) ?_
    intro y hy
    obtain ⟨m, hm, rfl⟩ := mem_coe hy
    rw [EReal.coe_le_coe_iff]
    simp only [List.mem_cons, List.not_mem_nil, or_false] at hm
    rcases hm with rfl | rfl | rfl <;> norm_num

/-! ## C128 -/

/-- What matplotlib's transforms of an axis with the limits `lim` do: `data` is one-to-one on the interval between the limits,
takes the limits to the pixels of the coordinates 0 and 1, and is monotone in between; the inverses are inverses. -/
structure Maps (t : Transforms) (lim : ℝ × ℝ) : Prop where
  axes_inv : ∀ c, t.axesInv (t.axes c) = c
  axes_inv' : ∀ p, t.axes (t.axesInv p) = p
  data_inv : ∀ v, lim.1 ≤ v → v ≤ lim.2 → t.dataInv (t.data v) = v
  onto : ∀ c, 0 ≤ c → c ≤ 1 → ∃ v, lim.1 ≤ v ∧ v ≤ lim.2 ∧ t.data v = t.axes c
  left : t.data lim.1 = t.axes 0
  right : t.data lim.2 = t.axes 1
  mono : ∀ v w, lim.1 ≤ v → v < w → w ≤ lim.2 → t.data v < t.data w
  axes_mono : StrictMono t.axes

theorem Maps.forward {t : Transforms} {lim : ℝ × ℝ} (m : Maps t lim) {v : ℝ} (h1 : lim.1 ≤ v) (h2 : v ≤ lim.2) :
    0 ≤ t.axesInv (t.data v) ∧ t.axesInv (t.data v) ≤ 1 ∧ t.dataInv (t.axes (t.axesInv (t.data v))) = v := by
  refine ⟨?_, ?_, by rw [m.axes_inv', m.data_inv v h1 h2]⟩
  · apply m.axes_mono.le_iff_le.1
    rw [m.axes_inv', ← m.left]
    rcases h1.lt_or_eq with h | h
    · exact (m.mono _ _ le_rfl h h2).le
    · rw [h]
  · apply m.axes_mono.le_iff_le.1
    rw [m.axes_inv', ← m.right]
    rcases h2.lt_or_eq with h | h
    · exact (m.mono _ _ h1 h le_rfl).le
    · rw [h]

theorem Maps.reverse {t : Transforms} {lim : ℝ × ℝ} (m : Maps t lim) {c : ℝ} (h1 : 0 ≤ c) (h2 : c ≤ 1) :
    lim.1 ≤ t.dataInv (t.axes c) ∧ t.dataInv (t.axes c) ≤ lim.2 ∧ t.axesInv (t.data (t.dataInv (t.axes c))) = c := by
  obtain ⟨v, h3, h4, h5⟩ := m.onto c h1 h2
  rw [← h5, m.data_inv v h3 h4]
  exact ⟨h3, h4, by rw [h5, m.axes_inv]⟩

def Forward : List String := ["forward", "fwd"]

def Backward : List String := ["reverse", "inverse", "inv", "rev"]

theorem fwd_facts {d : String} (h : d ∈ Forward) : d ∈ ["reverse", "inverse", "inv", "rev", "forward", "fwd"] ∧ d ∉ ["reverse", "inverse", "inv", "rev"] := by
  simp only [Forward, List.mem_cons, List.not_mem_nil, or_false] at h
  rcases h with rfl | rfl <;> decide

theorem bwd_facts {d : String} (h : d ∈ Backward) : d ∈ ["reverse", "inverse", "inv", "rev", "forward", "fwd"] ∧ d ∈ ["reverse", "inverse", "inv", "rev"] := by
  refine ⟨?_, h⟩
  simp only [Backward, List.mem_cons, List.not_mem_nil, or_false] at h
  rcases h with rfl | rfl | rfl | rfl <;> decide

/-- **C128 (numbers).** A value on the plot is converted to a coordinate between 0 and 1, the limits to 0 and 1, and the order is
kept; converting the coordinate in the reverse direction gives the value again.  A coordinate between 0 and 1 is converted to a
value on the plot, and back to itself.  (Axis "x" or "y".) -/
theorem C128_numbers (x y : Transforms) (xlim ylim : ℝ × ℝ) (hx : Maps x xlim) (hy : Maps y ylim) (axis f g : String)
    (lim : ℝ × ℝ) (hax : (axis = "x" ∧ lim = xlim) ∨ (axis = "y" ∧ lim = ylim)) (hf : f ∈ Forward) (hg : g ∈ Backward) :
    (∀ v, lim.1 ≤ v → v ≤ lim.2 → ∃ c, xyTransform x y (.number v) f axis = .ok (.number c) ∧ 0 ≤ c ∧ c ≤ 1 ∧
      (v = lim.1 → c = 0) ∧ (v = lim.2 → c = 1) ∧ xyTransform x y (.number c) g axis = .ok (.number v)) ∧
    (∀ c, 0 ≤ c → c ≤ 1 → ∃ v, xyTransform x y (.number c) g axis = .ok (.number v) ∧ lim.1 ≤ v ∧ v ≤ lim.2 ∧
      xyTransform x y (.number v) f axis = .ok (.number c)) ∧
    (∀ v w, lim.1 ≤ v → v < w → w ≤ lim.2 → ∃ c e, xyTransform x y (.number v) f axis = .ok (.number c) ∧
      xyTransform x y (.number w) f axis = .ok (.number e) ∧ c < e) := by
  obtain ⟨f1, f2⟩ := fwd_facts hf
  obtain ⟨g1, g2⟩ := bwd_facts hg
  obtain ⟨t, ht, F, G⟩ : ∃ t, Maps t lim ∧ (∀ v, xyTransform x y (.number v) f axis = .ok (.number (t.axesInv (t.data v)))) ∧
      ∀ v, xyTransform x y (.number v) g axis = .ok (.number (t.dataInv (t.axes v))) := by
    rcases hax with ⟨rfl, rfl⟩ | ⟨rfl, rfl⟩
    · refine ⟨x, hx, fun v => ?_, fun v => ?_⟩
      · unfold xyTransform; rw [if_neg (not_not.2 f1), if_neg (by decide), if_neg f2]; rfl
      · unfold xyTransform; rw [if_neg (not_not.2 g1), if_neg (by decide), if_pos g2]; rfl
    · refine ⟨y, hy, fun v => ?_, fun v => ?_⟩
      · unfold xyTransform; rw [if_neg (not_not.2 f1), if_neg (by decide), if_neg f2]; rfl
      · unfold xyTransform; rw [if_neg (not_not.2 g1), if_neg (by decide), if_pos g2]; rfl
  refine ⟨fun v h1 h2 => ?_, fun c h1 h2 => ?_, fun v w h1 h2 h3 => ?_⟩
  · obtain ⟨a1, a2, a3⟩ := ht.forward h1 h2
    refine ⟨_, F v, a1, a2, ?_, ?_, ?_⟩
    · rintro rfl; rw [ht.left, ht.axes_inv]
    · rintro rfl; rw [ht.right, ht.axes_inv]
    · rw [G, a3]
  · obtain ⟨a1, a2, a3⟩ := ht.reverse h1 h2
    exact ⟨_, G c, a1, a2, by rw [F, a3]⟩
  · refine ⟨_, _, F v, F w, ht.axes_mono.lt_iff_lt.1 ?_⟩
    rw [ht.axes_inv', ht.axes_inv']
    exact ht.mono v w h1 h2 h3

/-- **C128 (sequences).** A list or array is converted number by number: on the x-axis in both directions, on the y-axis in the
reverse direction. -/
theorem C128_sequences_partial (x y : Transforms) (direction axis : String) (l : List ℝ)
    (h : (axis = "x" ∧ direction ∈ Forward ++ Backward) ∨ (axis = "y" ∧ direction ∈ Backward)) :
    ∃ m, xyTransform x y (.many l) direction axis = .ok (.many m) ∧ m.length = l.length ∧
      ∀ (i : ℕ) v, l[i]? = some v → ∃ w, m[i]? = some w ∧ xyTransform x y (.number v) direction axis = .ok (.number w) := by
  rcases h with ⟨rfl, hd⟩ | ⟨rfl, hd⟩
  · rcases List.mem_append.1 hd with hd | hd
    · obtain ⟨f1, f2⟩ := fwd_facts hd
      refine ⟨l.map fun v => x.axesInv (x.data v), ?_, by simp, fun i v hv => ⟨x.axesInv (x.data v), by simp [hv], ?_⟩⟩
      · unfold xyTransform; rw [if_neg (not_not.2 f1), if_neg (by decide), if_neg f2]; rfl
      · unfold xyTransform; rw [if_neg (not_not.2 f1), if_neg (by decide), if_neg f2]; rfl
    · obtain ⟨f1, f2⟩ := bwd_facts hd
      refine ⟨l.map fun v => x.dataInv (x.axes v), ?_, by simp, fun i v hv => ⟨x.dataInv (x.axes v), by simp [hv], ?_⟩⟩
      · unfold xyTransform; rw [if_neg (not_not.2 f1), if_neg (by decide), if_pos f2]; rfl
      · unfold xyTransform; rw [if_neg (not_not.2 f1), if_neg (by decide), if_pos f2]; rfl
  · obtain ⟨f1, f2⟩ := bwd_facts hd
    refine ⟨l.map fun v => y.dataInv (y.axes v), ?_, by simp, fun i v hv => ⟨y.dataInv (y.axes v), by simp [hv], ?_⟩⟩
    · unfold xyTransform; rw [if_neg (not_not.2 f1), if_neg (by decide), if_pos f2]; rfl
    · unfold xyTransform; rw [if_neg (not_not.2 f1), if_neg (by decide), if_pos f2]; rfl

/-- **C128 (finding).** Data values of the y-axis cannot be converted in a list: every list with something in it is refused. -/
theorem C128_y_list_finding (x y : Transforms) (f : String) (hf : f ∈ Forward) (l : List ℝ) (hl : l ≠ []) :
    xyTransform x y (.many l) f "y" = .error .valueError := by
  obtain ⟨f1, f2⟩ := fwd_facts hf
  unfold xyTransform
  rw [if_neg (not_not.2 f1), if_neg (by decide), if_neg f2]
  simp [hl]

/-- **C128 (finding).** The axis "X" is accepted, and means the y-axis. -/
theorem C128_capital_x_finding (x y : Transforms) (direction : String) (v : ℝ) :
    xyTransform x y (.number v) direction "X" = xyTransform x y (.number v) direction "y" := by
  unfold xyTransform
  simp

/-- **C128 (errors).** Refused, with a ValueError: a direction or an axis of another name, a value that is neither a number nor a
list nor an array. -/
theorem C128_errors (x y : Transforms) (v : Value) (direction axis : String)
    (h : direction ∉ Forward ++ Backward ∨ axis ∉ ["X", "x", "Y", "y"] ∨ v = .other) :
    xyTransform x y v direction axis = .error .valueError := by
  unfold xyTransform
  rcases h with h | h | h
  · rw [if_pos]
    simp only [Forward, Backward, List.mem_append, List.mem_cons, List.not_mem_nil, or_false] at h ⊢
    tauto
  · split_ifs <;> rfl
  · subst h
    split_ifs <;> rfl

/-- A logarithmic axis with the limits 1 and 100 on a screen of 500 pixels meets the hypotheses. -/
example : ∃ t, Maps t (1, 100) ∧ t.axesInv (t.data 10) = 1 / 2 := by
  have h100 : Real.log 100 = 2 * Real.log 10 := by
    rw [show (100 : ℝ) = 10 ^ 2 by norm_num, Real.log_pow]; norm_num
  have hpos : 0 < Real.log 10 := Real.log_pos (by norm_num)
  refine ⟨⟨fun v => 500 * (Real.log v / Real.log 100), fun p => Real.exp (p / 500 * Real.log 100), fun c => 500 * c,
    fun p => p / 500⟩, ⟨?_, ?_, ?_, ?_, ?_, ?_, ?_, ?_⟩, ?_⟩
  · intro c; dsimp only; ring
  · intro c; dsimp only; ring
  · intro v h1 h2
    dsimp only at *
    rw [show 500 * (Real.log v / Real.log 100) / 500 * Real.log 100 = Real.log v by
      rw [h100]; field_simp, Real.exp_log (by linarith)]
  · intro c h1 h2
    refine ⟨Real.exp (c * Real.log 100), Real.one_le_exp (by rw [h100]; positivity), ?_, ?_⟩
    · calc Real.exp (c * Real.log 100) ≤ Real.exp (Real.log 100) := by
            apply Real.exp_le_exp.2; rw [h100]; nlinarith
        _ = 100 := Real.exp_log (by norm_num)
    · dsimp only
      rw [Real.log_exp, h100]; field_simp
  · simp
  · dsimp only
    rw [div_self (by rw [h100]; positivity)]
  · intro v w h1 h2 h3
    dsimp only at *
    have : Real.log v < Real.log w := Real.log_lt_log (by linarith) h2
    have h4 : (0 : ℝ) < Real.log 100 := by rw [h100]; positivity
    have := div_lt_div_of_pos_right this h4
    linarith
  · intro c d h; dsimp only; linarith
  · dsimp only
    rw [h100]; field_simp

end Reliability.Props.AxesLimits

import Verif.Props.FunctionCI
import Verif.Props.ExpoCI
import Verif.Props.GenX
import Verif.Spec.CIPlot

/-! # Lemmas for the confidence bands -/

namespace Reliability.CIPlot

open Reliability Reliability.Spec Reliability.Distributions Reliability.Utils Reliability.FunctionCI Reliability.Props
  Reliability.Props.Distributions

theorem up_name (fn : Func) : Fitters.up (funcName fn) ∈ ["CDF", "SF"] ↔ fn ≠ .CHF := by
  cases fn
  · exact ⟨fun _ => by simp, fun _ => by decide +kernel⟩
  · exact ⟨fun _ => by simp, fun _ => by decide +kernel⟩
  · exact ⟨fun h => absurd h (by decide +kernel), fun h => absurd rfl h⟩

open Classical in
/-- Cleaning of arrays of finite values below 1. -/
theorem clean_fin {α : Type _} (xs : List α) (f1 f2 f3 f4 : α → ℝ) (pt : String) (h : ∀ x ∈ xs, f3 x < 1 ∧ f4 x < 1) :
    ∃ ys : List α, cleanCI (xs.map fun x => .fin (f1 x)) (xs.map fun x => .fin (f2 x)) (xs.map fun x => .fin (f3 x))
        (xs.map fun x => .fin (f4 x)) pt false false =
        .ok (ys.map fun x => .fin (f1 x), ys.map fun x => .fin (f2 x), ys.map fun x => .fin (f3 x), ys.map fun x => .fin (f4 x)) ∧
      ys.Sublist xs ∧ (∀ x, x ∈ ys ↔ x ∈ xs ∧ 1 / 10 ^ 50 < f3 x ∧ 1 / 10 ^ 50 < f4 x) ∧
      ((∀ x ∈ xs, 1 / 10 ^ 50 < f3 x ∧ 1 / 10 ^ 50 < f4 x) → ys = xs) := by
  refine ⟨xs.filter fun x => decide (1 / 10 ^ 50 < f3 x ∧ 1 / 10 ^ 50 < f4 x), ?_, List.filter_sublist, fun x => by
    rw [List.mem_filter]; simp, fun h => List.filter_eq_self.2 fun x hx => by simpa using h x hx⟩
  unfold cleanCI
  rw [rowsOf_ok (by simp) (by simp) (by simp), sideBySide_map]
  have e : cleanLow (cleanHigh pt (cleanFinite (xs.map fun x => ((.fin (f1 x), .fin (f2 x), .fin (f3 x), .fin (f4 x)) : CIRow ℝ)))) =
      (xs.filter fun x => decide (1 / 10 ^ 50 < f3 x ∧ 1 / 10 ^ 50 < f4 x)).map
        fun x => ((.fin (f1 x), .fin (f2 x), .fin (f3 x), .fin (f4 x)) : CIRow ℝ) := by
    have h1 : cleanFinite (xs.map fun x => ((.fin (f1 x), .fin (f2 x), .fin (f3 x), .fin (f4 x)) : CIRow ℝ)) =
        xs.map fun x => ((.fin (f1 x), .fin (f2 x), .fin (f3 x), .fin (f4 x)) : CIRow ℝ) := by
      unfold cleanFinite
      rw [List.filter_eq_self]
      intro r hr
      obtain ⟨x, -, rfl⟩ := List.mem_map.1 hr
      rfl
    have h2 : cleanHigh pt (xs.map fun x => ((.fin (f1 x), .fin (f2 x), .fin (f3 x), .fin (f4 x)) : CIRow ℝ)) =
        xs.map fun x => ((.fin (f1 x), .fin (f2 x), .fin (f3 x), .fin (f4 x)) : CIRow ℝ) := by
      unfold cleanHigh
      split
      · rw [List.filter_eq_self]
        intro r hr
        obtain ⟨x, hx, rfl⟩ := List.mem_map.1 hr
        simp only [Ext.gt, Bool.and_eq_true, decide_eq_true_eq]
        exact h x hx
      · rfl
    rw [h1, h2]
    unfold cleanLow
    rw [List.filter_map]
    congr 1
    apply List.filter_congr
    intro x _
    simp [Function.comp, Ext.gt]
  simp only [e]
  rw [if_neg (by simp), if_neg (by simp)]
  simp only [List.map_map]
  rfl

theorem noReverse_held (v : List ℝ) (ct : String) (fn : Func) (h : 2 < v.length) :
    ∃ v', noReverse v ct (funcName fn) = .ok v' ∧ Held (decide (ct = "time" ∧ fn = .CHF)) v v' := by
  obtain ⟨m, i, h1, h2, h3, h4⟩ := noReverse_cases v ct (funcName fn) (by omega)
  refine ⟨_, h3, Or.inr ⟨h, i, m, h1, ?_, h2, rfl⟩⟩
  have e : (ct = "time" ∧ funcName fn = "CHF") ↔ (ct = "time" ∧ fn = .CHF) := by
    cases fn <;> simp [funcName]
  intro w hw
  by_cases hc : ct = "time" ∧ fn = .CHF
  · rw [if_pos (e.2 hc)] at h4
    rw [if_pos (by simpa using hc)]; exact h4 w hw
  · rw [if_neg (mt e.1 hc)] at h4
    rw [if_neg (by simpa using hc)]; exact h4 w hw

theorem noReverse2_held (a b : List ℝ) (ct : String) (fn : Func) (h : a.length = b.length) :
    ∃ a' b', noReverse2 a b ct fn = .ok (a', b') ∧ Held (decide (ct = "time" ∧ fn = .CHF)) a a' ∧
      Held (decide (ct = "time" ∧ fn = .CHF)) b b' := by
  unfold noReverse2
  by_cases h2 : 2 < a.length
  · obtain ⟨a', e1, h1⟩ := noReverse_held a ct fn h2
    obtain ⟨b', e2, h3⟩ := noReverse_held b ct fn (by omega)
    rw [if_pos ⟨h2, by omega⟩]
    exact ⟨a', b', by simp only [e1, e2], h1, h3⟩
  · rw [if_neg (by omega)]
    exact ⟨a, b, rfl, Or.inl ⟨by omega, rfl⟩, Or.inl ⟨by omega, rfl⟩⟩

theorem held_length {up : Bool} {v v' : List ℝ} (h : Held up v v') : v'.length = v.length := by
  rcases h with ⟨-, rfl⟩ | ⟨-, i, m, h1, -, -, rfl⟩
  · rfl
  · have := (List.getElem?_eq_some_iff.1 h1).1
    simp; omega

/-- A held value is that of an earlier place, and on the right side of the value at its own place. -/
theorem held_get {α : Type _} {up : Bool} {xs : List α} {f : α → ℝ} {v' : List ℝ} (h : Held up (xs.map f) v') {k : ℕ} {x : α}
    (hx : xs[k]? = some x) :
    ∃ j w, j ≤ k ∧ xs[j]? = some w ∧ v'[k]? = some (f w) ∧ (if up = true then f x ≤ f w else f w ≤ f x) := by
  have hself : if up = true then f x ≤ f x else f x ≤ f x := by split <;> exact le_rfl
  rcases h with ⟨-, rfl⟩ | ⟨-, i, m, h1, h2, h3, rfl⟩
  · exact ⟨k, x, le_rfl, hx, by rw [List.getElem?_map, hx]; rfl, hself⟩
  · have hi := (List.getElem?_eq_some_iff.1 h1).1
    have hk := (List.getElem?_eq_some_iff.1 hx).1
    rw [List.length_map] at hi
    by_cases hki : k < i
    · refine ⟨k, x, le_rfl, hx, ?_, hself⟩
      rw [List.getElem?_append_left (by simp; omega), List.getElem?_take_of_lt hki, List.getElem?_map, hx]; rfl
    · rw [List.getElem?_map, Option.map_eq_some_iff] at h1
      obtain ⟨w, hw, rfl⟩ := h1
      refine ⟨i, w, by omega, hw, ?_, ?_⟩
      · rw [List.getElem?_append_right (by simp; omega), List.getElem?_replicate, if_pos (by simp; omega)]
      · exact h2 (f x) (List.mem_map.2 ⟨x, List.mem_of_getElem? hx, rfl⟩)

/-- A list that does not turn is left as it is. -/
theorem held_sorted {up : Bool} {v v' : List ℝ} (hs : v.Pairwise fun a b => if up = true then a ≤ b else b ≤ a)
    (h : Held up v v') : v' = v := by
  rcases h with ⟨-, rfl⟩ | ⟨-, i, m, h1, h2, h3, rfl⟩
  · rfl
  · have hi : i < v.length := (List.getElem?_eq_some_iff.1 h1).1
    have hm := (List.getElem?_eq_some_iff.1 h1).2
    apply List.ext_getElem
    · simp; omega
    · intro k hk hk'
      by_cases hki : k < i
      · rw [List.getElem_append_left (by simp; omega), List.getElem_take]
      · rw [List.getElem_append_right (by simp; omega), List.getElem_replicate]
        have hmem := h2 _ (List.getElem_mem hk')
        rcases (not_lt.1 hki).eq_or_lt with h | h
        · subst h; exact hm.symm
        · have := List.pairwise_iff_getElem.1 hs i k hi hk' h
          rw [hm] at this
          cases up
          · simp only [Bool.false_eq_true, if_false] at this hmem; exact le_antisymm hmem this
          · simp only [if_true] at this hmem; exact le_antisymm this hmem

/-- `held_get` for the values: members. -/
theorem held_mem {α : Type _} {up : Bool} {xs : List α} {f : α → ℝ} {v' : List ℝ} (h : Held up (xs.map f) v') :
    ∀ r ∈ v', ∃ x ∈ xs, r = f x := by
  intro r hr
  obtain ⟨k, hk⟩ := List.mem_iff_getElem?.1 hr
  have hl := held_length h
  have hk' := (List.getElem?_eq_some_iff.1 hk).1
  rw [hl, List.length_map] at hk'
  obtain ⟨j, w, -, hw, e, -⟩ := held_get h (List.getElem?_eq_getElem hk')
  rw [hk] at e
  exact ⟨w, List.mem_of_getElem? hw, Option.some.inj e⟩

theorem legal_false (y : ℝ) : legal false y = y := by simp [legal]

theorem legal_in {fs : Bool} {y : ℝ} (h : 0 < y ∧ y < 1) : legal fs y = y := by
  have e : (if fs = true ∧ 1 ≤ y then 9999999 / 10 ^ 7 else y) = y := if_neg fun h' => absurd h'.2 (not_le.2 h.2)
  unfold legal
  simp only [e]
  exact if_neg fun h' => absurd h'.2 (not_le.2 h.1)

theorem zip_reverse {α β : Type _} : ∀ (a : List α) (b : List β), a.length = b.length → a.reverse.zip b.reverse = (a.zip b).reverse
  | [], [], _ => rfl
  | x :: a, y :: b, h => by
    simp only [List.reverse_cons, List.zip_cons_cons]
    rw [List.zip_append (by simpa using h), zip_reverse a b (by simpa using h)]
    rfl

theorem draw_polygon {fs : Bool} {xl xu yl yu : List ℝ} (h1 : xl.length = yl.length) (h2 : xu.length = yu.length)
    (h : fs = false ∨ ∀ y ∈ yl ++ yu, 0 < y ∧ y < 1) :
    (draw fs xl xu yl yu).polygon = (draw fs xl xu yl yu).lower ++ (draw fs xl xu yl yu).upper.reverse := by
  have e : (yl ++ yu.reverse).map (legal fs) = yl ++ yu.reverse := by
    conv_rhs => rw [← List.map_id (yl ++ yu.reverse)]
    apply List.map_congr_left
    intro y hy
    rcases h with rfl | h
    · exact legal_false y
    · exact legal_in (h y (by simpa using hy))
  unfold draw fillNoAutoscale
  simp only
  rw [e, List.zip_append h1, zip_reverse _ _ h2]

/-! ### the laws of the distributions -/

theorem dist_laws {f : CFam} {a b : ℝ} (g : ℝ) (hp : ParamsOK f a b) :
    ∃ D, (∀ x, x ∈ D ↔ InSupport f g x) ∧ SurvivalLaw (distOf f a b g).sp.cdf (distOf f a b g).sp.sf ∧
      QuantileLaw D (distOf f a b g).sp.cdf (distOf f a b g).sp.sf (distOf f a b g).sp.ppf (distOf f a b g).sp.isf := by
  obtain ⟨hb, ha⟩ := hp
  cases f
  · exact ⟨_, fun x => Iff.rfl, (C33_weibull a b g (ha (Or.inl rfl)) hb).1, C34_weibull a b g (ha (Or.inl rfl)) hb⟩
  · exact ⟨_, fun x => Iff.rfl, (C33_gamma _ b g (Real.exp_pos a) hb).1, C34_gamma _ b g (Real.exp_pos a) hb⟩
  · exact ⟨_, fun x => by simp [InSupport], C33_normal a b hb, C34_normal a b hb⟩
  · exact ⟨_, fun x => Iff.rfl, (C33_lognormal a b g hb).1, C34_lognormal a b g hb⟩
  · exact ⟨_, fun x => Iff.rfl, (C33_loglogistic a b g (ha (Or.inr rfl)) hb).1, C34_loglogistic a b g (ha (Or.inr rfl)) hb⟩
  · exact ⟨_, fun x => by simp [InSupport], C33_gumbel a b hb, C34_gumbel a b hb⟩

theorem ppf_lt {f : CFam} {a b g p q : ℝ} (hp : ParamsOK f a b) (h0 : 0 < p) (h : p < q) (h1 : q < 1) :
    (distOf f a b g).sp.ppf p < (distOf f a b g).sp.ppf q := by
  obtain ⟨D, -, h2, h3⟩ := dist_laws g hp
  by_contra hc
  have := h2.mono (not_lt.1 hc)
  rw [h3.cdf_quantile q (by linarith) h1, h3.cdf_quantile p h0 (by linarith)] at this
  linarith

theorem ppf_mem {f : CFam} {a b g p : ℝ} (hp : ParamsOK f a b) (h0 : 0 < p) (h1 : p < 1) :
    InSupport f g ((distOf f a b g).sp.ppf p) := by
  obtain ⟨D, h, -, h3⟩ := dist_laws g hp
  exact (h _).1 (h3.mem p h0 h1)

theorem isf_le {f : CFam} {a b g p q : ℝ} (hp : ParamsOK f a b) (h0 : 0 < p) (h : p ≤ q) (h1 : q < 1) :
    (distOf f a b g).sp.isf q ≤ (distOf f a b g).sp.isf p := by
  obtain ⟨D, -, h2, h3⟩ := dist_laws g hp
  rw [(h3.isf q (by linarith) h1).1, (h3.isf p h0 (by linarith)).1]
  rcases h.eq_or_lt with rfl | h
  · exact le_rfl
  · exact (ppf_lt hp (by linarith) (by linarith) (by linarith)).le

theorem sf_isf {f : CFam} {a b g R : ℝ} (hp : ParamsOK f a b) (h0 : 0 < R) (h1 : R < 1) :
    (distOf f a b g).sp.sf ((distOf f a b g).sp.isf R) = R := by
  obtain ⟨D, -, -, h3⟩ := dist_laws g hp
  exact (h3.isf R h0 h1).2

theorem sf_le {f : CFam} {a b g x y : ℝ} (hp : ParamsOK f a b) (h : x ≤ y) :
    (distOf f a b g).sp.sf y ≤ (distOf f a b g).sp.sf x := by
  obtain ⟨D, -, h2, -⟩ := dist_laws g hp
  have := h2.mono h
  have := h2.compl x
  have := h2.compl y
  linarith

end Reliability.CIPlot

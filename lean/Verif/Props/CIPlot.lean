import Mathlib.Analysis.Complex.ExponentialBounds
import Verif.Lemmas.CIPlot

/-! # C140: the confidence bands on plots of CDF, SF and CHF -/

namespace Reliability.Props.CIPlot

open Reliability Reliability.Spec Reliability.Distributions Reliability.Utils Reliability.FunctionCI Reliability.Props Reliability.CIPlot

theorem toFunc_eq (fn : Func) (R : ℝ) : toFunc fn R = ofReliability fn R := by cases fn <;> rfl

theorem of_uIcc (fn : Func) {l s u : ℝ} (h0 : 0 < l) (h1 : l ≤ s) (h2 : s ≤ u) :
    ofReliability fn s ∈ Set.uIcc (ofReliability fn l) (ofReliability fn u) := by
  rw [Set.mem_uIcc]
  have a := Real.log_le_log h0 h1
  have b := Real.log_le_log (h0.trans_le h1) h2
  cases fn <;> simp only [ofReliability]
  · right; constructor <;> linarith
  · left; exact ⟨h1, h2⟩
  · right; constructor <;> linarith

theorem of_range {fn : Func} (h : fn ≠ .CHF) {R : ℝ} (h0 : 0 < R) (h1 : R < 1) : 0 < ofReliability fn R ∧ ofReliability fn R < 1 := by
  cases fn
  · simp only [ofReliability]; constructor <;> linarith
  · exact ⟨h0, h1⟩
  · exact absurd rfl h

theorem grid_add {l : List ℝ} {n : ℕ} {a b : ℝ} (h : Grid l n a b) (g : ℝ) : Grid (l.map (· + g)) n (a + g) (b + g) := by
  refine ⟨by rw [List.length_map, h.length], by rw [List.head?_map, h.first]; rfl, by rw [List.getLast?_map, h.last]; rfl, ?_, ?_⟩
  · rw [List.pairwise_map]
    exact h.sorted.imp fun h => by linarith
  · intro x hx
    obtain ⟨y, hy, rfl⟩ := List.mem_map.1 hx
    have := h.within y hy
    constructor <;> linarith [this.1, this.2]

/-- The grid of times, before the shift by gamma. -/
theorem relGrid_eq {d : Two} (hp : ParamsOK d.fam d.a d.b)
    (hg : d.fam = .gamma → d.gamma = 0 → 1 / 10 ^ 4 ≤ (distOf d.fam d.a d.b d.gamma).sp.ppf (99999 / 10 ^ 5)) :
    ∃ xs, relGrid d = .ok (xs.map (sh d.fam d.gamma)) ∧
      Grid xs 200 (firstTime d) ((distOf d.fam d.a d.b d.gamma).sp.ppf (99999 / 10 ^ 5)) ∧
      ∀ x ∈ xs, InSupport d.fam d.gamma x := by
  have hlt := ppf_lt (g := d.gamma) hp (p := 1 / 10 ^ 5) (q := 99999 / 10 ^ 5) (by norm_num) (by norm_num) (by norm_num)
  have hlt7 := ppf_lt (g := d.gamma) hp (p := 1 / 10 ^ 7) (q := 99999 / 10 ^ 5) (by norm_num) (by norm_num) (by norm_num)
  have hm := ppf_mem (g := d.gamma) hp (p := 1 / 10 ^ 5) (by norm_num) (by norm_num)
  have hm7 := ppf_mem (g := d.gamma) hp (p := 1 / 10 ^ 7) (by norm_num) (by norm_num)
  obtain ⟨f, a, b, g, SEa, SEb, Cov, Z⟩ := d
  simp only at hp hg hlt hlt7 hm hm7 ⊢
  have hgeo : ∀ f', (positive f' = true) → f' ≠ .gamma → (distOf f' a b g).sp.ppf (1 / 10 ^ 5) < (distOf f' a b g).sp.ppf (99999 / 10 ^ 5) →
      InSupport f' g ((distOf f' a b g).sp.ppf (1 / 10 ^ 5)) → (∀ x, InSupport f' g x ↔ g < x) →
      ∃ xs, geomspace (if (distOf f' a b g).sp.ppf (1 / 10 ^ 5) - g ≤ 0 then 1 / 10 ^ 4 else (distOf f' a b g).sp.ppf (1 / 10 ^ 5) - g)
          ((distOf f' a b g).sp.ppf (99999 / 10 ^ 5) - g) 200 = .ok (xs.map (sh f' g)) ∧
        Grid xs 200 ((distOf f' a b g).sp.ppf (1 / 10 ^ 5)) ((distOf f' a b g).sp.ppf (99999 / 10 ^ 5)) ∧ ∀ x ∈ xs, InSupport f' g x := by
    intro f' hpos _ hlt hm hs
    have hm' := (hs _).1 hm
    rw [if_neg (by linarith)]
    obtain ⟨l, hl, hG⟩ := geomspace_grid (a := (distOf f' a b g).sp.ppf (1 / 10 ^ 5) - g)
      (b := (distOf f' a b g).sp.ppf (99999 / 10 ^ 5) - g) (n := 200) (by norm_num) (by linarith) (by linarith)
    have hG' := grid_add hG g
    rw [sub_add_cancel, sub_add_cancel] at hG'
    refine ⟨_, ?_, hG', fun x hx => (hs x).2 (lt_of_lt_of_le hm' (hG'.within x hx).1)⟩
    rw [hl, List.map_map]
    congr 1
    conv_lhs => rw [← List.map_id l]
    apply List.map_congr_left
    intro s _
    simp [sh, hpos]
  have hlin : ∀ x : ℝ, Np.linspace ((distOf f a b g).sp.ppf (1 / 10 ^ 5)) ((distOf f a b g).sp.ppf (99999 / 10 ^ 5)) 200 =
      (Np.linspace ((distOf f a b g).sp.ppf (1 / 10 ^ 5)) ((distOf f a b g).sp.ppf (99999 / 10 ^ 5)) 200).map id := by simp
  cases f
  · exact hgeo .weibull rfl (by simp) hlt hm fun _ => Iff.rfl
  · have key : ∀ t0, g < t0 → t0 ≤ (distOf .gamma a b g).sp.ppf (99999 / 10 ^ 5) →
        ∃ xs, (.ok (Np.linspace (t0 - g) ((distOf .gamma a b g).sp.ppf (99999 / 10 ^ 5) - g) 200) : Except Err (List ℝ)) =
          .ok (xs.map (sh .gamma g)) ∧ Grid xs 200 t0 ((distOf .gamma a b g).sp.ppf (99999 / 10 ^ 5)) ∧ ∀ x ∈ xs, InSupport .gamma g x := by
      intro t0 h1 h2
      have hG' := grid_add (linspace_grid (n := 200) (by norm_num) (show t0 - g ≤ (distOf .gamma a b g).sp.ppf (99999 / 10 ^ 5) - g by linarith)) g
      rw [sub_add_cancel, sub_add_cancel] at hG'
      refine ⟨_, ?_, hG', fun x hx => lt_of_lt_of_le h1 (hG'.within x hx).1⟩
      rw [List.map_map]
      congr 1
      conv_lhs => rw [← List.map_id (Np.linspace _ _ _)]
      apply List.map_congr_left
      intro s _
      simp [sh, positive]
    unfold relGrid firstTime
    simp only [if_true]
    by_cases h0 : g = 0
    · rw [if_pos h0, if_pos h0]
      exact key _ (by rw [h0]; norm_num) (hg rfl h0)
    · rw [if_neg h0, if_neg h0]
      exact key _ hm7 hlt7.le
  · refine ⟨_, ?_, linspace_grid (by norm_num) hlt.le, fun _ _ => trivial⟩
    unfold relGrid
    simp only
    congr 1
  · exact hgeo .lognormal rfl (by simp) hlt hm fun _ => Iff.rfl
  · exact hgeo .loglogistic rfl (by simp) hlt hm fun _ => Iff.rfl
  · refine ⟨_, ?_, linspace_grid (by norm_num) hlt.le, fun _ _ => trivial⟩
    unfold relGrid
    simp only
    congr 1

/-- The two rows of the code. -/
noncomputable def rowA (J : Jac) (d : Two) (sa sb c Z x : ℝ) : ℝ :=
  inv d.fam (relScale d.fam ((distOf d.fam d.a d.b d.gamma).sp.sf x) + relHalf J d.fam d.a d.b sa sb c Z (sh d.fam d.gamma x))
noncomputable def rowB (J : Jac) (d : Two) (sa sb c Z x : ℝ) : ℝ :=
  inv d.fam (relScale d.fam ((distOf d.fam d.a d.b d.gamma).sp.sf x) - relHalf J d.fam d.a d.b sa sb c Z (sh d.fam d.gamma x))

theorem row_lo (J : Jac) (d : Two) (sa sb c Z : ℝ) :
    (smallFirst d.fam = true ∧ loSF J d sa sb c Z = rowA J d sa sb c Z ∧ upSF J d sa sb c Z = rowB J d sa sb c Z) ∨
    (smallFirst d.fam = false ∧ loSF J d sa sb c Z = rowB J d sa sb c Z ∧ upSF J d sa sb c Z = rowA J d sa sb c Z) := by
  cases h : smallFirst d.fam
  · right; refine ⟨rfl, ?_, ?_⟩ <;> funext x <;> simp [loSF, upSF, rowA, rowB, h]
  · left; refine ⟨rfl, ?_, ?_⟩ <;> funext x <;> simp [loSF, upSF, rowA, rowB, h]

theorem unshift (d : Two) (xs : List ℝ) :
    (xs.map (sh d.fam d.gamma)).map (fun s => if positive d.fam = true then s + d.gamma else s) = xs := by
  rw [List.map_map]
  conv_rhs => rw [← List.map_id xs]
  apply List.map_congr_left
  intro s _
  by_cases h : positive d.fam = true <;> simp [sh, h]

theorem sublist_grid {xs l : List ℝ} {n : ℕ} {a b : ℝ} (h : xs.Sublist l) (hG : Grid l n a b) : xs.Pairwise (· ≤ ·) := hG.sorted.sublist h

/-- What is drawn on a grid of times. -/
theorem rel_core (J : Jac) (fs : Bool) (d : Two) {sa sb c CI : ℝ} (chfEnd : ℝ) (fn : Func) (hp : ParamsOK d.fam d.a d.b)
    (he : ErrorsOK d sa sb c) (h0 : 0 < CI) (h1 : CI < 1) {grid : List ℝ} (hgr : relGrid d = .ok (grid.map (sh d.fam d.gamma)))
    (hsup : ∀ x ∈ grid, InSupport d.fam d.gamma x) :
    ∃ (xs lo' up' : List ℝ) (b : Band), xs.Sublist grid ∧ (∀ x, x ∈ xs ↔ x ∈ grid ∧ 1 / 10 ^ 50 < loSF J d sa sb c (zOf CI) x) ∧
      (∀ x ∈ grid, x ∈ xs ↔ funcCI J (.two d) .SF (some "reliability") CI none (some [x]) ≠ valueErr) ∧
      funcCI J (.two d) .SF (some "reliability") CI none (some xs) = .ok (some ((xs.map (loSF J d sa sb c (zOf CI))).map .fin,
        xs.map fun x => .fin ((Fitted.two d).dist.sp.sf x), (xs.map (upSF J d sa sb c (zOf CI))).map .fin)) ∧
      Held false (xs.map (loSF J d sa sb c (zOf CI))) lo' ∧ Held false (xs.map (upSF J d sa sb c (zOf CI))) up' ∧
      plotCI J fs (.two d) fn true (some "reliability") CI chfEnd = .ok (some b) ∧
      EdgesOf b (xs.zip (lo'.map (ofReliability fn))) (xs.zip (up'.map (ofReliability fn))) ∧
      (fs = false ∨ fn ≠ .CHF → FilledBetween b) := by
  have hZ := (zOf_spec h0 h1).1.le
  set Z := zOf CI with hZd
  have hrows : (grid.map (sh d.fam d.gamma)).map (relRow J d.fam d.a d.b sa sb c Z) =
      grid.map fun x => (.fin (rowA J d sa sb c Z x), .fin (rowB J d sa sb c Z x)) := by
    rw [List.map_map]
    exact List.map_congr_left fun x hx => relRow_eq J hp (hsup x hx) he.2.2.2.2
  obtain ⟨xs, hcl, hsub, hmem, -⟩ := clean_fin grid (sh d.fam d.gamma) (sh d.fam d.gamma) (rowA J d sa sb c Z) (rowB J d sa sb c Z) (funcName fn)
    fun x _ => ⟨(inv_range _ _).2, (inv_range _ _).2⟩
  have hkeep : ∀ x ∈ grid, (1 / 10 ^ 50 < rowA J d sa sb c Z x ∧ 1 / 10 ^ 50 < rowB J d sa sb c Z x) ↔ 1 / 10 ^ 50 < loSF J d sa sb c Z x := by
    intro x hx
    have ho := bounds_order J d hp (hsup x hx) hZ (sa := sa) (sb := sb) (c := c)
    rcases row_lo J d sa sb c Z with ⟨-, e1, e2⟩ | ⟨-, e1, e2⟩ <;> rw [e1, e2] at ho <;> rw [e1]
    · exact ⟨fun h => h.1, fun h => ⟨h, by linarith [ho.2.1, ho.2.2.1]⟩⟩
    · exact ⟨fun h => h.2, fun h => ⟨by linarith [ho.2.1, ho.2.2.1], h⟩⟩
  have hxs : ∀ x ∈ xs, InSupport d.fam d.gamma x ∧ 1 / 10 ^ 50 < loSF J d sa sb c Z x := fun x hx => by
    have := (hmem x).1 hx
    exact ⟨hsup x this.1, (hkeep x this.1).1 this.2⟩
  have hrel := rel_ok J d .SF xs hp he h0 h1 hxs
  have hlu := fun x (hx : x ∈ xs) => lower_upper .SF (bounds_order J d hp (hxs x hx).1 hZ (sa := sa) (sb := sb) (c := c)).1 (by
      have := bounds_order J d hp (hxs x hx).1 hZ (sa := sa) (sb := sb) (c := c)
      linarith)
  obtain ⟨A', B', hnr, hA, hB⟩ := noReverse2_held (xs.map (rowA J d sa sb c Z)) (xs.map (rowB J d sa sb c Z)) "reliability" fn (by simp)
  have hdec : decide ("reliability" = "time" ∧ fn = Func.CHF) = false := by simp
  rw [hdec] at hA hB
  have hplot : plotCI J fs (.two d) fn true (some "reliability") CI chfEnd =
      .ok (some (draw fs xs xs (A'.map (toFunc fn)) (B'.map (toFunc fn)))) := by
    unfold plotCI relBand
    rw [if_neg (by simp)]
    simp only [validParams_of he, hgr, ← hZd, hrows, List.map_map, Function.comp_def]
    simp only [hcl, finVals_map, hnr]
    have := unshift d xs
    rw [List.map_map] at this
    simp only [Function.comp_def] at this
    simp only [List.map_map, Function.comp_def, this]
  have hlA := held_length hA
  have hlB := held_length hB
  rw [List.length_map] at hlA hlB
  have hrange : ∀ y ∈ A' ++ B', 0 < y ∧ y < 1 := by
    intro y hy
    rcases List.mem_append.1 hy with h | h
    · obtain ⟨x, -, rfl⟩ := CIPlot.held_mem hA y h; exact inv_range _ _
    · obtain ⟨x, -, rfl⟩ := CIPlot.held_mem hB y h; exact inv_range _ _
  have hlo : ∀ f : ℝ → ℝ, (xs.map fun x => (Ext.fin (f x) : Ext ℝ)) = (xs.map f).map .fin := fun f => by rw [List.map_map]; rfl
  have hboth : ∃ lo' up', Held false (xs.map (loSF J d sa sb c Z)) lo' ∧ Held false (xs.map (upSF J d sa sb c Z)) up' ∧
      EdgesOf (draw fs xs xs (A'.map (toFunc fn)) (B'.map (toFunc fn))) (xs.zip (lo'.map (ofReliability fn))) (xs.zip (up'.map (ofReliability fn))) := by
    have hfe : toFunc fn = ofReliability fn := funext (toFunc_eq fn)
    rcases row_lo J d sa sb c Z with ⟨-, e1, e2⟩ | ⟨-, e1, e2⟩
    · exact ⟨A', B', by rw [e1]; exact hA, by rw [e2]; exact hB, Or.inl ⟨by rw [← hfe]; rfl, by rw [← hfe]; rfl⟩⟩
    · exact ⟨B', A', by rw [e1]; exact hB, by rw [e2]; exact hA, Or.inr ⟨by rw [← hfe]; rfl, by rw [← hfe]; rfl⟩⟩
  obtain ⟨lo', up', hL, hU, hE⟩ := hboth
  refine ⟨xs, lo', up', _, hsub, fun x => ?_, fun x hx => ?_, ?_, hL, hU, hplot, hE, ?_⟩
  · rw [hmem]
    exact ⟨fun h => ⟨h.1, (hkeep x h.1).1 h.2⟩, fun h => ⟨h.1, (hkeep x h.1).2 h.2⟩⟩
  · rw [hmem, hkeep x hx]
    constructor
    · rintro ⟨-, h⟩
      rw [rel_ok J d .SF [x] hp he h0 h1 (by intro y hy; rw [List.mem_singleton] at hy; subst hy; exact ⟨hsup y hx, h⟩)]
      exact fun h => by cases h
    · intro h
      refine ⟨hx, ?_⟩
      by_contra hc
      exact h (rel_err J d .SF [x] hp he h0 h1 ⟨x, by simp, fun h' => hc h'.2⟩)
  · rw [hrel]
    simp only [Except.ok.injEq, Option.some.injEq, Prod.mk.injEq, List.map_map]
    refine ⟨List.map_congr_left fun x hx => ?_, rfl, List.map_congr_left fun x hx => ?_⟩
    · have := (hlu x hx).1; simp only [Function.comp]; rw [this]
    · have := (hlu x hx).2; simp only [Function.comp]; rw [this]
  · intro h
    refine draw_polygon (by simp [hlA]) (by simp [hlB]) (h.imp id fun h => ?_)
    intro y hy
    rw [← List.map_append] at hy
    obtain ⟨r, hr, rfl⟩ := List.mem_map.1 hy
    rw [toFunc_eq]
    exact of_range h (hrange r hr).1 (hrange r hr).2

/-- **C140 (bounds on reliability).** A plot of CDF, SF or CHF of a fitted Weibull, Gamma, Normal, Lognormal, Loglogistic or Gumbel
distribution with `CI_type="reliability"` never fails and draws a band. Its times are, of an ascending grid of 200 times from the 1e-5 quantile
(Gamma: 1e-7 quantile, or 0.0001 without threshold) to the 0.99999 quantile, exactly those at which `SF` with `CI_x` does not raise. Its edges are the
lower and upper bounds that `SF` with `CI_x` returns at these times – held at their first smallest value – converted to the function that
is plotted; the polygon is filled between the edges. At every one of these times the curve lies between the edges. -/
theorem C140_reliability (J : Jac) (fs : Bool) (d : Two) (sa sb c CI chfEnd : ℝ) (fn : Func) (hp : ParamsOK d.fam d.a d.b)
    (he : ErrorsOK d sa sb c) (h0 : 0 < CI) (h1 : CI < 1)
    (hg : d.fam = .gamma → d.gamma = 0 → 1 / 10 ^ 4 ≤ (Fitted.two d).dist.sp.ppf (99999 / 10 ^ 5)) :
    ∃ grid xs lo up lo' up' b,
      Grid grid 200 (firstTime d) ((Fitted.two d).dist.sp.ppf (99999 / 10 ^ 5)) ∧ xs.Sublist grid ∧
      (∀ x ∈ grid, x ∈ xs ↔ funcCI J (.two d) .SF (some "reliability") CI none (some [x]) ≠ valueErr) ∧
      funcCI J (.two d) .SF (some "reliability") CI none (some xs) =
        .ok (some (lo.map .fin, xs.map fun x => .fin ((Fitted.two d).dist.sp.sf x), up.map .fin)) ∧
      Held false lo lo' ∧ Held false up up' ∧
      plotCI J fs (.two d) fn true (some "reliability") CI chfEnd = .ok (some b) ∧
      EdgesOf b (xs.zip (lo'.map (ofReliability fn))) (xs.zip (up'.map (ofReliability fn))) ∧
      (fs = false ∨ fn ≠ .CHF → FilledBetween b) ∧
      ∀ (k : ℕ) x, xs[k]? = some x → ∃ l u, lo'[k]? = some l ∧ up'[k]? = some u ∧ 0 < l ∧ l ≤ (Fitted.two d).dist.sp.sf x ∧
        (Fitted.two d).dist.sp.sf x ≤ u ∧ u < 1 ∧
        ofReliability fn ((Fitted.two d).dist.sp.sf x) ∈ Set.uIcc (ofReliability fn l) (ofReliability fn u) := by
  obtain ⟨grid, hgr, hG, hsup⟩ := relGrid_eq hp hg
  have hZ := (zOf_spec h0 h1).1.le
  obtain ⟨xs, lo', up', b, hsub, hmem, hkeep, hrel, hL, hU, hplot, hE, hF⟩ := rel_core J fs d chfEnd fn hp he h0 h1 hgr hsup
  set Z := zOf CI with hZd
  have hxs : ∀ x ∈ xs, InSupport d.fam d.gamma x ∧ 1 / 10 ^ 50 < loSF J d sa sb c Z x := fun x hx => by
    have := (hmem x).1 hx
    exact ⟨hsup x this.1, this.2⟩
  refine ⟨grid, xs, _, _, lo', up', b, hG, hsub, hkeep, hrel, hL, hU, hplot, hE, hF, ?_⟩
  · intro k x hx
    obtain ⟨j, w, hjk, hw, e1, hle⟩ := held_get hL hx
    obtain ⟨j', w', hjk', hw', e2, -⟩ := held_get hU hx
    simp only [Bool.false_eq_true, if_false] at hle
    have ox := bounds_order J d hp (hxs x (List.mem_of_getElem? hx)).1 hZ (sa := sa) (sb := sb) (c := c)
    have ow := bounds_order J d hp (hxs w (List.mem_of_getElem? hw)).1 hZ (sa := sa) (sb := sb) (c := c)
    have ow' := bounds_order J d hp (hxs w' (List.mem_of_getElem? hw')).1 hZ (sa := sa) (sb := sb) (c := c)
    have hxw : w' ≤ x := by
      have hs := sublist_grid hsub hG
      rcases hjk'.eq_or_lt with rfl | h
      · rw [hx] at hw'; exact (Option.some.inj hw').ge
      · obtain ⟨p, rfl⟩ := List.getElem?_eq_some_iff.1 hw'
        obtain ⟨q, rfl⟩ := List.getElem?_eq_some_iff.1 hx
        exact List.pairwise_iff_getElem.1 hs j' k p q h
    have hsf := sf_le (g := d.gamma) hp hxw
    have f1 : loSF J d sa sb c Z w ≤ (distOf d.fam d.a d.b d.gamma).sp.sf x := by linarith [ox.2.1]
    have f2 : (distOf d.fam d.a d.b d.gamma).sp.sf x ≤ upSF J d sa sb c Z w' := by linarith [ow'.2.2.1]
    exact ⟨_, _, e1, e2, ow.1, f1, f2, ow'.2.2.2, of_uIcc fn ow.1 f1 f2⟩

theorem grid_of_spaced {l : List ℝ} {n : ℕ} {a b : ℝ} (hl : l.length = n) (h0 : l[0]? = some a) (h1 : l[n - 1]? = some b)
    (hs : l.Pairwise (· < ·)) (hw : ∀ p ∈ l, a ≤ p ∧ p ≤ b) : Grid l n a b :=
  ⟨hl, by rw [List.head?_eq_getElem?]; exact h0, by rw [List.getLast?_eq_getElem?, hl]; exact h1, hs.imp fun h => h.le, hw⟩

theorem spaced_grid {name : String} {alpha beta : Option ℝ} (hn : Named name alpha beta) :
    ∃ Y, transformSpaced name (1 / 10 ^ 8) (1 - 1 / 10 ^ 8) 200 alpha beta = .ok Y ∧ Grid Y 200 (1 / 10 ^ 8) (1 - 1 / 10 ^ 8) := by
  obtain ⟨t, l, -, h2, h3, h4, h5, h6, h7, -⟩ := transform_spaced_scale name (1 / 10 ^ 8) (1 - 1 / 10 ^ 8) 200 alpha beta hn (by norm_num) (by norm_num)
    (by norm_num)
  have e1 : min (1 / 10 ^ 8 : ℝ) (1 - 1 / 10 ^ 8) = 1 / 10 ^ 8 := min_eq_left (by norm_num)
  have e2 : max (1 / 10 ^ 8 : ℝ) (1 - 1 / 10 ^ 8) = 1 - 1 / 10 ^ 8 := max_eq_right (by norm_num)
  rw [e1] at h4; rw [e2] at h5; rw [e1, e2] at h7
  exact ⟨l, h2, grid_of_spaced h3 h4 h5 (h6 (by norm_num)) fun p hp => (h7 p hp).2.2⟩

theorem timeGrid_eq {d : Two} (hp : ParamsOK d.fam d.a d.b) {fn : Func} (hf : fn ≠ .CHF) (chfEnd : ℝ) :
    ∃ Y, timeGrid d fn chfEnd = .ok Y ∧ Grid Y 200 (1 / 10 ^ 8) (1 - 1 / 10 ^ 8) := by
  have hb := hp.1
  have key : ∃ Y, (match d.fam with
      | .weibull => transformSpaced "weibull" (1 / 10 ^ 8) (1 - 1 / 10 ^ 8) 200 none none
      | .gamma =>
        if d.b > 3 then transformSpaced "gamma" (1 / 10 ^ 8) (1 - 1 / 10 ^ 8) 200 none (some d.b)
        else .ok (Np.linspace (1 / 10 ^ 8) (1 - 1 / 10 ^ 8) 200)
      | .normal => transformSpaced "normal" (1 / 10 ^ 8) (1 - 1 / 10 ^ 8) 200 none none
      | .lognormal => transformSpaced "normal" (1 / 10 ^ 8) (1 - 1 / 10 ^ 8) 200 none none
      | .loglogistic => transformSpaced "loglogistic" (1 / 10 ^ 8) (1 - 1 / 10 ^ 8) 200 none none
      | .gumbel => transformSpaced "gumbel" (1 / 10 ^ 8) (1 - 1 / 10 ^ 8) 200 none none) = .ok Y ∧
      Grid Y 200 (1 / 10 ^ 8) (1 - 1 / 10 ^ 8) := by
    cases d.fam <;> simp only
    · exact spaced_grid (.weibull (by simp))
    · split
      · exact spaced_grid (.gamma (by simp) hb)
      · exact ⟨_, rfl, linspace_grid (by norm_num) (by norm_num)⟩
    · exact spaced_grid (.normal (by simp))
    · exact spaced_grid (.normal (by simp))
    · exact spaced_grid (.loglogistic (by simp))
    · exact spaced_grid (.gumbel (by simp))
  cases fn
  · exact key
  · exact key
  · exact absurd rfl hf

theorem timeGrid_chf {d : Two} {chfEnd : ℝ} (h : 1 / 10 ^ 8 ≤ chfEnd * (3 / 2)) :
    ∃ l, timeGrid d .CHF chfEnd = .ok (l.map fun h => Real.exp (-h)) ∧ Grid l 200 (1 / 10 ^ 8) (chfEnd * (3 / 2)) := by
  obtain ⟨l, hl, hG⟩ := geomspace_grid (n := 200) (by norm_num) (by norm_num) h
  exact ⟨l, by unfold timeGrid; simp only [hl], hG⟩

theorem to_of (fn : Func) {R : ℝ} (h : 0 < R) : toReliability fn (ofReliability fn R) = R := by
  cases fn <;> simp only [toReliability, ofReliability]
  · ring
  · rw [neg_neg, Real.exp_log h]

theorem of_to (fn : Func) (y : ℝ) : ofReliability fn (toReliability fn y) = y := by
  cases fn <;> simp only [toReliability, ofReliability]
  · ring
  · rw [Real.log_exp, neg_neg]

/-- What is drawn on a grid of reliabilities. -/
theorem time_core (J : Jac) (fs : Bool) (d : Two) {sa sb c CI chfEnd : ℝ} (fn : Func) (hp : ParamsOK d.fam d.a d.b)
    (he : ErrorsOK d sa sb c) (h0 : 0 < CI) (h1 : CI < 1) {Y : List ℝ} (hY : timeGrid d fn chfEnd = .ok Y)
    (hr : ∀ R ∈ Y, 0 < R ∧ R < 1) (hs : Y.Pairwise fun a b => if fn = .CHF then b ≤ a else a ≤ b) (hex : ∃ R ∈ Y, 1 / 10 ^ 50 < R) :
    ∃ (Ys lo up lo' up' : List ℝ) (b : Band), Ys.Sublist Y ∧ (∀ R, R ∈ Ys ↔ R ∈ Y ∧ 1 / 10 ^ 50 < R) ∧
      ((∀ R ∈ Y, 1 / 10 ^ 50 < R) → Ys = Y) ∧
      funcCI J (.two d) fn (some "time") CI (some (Ys.map (ofReliability fn))) none =
        .ok (some (lo.map .fin, Ys.map fun R => .fin ((Fitted.two d).dist.sp.isf R), up.map .fin)) ∧
      Held (decide (fn = .CHF)) lo lo' ∧ Held (decide (fn = .CHF)) up up' ∧
      plotCI J fs (.two d) fn true (some "time") CI chfEnd = .ok (some b) ∧
      b.lower = lo'.zip (Ys.map (ofReliability fn)) ∧ b.upper = up'.zip (Ys.map (ofReliability fn)) ∧
      (fs = false ∨ fn ≠ .CHF → FilledBetween b) ∧
      ∀ (k : ℕ) R, Ys[k]? = some R → ∃ l u, lo'[k]? = some l ∧ up'[k]? = some u ∧ l ≤ (Fitted.two d).dist.sp.isf R ∧
        (Fitted.two d).dist.sp.isf R ≤ u ∧ InSupport d.fam d.gamma l ∧ InSupport d.fam d.gamma u := by
  have hZ := (zOf_spec h0 h1).1.le
  set Z := zOf CI with hZd
  have hrows : Y.map (timeRow J d.fam d.a d.b d.gamma sa sb c Z) =
      Y.map fun R => (.fin (loT J d sa sb c Z R), .fin (upT J d sa sb c Z R)) :=
    List.map_congr_left fun R _ => timeRow_eq J d he.2.2.2.2
  obtain ⟨Ys, hcl, hsub, hmem, hall⟩ := clean_fin Y (loT J d sa sb c Z) (upT J d sa sb c Z) (fun R => R) (fun R => R) (funcName fn)
    fun R hR => ⟨(hr R hR).2, (hr R hR).2⟩
  have hmem' : ∀ R, R ∈ Ys ↔ R ∈ Y ∧ 1 / 10 ^ 50 < R := fun R => by rw [hmem]; tauto
  have hYs : ∀ R ∈ Ys, 1 / 10 ^ 50 < R ∧ 0 < R ∧ R < 1 := fun R hR => ⟨((hmem' R).1 hR).2, hr R ((hmem' R).1 hR).1⟩
  obtain ⟨A', B', hnr, hA, hB⟩ := noReverse2_held (Ys.map (loT J d sa sb c Z)) (Ys.map (upT J d sa sb c Z)) "time" fn (by simp)
  have hdec : decide ("time" = "time" ∧ fn = Func.CHF) = decide (fn = .CHF) := by simp
  rw [hdec] at hA hB
  have hplot : plotCI J fs (.two d) fn true (some "time") CI chfEnd =
      .ok (some (draw fs A' B' (Ys.map (toFunc fn)) (Ys.map (toFunc fn)))) := by
    unfold plotCI timeBand
    rw [if_neg (by simp)]
    simp only [validParams_of he, hY, ← hZd, hrows, List.map_map, Function.comp_def]
    have e : Y.map Ext.fin = Y.map fun R => (Ext.fin R : Ext ℝ) := rfl
    have hfv : finVals (Ys.map Ext.fin) = Ys := by
      have := finVals_map Ys id
      simpa using this
    simp only [e, hcl, finVals_map, hnr, hfv]
  have hfe : toFunc fn = ofReliability fn := funext (toFunc_eq fn)
  have hlA := held_length hA
  have hlB := held_length hB
  rw [List.length_map] at hlA hlB
  have hne : Ys ≠ [] := by
    obtain ⟨R, hR, h⟩ := hex
    exact List.ne_nil_of_mem ((hmem' R).2 ⟨hR, h⟩)
  have htime := time_ok J d (CI := CI) fn (Ys.map (ofReliability fn)) (by simpa using hne) hp he (by
    intro y hy
    obtain ⟨R, hR, rfl⟩ := List.mem_map.1 hy
    rw [to_of fn (hYs R hR).2.1]
    exact ⟨(hYs R hR).1, (hYs R hR).2.2⟩)
  refine ⟨Ys, Ys.map (loT J d sa sb c Z), Ys.map (upT J d sa sb c Z), A', B', _, hsub, hmem', fun h => hall fun R hR => ⟨h R hR, h R hR⟩,
    ?_, hA, hB, hplot, ?_, ?_, ?_, ?_⟩
  · rw [htime]
    simp only [Except.ok.injEq, Option.some.injEq, Prod.mk.injEq, List.map_map]
    refine ⟨List.map_congr_left fun R hR => ?_, List.map_congr_left fun R hR => ?_, List.map_congr_left fun R hR => ?_⟩ <;>
      simp only [Function.comp, to_of fn (hYs R hR).2.1, hZd, Fitted.dist]
  · rw [hfe]; rfl
  · rw [hfe]; rfl
  · intro h
    refine draw_polygon (by simp [hlA]) (by simp [hlB]) (h.imp id fun h => ?_)
    intro y hy
    rw [← List.map_append] at hy
    obtain ⟨r, hr, rfl⟩ := List.mem_map.1 hy
    have hr : r ∈ Ys := by simpa using hr
    rw [toFunc_eq]
    exact of_range h (hYs r hr).2.1 (hYs r hr).2.2
  · intro k R hR
    obtain ⟨j, w, hjk, hw, e1, hle⟩ := held_get hA hR
    obtain ⟨j', w', hjk', hw', e2, hle'⟩ := held_get hB hR
    have rr := hYs R (List.mem_of_getElem? hR)
    have rw1 := hYs w (List.mem_of_getElem? hw)
    have rw2 := hYs w' (List.mem_of_getElem? hw')
    have oR := time_order J d hp rr.2.1 rr.2.2 hZ (sa := sa) (sb := sb) (c := c)
    have ow := time_order J d hp rw1.2.1 rw1.2.2 hZ (sa := sa) (sb := sb) (c := c)
    have ow' := time_order J d hp rw2.2.1 rw2.2.2 hZ (sa := sa) (sb := sb) (c := c)
    have hord : ∀ {i : ℕ} {v : ℝ}, i ≤ k → Ys[i]? = some v → if fn = .CHF then R ≤ v else v ≤ R := by
      intro i v hi hv
      rcases hi.eq_or_lt with rfl | h
      · rw [hR] at hv; cases hv; split <;> exact le_rfl
      · obtain ⟨p, rfl⟩ := List.getElem?_eq_some_iff.1 hv
        obtain ⟨q, rfl⟩ := List.getElem?_eq_some_iff.1 hR
        exact List.pairwise_iff_getElem.1 (hs.sublist hsub) i k p q h
    have g1 := hord hjk hw
    have g2 := hord hjk' hw'
    refine ⟨_, _, e1, e2, ?_, ?_, ow.2.2.1, ow'.2.2.2⟩
    · by_cases hc : fn = .CHF
      · rw [if_pos hc] at g1
        exact ow.1.trans (isf_le hp rr.2.1 g1 rw1.2.2)
      · simp only [hc, decide_false, Bool.false_eq_true, if_false] at hle
        exact hle.trans oR.1
    · by_cases hc : fn = .CHF
      · simp only [hc, decide_true, if_true] at hle'
        exact oR.2.1.trans hle'
      · rw [if_neg hc] at g2
        exact le_trans (isf_le hp rw2.2.1 g2 rr.2.2) ow'.2.1

theorem grid_one_sub {l : List ℝ} {n : ℕ} {a b : ℝ} (h : Grid l n a b) : Grid (l.map fun R => 1 - R).reverse n (1 - b) (1 - a) := by
  refine ⟨by rw [List.length_reverse, List.length_map, h.length], by rw [List.head?_reverse, List.getLast?_map, h.last]; rfl,
    by rw [List.getLast?_reverse, List.head?_map, h.first]; rfl, ?_, ?_⟩
  · rw [List.pairwise_reverse, List.pairwise_map]
    exact h.sorted.imp fun h => by linarith
  · intro x hx
    obtain ⟨y, hy, rfl⟩ := List.mem_map.1 (List.mem_reverse.1 hx)
    have := h.within y hy
    constructor <;> linarith [this.1, this.2]

/-- **C140 (bounds on time, CDF and SF).** With `CI_type="time"` (the default) a plot of the CDF or SF never fails and draws a band whose edges have exactly 200 points each, at
the same heights `ys` – for the SF ascending from 1e-8 to 1 - 1e-8, for the CDF descending. The edges are the lower and upper bounds on time that the function with
`CI_y=ys` returns, held at their first smallest value; at every height the curve passes between them, inside the support. -/
theorem C140_time (J : Jac) (fs : Bool) (d : Two) (sa sb c CI chfEnd : ℝ) (fn : Func) (hf : fn ≠ .CHF) (hp : ParamsOK d.fam d.a d.b)
    (he : ErrorsOK d sa sb c) (h0 : 0 < CI) (h1 : CI < 1) :
    ∃ (ys lo up lo' up' : List ℝ) (b : Band),
      Grid (if fn = .SF then ys else ys.reverse) 200 (1 / 10 ^ 8) (1 - 1 / 10 ^ 8) ∧
      funcCI J (.two d) fn (some "time") CI (some ys) none =
        .ok (some (lo.map .fin, ys.map fun y => .fin ((Fitted.two d).dist.sp.isf (toReliability fn y)), up.map .fin)) ∧
      Held false lo lo' ∧ Held false up up' ∧
      plotCI J fs (.two d) fn true (some "time") CI chfEnd = .ok (some b) ∧
      b.lower = lo'.zip ys ∧ b.upper = up'.zip ys ∧ FilledBetween b ∧
      ∀ (k : ℕ) y, ys[k]? = some y → ∃ l u x, lo'[k]? = some l ∧ up'[k]? = some u ∧ l ≤ x ∧ x ≤ u ∧
        ofReliability fn ((Fitted.two d).dist.sp.sf x) = y ∧ InSupport d.fam d.gamma l ∧ InSupport d.fam d.gamma u := by
  obtain ⟨Y, hY, hG⟩ := timeGrid_eq hp hf chfEnd
  have hr : ∀ R ∈ Y, 0 < R ∧ R < 1 := fun R hR => by
    have := hG.within R hR
    constructor <;> [exact lt_of_lt_of_le (by norm_num) this.1; exact lt_of_le_of_lt this.2 (by norm_num)]
  have hlow : ∀ R ∈ Y, 1 / 10 ^ 50 < R := fun R hR => lt_of_lt_of_le (by norm_num) (hG.within R hR).1
  have hne : Y ≠ [] := by intro h; have := hG.length; rw [h] at this; simp at this
  obtain ⟨R0, hR0⟩ := List.exists_mem_of_ne_nil _ hne
  obtain ⟨Ys, lo, up, lo', up', b, hsub, hmem, hall, hfun, hL, hU, hplot, e1, e2, hF, hin⟩ := time_core J fs d fn hp he h0 h1 hY hr
    (by simp only [if_neg hf]; exact hG.sorted) ⟨R0, hR0, hlow R0 hR0⟩
  have hYs : Ys = Y := hall hlow
  subst hYs
  have hd : decide (fn = Func.CHF) = false := by simpa using hf
  rw [hd] at hL hU
  refine ⟨_, lo, up, lo', up', b, ?_, ?_, hL, hU, hplot, e1, e2, hF (Or.inr hf), ?_⟩
  · cases fn
    · simp only [reduceCtorEq, if_false]
      have := grid_one_sub hG
      rw [show (1 : ℝ) - (1 - 1 / 10 ^ 8) = 1 / 10 ^ 8 by norm_num] at this
      exact this
    · simp only [if_true]
      have : Ys.map (ofReliability .SF) = Ys := by
        conv_rhs => rw [← List.map_id Ys]
        rfl
      rw [this]; exact hG
    · exact absurd rfl hf
  · rw [hfun, List.map_map]
    simp only [Except.ok.injEq, Option.some.injEq, Prod.mk.injEq, true_and, and_true]
    exact List.map_congr_left fun R hR => by simp only [Function.comp, to_of fn (hr R hR).1]
  · intro k y hy
    rw [List.getElem?_map, Option.map_eq_some_iff] at hy
    obtain ⟨R, hR, rfl⟩ := hy
    obtain ⟨l, u, a1, a2, a3, a4, a5, a6⟩ := hin k R hR
    have rr := hr R (List.mem_of_getElem? hR)
    exact ⟨l, u, _, a1, a2, a3, a4, by rw [show (Fitted.two d).dist = distOf d.fam d.a d.b d.gamma from rfl, sf_isf hp rr.1 rr.2], a5, a6⟩

theorem exp_115 {y : ℝ} (h : y ≤ 115) : 1 / 10 ^ 50 < Real.exp (-y) := by
  have h1 : Real.exp 115 < 10 ^ 50 := by
    have e : Real.exp 115 = Real.exp 1 ^ 115 := by rw [← Real.exp_nat_mul]; norm_num
    rw [e]
    calc Real.exp 1 ^ 115 ≤ 2.7182818286 ^ 115 := pow_le_pow_left₀ (Real.exp_pos 1).le Real.exp_one_lt_d9.le 115
      _ < 10 ^ 50 := by norm_num
  have h2 : Real.exp y < 10 ^ 50 := lt_of_le_of_lt (Real.exp_le_exp.2 h) h1
  rw [Real.exp_neg, ← one_div]
  exact one_div_lt_one_div_of_lt (Real.exp_pos y) h2

/-- **C140 (bounds on time, CHF).** With `CI_type="time"` a plot of the CHF, whose last value is at least 1e-8/1.5, draws a band at heights that are, of an ascending grid of 200 from
1e-8 to 1.5 times the last value of the curve, those at which `CHF` with `CI_y` does not raise – all 200 if the last value is at most 76. The edges are the bounds on time
that `CHF` with `CI_y` returns there, held at their first largest value; at every height the curve passes between them. -/
theorem C140_time_chf (J : Jac) (fs : Bool) (d : Two) (sa sb c CI chfEnd : ℝ) (hp : ParamsOK d.fam d.a d.b)
    (he : ErrorsOK d sa sb c) (h0 : 0 < CI) (h1 : CI < 1) (hc : 1 / 10 ^ 8 ≤ chfEnd * (3 / 2)) :
    ∃ (grid ys lo up lo' up' : List ℝ) (b : Band),
      Grid grid 200 (1 / 10 ^ 8) (chfEnd * (3 / 2)) ∧ ys.Sublist grid ∧
      (∀ y ∈ grid, y ∈ ys ↔ funcCI J (.two d) .CHF (some "time") CI (some [y]) none ≠ valueErr) ∧ (chfEnd ≤ 76 → ys = grid) ∧
      funcCI J (.two d) .CHF (some "time") CI (some ys) none =
        .ok (some (lo.map .fin, ys.map fun y => .fin ((Fitted.two d).dist.sp.isf (Real.exp (-y))), up.map .fin)) ∧
      Held true lo lo' ∧ Held true up up' ∧
      plotCI J fs (.two d) .CHF true (some "time") CI chfEnd = .ok (some b) ∧
      b.lower = lo'.zip ys ∧ b.upper = up'.zip ys ∧ (fs = false → FilledBetween b) ∧
      ∀ (k : ℕ) y, ys[k]? = some y → ∃ l u x, lo'[k]? = some l ∧ up'[k]? = some u ∧ l ≤ x ∧ x ≤ u ∧
        -Real.log ((Fitted.two d).dist.sp.sf x) = y ∧ InSupport d.fam d.gamma l ∧ InSupport d.fam d.gamma u := by
  obtain ⟨grid, hY, hG⟩ := timeGrid_chf (d := d) hc
  have hpos : ∀ y ∈ grid, 0 < y := fun y hy => lt_of_lt_of_le (by norm_num) (hG.within y hy).1
  have hr : ∀ R ∈ grid.map (fun h => Real.exp (-h)), 0 < R ∧ R < 1 := fun R hR => by
    obtain ⟨y, hy, rfl⟩ := List.mem_map.1 hR
    exact ⟨Real.exp_pos _, Real.exp_lt_one_iff.2 (by linarith [hpos y hy])⟩
  have hfirst : (1 / 10 ^ 8 : ℝ) ∈ grid := List.mem_of_mem_head? hG.first
  obtain ⟨Ys, lo, up, lo', up', b, hsub, hmem, hall, hfun, hL, hU, hplot, e1, e2, hF, hin⟩ := time_core J fs d .CHF hp he h0 h1 hY hr
    (by
      simp only [if_true]
      rw [List.pairwise_map]
      exact hG.sorted.imp fun h => Real.exp_le_exp.2 (by linarith))
    ⟨_, List.mem_map.2 ⟨_, hfirst, rfl⟩, exp_115 (by norm_num)⟩
  obtain ⟨ys, hys, rfl⟩ := List.sublist_map_iff.1 hsub
  have hback : (ys.map fun h => Real.exp (-h)).map (ofReliability .CHF) = ys := by
    rw [List.map_map]
    conv_rhs => rw [← List.map_id ys]
    apply List.map_congr_left
    intro y _
    simp [ofReliability]
  have hinj : Function.Injective fun h : ℝ => Real.exp (-h) := fun a b h => by
    have := Real.exp_injective h
    linarith
  rw [hback] at hfun e1 e2
  have hd : decide (Func.CHF = Func.CHF) = true := rfl
  rw [hd] at hL hU
  refine ⟨grid, ys, lo, up, lo', up', b, hG, hys, fun y hy => ?_, fun h => ?_, ?_, hL, hU, hplot, e1, e2, fun h => hF (Or.inl h), ?_⟩
  · have hk : y ∈ ys ↔ 1 / 10 ^ 50 < Real.exp (-y) := by
      have := hmem (Real.exp (-y))
      rw [List.mem_map_of_injective hinj, List.mem_map_of_injective hinj] at this
      exact this.trans ⟨fun h => h.2, fun h => ⟨hy, h⟩⟩
    rw [hk]
    constructor
    · intro h
      rw [time_ok J d .CHF [y] (by simp) hp he (by
        intro z hz; rw [List.mem_singleton] at hz; subst hz
        exact ⟨h, Real.exp_lt_one_iff.2 (by linarith [hpos z hy])⟩)]
      exact fun h => by cases h
    · intro h
      by_contra hc'
      exact h (time_err J d .CHF [y] he ⟨y, by simp, fun h' => hc' h'.1⟩)
  · have := hall fun R hR => by
      obtain ⟨y, hy, rfl⟩ := List.mem_map.1 hR
      exact exp_115 (by linarith [(hG.within y hy).2])
    exact List.map_injective_iff.2 hinj this
  · rw [hfun, List.map_map]; rfl
  · intro k y hy
    obtain ⟨l, u, a1, a2, a3, a4, a5, a6⟩ := hin k (Real.exp (-y)) (by rw [List.getElem?_map, hy]; rfl)
    have hp' := hpos y (hys.subset (List.mem_of_getElem? hy))
    refine ⟨l, u, _, a1, a2, a3, a4, ?_, a5, a6⟩
    rw [show (Fitted.two d).dist = distOf d.fam d.a d.b d.gamma from rfl, sf_isf hp (Real.exp_pos _) (Real.exp_lt_one_iff.2 (by linarith)),
      Real.log_exp, neg_neg]

/-- The full claim fails if the curve has no positive value: a plot of the CHF with bounds on time raises ValueError when the last value of the curve is 0
(all x-values at or below gamma). -/
theorem C140_chf_finding (J : Jac) (fs : Bool) (d : Two) (sa sb c CI : ℝ) (he : ErrorsOK d sa sb c) :
    plotCI J fs (.two d) .CHF true (some "time") CI 0 = valueErr := by
  unfold plotCI timeBand timeGrid geomspace
  rw [if_neg (by simp)]
  simp [validParams_of he, valueErr]

theorem validParams_none {t : Two} (h : finiteArg t.SEa = none ∨ finiteArg t.SEb = none ∨ finiteArg t.Cov = none ∨ finiteArg t.Z = none) :
    validParams t = none := by
  unfold validParams
  generalize finiteArg t.SEa = p at *
  generalize finiteArg t.SEb = q at *
  generalize finiteArg t.Cov = r at *
  generalize finiteArg t.Z = w at *
  rcases h with rfl | rfl | rfl | rfl
  · rfl
  · cases p <;> rfl
  · cases p <;> cases q <;> rfl
  · cases p <;> cases q <;> cases r <;> rfl

/-- **C140 (nothing drawn).** Without `plot_CI`, without `CI_type` (except for Exponential), or when a standard error, the covariance or `Z` is missing or not finite, no band is drawn, and
there is no error. -/
theorem C140_nothing (J : Jac) (fs : Bool) (fn : Func) (ct : Option String) (CI chfEnd : ℝ) (d : Fitted) (t : Two) (e : Expo) :
    plotCI J fs d fn false ct CI chfEnd = .ok none ∧ plotCI J fs (.two t) fn true none CI chfEnd = .ok none ∧
    ((t.SEa = none ∨ t.SEb = none ∨ t.Cov = none ∨ t.Z = none) → plotCI J fs (.two t) fn true ct CI chfEnd = .ok none) ∧
    ((∃ v ∈ [t.SEa, t.SEb, t.Cov, t.Z], v = some .nan ∨ v = some .pinf ∨ v = some .ninf) → plotCI J fs (.two t) fn true ct CI chfEnd = .ok none) ∧
    (e.SE = none ∨ e.Z = none → plotCI J fs (.expo e) fn true ct CI chfEnd = .ok none) := by
  have hv : validParams t = none → plotCI J fs (.two t) fn true ct CI chfEnd = .ok none := by
    intro h
    unfold plotCI
    rw [if_neg (by simp)]
    simp only [h]
  refine ⟨by simp [plotCI], ?_, fun h => hv ?_, fun h => hv ?_, fun h => ?_⟩
  · unfold plotCI
    rw [if_neg (by simp)]
    cases hvp : validParams t <;> simp only [hvp]
  · apply validParams_none
    rcases h with h | h | h | h <;> simp [h, finiteArg]
  · obtain ⟨v, hv, h⟩ := h
    have hf : finiteArg v = none := by rcases h with rfl | rfl | rfl <;> rfl
    simp only [List.mem_cons, List.not_mem_nil, or_false] at hv
    apply validParams_none
    rcases hv with rfl | rfl | rfl | rfl <;> simp [hf]
  · unfold plotCI
    rw [if_neg (by simp)]
    rcases h with h | h <;> simp only [h]
    cases e.SE with
    | none => rfl
    | some v => cases v <;> rfl

/-! ## Exponential -/

theorem expoGrid_grid {d : Expo} (hL : 0 < d.Lambda) :
    ∃ l, expoGrid d = .ok l ∧ Grid l 200 ((Fitted.expo d).dist.sp.ppf (1 / 10 ^ 5) - d.gamma) ((Fitted.expo d).dist.sp.ppf (99999 / 10 ^ 5) - d.gamma) ∧
      0 < (Fitted.expo d).dist.sp.ppf (1 / 10 ^ 5) - d.gamma := by
  have e1 := expo_ppf (g := d.gamma) hL (q := 1 / 100000) (by norm_num) (by norm_num)
  have e2 := expo_ppf (g := d.gamma) hL (q := 99999 / 100000) (by norm_num) (by norm_num)
  have ha : 0 < -Real.log (1 - 1 / 100000) / d.Lambda := by
    apply div_pos _ hL
    have := Real.log_neg (show (0:ℝ) < 1 - 1 / 100000 by norm_num) (by norm_num)
    linarith
  have hab : -Real.log (1 - 1 / 100000) / d.Lambda ≤ -Real.log (1 - 99999 / 100000) / d.Lambda := by
    apply div_le_div_of_nonneg_right _ hL.le
    have := Real.log_le_log (show (0:ℝ) < 1 - 99999 / 100000 by norm_num) (show (1 - 99999 / 100000 : ℝ) ≤ 1 - 1 / 100000 by norm_num)
    linarith
  have c1 : (1 / 10 ^ 5 : ℝ) = 1 / 100000 := by norm_num
  have c2 : (99999 / 10 ^ 5 : ℝ) = 99999 / 100000 := by norm_num
  simp only [Fitted.dist, c1, c2]
  rw [e1, e2]
  unfold expoGrid
  simp only [e1, e2]
  rw [if_neg (not_le.2 ha)]
  obtain ⟨l, h1, h2⟩ := geomspace_grid (n := 200) (by norm_num) ha hab
  exact ⟨l, h1, h2, ha⟩

/-- **C140 (Exponential).** A plot of CDF, SF or CHF of a fitted Exponential distribution draws, for every `CI_type`, a band whose times are, of an ascending grid of 200 times from the
1e-5 quantile to the 0.99999 quantile, exactly those at which `SF` with `CI_x` does not raise; its edges are the bounds that `SF` with `CI_x` returns there, converted to the function plotted,
and the curve lies between them. -/
theorem C140_exponential (J : Jac) (fs : Bool) (d : Expo) (se CI chfEnd : ℝ) (fn : Func) (ct : Option String) (hd : ExpoOK d se)
    (h0 : 0 < CI) (h1 : CI < 1) :
    ∃ (grid xs lo up : List ℝ) (b : Band),
      Grid grid 200 ((Fitted.expo d).dist.sp.ppf (1 / 10 ^ 5)) ((Fitted.expo d).dist.sp.ppf (99999 / 10 ^ 5)) ∧ xs.Sublist grid ∧
      (∀ x ∈ grid, x ∈ xs ↔ funcCI J (.expo d) .SF ct CI none (some [x]) ≠ valueErr) ∧
      funcCI J (.expo d) .SF ct CI none (some xs) =
        .ok (some (lo.map .fin, xs.map fun x => .fin ((Fitted.expo d).dist.sp.sf x), up.map .fin)) ∧
      plotCI J fs (.expo d) fn true ct CI chfEnd = .ok (some b) ∧
      EdgesOf b (xs.zip (lo.map (ofReliability fn))) (xs.zip (up.map (ofReliability fn))) ∧
      (fs = false ∨ fn ≠ .CHF → FilledBetween b) ∧
      ∀ (k : ℕ) x, xs[k]? = some x → ∃ l u, lo[k]? = some l ∧ up[k]? = some u ∧ 0 < l ∧ l ≤ (Fitted.expo d).dist.sp.sf x ∧
        (Fitted.expo d).dist.sp.sf x ≤ u ∧ u < 1 ∧
        ofReliability fn ((Fitted.expo d).dist.sp.sf x) ∈ Set.uIcc (ofReliability fn l) (ofReliability fn u) := by
  obtain ⟨t, ht, hG, hpos⟩ := expoGrid_grid hd.1
  have hZ := (zOf_spec h0 h1).1.le
  set Z := zOf CI with hZd
  obtain ⟨p1, p2⟩ := lam_pos d se Z hd.1
  obtain ⟨l1, l2⟩ := lam_le d se Z hd.1 hd.2.1 hZ
  have htp : ∀ s ∈ t, 0 < s := fun s hs => lt_of_lt_of_le hpos (hG.within s hs).1
  have hG' := grid_add hG d.gamma
  rw [sub_add_cancel, sub_add_cancel] at hG'
  obtain ⟨ts, hcl, hsub, hmem, -⟩ := clean_fin t (fun s => s) (fun s => s) (fun s => Real.exp (-(lamLower d se Z) * s))
    (fun s => Real.exp (-(lamUpper d se Z) * s)) (funcName fn)
    fun s hs => ⟨Real.exp_lt_one_iff.2 (by nlinarith [htp s hs]), Real.exp_lt_one_iff.2 (by nlinarith [htp s hs])⟩
  have hts : ∀ s ∈ ts, 0 < s ∧ 1 / 10 ^ 50 < Real.exp (-(lamUpper d se Z) * s) := fun s hs => by
    have := (hmem s).1 hs; exact ⟨htp s this.1, this.2.2⟩
  obtain ⟨A', B', hnr, hA, hB⟩ := noReverse2_held (ts.map fun s => Real.exp (-(lamLower d se Z) * s)) (ts.map fun s => Real.exp (-(lamUpper d se Z) * s))
    "None" fn (by simp)
  have hsort : ts.Pairwise (· ≤ ·) := hG.sorted.sublist hsub
  have hdec : decide ("None" = "time" ∧ fn = Func.CHF) = false := by simp
  rw [hdec] at hA hB
  have hAe := held_sorted (by
    rw [List.pairwise_map]
    simp only [Bool.false_eq_true, if_false]
    exact hsort.imp fun h => Real.exp_le_exp.2 (by nlinarith)) hA
  have hBe := held_sorted (by
    rw [List.pairwise_map]
    simp only [Bool.false_eq_true, if_false]
    exact hsort.imp fun h => Real.exp_le_exp.2 (by nlinarith)) hB
  subst hAe hBe
  set xs := ts.map (· + d.gamma) with hxsd
  have hsfe : ∀ L s, expoSF L d.gamma (s + d.gamma) = Real.exp (-L * s) := fun L s => by
    unfold expoSF; congr 1; ring
  have hplot : plotCI J fs (.expo d) fn true ct CI chfEnd =
      .ok (some (draw fs xs xs ((ts.map fun s => Real.exp (-(lamLower d se Z) * s)).map (toFunc fn)) ((ts.map fun s => Real.exp (-(lamUpper d se Z) * s)).map (toFunc fn)))) := by
    obtain ⟨-, -, hse, z, hz⟩ := hd
    have hfv : finVals (ts.map Ext.fin) = ts := by
      have := finVals_map ts id
      simpa using this
    have e : t.map Ext.fin = t.map fun R => (Ext.fin R : Ext ℝ) := rfl
    unfold plotCI expoBand
    rw [if_neg (by simp)]
    simp only [hse, hz, ht, ← hZd, e, hcl, finVals_map, hnr, hfv, hxsd]
  have hxs : ∀ x ∈ xs, d.gamma < x ∧ 1 / 10 ^ 50 < expoSF (lamUpper d se Z) d.gamma x := by
    intro x hx
    obtain ⟨s, hs, rfl⟩ := List.mem_map.1 hx
    rw [hsfe]
    exact ⟨by linarith [(hts s hs).1], (hts s hs).2⟩
  have hxsort : xs.Pairwise (· ≤ ·) := by rw [hxsd, List.pairwise_map]; exact hsort.imp fun h => by linarith
  obtain ⟨xs', hr⟩ := reported_exists xs
  have hxe := reported_sorted hxsort hr
  subst hxe
  have hrel := expo_rel_ok J hd h0 h1 ct .SF xs xs hr hxs
  have hlu := fun x (hx : x ∈ xs) => lower_upper .SF (expoSF_pos (lamUpper d se Z) d.gamma x)
    (expoSF_anti (show lamLower d se Z ≤ lamUpper d se Z by linarith) (hxs x hx).1.le)
  have hfe : toFunc fn = ofReliability fn := funext (toFunc_eq fn)
  have hm : ∀ L, xs.map (expoSF L d.gamma) = ts.map fun s => Real.exp (-L * s) := fun L => by
    rw [hxsd, List.map_map]; exact List.map_congr_left fun s _ => hsfe L s
  refine ⟨t.map (· + d.gamma), xs, xs.map (expoSF (lamUpper d se Z) d.gamma), xs.map (expoSF (lamLower d se Z) d.gamma), _, hG', ?_, ?_, ?_, hplot, ?_, ?_, ?_⟩
  · exact hsub.map _
  · intro x hx
    obtain ⟨s, hs, rfl⟩ := List.mem_map.1 hx
    have hk : s + d.gamma ∈ xs ↔ 1 / 10 ^ 50 < expoSF (lamUpper d se Z) d.gamma (s + d.gamma) := by
      constructor
      · exact fun h => (hxs _ h).2
      · intro h
        rw [hsfe] at h
        refine List.mem_map.2 ⟨s, (hmem s).2 ⟨hs, lt_of_lt_of_le h (Real.exp_le_exp.2 ?_), h⟩, rfl⟩
        nlinarith [htp s hs]
    rw [hk]
    constructor
    · intro h
      rw [expo_rel_ok J hd h0 h1 ct .SF [s + d.gamma] [s + d.gamma] (Or.inl ⟨by simp, rfl⟩) (by
        intro y hy; rw [List.mem_singleton] at hy; subst hy
        exact ⟨by linarith [htp s hs], h⟩)]
      exact fun h => by cases h
    · intro h
      by_contra hc
      apply h
      unfold funcCI extractCI
      simp only [expoRel_err hd [s + d.gamma] (CI := CI) ⟨_, List.mem_singleton.2 rfl, fun h' => hc h'.2⟩, subscript]
  · rw [hrel]
    simp only [Except.ok.injEq, Option.some.injEq, Prod.mk.injEq, List.map_map]
    refine ⟨List.map_congr_left fun x hx => ?_, rfl, List.map_congr_left fun x hx => ?_⟩
    · have := (hlu x hx).1; simp only [Function.comp]; rw [this]
    · have := (hlu x hx).2; simp only [Function.comp]; rw [this]
  · rw [hm, hm, ← hfe]
    exact Or.inr ⟨rfl, rfl⟩
  · intro h
    refine draw_polygon (by simp [hxsd]) (by simp [hxsd]) (h.imp id fun h => ?_)
    intro y hy
    rw [← List.map_append] at hy
    obtain ⟨r, hr, rfl⟩ := List.mem_map.1 hy
    rw [toFunc_eq]
    rcases List.mem_append.1 hr with hr | hr <;> obtain ⟨s, hs, rfl⟩ := List.mem_map.1 hr
    · exact of_range h (Real.exp_pos _) (Real.exp_lt_one_iff.2 (by nlinarith [(hts s hs).1]))
    · exact of_range h (Real.exp_pos _) (Real.exp_lt_one_iff.2 (by nlinarith [(hts s hs).1]))
  · intro k x hx
    have hxm := hxs x (List.mem_of_getElem? hx)
    have hsf : (Fitted.expo d).dist.sp.sf x = expoSF d.Lambda d.gamma x := Likelihood.exponential_sf hd.1 hxm.1.le
    have f1 : expoSF (lamUpper d se Z) d.gamma x ≤ expoSF d.Lambda d.gamma x := expoSF_anti l2 hxm.1.le
    have f2 : expoSF d.Lambda d.gamma x ≤ expoSF (lamLower d se Z) d.gamma x := expoSF_anti l1 hxm.1.le
    refine ⟨_, _, by rw [List.getElem?_map, hx]; rfl, by rw [List.getElem?_map, hx]; rfl, expoSF_pos _ _ _, ?_, ?_, ?_, ?_⟩
    · rw [hsf]; exact f1
    · rw [hsf]; exact f2
    · unfold expoSF
      exact Real.exp_lt_one_iff.2 (by have := sub_pos.2 hxm.1; nlinarith)
    · rw [hsf]; exact of_uIcc fn (expoSF_pos _ _ _) f1 f2

/-! ## Gamma with a small scale -/

/-- The full claim fails for a Gamma distribution without threshold whose 0.99999 quantile is below 0.0001, where the grid starts: the grid runs backwards, and the held edges both
lie below the survival function at its last time, if the upper bound at 0.0001 is below 1e-5. -/
theorem C140_gamma_finding (J : Jac) (fs : Bool) (d : Two) (sa sb c CI chfEnd l m u : ℝ) (hf : d.fam = .gamma) (hg : d.gamma = 0) (hp : ParamsOK d.fam d.a d.b)
    (he : ErrorsOK d sa sb c) (h0 : 0 < CI) (h1 : CI < 1) (hq : (Fitted.two d).dist.sp.ppf (99999 / 10 ^ 5) < 1 / 10 ^ 4)
    (hu : funcCI J (.two d) .SF (some "reliability") CI none (some [1 / 10 ^ 4]) = .ok (some ([.fin l], [.fin m], [.fin u]))) (hu' : u < 1 / 10 ^ 5)
    (hall : ∀ x, (Fitted.two d).dist.sp.ppf (99999 / 10 ^ 5) ≤ x → x ≤ 1 / 10 ^ 4 →
      funcCI J (.two d) .SF (some "reliability") CI none (some [x]) ≠ valueErr) :
    ∃ b x y₁ y₂, plotCI J fs (.two d) .SF true (some "reliability") CI chfEnd = .ok (some b) ∧ b.lower[199]? = some (x, y₁) ∧ b.upper[199]? = some (x, y₂) ∧
      y₁ < (Fitted.two d).dist.sp.sf x ∧ y₂ < (Fitted.two d).dist.sp.sf x := by
  set Q := (distOf d.fam d.a d.b d.gamma).sp.ppf (99999 / 10 ^ 5) with hQ
  have hQd : (Fitted.two d).dist.sp.ppf (99999 / 10 ^ 5) = Q := rfl
  rw [hQd] at hq hall
  have hQ0 : 0 < Q := by
    have := ppf_mem (g := d.gamma) hp (p := 99999 / 10 ^ 5) (by norm_num) (by norm_num)
    rw [hf] at this
    simp only [InSupport, hg] at this
    rw [hQ, hf, hg]; exact this
  have hgr : relGrid d = .ok ((Np.linspace (1 / 10 ^ 4) Q 200).map (sh d.fam d.gamma)) := by
    unfold relGrid
    simp only [hf, hg, if_true]
    congr 1
    conv_lhs => rw [show (1 / 10 ^ 4 - 0 : ℝ) = 1 / 10 ^ 4 by norm_num, sub_zero]
    rw [← hg, ← hf, ← hQ]
    conv_lhs => rw [← List.map_id (Np.linspace _ _ _)]
    apply List.map_congr_left
    intro s _
    simp [sh, positive, hf, hg]
  have hmemg : ∀ x ∈ Np.linspace (1 / 10 ^ 4) Q 200, Q ≤ x ∧ x ≤ 1 / 10 ^ 4 := by
    intro x hx
    have := linspace_mem' hx
    rw [Set.uIcc_of_ge hq.le] at this
    exact this
  have hsup : ∀ x ∈ Np.linspace (1 / 10 ^ 4) Q 200, InSupport d.fam d.gamma x := by
    intro x hx
    rw [hf, hg]
    exact lt_of_lt_of_le hQ0 (hmemg x hx).1
  obtain ⟨xs, lo', up', b, hsub, hmem, hkeep, hrel, hL, hU, hplot, hE, -⟩ := rel_core J fs d chfEnd .SF hp he h0 h1 hgr hsup
  set Z := zOf CI with hZd
  have hZ := (zOf_spec h0 h1).1.le
  have hnd : (Np.linspace (1 / 10 ^ 4) Q 200).Nodup := (linspace_strictAnti (n := 200) hq).imp fun h => h.ne'
  have hxs : xs = Np.linspace (1 / 10 ^ 4) Q 200 := by
    apply hsub.eq_of_length_le
    exact (hnd.subperm fun x hx => (hkeep x hx).2 (hall x (hmemg x hx).1 (hmemg x hx).2)).length_le
  have hfirst : (1 / 10 ^ 4 : ℝ) ∈ xs := by
    rw [hxs]
    exact List.mem_of_getElem? (Np.linspace_first _ _ 200 (by norm_num))
  have hlast : xs[199]? = some Q := by
    rw [hxs]
    exact Np.linspace_last _ _ 200 (by norm_num)
  have hlen : xs.length = 200 := by rw [hxs]; exact Np.linspace_length _ _ _
  have hb1 := (hmem _).1 hfirst
  have hup : upSF J d sa sb c Z (1 / 10 ^ 4) = u := by
    have := rel_ok J d .SF [1 / 10 ^ 4] hp he h0 h1 (by
      intro y hy; rw [List.mem_singleton] at hy; subst hy; exact ⟨hsup _ hb1.1, hb1.2⟩)
    rw [hu] at this
    have ho := bounds_order J d hp (hsup _ hb1.1) hZ (sa := sa) (sb := sb) (c := c)
    have hlu := (lower_upper .SF ho.1 (by linarith [ho.2.1, ho.2.2.1] : loSF J d sa sb c Z (1 / 10 ^ 4) ≤ upSF J d sa sb c Z (1 / 10 ^ 4))).2
    simp only [Except.ok.injEq, Option.some.injEq, Prod.mk.injEq, List.map_cons, List.map_nil, List.cons.injEq, Ext.fin.injEq, and_true] at this
    have h3 := this.2.2
    rw [← hZd, hlu] at h3
    exact h3.symm
  have hlo : loSF J d sa sb c Z (1 / 10 ^ 4) ≤ u := by
    have ho := bounds_order J d hp (hsup _ hb1.1) hZ (sa := sa) (sb := sb) (c := c)
    rw [← hup]; linarith [ho.2.1, ho.2.2.1]
  have hend : ∀ {f : ℝ → ℝ} {v' : List ℝ}, Held false (xs.map f) v' → f (1 / 10 ^ 4) ≤ u → ∃ y, v'[199]? = some y ∧ y ≤ u := by
    intro f v' h hfu
    rcases h with ⟨h, -⟩ | ⟨-, i, mm, a1, a2, a3, rfl⟩
    · rw [List.length_map, hlen] at h; omega
    · have hi := (List.getElem?_eq_some_iff.1 a1).1
      rw [List.length_map, hlen] at hi
      refine ⟨mm, ?_, ?_⟩
      · rw [List.getElem?_append_right (by simp; omega), List.getElem?_replicate, if_pos (by simp [hlen]; omega)]
      · have := a2 _ (List.mem_map.2 ⟨_, hfirst, rfl⟩)
        simp only [Bool.false_eq_true, if_false] at this
        linarith
  obtain ⟨y1, e1, g1⟩ := hend hL hlo
  obtain ⟨y2, e2, g2⟩ := hend hU hup.le
  have hsf : (Fitted.two d).dist.sp.sf Q = 1 / 10 ^ 5 := by
    obtain ⟨D, -, hs, hq'⟩ := dist_laws d.gamma hp
    have a := hq'.cdf_quantile (99999 / 10 ^ 5) (by norm_num) (by norm_num)
    have a' : (distOf d.fam d.a d.b d.gamma).sp.cdf Q = 99999 / 10 ^ 5 := a
    have b := hs.compl Q
    rw [a'] at b
    have : (Fitted.two d).dist.sp.sf Q = (distOf d.fam d.a d.b d.gamma).sp.sf Q := rfl
    rw [this]; norm_num at b ⊢; linarith
  have hz : ∀ {v : List ℝ} {y : ℝ}, v[199]? = some y → (xs.zip (v.map (ofReliability .SF)))[199]? = some (Q, y) := by
    intro v y hv
    rw [List.getElem?_zip_eq_some]
    exact ⟨hlast, by rw [List.getElem?_map, hv]; rfl⟩
  rcases hE with ⟨q1, q2⟩ | ⟨q1, q2⟩
  · exact ⟨b, Q, y1, y2, hplot, by rw [q1]; exact hz e1, by rw [q2]; exact hz e2, by rw [hsf]; linarith, by rw [hsf]; linarith⟩
  · exact ⟨b, Q, y2, y1, hplot, by rw [q1]; exact hz e2, by rw [q2]; exact hz e1, by rw [hsf]; linarith, by rw [hsf]; linarith⟩

/-! ## Examples -/

/-- Such Gamma distributions exist for every beta: with alpha chosen so that SF(0.0001) = 1e-10, and standard errors 0. -/
example (J : Jac) (fs : Bool) (beta CI : ℝ) (hb : 0 < beta) (h0 : 0 < CI) (h1 : CI < 1) :
    ∃ (mu : ℝ) (b : Band) (x y₁ y₂ : ℝ),
      plotCI J fs (.two ⟨.gamma, mu, beta, 0, some (.fin 0), some (.fin 0), some (.fin 0), some (.fin 1)⟩) .SF true (some "reliability") CI 1 = .ok (some b) ∧
      b.lower[199]? = some (x, y₁) ∧ b.upper[199]? = some (x, y₂) ∧
      y₁ < (gammaDist (Real.exp mu) beta 0).sp.sf x ∧ y₂ < (gammaDist (Real.exp mu) beta 0).sp.sf x := by
  have hp : ∀ mu, ParamsOK .gamma mu beta := fun mu => ⟨hb, by rintro (h | h) <;> cases h⟩
  obtain ⟨D, hD, hs, hq⟩ := dist_laws 0 (hp 0)
  set q := (distOf .gamma 0 beta 0).sp.ppf (1 - 1 / 10 ^ 10) with hqd
  have hq0 : 0 < q := (hD q).1 (hq.mem _ (by norm_num) (by norm_num))
  have hq1 : (distOf .gamma 0 beta 0).sp.sf q = 1 / 10 ^ 10 := by
    have := hq.cdf_quantile (1 - 1 / 10 ^ 10) (by norm_num) (by norm_num)
    have h' := hs.compl q
    rw [hqd] at h' ⊢
    rw [this] at h'
    linarith
  set mu := Real.log (1 / 10 ^ 4 / q) with hmu
  set d : Two := ⟨.gamma, mu, beta, 0, some (.fin 0), some (.fin 0), some (.fin 0), some (.fin 1)⟩ with hd
  have he : ErrorsOK d 0 0 0 := ⟨rfl, rfl, rfl, ⟨1, rfl⟩, by norm_num⟩
  have hsf1 : (distOf .gamma mu beta 0).sp.sf (1 / 10 ^ 4) = 1 / 10 ^ 10 := by
    rw [← hq1, sf_gamma, sf_gamma]
    simp only [u, sh, positive, if_true, sub_zero, Real.exp_zero, div_one]
    congr 1
    rw [hmu, Real.exp_log (by positivity)]
    field_simp
  obtain ⟨D', hD', hs', hq'⟩ := dist_laws 0 (hp mu)
  have hsfQ : (distOf .gamma mu beta 0).sp.sf ((distOf .gamma mu beta 0).sp.ppf (99999 / 10 ^ 5)) = 1 / 10 ^ 5 := by
    have a := hq'.cdf_quantile (99999 / 10 ^ 5) (by norm_num) (by norm_num)
    have b := hs'.compl ((distOf .gamma mu beta 0).sp.ppf (99999 / 10 ^ 5))
    rw [a] at b
    norm_num at b ⊢; linarith
  have hlt : (distOf .gamma mu beta 0).sp.ppf (99999 / 10 ^ 5) < 1 / 10 ^ 4 := by
    by_contra hc
    have := sf_le (g := 0) (hp mu) (not_lt.1 hc)
    rw [hsf1, hsfQ] at this
    norm_num at this
  have hQ0 : 0 < (distOf .gamma mu beta 0).sp.ppf (99999 / 10 ^ 5) := (hD' _).1 (hq'.mem _ (by norm_num) (by norm_num))
  have hZ := (zOf_spec h0 h1).1.le
  have hbounds : ∀ x, 0 < x → loSF J d 0 0 0 (zOf CI) x = (distOf .gamma mu beta 0).sp.sf x ∧ upSF J d 0 0 0 (zOf CI) x = (distOf .gamma mu beta 0).sp.sf x := by
    intro x hx
    have hr := sf_range (hp mu) (show InSupport .gamma 0 x from hx)
    have hk : relHalf J .gamma mu beta 0 0 0 (zOf CI) (sh .gamma 0 x) = 0 := by simp [relHalf, varOf]
    simp only [loSF, upSF, hd, smallFirst, if_true, hk, add_zero, sub_zero, and_self]
    exact inv_scale .gamma hr.1 hr.2
  have hok : ∀ x, (distOf .gamma mu beta 0).sp.ppf (99999 / 10 ^ 5) ≤ x → x ≤ 1 / 10 ^ 4 →
      ∀ y ∈ [x], InSupport d.fam d.gamma y ∧ 1 / 10 ^ 50 < loSF J d 0 0 0 (zOf CI) y := by
    intro x h2 h3 y hy
    rw [List.mem_singleton] at hy; subst hy
    have hy0 : 0 < y := lt_of_lt_of_le hQ0 h2
    refine ⟨hy0, ?_⟩
    rw [(hbounds y hy0).1]
    have := sf_le (g := 0) (hp mu) h3
    rw [hsf1] at this
    exact lt_of_lt_of_le (by norm_num) this
  obtain ⟨b, x, y1, y2, r⟩ := C140_gamma_finding J fs d 0 0 0 CI 1 (lowerOf .SF (loSF J d 0 0 0 (zOf CI) (1 / 10 ^ 4)) (upSF J d 0 0 0 (zOf CI) (1 / 10 ^ 4)))
    _ (upperOf .SF (loSF J d 0 0 0 (zOf CI) (1 / 10 ^ 4)) (upSF J d 0 0 0 (zOf CI) (1 / 10 ^ 4))) rfl rfl (hp mu) he h0 h1 hlt
    (rel_ok J d .SF [1 / 10 ^ 4] (hp mu) he h0 h1 (hok _ hlt.le le_rfl)) (by
      rw [(hbounds _ (by norm_num)).1, (hbounds _ (by norm_num)).2, hsf1]
      simp only [upperOf, ofReliability, max_self]; norm_num)
    (fun x h2 h3 => by
      rw [rel_ok J d .SF [x] (hp mu) he h0 h1 (hok x h2 h3)]
      exact fun h => by cases h)
  exact ⟨mu, b, x, y1, y2, r⟩

/-- A Weibull distribution with alpha 10, beta 2 and its standard errors gets a band for all three functions and both kinds of bounds. -/
example (J : Jac) (fn : Func) :
    (∃ b, plotCI J false (.two exWeibull) fn true (some "reliability") (19 / 20) 1 = .ok (some b) ∧ FilledBetween b) ∧
    ∃ b, plotCI J false (.two exWeibull) fn true (some "time") (19 / 20) 1 = .ok (some b) ∧ FilledBetween b := by
  obtain ⟨hp, he⟩ := exWeibull_ok
  constructor
  · obtain ⟨_, _, _, _, _, _, b, -, -, -, -, -, -, h, -, hf, -⟩ := C140_reliability J false exWeibull 1 (1 / 2) (1 / 4) (19 / 20) 1 fn hp he (by norm_num) (by norm_num)
      (fun h => by simp [exWeibull] at h)
    exact ⟨b, h, hf (Or.inl rfl)⟩
  · by_cases hc : fn = .CHF
    · subst hc
      obtain ⟨_, _, _, _, _, _, b, -, -, -, -, -, -, -, h, -, -, hf, -⟩ := C140_time_chf J false exWeibull 1 (1 / 2) (1 / 4) (19 / 20) 1 hp he (by norm_num)
        (by norm_num) (by norm_num)
      exact ⟨b, h, hf rfl⟩
    · obtain ⟨_, _, _, _, _, b, -, -, -, -, h, -, -, hf, -⟩ := C140_time J false exWeibull 1 (1 / 2) (1 / 4) (19 / 20) 1 fn hc hp he (by norm_num) (by norm_num)
      exact ⟨b, h, hf⟩

example (J : Jac) (fn : Func) : ∃ b, plotCI J true (.expo exExpo) fn true none (19 / 20) 1 = .ok (some b) := by
  obtain ⟨_, _, _, _, b, -, -, -, -, h, -⟩ := C140_exponential J true exExpo (1 / 10) (19 / 20) 1 fn none exExpo_ok (by norm_num) (by norm_num)
  exact ⟨b, h⟩

end Reliability.Props.CIPlot

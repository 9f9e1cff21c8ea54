import Verif.Spec.Downsample
import Verif.Props.Arrays
import Verif.Props.PPPlots
import Verif.Props.ProbPaperPlots

/-!
# C131: the `downsample_scatterplot` option of the plots
-/

namespace Reliability.Downsample

open Reliability Reliability.Utils Reliability.Props List
open Reliability.Props (bind_ok)

/-- Points in ascending order. -/
theorem ascending {P : List (ℝ × ℝ)} (h : Comonotone P) :
    ∃ P' : List (ℝ × ℝ), P'.Perm P ∧ P'.Pairwise fun p q => p.1 ≤ q.1 ∧ p.2 ≤ q.2 := by
  let r : ℝ × ℝ → ℝ × ℝ → Prop := fun p q => toLex p ≤ toLex q
  have hp : (P.insertionSort r).Perm P := perm_insertionSort r P
  refine ⟨P.insertionSort r, hp, ?_⟩
  have hs : (P.insertionSort r).Pairwise r := by
    have : Std.Total r := ⟨fun a b => le_total (toLex a) (toLex b)⟩
    have : IsTrans (ℝ × ℝ) r := ⟨fun a b c h1 h2 => le_trans (a := toLex a) h1 h2⟩
    exact pairwise_insertionSort r P
  refine hs.imp_of_mem ?_
  intro p q hp' hq' hr
  have hr : toLex p ≤ toLex q := hr
  rw [Prod.Lex.le_iff] at hr
  rcases hr with h1 | ⟨h1, h2⟩
  · exact ⟨le_of_lt h1, h p (hp.mem_iff.1 hp') q (hp.mem_iff.1 hq') h1⟩
  · exact ⟨le_of_eq h1, h2⟩

theorem sorted_zip {x y : List ℝ} (hl : y.length = x.length) {P' : List (ℝ × ℝ)} (hp : P'.Perm (x.zip y))
    (hm : P'.Pairwise fun p q => p.1 ≤ q.1 ∧ p.2 ≤ q.2) : Np.sort x = P'.map Prod.fst ∧ Np.sort y = P'.map Prod.snd := by
  have h1 : (P'.map Prod.fst).Perm x := by
    have := hp.map Prod.fst
    rwa [map_fst_zip (by omega)] at this
  have h2 : (P'.map Prod.snd).Perm y := by
    have := hp.map Prod.snd
    rwa [map_snd_zip (by omega)] at this
  constructor
  · rw [← Np.sort_congr h1, Np.sort_eq_self]
    exact pairwise_map.2 (hm.imp fun h => h.1)
  · rw [← Np.sort_congr h2, Np.sort_eq_self]
    exact pairwise_map.2 (hm.imp fun h => h.2)

theorem zip_at {xs ys : List ℝ} {i : ℕ} {o : Option (ℝ × ℝ)} (h1 : xs[i]? = o.map Prod.fst) (h2 : ys[i]? = o.map Prod.snd) :
    (xs.zip ys)[i]? = o := by
  rw [List.zip, getElem?_zipWith, h1, h2]
  cases o <;> rfl

theorem everyNth_of {x y xs ys : List ℝ} {s : ℕ} (hl : y.length = x.length) (h : Downsampled x y xs ys s)
    (hc : Comonotone (x.zip y)) : EveryNth s (x.zip y) (xs.zip ys) := by
  obtain ⟨P', hp, hm⟩ := ascending hc
  obtain ⟨e1, e2⟩ := sorted_zip hl hp hm
  have hlen : (xs.zip ys).length = xs.length := by rw [length_zip, h.same_length, min_self]
  refine ⟨P', hp, hm, ?_, ?_, ?_⟩
  · rw [hlen, h.count, length_zip, hl, min_self]
  · intro i hi
    rw [hlen] at hi
    obtain ⟨a, b⟩ := h.every i hi
    rw [e1, getElem?_map] at a
    rw [e2, getElem?_map] at b
    exact zip_at a b
  · obtain ⟨a, b⟩ := h.last
    rw [e1, getLast?_map] at a
    rw [e2, getLast?_map] at b
    rw [getLast?_eq_getElem?] at a b
    rw [getLast?_eq_getElem? (l := xs.zip ys), hlen]
    rw [h.same_length] at b
    exact zip_at a b

/-- `xy_downsample` of points that go up together. -/
theorem thins {x y : List ℝ} (hl : y.length = x.length) (hc : Comonotone (x.zip y)) {ds : Factor} (hds : Sensible ds) :
    ∃ xs ys, xyDownsample x y ds 1000 = .ok (xs, ys) ∧ ys.length = xs.length ∧ Thins ds (x.zip y) (xs.zip ys) := by
  have hz : (x.zip y).length = x.length := by rw [length_zip, hl, min_self]
  obtain ⟨u1, u2, u3⟩ := C55_unchanged x y 1000
  have hone : ∀ M, xyDownsample x y (.num 1) M = xyDownsample x y .none M := by
    intro M
    unfold xyDownsample effectiveFactor
    simp [isDefault]
  have dflt : ds ∈ [Factor.none, .bool true, .num 1] →
      ∃ xs ys, xyDownsample x y ds 1000 = .ok (xs, ys) ∧ ys.length = xs.length ∧ Thins ds (x.zip y) (xs.zip ys) := by
    intro hd
    have hnf : ds ≠ .bool false := by rintro rfl; simp at hd
    have hnum : ∀ f, ds = .num f → ¬ 1 < f := by
      rintro f rfl
      simp only [mem_cons, reduceCtorEq, Factor.num.injEq, not_mem_nil, or_false, false_or] at hd
      rw [hd]; exact lt_irrefl _
    by_cases hx : x.length < 1000
    · refine ⟨x, y, ?_, hl, ⟨fun h => absurd h hnf, fun _ _ => rfl, fun _ h => by omega, fun f h h1 => absurd h1 (hnum f h),
        fun f h h1 => absurd h1 (hnum f h)⟩⟩
      simp only [mem_cons, not_mem_nil, or_false] at hd
      rcases hd with rfl | rfl | rfl
      · exact (u2 hx).1
      · exact (u2 hx).2
      · rw [hone]; exact (u2 hx).1
    · obtain ⟨xs, ys, s, d1, d2, d3, d4, d5, d6⟩ := C55_default x y hl 1000 (by norm_num) (by omega)
      have hq : (xs.zip ys).length = xs.length := by rw [length_zip, d3.same_length, min_self]
      refine ⟨xs, ys, ?_, d3.same_length, ⟨fun h => absurd h hnf, fun _ h => by omega,
        fun _ _ => ⟨s, d4, everyNth_of hl d3 hc, by omega, by omega⟩, fun f h h1 => absurd h1 (hnum f h),
        fun f h h1 => absurd h1 (hnum f h)⟩⟩
      simp only [mem_cons, not_mem_nil, or_false] at hd
      rcases hd with rfl | rfl | rfl
      · exact d1
      · exact d2
      · rw [hone]; exact d1
  by_cases hd : ds ∈ [Factor.none, .bool true, .num 1]
  · exact dflt hd
  · rcases ds with _ | b | f
    · simp at hd
    · cases b
      · exact ⟨x, y, u1, hl, ⟨fun _ => rfl, fun h => absurd h hd, fun h => absurd h hd, nofun, nofun⟩⟩
      · simp at hd
    · have hf1 : 1 < f := by
        rcases (hds f rfl).lt_or_eq with h | h
        · exact h
        · rw [← h] at hd; simp at hd
      by_cases hx : (x.length : ℚ) / f < 2
      · refine ⟨x, y, u3 f hf1.ne' (by linarith) hx, hl, ⟨nofun, fun h => absurd h hd, fun h => absurd h hd,
          fun _ _ _ _ => rfl, ?_⟩⟩
        rintro g hg h1 h2
        cases hg
        rw [div_lt_iff₀ (by linarith)] at hx
        rw [hz] at h2
        exact absurd h2 (not_le.2 hx)
      · obtain ⟨xs, ys, c1, c2⟩ := C55_factor x y hl 1000 f hf1 (not_lt.1 hx)
        refine ⟨xs, ys, c1, c2.same_length, ⟨nofun, fun h => absurd h hd, fun h => absurd h hd, ?_, ?_⟩⟩
        · rintro g hg h1 h2
          cases hg
          rw [div_lt_iff₀ (by linarith)] at hx
          rw [hz] at h2
          exact absurd h2 hx
        · rintro g hg h1 h2
          cases hg
          exact everyNth_of hl c2 hc

/-! ## QQ and PP plots -/

open Reliability.ProbPlots Reliability.ProbPlots.Spec Reliability.Distributions

theorem isf_le {d : Dist} (h : Standard d) {q q' : ℝ} (h0 : 0 < q) (h1 : q' < 1) (hq : q ≤ q') : d.sp.isf q' ≤ d.sp.isf q := by
  rcases hq.lt_or_eq with hlt | rfl
  · by_contra hn
    have := (standard_laws h).1.mono (not_le.1 hn).le
    rw [cdf_isf h h0 (by linarith), cdf_isf h (by linarith) h1] at this
    linarith
  · exact le_rfl

theorem isf_lt {d : Dist} (h : Standard d) {q q' : ℝ} (h0 : 0 < q) (h1 : q' < 1) (h0' : 0 < q') (h1' : q < 1)
    (hq : d.sp.isf q < d.sp.isf q') : q' < q := by
  by_contra hn
  exact absurd (isf_le h h0 h1 (not_lt.1 hn)) (not_le.2 hq)

theorem scatter_eq (x y : List ℝ) (ds : Factor) : scatter x y ds = xyDownsample x y ds 1000 := by
  unfold scatter
  split
  · rename_i h
    rw [h, (C55_unchanged x y 1000).1]
  · rfl

theorem qq_core (polyfit : List ℝ → List ℝ → ℝ × ℝ) (lstsq : List ℝ → List ℝ → ℝ) {x y : List ℝ} (hl : y.length = x.length)
    (hc : Comonotone (x.zip y)) {ds : Factor} (hds : Sensible ds) {r0 : QQ}
    (h0 : fitLines polyfit lstsq x y (.bool false) = .ok r0) :
    ∃ r, fitLines polyfit lstsq x y ds = .ok r ∧ (r.m, r.m1, r.c1) = (r0.m, r0.m1, r0.c1) ∧
      r.y_scatter.length = r.x_scatter.length ∧
      Thins ds (r0.x_scatter.zip r0.y_scatter) (r.x_scatter.zip r.y_scatter) := by
  obtain ⟨xs, ys, t1, t2, t3⟩ := thins hl hc hds
  unfold fitLines at h0 ⊢
  rw [scatter_eq] at h0 ⊢
  rw [(C55_unchanged x y 1000).1] at h0
  rw [t1]
  cases h0
  exact ⟨_, rfl, rfl, t2, t3⟩

/-- **C131 (QQ plot of two distributions).** The option only selects which of the points are drawn (in ascending order: the first,
every `s`-th and the last, see `Thins`); the fitted lines are those of all points. -/
theorem C131_qq_parametric (polyfit : List ℝ → List ℝ → ℝ × ℝ) (lstsq : List ℝ → List ℝ → ℝ) {X Y : Dist}
    (hX : Standard X) (hY : Standard Y) {ds : Factor} (hds : Sensible ds) :
    ∃ r0 r, qqParametric polyfit lstsq (some X) (some Y) (.bool false) = .ok r0 ∧
      qqParametric polyfit lstsq (some X) (some Y) ds = .ok r ∧ (r.m, r.m1, r.c1) = (r0.m, r0.m1, r0.c1) ∧
      r.y_scatter.length = r.x_scatter.length ∧
      Thins ds (r0.x_scatter.zip r0.y_scatter) (r.x_scatter.zip r.y_scatter) := by
  have key : ∀ d : Dist, isfAll d (Np.linspace (1 / 100 : ℝ) (99 / 100) 100) = .ok ((qpoints d).map .fin) := by
    intro d
    rw [linspace_frac, isfAll_inside]
    · simp [qpoints]
    · intro q hq
      obtain ⟨i, hi, rfl⟩ := mem_map.1 hq
      exact frac_range (mem_range.1 hi)
  have hq : ∀ ds, qqParametric polyfit lstsq (some X) (some Y) ds = fitLines polyfit lstsq (qpoints X) (qpoints Y) ds := by
    intro ds
    simp only [qqParametric, key, bind, Except.bind, allFinite_fin]
  have hc : Comonotone ((qpoints X).zip (qpoints Y)) := by
    have hz : (qpoints X).zip (qpoints Y) = (List.range 100).map fun i => (X.sp.isf (frac i), Y.sp.isf (frac i)) := by
      unfold qpoints
      rw [zip_map', ]
    rw [hz]
    intro p hp q hq hlt
    obtain ⟨i, hi, rfl⟩ := mem_map.1 hp
    obtain ⟨j, hj, rfl⟩ := mem_map.1 hq
    have ri := frac_range (mem_range.1 hi)
    have rj := frac_range (mem_range.1 hj)
    exact isf_le hY rj.1 ri.2 (isf_lt hX ri.1 rj.2 rj.1 ri.2 hlt).le
  obtain ⟨r, c⟩ := qq_core polyfit lstsq (by simp [qpoints]) hc hds
    (by rw [← hq]; exact qq_eq polyfit lstsq X Y (ds := .bool false) (by simp))
  exact ⟨_, r, qq_eq polyfit lstsq X Y (by simp), by rw [hq]; exact c.1, c.2⟩

/-- **C131 (PP plot of two distributions).** Likewise; the quantile lines do not depend on the option. -/
theorem C131_pp_parametric {X Y : Dist} (hX : Standard X) (hY : Standard Y) {yl xl : Option (List ℝ)} {r0 : PPPlot}
    (h0 : ppParametric (some X) (some Y) yl xl (.bool false) = .ok r0) {ds : Factor} (hds : Sensible ds) :
    ∃ r, ppParametric (some X) (some Y) yl xl ds = .ok r ∧ r.lines = r0.lines ∧
      r.y_scatter.length = r.x_scatter.length ∧
      Thins ds (r0.x_scatter.zip r0.y_scatter) (r.x_scatter.zip r.y_scatter) := by
  have hle := tLow_le (Y := Y) hX
  rw [pp_eq] at h0 ⊢
  by_cases h1 : Accepts X (tLow X Y) (tHigh X Y)
  swap
  · rw [(CDF_grid hle X).2 h1] at h0; cases h0
  by_cases h2 : Accepts Y (tLow X Y) (tHigh X Y)
  swap
  · rw [(CDF_grid hle X).1 h1, (CDF_grid hle Y).2 h2] at h0; cases h0
  rw [(CDF_grid hle X).1 h1, (CDF_grid hle Y).1 h2] at h0 ⊢
  simp only [bind, Except.bind, scatter_eq, (C55_unchanged _ _ 1000).1] at h0 ⊢
  have hc : Comonotone (((tGrid X Y).map X.sp.cdf).zip ((tGrid X Y).map Y.sp.cdf)) := by
    rw [zip_map']
    intro p hp q hq hlt
    obtain ⟨t, -, rfl⟩ := mem_map.1 hp
    obtain ⟨t', -, rfl⟩ := mem_map.1 hq
    refine (standard_laws hY).1.mono ?_
    by_contra hn
    exact absurd ((standard_laws hX).1.mono (not_le.1 hn).le) (not_le.2 hlt)
  obtain ⟨xs, ys, t1, t2, t3⟩ := thins (by simp) hc hds
  rw [t1]
  simp only
  cases e1 : quantileLines X Y (yl.getD []) with
  | error e => rw [e1] at h0; cases h0
  | ok l1 =>
    cases e2 : quantileLines Y X (xl.getD []) with
    | error e => rw [e1, e2] at h0; cases h0
    | ok l2 =>
      rw [e1, e2] at h0
      cases h0
      exact ⟨_, rfl, rfl, t2, t3⟩

/-! ### estimates from data -/

theorem kmLoop_desc : ∀ (cs : List Bool) (v : ℝ), 0 ≤ v →
    (∀ w ∈ NP.kmLoop (some v) cs, w ≤ v) ∧ (NP.kmLoop (some v) cs).Pairwise (· ≥ ·)
  | [], _, _ => by simp [NP.kmLoop]
  | c :: cs, v, h0 => by
    have g0 : 0 ≤ NP.factor c cs.length * v := mul_nonneg (NP.factor_nonneg _ _) h0
    have g1 : NP.factor c cs.length * v ≤ v := mul_le_of_le_one_left h0 (NP.factor_le_one _ _)
    obtain ⟨i1, i2⟩ := kmLoop_desc cs _ g0
    rw [NP.kmLoop_cons]
    refine ⟨?_, pairwise_cons.2 ⟨fun w hw => i1 w hw, i2⟩⟩
    intro w hw
    rcases mem_cons.1 hw with rfl | hw
    · exact g1
    · exact (i1 w hw).trans g1

theorem naCHF_asc : ∀ (cs : List Bool) (v : ℝ),
    (∀ w ∈ NP.naCHF v cs, v ≤ w) ∧ (NP.naCHF v cs).Pairwise (· ≤ ·)
  | [], _ => by simp [NP.naCHF]
  | c :: cs, v => by
    have hc : 0 ≤ NP.code (K := ℝ) c := by unfold NP.code; split <;> norm_num
    have g1 : v ≤ v + NP.code c / ((cs.length + 1 : ℕ) : ℝ) := by
      have : 0 ≤ NP.code c / ((cs.length + 1 : ℕ) : ℝ) := by positivity
      linarith
    obtain ⟨i1, i2⟩ := naCHF_asc cs (v + NP.code c / ((cs.length + 1 : ℕ) : ℝ))
    simp only [NP.naCHF]
    refine ⟨?_, pairwise_cons.2 ⟨fun w hw => i1 w hw, i2⟩⟩
    intro w hw
    rcases mem_cons.1 hw with rfl | hw
    · exact g1
    · exact g1.trans (i1 w hw)

theorem atFailures_sublist (k : NP.Result ℝ) (h : k.est.length = k.censor_codes.length) : (atFailures k).Sublist k.est := by
  unfold atFailures
  have : ((k.censor_codes.zip k.est).map fun p => p.2) = k.est := map_snd_zip (by omega)
  calc _ <+ ((k.censor_codes.zip k.est).map fun p => p.2) := (filter_sublist).map _
    _ = _ := this

/-- The survival estimates at the failures do not increase. -/
theorem survival_desc {np : Numerics} (hs : IsArgsort np.argsort) (hexp : np.exp = Real.exp) {f : List ℝ}
    {rc : Option (List ℝ)} {a : Option ℝ} (ha : 0 ≤ a.getD (3 / 10)) (ha1 : a.getD (3 / 10) < 1)
    {method : String} {S : List ℝ} (h : SurvivalAtFailures np f rc a method S) : S.Pairwise (· ≥ ·) := by
  cases h with
  | KM k h =>
    obtain ⟨f', hf, -, -, hf2, rfl⟩ := NP.kaplanMeier_ok h
    refine Pairwise.sublist (atFailures_sublist _ ?_) ?_
    · simp only [NP.assemble, NP.kmLoop_length]
    · exact (kmLoop_desc _ 1 zero_le_one).2
  | NA k h =>
    obtain ⟨f', hf, -, -, hf2, rfl⟩ := NP.nelsonAalen_ok h
    refine Pairwise.sublist (atFailures_sublist _ ?_) ?_
    · simp only [NP.assemble, length_map, naCHF_len]
    · simp only [NP.assemble]
      rw [hexp]
      exact pairwise_map.2 ((naCHF_asc _ 0).2.imp fun h => Real.exp_le_exp.2 (by linarith))
  | RA k h =>
    obtain ⟨f', -, -, -, hf, -, -, hf2, -⟩ := NP.rankAdjustment_ok h
    obtain rfl : f = f' := by simpa using hf
    obtain ⟨x, y, hpp, hl, he⟩ := atFailures_RA hs ha ha1.le h
    obtain ⟨x', y', hpp', -, -, -, hy, -⟩ := PP.C09_strictly_increasing_probabilities hs f
      (some (rc.getD [])) a (by rintro rfl; simp at hf2) ha ha1.le (fun _ => by simp only [Option.getD_some]; omega)
    rw [hpp] at hpp'
    cases hpp'
    rw [he]
    exact pairwise_map.2 (hy.imp fun h => by linarith)

theorem comonotone_asc {x y : List ℝ} (hx : x.Pairwise (· ≤ ·)) (hy : y.Pairwise (· ≤ ·)) : Comonotone (x.zip y) := by
  intro p hp q hq hlt
  obtain ⟨i, hi⟩ := getElem?_of_mem hp
  obtain ⟨j, hj⟩ := getElem?_of_mem hq
  rw [getElem?_zip_eq_some] at hi hj
  obtain ⟨ix, ei⟩ := List.getElem?_eq_some_iff.1 hi.1
  obtain ⟨iy, ei'⟩ := List.getElem?_eq_some_iff.1 hi.2
  obtain ⟨jx, ej⟩ := List.getElem?_eq_some_iff.1 hj.1
  obtain ⟨jy, ej'⟩ := List.getElem?_eq_some_iff.1 hj.2
  rw [pairwise_iff_getElem] at hx hy
  rcases lt_trichotomy i j with h | h | h
  · rw [← ei', ← ej']; exact hy i j iy jy h
  · subst h; rw [← ei', ← ej']
  · have := hx j i jx ix h
    rw [ei, ej] at this
    exact absurd this (not_le.2 hlt)

/-- **C131 (PP plot of data).** Likewise. -/
theorem C131_pp_semiparametric {np : Numerics} (hs : IsArgsort np.argsort) (hexp : np.exp = Real.exp)
    {f : List ℝ} {rc : Option (List ℝ)} {a : Option ℝ} (ha : 0 ≤ a.getD (3 / 10)) (ha1 : a.getD (3 / 10) < 1)
    {method : String} {S : List ℝ}
    (h : SurvivalAtFailures np (f.insertionSort (· ≤ ·)) (rc.map (·.insertionSort (· ≤ ·))) a method S) {Y : Dist}
    (hY : Standard Y) {r0 : PPPlot} (h0 : ppSemiparametric np (some f) rc (some Y) method a (.bool false) = .ok r0)
    {ds : Factor} (hds : Sensible ds) :
    ∃ r, ppSemiparametric np (some f) rc (some Y) method a ds = .ok r ∧ r.lines = r0.lines ∧
      r.y_scatter.length = r.x_scatter.length ∧
      Thins ds (r0.x_scatter.zip r0.y_scatter) (r.x_scatter.zip r.y_scatter) := by
  obtain ⟨hl, h2, -⟩ := survival_range hs hexp ha ha1 h
  rw [length_insertionSort] at hl h2
  have hne : Np.sort f ≠ [] := by
    intro e; have := congrArg length e; simp [Np.sort] at this; simp [this] at h2
  have he : ecdfOf np method (Np.sort f) (rc.map Np.sort) a = .ok (S.map fun s => 1 - s) := ecdfOf_eq h
  unfold ppSemiparametric at h0 ⊢
  rcases CDF_cases Y (Np.sort f) hne with ⟨hc, -, -⟩ | ⟨hc, -⟩
  · simp only [he, hc, bind, Except.bind, scatter_eq, (C55_unchanged _ _ 1000).1] at h0 ⊢
    have hco : Comonotone ((S.map fun s => 1 - s).zip ((Np.sort f).map Y.sp.cdf)) :=
      comonotone_asc (pairwise_map.2 ((survival_desc hs hexp ha ha1 h).imp fun h => by linarith))
        (pairwise_map.2 ((Np.sort_sorted f).imp fun h => (standard_laws hY).1.mono h))
    obtain ⟨xs, ys, t1, t2, t3⟩ := thins (by simp [Np.sort, hl]) hco hds
    rw [t1]
    cases h0
    exact ⟨_, rfl, rfl, t2, t3⟩
  · simp only [he, hc, bind, Except.bind] at h0
    cases h0

theorem lowerEnd_le {d : Dist} (h : Standard d) (hn : d.fam ≠ .normal) (hg : d.fam ≠ .gumbel) {q : ℝ} (h0 : 0 < q) (h1 : q < 1) :
    d.lowerEnd.getD 0 ≤ d.sp.isf q := by
  have key : ∀ {D : Set ℝ} {l : ℝ}, Reliability.Spec.QuantileLaw D d.sp.cdf d.sp.sf d.sp.ppf d.sp.isf → (∀ x ∈ D, l ≤ x) → l ≤ d.sp.isf q := by
    intro D l hD hl
    rw [(hD.isf q h0 h1).1]
    exact hl _ (hD.mem _ (by linarith) (by linarith))
  cases h with
  | weibull a b g ha hb => exact key (Props.Distributions.C34_weibull a b g ha hb) fun x hx => le_of_lt hx
  | exponential l g hl => exact key (Props.Distributions.C34_exponential l g hl) fun x hx => le_of_lt hx
  | loglogistic a b g ha hb => exact key (Props.Distributions.C34_loglogistic a b g ha hb) fun x hx => le_of_lt hx
  | gumbel m s hs => exact absurd rfl hg
  | normal m s hs => exact absurd rfl hn
  | lognormal m s g hs => exact key (Props.Distributions.C34_lognormal m s g hs) fun x hx => le_of_lt hx
  | gamma a b g ha hb => exact key (Props.Distributions.C34_gamma a b g ha hb) fun x hx => le_of_lt hx
  | beta a b ha hb => exact key (Props.Distributions.C34_beta a b ha hb) fun x hx => le_of_lt hx.1

/-- **C131 (QQ plot of data).** Likewise, unless the distribution is a Normal or Gumbel one and the estimated survival
probability reaches 0. -/
theorem C131_qq_semiparametric {np : Numerics} (hs : IsArgsort np.argsort) (hexp : np.exp = Real.exp)
    (polyfit : List ℝ → List ℝ → ℝ × ℝ) (lstsq : List ℝ → List ℝ → ℝ)
    {f : List ℝ} {rc : Option (List ℝ)} {a : Option ℝ} (ha : 0 ≤ a.getD (3 / 10)) (ha1 : a.getD (3 / 10) < 1)
    {method : String} {S : List ℝ}
    (h : SurvivalAtFailures np (f.insertionSort (· ≤ ·)) (rc.map (·.insertionSort (· ≤ ·))) a method S) {Y : Dist}
    (hY : Standard Y) (hlow : (Y.fam ≠ .normal ∧ Y.fam ≠ .gumbel) ∨ ∀ s ∈ S, s ≠ 0) {ds : Factor} (hds : Sensible ds) :
    ∃ r0 r, qqSemiparametric np polyfit lstsq (some f) rc (some Y) method a (.bool false) = .ok r0 ∧
      qqSemiparametric np polyfit lstsq (some f) rc (some Y) method a ds = .ok r ∧
      (r.m, r.m1, r.c1) = (r0.m, r0.m1, r0.c1) ∧ r.y_scatter.length = r.x_scatter.length ∧
      Thins ds (r0.x_scatter.zip r0.y_scatter) (r.x_scatter.zip r.y_scatter) := by
  obtain ⟨hl, h2, hr⟩ := survival_range hs hexp ha ha1 h
  have hdesc := survival_desc hs hexp ha ha1 h
  rw [length_insertionSort] at hl h2
  have e1 := isfAll_eq Y (S.map fun s => 1 - s) (by
    intro q hq
    obtain ⟨s, hs, rfl⟩ := mem_map.1 hq
    have := hr s hs
    constructor <;> linarith)
  have e2 : ((S.map fun s => 1 - s).map (isfE Y)).reverse.map ninfToZero = (S.map (theo Y)).reverse.map .fin := by
    rw [← map_reverse, ← map_reverse, ← map_reverse, map_map, map_map, map_map]
    apply map_congr_left
    intro s hs
    exact theo_spec Y (hr s (mem_reverse.1 hs)).2
  have he : ecdfOf np method (Np.sort f) (rc.map Np.sort) a = .ok (S.map fun s => 1 - s) := ecdfOf_eq h
  have hq : ∀ ds, qqSemiparametric np polyfit lstsq (some f) rc (some Y) method a ds =
      fitLines polyfit lstsq (Np.sort f) (S.map (theo Y)).reverse ds := by
    intro ds
    simp only [qqSemiparametric, he, bind, Except.bind, e1, e2, allFinite_fin]
  have hmono : (S.map (theo Y)).reverse.Pairwise (· ≤ ·) := by
    rw [pairwise_reverse, pairwise_map]
    refine hdesc.imp_of_mem ?_
    intro s t ms mt hst
    have hs' := hr s ms
    have ht' := hr t mt
    have hst : t ≤ s := hst
    unfold theo
    by_cases t0 : t = 0
    · rw [if_pos t0]
      split
      · exact le_rfl
      · rename_i s0
        have s1 : 0 < s := lt_of_le_of_ne hs'.1 (Ne.symm s0)
        rcases hlow with ⟨n1, n2⟩ | hn
        · exact lowerEnd_le hY n1 n2 (by linarith) (by linarith)
        · exact absurd t0 (hn t mt)
    · have t1 : 0 < t := lt_of_le_of_ne ht'.1 (Ne.symm t0)
      rw [if_neg t0, if_neg (by linarith : s ≠ 0)]
      exact isf_le hY (by linarith) (by linarith) (by linarith)
  obtain ⟨r, c⟩ := qq_core polyfit lstsq (by simp [Np.sort, hl]) (comonotone_asc (Np.sort_sorted f) hmono) hds
    (by rw [← hq]; exact qqSemi_eq hs hexp polyfit lstsq ha ha1 h Y)
  exact ⟨_, r, qqSemi_eq hs hexp polyfit lstsq ha ha1 h Y, by rw [hq]; exact c.1, c.2⟩

/-! ## the probability plots -/

open Reliability.ProbPaper

/-- The same plot, with a selection of its points. -/
def SamePlot (ds : Factor) (r0 r : Plot) : Prop :=
  (r.line, r.paper, r.shifted, r.limits) = (r0.line, r0.paper, r0.shifted, r0.limits) ∧
  (r0.scatter = none → r.scatter = none) ∧
  ∀ P0, r0.scatter = some P0 → ∃ P, r.scatter = some P ∧ P.2.length = P.1.length ∧ Thins ds (P0.1.zip P0.2) (P.1.zip P.2)

theorem draw_thins {argsort : List ℝ → List ℕ} (hs : IsArgsort argsort) {f : List ℝ} {rc : Option (List ℝ)} {o : Opts} (hf : f ≠ [])
    (ha : 0 ≤ o.a.getD (3 / 10)) (ha1 : o.a.getD (3 / 10) < 1) (ht : ∀ t ∈ f, t ∉ rc.getD []) {p : Paper} {sh : Bool}
    {line : Option Distributions.Dist} {ds : Factor} (hds : Sensible ds) {r0 : Plot}
    (h0 : draw argsort { o with downsample := .bool false } p sh line f rc = .ok r0) :
    ∃ r, draw argsort { o with downsample := ds } p sh line f rc = .ok r ∧ SamePlot ds r0 r := by
  obtain ⟨x, y, F, h1, h2, h3, h4, -⟩ := positions_shift hs hf ha ha1 ht id strictMono_id
  have hid : ∀ o : Option (List ℝ), o.map (List.map id) = o := by intro o; cases o <;> simp
  rw [map_id, hid] at h2
  rw [map_id] at h4
  obtain ⟨x', y', k1, -, k2, -, k3, -⟩ := PP.C09_strictly_increasing_probabilities hs f rc o.a hf ha ha1.le (fun e => by linarith)
  rw [h1] at k1
  cases k1
  have hco : Comonotone (f.zip F) := by
    have hxy := comonotone_asc k2 (k3.imp fun h => h.le)
    have h4' : (f.zip F).Perm (x.zip y) := by simpa using h4
    intro a ma b mb hlt
    exact hxy a (h4'.mem_iff.1 ma) b (h4'.mem_iff.1 mb) hlt
  obtain ⟨xs, ys, t1, t2, t3⟩ := thins h3 hco hds
  unfold draw at h0 ⊢
  simp only [h2, bind, Except.bind] at h0 ⊢
  cases hsc : o.show_scatter with
  | false =>
    simp only [hsc, Bool.false_eq_true, if_false] at h0 ⊢
    cases hl : xylims p f F (1 / 10) with
    | error e => rw [hl] at h0; cases h0
    | ok L =>
      rw [hl] at h0
      cases h0
      exact ⟨_, rfl, rfl, fun _ => rfl, nofun⟩
  | true =>
    simp only [hsc, if_true, (C55_unchanged _ _ 1000).1, t1, Except.map] at h0 ⊢
    cases hl : xylims p f F (1 / 10) with
    | error e => rw [hl] at h0; cases h0
    | ok L =>
      rw [hl] at h0
      cases h0
      refine ⟨_, rfl, rfl, nofun, ?_⟩
      intro P0 hP
      cases hP
      exact ⟨_, rfl, t2, t3⟩

/-- The part of `body` that fits. -/
noncomputable def fitted (argsort : List ℝ → List ℕ) (c : ℝ) (given : Option Read)
    (fit2 fit3 : Except Err Read) (o : Opts) (f : List ℝ) (rc : Option (List ℝ)) : Except Err Plot :=
  if o.CI ≤ 0 ∨ o.CI ≥ 1 then valueErr
  else do
    let g : Bool := match given with
      | some d => if d.gamma > 0 then true else o.fit_gamma
      | none => o.fit_gamma
    let r ← match given with
      | some d => .ok d
      | none => if g then fit3 else fit2
    if g then draw argsort o r.paper true (some r.line) (shiftAll r.gamma c f) (rc.map (shiftAll r.gamma c))
    else draw argsort o r.paper false (some r.line) f rc

theorem body_cases (argsort : List ℝ → List ℕ) (fixed : Option Paper) (c : ℝ) (given : Option Read) (fit2 fit3 : Except Err Read)
    (o : Opts) (f : List ℝ) (rc : Option (List ℝ)) :
    (∀ p, o.show_fit = false → fixed = some p → body argsort fixed c given fit2 fit3 o f rc = draw argsort o p false none f rc) ∧
    (o.show_fit = true ∨ fixed = none → body argsort fixed c given fit2 fit3 o f rc = fitted argsort c given fit2 fit3 o f rc) := by
  constructor
  · rintro p h rfl
    unfold body
    rw [h]
  · intro h
    unfold body fitted
    cases hs : o.show_fit with
    | true => rfl
    | false =>
      cases fixed with
      | none => rfl
      | some p => simp [hs] at h

theorem body_thins {argsort : List ℝ → List ℕ} (hs : IsArgsort argsort) {f : List ℝ} {rc : Option (List ℝ)} {o : Opts} (hf : f ≠ [])
    (ha : 0 ≤ o.a.getD (3 / 10)) (ha1 : o.a.getD (3 / 10) < 1) (ht : ∀ t ∈ f, t ∉ rc.getD []) {fixed : Option Paper} {c : ℝ}
    {given : Option Read} {fit2 fit3 : Except Err Read} {ds : Factor} (hds : Sensible ds) {r0 : Plot}
    (h0 : body argsort fixed c given fit2 fit3 { o with downsample := .bool false } f rc = .ok r0) :
    ∃ r, body argsort fixed c given fit2 fit3 { o with downsample := ds } f rc = .ok r ∧ SamePlot ds r0 r := by
  have shift : ∀ g, ∀ t ∈ shiftAll g c f, t ∉ ((rc.map (shiftAll g c)).getD []) := by
    intro g t h1 h2
    obtain ⟨u, hu, rfl⟩ := mem_map.1 h1
    cases rc with
    | none => simp at h2
    | some l =>
      simp only [Option.map_some, Option.getD_some] at h2
      obtain ⟨v, hv, e⟩ := mem_map.1 h2
      have : v = u := by linarith
      subst this
      exact ht v hu (by simpa using hv)
  obtain ⟨b1, b2⟩ := body_cases argsort fixed c given fit2 fit3 { o with downsample := .bool false } f rc
  obtain ⟨b1', b2'⟩ := body_cases argsort fixed c given fit2 fit3 { o with downsample := ds } f rc
  by_cases h : o.show_fit = true ∨ fixed = none
  · rw [b2 h] at h0
    rw [b2' h]
    unfold fitted at h0 ⊢
    by_cases hCI : o.CI ≤ 0 ∨ o.CI ≥ 1
    · rw [if_pos hCI] at h0; cases h0
    · rw [if_neg hCI] at h0 ⊢
      have fin : ∀ (g : Bool) (rd : Read),
          (if g then draw argsort { o with downsample := .bool false } rd.paper true (some rd.line) (shiftAll rd.gamma c f)
              (rc.map (shiftAll rd.gamma c))
            else draw argsort { o with downsample := .bool false } rd.paper false (some rd.line) f rc) = .ok r0 →
          ∃ r, (if g then draw argsort { o with downsample := ds } rd.paper true (some rd.line) (shiftAll rd.gamma c f)
              (rc.map (shiftAll rd.gamma c))
            else draw argsort { o with downsample := ds } rd.paper false (some rd.line) f rc) = .ok r ∧ SamePlot ds r0 r := by
        intro g rd h
        cases g with
        | true => exact draw_thins hs (by simpa [shiftAll] using hf) ha ha1 (shift _) hds h
        | false => exact draw_thins hs hf ha ha1 ht hds h
      cases given with
      | some d => exact fin _ d h0
      | none =>
        cases hg : o.fit_gamma with
        | true =>
          simp only [hg, if_true, bind_ok] at h0 ⊢
          obtain ⟨rd, hr, h0⟩ := h0
          obtain ⟨r, k1, k2⟩ := fin true rd (by simpa [hg] using h0)
          exact ⟨r, ⟨rd, hr, by simpa [hg] using k1⟩, k2⟩
        | false =>
          simp only [hg, Bool.false_eq_true, if_false, bind_ok] at h0 ⊢
          obtain ⟨rd, hr, h0⟩ := h0
          obtain ⟨r, k1, k2⟩ := fin false rd (by simpa [hg] using h0)
          exact ⟨r, ⟨rd, hr, by simpa [hg] using k1⟩, k2⟩
  · push Not at h
    obtain ⟨h1, h2⟩ := h
    obtain ⟨p, hp⟩ := Option.ne_none_iff_exists'.1 h2
    rw [b1 p (by simpa using h1) hp] at h0
    rw [b1' p (by simpa using h1) hp]
    exact draw_thins hs hf ha ha1 ht hds h0

theorem checkData_eq {least : ℕ} {g : Bool} {f : List ℝ} {rc : Option (List ℝ)} {d : List ℝ × Option (List ℝ)}
    (h : checkData least g (.array f) (dataArg rc) = .ok d) : f ≠ [] ∧ d = (f, rc) := by
  unfold checkData at h
  simp only at h
  split at h
  · cases h
  · rename_i hne
    split at h
    · cases h
    · refine ⟨by simpa using hne, ?_⟩
      cases rc with
      | none => cases h; rfl
      | some c => cases h; rfl

/-- **C131 (probability plots).** Whatever a probability plot draws without downsampling (its points, its line, its axes), it draws
with it, except for a selection of the points in ascending order. -/
theorem C131_probability_plots {argsort : List ℝ → List ℕ} (hs : IsArgsort argsort) {f : List ℝ} {rc : Option (List ℝ)} {o : Opts}
    (ha : 0 ≤ o.a.getD (3 / 10)) (ha1 : o.a.getD (3 / 10) < 1) (ht : ∀ t ∈ f, t ∉ rc.getD [])
    (fit2 fit3 : FitGlue.Args → Except Err (FitGlue.FitRes FunctionCI.Two)) (fitE1 fitE2 : FitGlue.Args → Except Err (FitGlue.FitRes FunctionCI.Expo))
    (fitB : FitGlue.Args → Except Err (FitGlue.FitRes Distributions.Dist)) (given : Option FunctionCI.Two) (givenE : Option FunctionCI.Expo)
    (givenB : Option (ℝ × ℝ)) {plot : Opts → Except Err Plot}
    (hplot : plot ∈ [weibullPlot argsort fit2 fit3 (.array f) (dataArg rc) given,
      loglogisticPlot argsort fit2 fit3 (.array f) (dataArg rc) given,
      lognormalPlot argsort fit2 fit3 (.array f) (dataArg rc) given,
      gammaPlot argsort fit2 fit3 (.array f) (dataArg rc) given,
      plainPlot .normal argsort fit2 (.array f) (dataArg rc) given,
      plainPlot .gumbel argsort fit2 (.array f) (dataArg rc) given,
      exponentialPlot true argsort fitE1 fitE2 (.array f) (dataArg rc) givenE,
      exponentialPlot false argsort fitE1 fitE2 (.array f) (dataArg rc) givenE,
      betaPlot argsort fitB (.array f) (dataArg rc) givenB])
    {r0 : Plot} (h0 : plot { o with downsample := .bool false } = .ok r0) {ds : Factor} (hds : Sensible ds) :
    ∃ r, plot { o with downsample := ds } = .ok r ∧ SamePlot ds r0 r := by
  simp only [mem_cons, not_mem_nil, or_false] at hplot
  rcases hplot with rfl | rfl | rfl | rfl | rfl | rfl | rfl | rfl | rfl
  all_goals
    first
      | unfold weibullPlot at h0 ⊢
      | unfold loglogisticPlot at h0 ⊢
      | unfold lognormalPlot at h0 ⊢
      | unfold gammaPlot at h0 ⊢
      | unfold plainPlot at h0 ⊢
      | unfold exponentialPlot at h0 ⊢
      | unfold betaPlot at h0 ⊢
    rw [bind_ok] at h0
    obtain ⟨d, hd, h0⟩ := h0
    rw [hd]
    obtain ⟨hf, rfl⟩ := checkData_eq hd
    first
      | exact body_thins hs hf ha ha1 ht hds h0
      | exact body_thins (o := { o with fit_gamma := false }) hs hf ha ha1 ht hds h0

/-- A Weibull against an Exponential with `downsample_scatterplot=10`: 10 of the 100 points are drawn. -/
example (polyfit : List ℝ → List ℝ → ℝ × ℝ) (lstsq : List ℝ → List ℝ → ℝ) :
    ∃ r, qqParametric polyfit lstsq (some (weibull 100 2 0)) (some (exponential 0.01 5)) (.num 10) = .ok r ∧
      (r.x_scatter.zip r.y_scatter).length = 10 := by
  have hX : Standard (weibull 100 2 0) := .weibull _ _ _ (by norm_num) (by norm_num)
  have hY : Standard (exponential 0.01 5) := .exponential _ _ (by norm_num)
  obtain ⟨r0, r, h0, h1, -, -, h⟩ := C131_qq_parametric polyfit lstsq hX hY (ds := .num 10)
    (by intro f hf; cases hf; norm_num)
  refine ⟨r, h1, ?_⟩
  rw [qq_eq polyfit lstsq _ _ (by simp)] at h0
  cases h0
  have hl : ((qpoints (weibull 100 2 0)).zip (qpoints (exponential 0.01 5))).length = 100 := by simp [qpoints]
  obtain ⟨P', -, -, hc, -⟩ := h.factor 10 rfl (by norm_num) (by rw [hl]; norm_num)
  have hfl : ⌊(10 : ℚ)⌋.toNat = 10 := by
    have : ⌊(10 : ℚ)⌋ = 10 := by norm_num
    rw [this]; rfl
  rw [hc, hl, hfl]

end Reliability.Downsample

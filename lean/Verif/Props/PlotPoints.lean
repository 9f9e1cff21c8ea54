import Verif.Model.ProbPlots
import Verif.Props.PlottingPositions

/-!
# C116: plot_points
-/

namespace Reliability.ProbPlots

open Reliability List

variable {argsort : List ℝ → List Nat}

/-- The failure times with the plotting position of each, in the order of the failures. -/
theorem positions_of (hs : IsArgsort argsort) {f : List ℝ} {rc : Option (List ℝ)} {a : Option ℝ} (hf : f ≠ [])
    (ha : 0 ≤ a.getD (3 / 10)) (ha1 : a.getD (3 / 10) < 1) :
    ∃ x y y', PP.plottingPositions argsort f rc a true = .ok (x, y) ∧
      PP.plottingPositions argsort f rc a false = .ok (f, y') ∧ x.length = y.length ∧ f.length = y'.length ∧
      f.zip y' ~ x.zip y ∧ ∀ p ∈ y', 0 < p ∧ p < 1 := by
  have hn : (1 : ℝ) ≤ ((f.length + (rc.getD []).length : ℕ) : ℝ) := by
    exact_mod_cast (by have : f.length ≠ 0 := by simpa using hf
                       omega)
  obtain ⟨x, y, y', h1, h2, -, h4, h5, h6⟩ := PP.C11_sort_option hs f rc a hf ha ha1.le (by linarith)
  obtain ⟨x', y'', g1, -, -, -, -, -, g2⟩ := PP.C09_strictly_increasing_probabilities hs f rc a hf ha ha1.le
    (fun h => absurd h ha1.ne)
  rw [h1] at g1
  cases g1
  refine ⟨x, y, y', h1, h2, h4, h5, h6, ?_⟩
  intro p hp
  obtain ⟨i, hi, rfl⟩ := getElem_of_mem hp
  have hm : (f[i]'(by omega), y'[i]) ∈ f.zip y' := by
    rw [← getElem_zip (h := by simp; omega)]
    exact getElem_mem _
  exact g2 ha1 _ (of_mem_zip (h6.mem_iff.1 hm)).2

/-- **C116 (CDF, SF, CHF points).** For at least one failure, the points are the failure times (in the caller's
order) with, for CDF, the plotting position `F` of each failure as `plotting_positions` reports it; for SF
`1 - F`; for CHF `-ln(1 - F)`, all finite. -/
theorem C116_points (hs : IsArgsort argsort) {f : List ℝ} (rc : Option (List ℝ)) {a : Option ℝ} (hf : f ≠ [])
    (ha : 0 ≤ a.getD (3 / 10)) (ha1 : a.getD (3 / 10) < 1) :
    ∃ x y F, PP.plottingPositions argsort f rc a true = .ok (x, y) ∧ F.length = f.length ∧
      f.zip F ~ x.zip y ∧ (∀ p ∈ F, 0 < p ∧ p < 1) ∧
      plotPoints argsort (some f) rc .CDF a = .ok ((f.zip F).map fun p => (p.1, .fin p.2)) ∧
      plotPoints argsort (some f) rc .SF a = .ok ((f.zip F).map fun p => (p.1, .fin (1 - p.2))) ∧
      plotPoints argsort (some f) rc .CHF a = .ok ((f.zip F).map fun p => (p.1, .fin (-Real.log (1 - p.2)))) := by
  obtain ⟨x, y, F, h1, h2, -, h4, h5, h6⟩ := positions_of hs (rc := rc) hf ha ha1
  have hl : ¬ f.length < 1 := by
    have : f.length ≠ 0 := by simpa using hf
    omega
  refine ⟨x, y, F, h1, h4.symm, h5, h6, ?_, ?_, ?_⟩
  · simp only [plotPoints, if_neg hl, h2, bind, Except.bind, adjusted]
    rw [zip_map_right]
    rfl
  · simp only [plotPoints, if_neg hl, h2, bind, Except.bind, adjusted]
    rw [zip_map_right]
    rfl
  · simp only [plotPoints, if_neg hl, h2, bind, Except.bind, adjusted]
    rw [zip_map_right]
    have : (f.zip F).map (Prod.map id negLog1m) = (f.zip F).map fun p => (p.1, Ext.fin (-Real.log (1 - p.2))) := by
      apply map_congr_left
      rintro ⟨u, v⟩ hp
      have hv := (h6 _ (of_mem_zip hp).2).2
      simp only [Prod.map, negLog1m, if_pos hv, id]
    rw [this]
    rfl

/-- The interpolation points of a list of slopes: each value is the increment of the second coordinate over the
increment of the first. -/
theorem slopes_fin : ∀ (px py : ℝ) (L : List (ℝ × ℝ)), (px :: L.map Prod.fst).Pairwise (· < ·) →
    (py :: L.map Prod.snd).Pairwise (· ≤ ·) →
    ∃ z : List ℝ, slopes px (.fin py) (L.map fun p => (p.1, .fin p.2)) = z.map .fin ∧ z.length = L.length ∧
      (∀ v ∈ z, 0 ≤ v) ∧
      ∀ i (h : i < L.length), z[i]? = some ((L[i].2 - (py :: L.map Prod.snd)[i]'(by simp; omega)) /
        (L[i].1 - (px :: L.map Prod.fst)[i]'(by simp; omega)))
  | px, py, [], _, _ => ⟨[], by simp [slopes], rfl, by simp, by simp⟩
  | px, py, (x, y) :: L, h1, h2 => by
    simp only [map_cons] at h1 h2
    rw [pairwise_cons] at h1 h2
    obtain ⟨z, hz, hl, hp, hi⟩ := slopes_fin x y L h1.2 h2.2
    have hx : 0 < x - px := by have := h1.1 x (by simp); linarith
    have hy : 0 ≤ y - py := by have := h2.1 y (by simp); linarith
    have hq : 0 ≤ (y - py) / (x - px) := div_nonneg hy hx.le
    refine ⟨(y - py) / (x - px) :: z, ?_, by simp [hl], ?_, ?_⟩
    · have e : Ext.sub (Ext.fin y) (Ext.fin py) = .fin (y - py) := by
        show Ext.fin (y + -py) = _
        rw [sub_eq_add_neg]
      simp only [map_cons, slopes, hz, e, divExt, Ext.divFin, if_neg hx.ne', absExt, abs_of_nonneg hq]
    · simpa using ⟨hq, hp⟩
    · intro i h
      cases i with
      | zero => simp
      | succ i => simpa using hi i (by simpa using h)

/-- Two lists of distinct keys with the same pairs have the same values. -/
theorem zip_perm_eq {f F y : List ℝ} (hn : f.Nodup) (h1 : F.length = f.length) (h2 : y.length = f.length)
    (h : f.zip F ~ f.zip y) : F = y := by
  apply ext_getElem (by omega)
  intro i hi hi'
  have hm : (f[i]'(by omega), F[i]) ∈ f.zip F := by
    rw [← getElem_zip (h := by simp; omega)]
    exact getElem_mem _
  obtain ⟨j, hj, e⟩ := getElem_of_mem (h.mem_iff.1 hm)
  rw [getElem_zip, Prod.mk.injEq] at e
  have hij : j = i := (hn.getElem_inj_iff (hi := by simp at hj; omega) (hj := by omega)).1 e.1
  subst hij
  exact e.2.symm

/-- Positions of distinct failure times given in ascending order are strictly increasing. -/
theorem positions_ascending (hs : IsArgsort argsort) {f : List ℝ} {rc : Option (List ℝ)} {a : Option ℝ} (hf : f ≠ [])
    (ha : 0 ≤ a.getD (3 / 10)) (ha1 : a.getD (3 / 10) < 1) (hsort : f.Pairwise (· < ·)) :
    ∃ F, PP.plottingPositions argsort f rc a true = .ok (f, F) ∧
      PP.plottingPositions argsort f rc a false = .ok (f, F) ∧ F.length = f.length ∧
      F.Pairwise (· < ·) ∧ ∀ p ∈ F, 0 < p ∧ p < 1 := by
  obtain ⟨x, y, F, h1, h2, h3, h4, h5, h6⟩ := positions_of hs (rc := rc) hf ha ha1
  obtain ⟨x', y'', g1, g2, g3, g4, g5, -, -⟩ := PP.C09_strictly_increasing_probabilities hs f rc a hf ha ha1.le
    (fun h => absurd h ha1.ne)
  rw [h1] at g1
  cases g1
  have hx : x = f := g2.eq_of_pairwise' g3 (hsort.imp le_of_lt)
  subst hx
  have hF := zip_perm_eq (hsort.imp ne_of_lt) h4.symm h3.symm h5
  subst hF
  exact ⟨F, h1, h2, g4, g5, h6⟩

theorem zip_map_fin (f F : List ℝ) (g : ℝ → ℝ) :
    f.zip (F.map fun v => Ext.fin (g v)) = (f.zip (F.map g)).map fun p => (p.1, Ext.fin p.2) := by
  rw [zip_map_right, zip_map_right, map_map]
  rfl

/-- **C116 (PDF and HF points).** For distinct positive failure times given in ascending order, the PDF point drawn
at the `i`-th failure is the average density since the previous failure: its height times the time since the previous
failure (or since 0) is the increase of the plotting position since then; likewise the HF point and the increase
of `-ln(1 - F)`. All heights are finite and non-negative. -/
theorem C116_density (hs : IsArgsort argsort) {f : List ℝ} (rc : Option (List ℝ)) {a : Option ℝ} (hf : f ≠ [])
    (ha : 0 ≤ a.getD (3 / 10)) (ha1 : a.getD (3 / 10) < 1) (hsort : f.Pairwise (· < ·)) (hpos : ∀ t ∈ f, 0 < t) :
    ∃ F d h : List ℝ, PP.plottingPositions argsort f rc a true = .ok (f, F) ∧
      d.length = f.length ∧ h.length = f.length ∧ (∀ v ∈ d, 0 ≤ v) ∧ (∀ v ∈ h, 0 ≤ v) ∧
      plotPoints argsort (some f) rc .PDF a = .ok (f.zip (d.map .fin)) ∧
      plotPoints argsort (some f) rc .HF a = .ok (f.zip (h.map .fin)) ∧
      ∀ i < f.length, ∃ t t' p p' v w, f[i]? = some t ∧ (0 :: f)[i]? = some t' ∧ F[i]? = some p ∧
        (0 :: F)[i]? = some p' ∧ d[i]? = some v ∧ h[i]? = some w ∧ v * (t - t') = p - p' ∧
        w * (t - t') = -Real.log (1 - p) - -Real.log (1 - p') := by
  obtain ⟨F, h1, h2, h3, h4, h5⟩ := positions_ascending hs (rc := rc) hf ha ha1 hsort
  have hl : ¬ f.length < 1 := by
    have : f.length ≠ 0 := by simpa using hf
    omega
  have hm1 : (f.zip F).map Prod.fst = f := by rw [map_fst_zip]; omega
  have hm2 : (f.zip F).map Prod.snd = F := by rw [map_snd_zip]; omega
  have k1 : (0 :: (f.zip F).map Prod.fst).Pairwise (· < ·) := by
    rw [hm1]; exact pairwise_cons.2 ⟨hpos, hsort⟩
  have k2 : (0 :: (f.zip F).map Prod.snd).Pairwise (· ≤ ·) := by
    rw [hm2]; exact pairwise_cons.2 ⟨fun p hp => (h5 p hp).1.le, h4.imp le_of_lt⟩
  set H := F.map fun v => -Real.log (1 - v) with hH
  have hn1 : (f.zip H).map Prod.fst = f := by rw [map_fst_zip]; simp [hH]; omega
  have hn2 : (f.zip H).map Prod.snd = H := by rw [map_snd_zip]; simp [hH]; omega
  have k3 : (0 :: (f.zip H).map Prod.fst).Pairwise (· < ·) := by
    rw [hn1]; exact pairwise_cons.2 ⟨hpos, hsort⟩
  have k4 : (0 :: (f.zip H).map Prod.snd).Pairwise (· ≤ ·) := by
    rw [hn2, hH]
    refine pairwise_cons.2 ⟨?_, ?_⟩
    · intro v hv
      obtain ⟨p, hp, rfl⟩ := mem_map.1 hv
      have := Real.log_nonpos (x := 1 - p) (by linarith [(h5 p hp).2]) (by linarith [(h5 p hp).1])
      linarith
    · rw [pairwise_map]
      refine Pairwise.imp_of_mem ?_ h4
      intro p q hp hq hpq
      have := Real.log_le_log (x := 1 - q) (y := 1 - p) (by linarith [(h5 q hq).2]) (by linarith)
      linarith
  obtain ⟨d, d1, d2, d3, d4⟩ := slopes_fin 0 0 (f.zip F) k1 k2
  obtain ⟨h, e1, e2, e3, e4⟩ := slopes_fin 0 0 (f.zip H) k3 k4
  have hHl : H.length = F.length := by simp [hH]
  have hneg : F.map negLog1m = F.map fun v => Ext.fin (-Real.log (1 - v)) := by
    apply map_congr_left
    intro v hv
    simp [negLog1m, (h5 v hv).2]
  refine ⟨F, d, h, h1, by simp [d2]; omega, by simp [e2]; omega, d3, e3, ?_, ?_, ?_⟩
  · simp only [plotPoints, if_neg hl, h2, bind, Except.bind, adjusted]
    rw [zip_map_fin f F (fun v => v), map_id'', d1]
    · rfl
    · intro; rfl
  · simp only [plotPoints, if_neg hl, h2, bind, Except.bind, adjusted]
    rw [hneg, zip_map_fin f F, ← hH, e1]
    rfl
  · intro i hi
    have d5 := d4 i (by simp; omega)
    have e5 := e4 i (by simp; omega)
    simp only [hm1, hm2, hn1, hn2, getElem_zip] at d5 e5
    have ht : 0 < f[i] - (0 :: f)[i]'(by simp; omega) := by
      cases i with
      | zero => simpa using hpos _ (getElem_mem _)
      | succ i =>
        have := pairwise_iff_getElem.1 hsort i (i + 1) (by omega) hi (by omega)
        simpa using this
    refine ⟨_, _, _, _, _, _, getElem?_eq_getElem hi, getElem?_eq_getElem (by simp; omega),
      getElem?_eq_getElem (by omega), getElem?_eq_getElem (by simp; omega), d5, e5,
      div_mul_cancel₀ _ ht.ne', ?_⟩
    rw [div_mul_cancel₀ _ ht.ne']
    cases i with
    | zero => simp [hH]
    | succ i => simp [hH]

/-- **C116 (order).** When no failure time equals a censoring time, the CDF, SF and CHF points do not depend on the
order in which the failures are given. -/
theorem C116_order (hs : IsArgsort argsort) {f f' : List ℝ} (rc : Option (List ℝ)) {a : Option ℝ} (hf : f ≠ [])
    (ha : 0 ≤ a.getD (3 / 10)) (ha1 : a.getD (3 / 10) < 1) (hp : f' ~ f) (ht : ∀ t ∈ f, t ∉ rc.getD [])
    {func : Func} (hfn : func = .CDF ∨ func = .SF ∨ func = .CHF) :
    ∃ P P', plotPoints argsort (some f) rc func a = .ok P ∧ plotPoints argsort (some f') rc func a = .ok P' ∧
      P' ~ P := by
  have hf' : f' ≠ [] := fun h => hf (by subst h; exact hp.symm.eq_nil)
  obtain ⟨x, y, F, g1, g2, g3, g4, g5, g6, g7⟩ := C116_points hs rc (a := a) hf ha ha1
  obtain ⟨x', y', F', k1, k2, k3, k4, k5, k6, k7⟩ := C116_points hs rc (a := a) hf' ha ha1
  have hd : ∀ g : List ℝ, g ≠ [] →
      ((g.length + (rc.getD []).length : Nat) : ℝ) + 1 - 2 * a.getD (3 / 10) ≠ 0 := by
    intro g hg
    have : (1 : ℝ) ≤ ((g.length + (rc.getD []).length : ℕ) : ℝ) := by
      exact_mod_cast (by have : g.length ≠ 0 := by simpa using hg
                         omega)
    linarith
  have ho : PP.ordered argsort f' (rc.getD []) = PP.ordered argsort f (rc.getD []) := by
    have q : PP.ordered argsort f (rc.getD []) ~ _ := PP.ordered_perm hs f (rc.getD [])
    have q' : PP.ordered argsort f' (rc.getD []) ~ _ := PP.ordered_perm hs f' (rc.getD [])
    have qq := q'.trans (((hp.map fun t => (t, true)).append_right _).trans q.symm)
    refine qq.eq_of_pairwise ?_ (PP.ordered_sorted hs _ _) (PP.ordered_sorted hs _ _)
    rintro ⟨u, b⟩ ⟨v, c⟩ hu hv huv hvu
    have e : u = v := le_antisymm huv hvu
    subst e
    rw [qq.mem_iff, q.mem_iff] at hu
    rw [q.mem_iff] at hv
    simp only [mem_append, mem_map, Prod.mk.injEq] at hu hv
    rcases hu with ⟨_, hu, rfl, rfl⟩ | ⟨_, hu, rfl, rfl⟩ <;> rcases hv with ⟨_, hv, rfl, rfl⟩ | ⟨_, hv, rfl, rfl⟩
    · rfl
    · exact absurd hv (ht _ hu)
    · exact absurd hu (ht _ hv)
    · rfl
  rw [PP.plottingPositions_sorted hs f rc a hf ha ha1.le (hd f hf)] at g1
  rw [PP.plottingPositions_sorted hs f' rc a hf' ha ha1.le (hd f' hf'), ho] at k1
  cases g1
  cases k1
  have hz := k3.trans g3.symm
  rcases hfn with rfl | rfl | rfl
  · exact ⟨_, _, g5, k5, hz.map _⟩
  · exact ⟨_, _, g6, k6, hz.map _⟩
  · exact ⟨_, _, g7, k7, hz.map _⟩

/-- **C116 (finding).** The PDF points do depend on the order of the failures: for `[2, 1]` the point drawn at time
1 is at 1/2.4, for `[1, 2]` it is at 0.7/2.4 (the documentation says of the PDF points that they "are correct", and
its own example passes unsorted data). -/
theorem C116_order_finding (hs : IsArgsort argsort) :
    plotPoints argsort (some [2, 1]) none .PDF none =
      .ok [(2, .fin (17 / 48)), (1, .fin (5 / 12))] ∧
    plotPoints argsort (some [1, 2]) none .PDF none =
      .ok [(1, .fin (7 / 24)), (2, .fin (5 / 12))] := by
  have e : ∀ f : List ℝ, (f = [2, 1] ∨ f = [1, 2]) →
      PP.plottingPositions argsort f none none true = .ok ([1, 2], [7 / 24, 17 / 24]) := by
    intro f hf
    have := PP.C10_complete_data hs f none (by rcases hf with rfl | rfl <;> simp) (by norm_num) (by norm_num)
      (by rcases hf with rfl | rfl <;> norm_num)
    rw [this]
    rcases hf with rfl | rfl <;> norm_num [insertionSort, orderedInsert, range'] 
  have k : ∀ f G : List ℝ, (f = [2, 1] ∨ f = [1, 2]) → G.length = 2 → f.zip G ~ [1, 2].zip [7 / 24, 17 / 24] →
      PP.plottingPositions argsort f none none false = .ok (f, G) := by
    intro f G hf hG hz
    obtain ⟨x, y, F, h1, h2, -, h4, h5, -⟩ := positions_of hs (f := f) (rc := none) (a := none)
      (by rcases hf with rfl | rfl <;> simp) (by norm_num) (by norm_num)
    rw [e f hf] at h1
    cases h1
    rw [h2, zip_perm_eq (by rcases hf with rfl | rfl <;> norm_num) h4.symm
      (by rcases hf with rfl | rfl <;> simpa using hG) (h5.trans hz.symm)]
  constructor
  · simp only [plotPoints, k [2, 1] [17 / 24, 7 / 24] (.inl rfl) rfl (by simpa using Perm.swap _ _ _)]
    norm_num [bind, Except.bind, adjusted, slopes, Ext.sub, Ext.add, Ext.neg, divExt, Ext.divFin, absExt, abs_of_neg,
      abs_of_pos, pure, Except.pure]
  · simp only [plotPoints, k [1, 2] [7 / 24, 17 / 24] (.inr rfl) rfl (Perm.refl _)]
    norm_num [bind, Except.bind, adjusted, slopes, Ext.sub, Ext.add, Ext.neg, divExt, Ext.divFin, absExt, abs_of_neg,
      abs_of_pos, pure, Except.pure]

/-- **C116 (finding).** A tied pair of failures gives an infinite PDF point. -/
theorem C116_tied_finding (hs : IsArgsort argsort) {t : ℝ} (ht : 0 < t) :
    ∃ v, plotPoints argsort (some [t, t]) none .PDF none = .ok [(t, v), (t, .pinf)] := by
  obtain ⟨x, y, F, h1, h2, h3, h4, h5, -⟩ := positions_of hs (f := [t, t]) (rc := none) (a := none)
      (by simp) (by norm_num) (by norm_num)
  have e := PP.C10_complete_data hs [t, t] none (by simp) (by norm_num) (by norm_num) (by norm_num)
  rw [h1] at e
  have hy : y.Nodup := by
    cases e
    norm_num [range']
  have hFy : F ~ y := by
    have := h5.map Prod.snd
    rwa [map_snd_zip (by omega), map_snd_zip (by omega)] at this
  have hF := hFy.nodup_iff.2 hy
  obtain ⟨p, q, rfl⟩ := length_eq_two.1 h4.symm
  have hpq : q - p ≠ 0 := by
    rw [sub_ne_zero]
    intro h
    simp [h] at hF
  have hw : absExt (divExt (Ext.sub (.fin q) (.fin p)) (t - t)) = .pinf := by
    have : Ext.sub (Ext.fin q) (Ext.fin p) = .fin (q - p) := by
      show Ext.fin (q + -p) = _
      rw [sub_eq_add_neg]
    rw [this]
    simp only [divExt, sub_self, Ext.divFin, if_true, Ext.infMul]
    rcases lt_or_gt_of_ne hpq with h | h
    · simp [sub_neg.1 h, absExt]
    · simp [sub_pos.1 h, not_lt.2 (sub_pos.1 h).le, absExt]
  refine ⟨absExt (divExt (Ext.sub (.fin p) (.fin 0)) (t - 0)), ?_⟩
  rw [← hw]
  simp only [plotPoints, h2, bind, Except.bind, adjusted, slopes, zip_cons_cons, map_cons, pure, Except.pure]
  rfl

/-- **C116 (errors).** No failures, or a function that is none of the five, raise ValueError. -/
theorem C116_errors (hs : IsArgsort argsort) (rc : Option (List ℝ)) (a : Option ℝ) (func : Func) :
    plotPoints argsort none rc func a = valueErr ∧ plotPoints argsort (some []) rc func a = valueErr ∧
    ∀ f : List ℝ, f ≠ [] → 0 ≤ a.getD (3 / 10) → a.getD (3 / 10) < 1 →
      plotPoints argsort (some f) rc .other a = valueErr := by
  refine ⟨rfl, rfl, fun f hf ha ha1 => ?_⟩
  obtain ⟨x, y, F, h1, h2, h3, h4, h5, -⟩ := positions_of hs (rc := rc) hf ha ha1
  have hl : ¬ f.length < 1 := by
    have : f.length ≠ 0 := by simpa using hf
    omega
  simp only [plotPoints, if_neg hl, h2, bind, Except.bind, adjusted]

example : ∃ d h, plotPoints refArgsort (some [1, 3, 4]) (some [2, 5]) .PDF none = .ok ([1, 3, 4].zip d) ∧
    plotPoints refArgsort (some [1, 3, 4]) (some [2, 5]) .HF none = .ok ([1, 3, 4].zip h) := by
  obtain ⟨F, d, h, -, -, -, -, -, h1, h2, -⟩ := C116_density refArgsort_isArgsort (f := [1, 3, 4]) (some [2, 5])
    (a := none) (by simp) (by norm_num) (by norm_num) (by norm_num) (by norm_num)
  exact ⟨_, _, h1, h2⟩

end Reliability.ProbPlots

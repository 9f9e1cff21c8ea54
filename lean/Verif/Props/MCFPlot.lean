import Verif.Model.MCFPlot
import Verif.Props.MCF
import Verif.Props.MCFParametric
import Verif.Props.InputCheck
import Mathlib.Analysis.SpecialFunctions.Pow.Deriv
import Mathlib.Analysis.Complex.ExponentialBounds

/-! # C145: the plots of MCF_nonparametric and MCF_parametric -/

namespace Reliability.MCF.Plot

open Reliability Reliability.MCF List
open Reliability.Props (bind_ok)

/-! ## The specification -/

/-- The mean cumulative function: the sum, over the repairs up to `t`, of one over the number of systems under observation. -/
noncomputable def mcfAt (systems : List (List ℝ)) (t : ℝ) : ℝ :=
  (((Spec.times systems).filter fun s => decide (s ≤ t)).map fun s => 1 / (Spec.atRisk systems s : ℝ)).sum

/-- The last row of the results up to `t`. -/
noncomputable def rowAt (rows : List (OutRow ℝ)) (t : ℝ) : Option (OutRow ℝ) := (rows.filter fun r => decide (r.time ≤ t)).getLast?

/-- The pieces of a line: pairs of consecutive points. -/
def pieces (xs ys : List ℝ) : List ((ℝ × ℝ) × (ℝ × ℝ)) := (xs.zip ys).zip (xs.zip ys).tail

/-- A line is the graph of the step function `f` on `[0, last)`: it goes from 0 to `last` to the right, every piece is horizontal or
vertical, above every `t` there is a horizontal piece, and it is at the height `f t`. -/
structure IsStepGraph (f : ℝ → ℝ) (last : ℝ) (xs ys : List ℝ) : Prop where
  same : xs.length = ys.length
  first : (xs.zip ys).head? = some (0, 0)
  ends : xs.getLast? = some last
  right : ∀ p ∈ pieces xs ys, p.1.1 ≤ p.2.1
  square : ∀ p ∈ pieces xs ys, p.1.1 = p.2.1 ∨ p.1.2 = p.2.2
  covers : ∀ t, 0 ≤ t → t < last → ∃ p ∈ pieces xs ys, p.1.1 ≤ t ∧ t < p.2.1
  height : ∀ p ∈ pieces xs ys, ∀ t, p.1.1 ≤ t → t < p.2.1 → p.1.2 = f t ∧ p.2.2 = f t

/-! ## The walk -/

/-- The vertex of a row. -/
def vtx (r : OutRow ℝ) : Vertex := ⟨r.time, r.MCF, r.lower, r.upper⟩

/-- The vertices from a row on. -/
def walk (p : OutRow ℝ) (rows : List (OutRow ℝ)) (last : ℝ) : List Vertex :=
  vtx p :: (stepLoop p rows ++ [⟨last, (rows.getLastD p).MCF, (rows.getLastD p).lower, (rows.getLastD p).upper⟩])

theorem walk_nil (p : OutRow ℝ) (last : ℝ) : walk p [] last = [vtx p, ⟨last, p.MCF, p.lower, p.upper⟩] := rfl

theorem walk_cons (p r : OutRow ℝ) (rows : List (OutRow ℝ)) (last : ℝ) :
    walk p (r :: rows) last = vtx p :: ⟨r.time, p.MCF, p.lower, p.upper⟩ :: walk r rows last := by
  simp only [walk, stepLoop, getLastD_cons, cons_append, vtx]

theorem stepArrays_ok (rows : List (OutRow ℝ)) (hne : rows ≠ []) (last : ℝ) :
    stepArrays rows last = .ok (walk ⟨0, 0, 0, 0, 0⟩ rows last) := by
  cases rows with
  | nil => exact absurd rfl hne
  | cons r rs =>
    rw [walk_cons]
    simp only [stepArrays, walk, vtx, cons_append, nil_append]

/-- Facts about the vertices, for a component `g` of rows and vertices. -/
theorem walk_facts (g : OutRow ℝ → ℝ) (gv : Vertex → ℝ) (hg : ∀ r, gv (vtx r) = g r) (hg' : ∀ (r : OutRow ℝ) x, gv ⟨x, r.MCF, r.lower, r.upper⟩ = g r)
    (last : ℝ) (rows : List (OutRow ℝ)) : ∀ p : OutRow ℝ, ((p :: rows).map (·.time)).Pairwise (· ≤ ·) → (∀ r ∈ p :: rows, r.time ≤ last) →
    let V := walk p rows last
    (∀ v ∈ V, p.time ≤ v.x ∧ v.x ≤ last) ∧ (∀ v ∈ V, ∃ r ∈ p :: rows, gv v = g r) ∧
    (∀ a ∈ V.zip V.tail, a.1.x ≤ a.2.x ∧ (a.1.x = a.2.x ∨ gv a.1 = gv a.2) ∧
      ∀ t, a.1.x ≤ t → t < a.2.x → gv a.1 = g ((rows.filter fun r => decide (r.time ≤ t)).getLastD p) ∧
        gv a.2 = g ((rows.filter fun r => decide (r.time ≤ t)).getLastD p)) ∧
    (∀ t, p.time ≤ t → t < last → ∃ a ∈ V.zip V.tail, a.1.x ≤ t ∧ t < a.2.x) ∧ V.getLast?.map Vertex.x = some last := by
  induction rows with
  | nil =>
    intro p _ hl
    simp only [mem_cons, not_mem_nil, or_false, forall_eq] at hl
    simp only [walk_nil, tail_cons, zip_cons_cons, zip_nil_right, mem_cons, not_mem_nil, or_false, forall_eq_or_imp, forall_eq, filter_nil, getLastD_nil,
      exists_eq_left, hg, hg', vtx]
    refine ⟨⟨⟨le_rfl, hl⟩, hl, le_rfl⟩, by simp, ⟨hl, by simp, fun t _ _ => by simp⟩, fun t h1 h2 => ⟨h1, h2⟩, rfl⟩
  | cons r rows ih =>
    intro p hs hl
    rw [map_cons, pairwise_cons] at hs
    obtain ⟨h1, h2, h3, h4, h5⟩ := ih r hs.2 fun s hm => hl s (mem_cons_of_mem _ hm)
    have hpr : p.time ≤ r.time := hs.1 r.time (by simp)
    have hV : ∃ T, walk r rows last = vtx r :: T := ⟨_, rfl⟩
    obtain ⟨T, hT⟩ := hV
    rw [walk_cons]
    have hz : (vtx p :: ⟨r.time, p.MCF, p.lower, p.upper⟩ :: walk r rows last).zip (vtx p :: ⟨r.time, p.MCF, p.lower, p.upper⟩ :: walk r rows last).tail
        = (vtx p, ⟨r.time, p.MCF, p.lower, p.upper⟩) :: (⟨r.time, p.MCF, p.lower, p.upper⟩, vtx r) :: (walk r rows last).zip (walk r rows last).tail := by
      rw [tail_cons, zip_cons_cons, hT, zip_cons_cons, tail_cons]
    have hlr := hl r (by simp)
    refine ⟨?_, ?_, ?_, ?_, ?_⟩
    · intro v hv
      rcases mem_cons.1 hv with rfl | hv
      · exact ⟨le_rfl, hl p (by simp)⟩
      · rcases mem_cons.1 hv with rfl | hv
        · exact ⟨hpr, hlr⟩
        · exact ⟨hpr.trans (h1 v hv).1, (h1 v hv).2⟩
    · intro v hv
      rcases mem_cons.1 hv with rfl | hv
      · exact ⟨p, by simp, hg p⟩
      · rcases mem_cons.1 hv with rfl | hv
        · exact ⟨p, by simp, hg' p _⟩
        · obtain ⟨s, hm, he⟩ := h2 v hv
          exact ⟨s, mem_cons_of_mem _ hm, he⟩
    · rw [hz]
      intro a ha
      rcases mem_cons.1 ha with rfl | ha
      · refine ⟨hpr, .inr ((hg p).trans (hg' p _).symm), ?_⟩
        intro t _ ht
        have : filter (fun r => decide (r.time ≤ t)) (r :: rows) = [] := by
          rw [filter_eq_nil_iff]
          intro s hm
          rw [decide_eq_true_eq, not_le]
          refine lt_of_lt_of_le ht ?_
          rcases mem_cons.1 hm with rfl | hm
          · exact le_rfl
          · have := hs.2
            rw [map_cons, pairwise_cons] at this
            exact this.1 _ (mem_map_of_mem hm)
        rw [this]
        exact ⟨hg p, hg' p _⟩
      · rcases mem_cons.1 ha with rfl | ha
        · exact ⟨le_rfl, .inl rfl, fun t h1 h2 => absurd (lt_of_le_of_lt h1 h2) (lt_irrefl _)⟩
        · obtain ⟨k1, k2, k3⟩ := h3 a ha
          refine ⟨k1, k2, ?_⟩
          intro t ht1 ht2
          have hrt : r.time ≤ t := (h1 a.1 (of_mem_zip (a := a.1) (b := a.2) ha).1).1.trans ht1
          rw [filter_cons_of_pos (by simpa using hrt), getLastD_cons]
          exact k3 t ht1 ht2
    · intro t ht1 ht2
      rw [hz]
      by_cases hrt : t < r.time
      · exact ⟨_, mem_cons_self, ht1, hrt⟩
      · obtain ⟨a, ha, hh⟩ := h4 t (not_lt.1 hrt) ht2
        exact ⟨a, mem_cons_of_mem _ (mem_cons_of_mem _ ha), hh⟩
    · rw [hT] at h5 ⊢
      rw [getLast?_cons_cons, getLast?_cons_cons]
      exact h5

/-- A component of the vertices is the graph of that component of the results. -/
theorem walk_graph (g : OutRow ℝ → ℝ) (gv : Vertex → ℝ) (hg : ∀ r, gv (vtx r) = g r) (hg' : ∀ (r : OutRow ℝ) x, gv ⟨x, r.MCF, r.lower, r.upper⟩ = g r)
    (h0 : g ⟨0, 0, 0, 0, 0⟩ = 0) (rows : List (OutRow ℝ)) (last : ℝ) (hs : (rows.map (·.time)).Pairwise (· ≤ ·)) (hp : ∀ r ∈ rows, 0 ≤ r.time)
    (hl : ∀ r ∈ rows, r.time ≤ last) (hlast : 0 ≤ last) :
    IsStepGraph (fun t => ((rowAt rows t).map g).getD 0) last ((walk ⟨0, 0, 0, 0, 0⟩ rows last).map Vertex.x)
      ((walk ⟨0, 0, 0, 0, 0⟩ rows last).map gv) := by
  obtain ⟨h1, -, h3, h4, h5⟩ := walk_facts g gv hg hg' last rows ⟨0, 0, 0, 0, 0⟩
    (by
      rw [map_cons, pairwise_cons]
      refine ⟨fun t ht => ?_, hs⟩
      obtain ⟨r, hr, rfl⟩ := mem_map.1 ht
      exact hp r hr)
    (by
      intro r hr
      rcases mem_cons.1 hr with rfl | hr
      · exact hlast
      · exact hl r hr)
  set V := walk ⟨0, 0, 0, 0, 0⟩ rows last with hV
  have hz : (V.map Vertex.x).zip (V.map gv) = V.map fun v => (v.x, gv v) := zip_map' ..
  have hpc : pieces (V.map Vertex.x) (V.map gv) = (V.zip V.tail).map fun a => ((a.1.x, gv a.1), (a.2.x, gv a.2)) := by
    rw [pieces, hz, ← map_tail, zip_map]
    rfl
  have hd : ∀ l : List (OutRow ℝ), g (l.getLastD ⟨0, 0, 0, 0, 0⟩) = (l.getLast?.map g).getD 0 := by
    intro l
    rw [getLastD_eq_getLast?]
    cases l.getLast? with
    | none => exact h0
    | some r => rfl
  refine ⟨by simp, ?_, ?_, ?_, ?_, ?_, ?_⟩
  · rw [hz, hV, walk, map_cons, head?_cons, hg, h0]
    rfl
  · rw [getLast?_map, h5]
  · rw [hpc]
    intro p hp
    obtain ⟨a, ha, rfl⟩ := mem_map.1 hp
    exact (h3 a ha).1
  · rw [hpc]
    intro p hp
    obtain ⟨a, ha, rfl⟩ := mem_map.1 hp
    exact (h3 a ha).2.1
  · intro t ht1 ht2
    obtain ⟨a, ha, hh⟩ := h4 t ht1 ht2
    rw [hpc]
    exact ⟨_, mem_map_of_mem ha, hh⟩
  · rw [hpc]
    intro p hp t ht1 ht2
    obtain ⟨a, ha, rfl⟩ := mem_map.1 hp
    obtain ⟨k1, k2⟩ := (h3 a ha).2.2 t ht1 ht2
    rw [hd] at k1 k2
    exact ⟨k1, k2⟩

theorem filter_sorted {α : Type _} (f : α → ℝ) (t : ℝ) (l : List α) (h : (l.map f).Pairwise (· ≤ ·)) :
    l.filter (fun a => decide (f a ≤ t)) = l.take (l.filter (fun a => decide (f a ≤ t))).length := by
  induction l with
  | nil => rfl
  | cons a l ih =>
    rw [map_cons, pairwise_cons] at h
    by_cases ha : f a ≤ t
    · rw [filter_cons_of_pos (by simpa using ha), length_cons, take_succ_cons, ← ih h.2]
    · have : filter (fun a => decide (f a ≤ t)) (a :: l) = [] := by
        rw [filter_eq_nil_iff]
        intro s hs
        rw [decide_eq_true_eq]
        intro hle
        apply ha
        rcases mem_cons.1 hs with rfl | hs
        · exact hle
        · exact (h.1 _ (mem_map_of_mem hs)).trans hle
      rw [this]
      rfl

/-- The results are the mean cumulative function. -/
theorem rowAt_mcf {ppf : ℝ → ℝ} {systems : List (List ℝ)} {CI : ℝ} {rows : List (OutRow ℝ)}
    (h : mcfSystems Real.exp Real.sqrt ppf systems CI = .ok rows) (t : ℝ) : ((rowAt rows t).map (·.MCF)).getD 0 = mcfAt systems t := by
  obtain ⟨hCI, hne⟩ := (C19_accepts_iff Real.exp Real.sqrt ppf systems CI).1.1 ⟨rows, h⟩
  obtain ⟨rows', h', ht, hk⟩ := C19_mcf_is_sum_of_reciprocals Real.exp Real.sqrt ppf systems CI hCI hne
  rw [h] at h'
  cases h'
  have hs := (C19_mcf_increasing Real.exp Real.sqrt ppf systems CI rows h).1
  have e1 := filter_sorted (fun r : OutRow ℝ => r.time) t rows hs
  have e2 := filter_sorted (fun s : ℝ => s) t (Spec.times systems) (by rw [map_id', ← ht]; exact hs)
  have hlen : (rows.filter fun r => decide (r.time ≤ t)).length = ((Spec.times systems).filter fun s => decide (s ≤ t)).length := by
    rw [← ht, filter_map, length_map]
    rfl
  rw [mcfAt, e2, ← hlen, rowAt, e1]
  set n := (rows.filter fun r => decide (r.time ≤ t)).length with hn
  have hnl : n ≤ rows.length := length_filter_le _ _
  clear_value n
  cases n with
  | zero => simp
  | succ n =>
    have hr : (rows.take (n + 1)).getLast? = some (rows[n]'(by omega)) := by
      rw [getLast?_eq_getElem?, length_take, min_eq_left hnl, getElem?_take]
      simp
    rw [hr]
    obtain ⟨k1, -⟩ := hk n _ (getElem?_eq_getElem (by omega))
    simp only [Option.map_some, Option.getD_some]
    rw [k1, length_take, min_eq_left hnl]
    rfl

/-! ## MCF_nonparametric -/

theorem last_ok {systems : List (List ℝ)} (hne : Spec.repairs systems ≠ []) :
    ∃ m ∈ Spec.ends systems, (∀ e ∈ Spec.ends systems, e ≤ m) ∧ maxOf (splitTimes systems).2 = .ok m := by
  obtain ⟨t, ht⟩ := exists_mem_of_ne_nil _ hne
  obtain ⟨e, he, -⟩ := mem_repairs ht
  obtain ⟨m, hm⟩ := max?_isSome (ne_nil_of_mem he)
  have := max?_eq_some_iff.1 hm
  refine ⟨m, this.1, this.2, ?_⟩
  rw [splitTimes_ends, maxOf, hm]

theorem rows_ne {ppf : ℝ → ℝ} {systems : List (List ℝ)} {CI : ℝ} {rows : List (OutRow ℝ)}
    (h : mcfSystems Real.exp Real.sqrt ppf systems CI = .ok rows) : rows ≠ [] := by
  obtain ⟨hCI, hne⟩ := (C19_accepts_iff Real.exp Real.sqrt ppf systems CI).1.1 ⟨rows, h⟩
  obtain ⟨rows', h', ht, -⟩ := C19_mcf_is_sum_of_reciprocals Real.exp Real.sqrt ppf systems CI hCI hne
  rw [h] at h'
  cases h'
  rintro rfl
  have h1 := (times_perm systems).length_eq
  rw [← ht] at h1
  exact hne (length_eq_zero_iff.1 (by simpa using h1.symm))

/-- What `drawNP` makes. -/
theorem drawNP_spec {rows : List (OutRow ℝ)} (hne : rows ≠ []) {last : ℝ} {plot_CI : Bool} {ci : String} {c : Canvas} :
    ∃ top ∈ rows.map (·.upper), (∀ u ∈ rows.map (·.upper), u ≤ top) ∧ drawNP rows last plot_CI ci c = .ok
      ⟨(0, last), (0, top * (105 / 100)), c.lines ++ [((walk ⟨0, 0, 0, 0, 0⟩ rows last).map Vertex.x, (walk ⟨0, 0, 0, 0, 0⟩ rows last).map Vertex.y)],
        if plot_CI then c.bands ++ [((walk ⟨0, 0, 0, 0, 0⟩ rows last).map Vertex.x, (walk ⟨0, 0, 0, 0, 0⟩ rows last).map Vertex.lo,
          (walk ⟨0, 0, 0, 0, 0⟩ rows last).map Vertex.up)] else c.bands, c.points, npTitle plot_CI ci⟩ := by
  obtain ⟨m, hm⟩ := max?_isSome (K := ℝ) (l := rows.map (·.upper)) (by simpa using hne)
  have := max?_eq_some_iff.1 hm
  refine ⟨m, this.1, this.2, ?_⟩
  simp only [drawNP, stepArrays_ok rows hne, maxOf, hm, bind, Except.bind]

/-- **C145 (MCF_nonparametric, what is drawn).** For times that are not negative: with a plot the results are the same as without; one line is
added, which is the graph of the mean cumulative function from 0 to the end of the last system; with plot_CI one band is added, between
the graphs of the lower and the upper bounds in the results. The horizontal axis is exactly that range. -/
theorem C145_np_draws (ppf : ℝ → ℝ) (systems : List (List ℝ)) (CI : ℝ) (plot_CI : Bool) (ci : String) (c c' : Canvas) (rows : List (OutRow ℝ))
    (hpos : ∀ s ∈ systems, ∀ t ∈ s, 0 ≤ t) (h : plotNP ppf systems CI true plot_CI ci c = .ok (rows, c')) :
    plotNP ppf systems CI false plot_CI ci c = .ok (rows, c) ∧
    ∃ last ∈ Spec.ends systems, (∀ e ∈ Spec.ends systems, e ≤ last) ∧ c'.xlim = (0, last) ∧ c'.points = c.points ∧
      ∃ xs ys, c'.lines = c.lines ++ [(xs, ys)] ∧ IsStepGraph (mcfAt systems) last xs ys ∧
      (plot_CI = false → c'.bands = c.bands ∧ c'.title = "Non-parametric estimate of the Mean Cumulative Function") ∧
      (plot_CI = true → (∃ lo up, c'.bands = c.bands ++ [(xs, lo, up)] ∧
        IsStepGraph (fun t => ((rowAt rows t).map (·.lower)).getD 0) last xs lo ∧
        IsStepGraph (fun t => ((rowAt rows t).map (·.upper)).getD 0) last xs up) ∧
        c'.title = "Non-parametric estimate of the Mean Cumulative Function" ++ "\nwith " ++ ci ++ "% one-sided confidence interval bounds") := by
  simp only [plotNP, bind_ok, if_true] at h
  obtain ⟨rows', hr, last, hl, c1, hd, h⟩ := h
  cases h
  obtain ⟨hCI, hne⟩ := (C19_accepts_iff Real.exp Real.sqrt ppf systems CI).1.1 ⟨rows, hr⟩
  obtain ⟨m, hm, hmax, hm'⟩ := last_ok hne
  obtain rfl : m = last := by rw [hm'] at hl; cases hl; rfl
  obtain ⟨top, -, -, hdr⟩ := drawNP_spec (rows_ne hr) (last := m) (plot_CI := plot_CI) (ci := ci) (c := c)
  rw [hdr] at hd
  cases hd
  obtain ⟨rows', h', ht, hk⟩ := C19_mcf_is_sum_of_reciprocals Real.exp Real.sqrt ppf systems CI hCI hne
  rw [hr] at h'
  cases h'
  have hs := (C19_mcf_increasing Real.exp Real.sqrt ppf systems CI rows hr).1
  have hmem : ∀ r ∈ rows, r.time ∈ Spec.repairs systems := by
    intro r hr'
    rw [← (times_perm systems).mem_iff, ← ht]
    exact mem_map_of_mem hr'
  have hends : ∀ e ∈ Spec.ends systems, 0 ≤ e := by
    intro e he
    obtain ⟨s, hs, hse⟩ := mem_filterMap.1 he
    exact hpos s hs e (max?_eq_some_iff.1 hse).1
  have hrep : ∀ t ∈ Spec.repairs systems, 0 ≤ t := by
    intro t ht
    obtain ⟨s, hs, hse⟩ := mem_flatMap.1 ht
    refine hpos s hs t ?_
    cases hmx : s.max? with
    | none => rw [hmx] at hse; cases hse
    | some a => rw [hmx] at hse; exact mem_of_mem_erase hse
  have hle : ∀ r ∈ rows, r.time ≤ m := by
    intro r hr'
    obtain ⟨e, he, h1⟩ := mem_repairs (hmem r hr')
    exact h1.trans (hmax e he)
  have hp : ∀ r ∈ rows, 0 ≤ r.time := fun r hr' => hrep _ (hmem r hr')
  have G := fun g gv hg hg' h0 => walk_graph g gv hg hg' h0 rows m hs hp hle (hends m hm)
  refine ⟨?_, m, hm, hmax, rfl, rfl, _, _, rfl, ?_, ?_, ?_⟩
  · simp only [plotNP, hr, bind, Except.bind]
    rfl
  · have := G (·.MCF) Vertex.y (fun _ => rfl) (fun _ _ => rfl) rfl
    have e : (fun t => ((rowAt rows t).map (·.MCF)).getD 0) = mcfAt systems := funext (rowAt_mcf hr)
    rw [← e]
    exact this
  · rintro rfl
    exact ⟨rfl, rfl⟩
  · rintro rfl
    exact ⟨⟨_, _, rfl, G (·.lower) Vertex.lo (fun _ => rfl) (fun _ _ => rfl) rfl, G (·.upper) Vertex.up (fun _ => rfl) (fun _ _ => rfl) rfl⟩, rfl⟩

/-- **C145 (MCF_nonparametric, accepted).** Whatever systems are accepted are plotted. -/
theorem C145_np_accepts (ppf : ℝ → ℝ) (systems : List (List ℝ)) (CI : ℝ) (show_plot plot_CI : Bool) (ci : String) (c : Canvas)
    (rows : List (OutRow ℝ)) (h : mcfSystems Real.exp Real.sqrt ppf systems CI = .ok rows) :
    ∃ c', plotNP ppf systems CI show_plot plot_CI ci c = .ok (rows, c') := by
  obtain ⟨hCI, hne⟩ := (C19_accepts_iff Real.exp Real.sqrt ppf systems CI).1.1 ⟨rows, h⟩
  obtain ⟨m, hm, hmax, hm'⟩ := last_ok hne
  obtain ⟨top, -, -, hdr⟩ := drawNP_spec (rows_ne h) (last := m) (plot_CI := plot_CI) (ci := ci) (c := c)
  cases show_plot
  · exact ⟨c, by simp only [plotNP, h, bind, Except.bind]; rfl⟩
  · simp only [plotNP, h, hm', hdr, bind, Except.bind, if_true]
    exact ⟨_, rfl⟩

/-- **C145 (MCF_nonparametric, limits).** With CI of at least 1/2 every point of the line and of the band is within the axes. -/
theorem C145_np_limits (ppf : ℝ → ℝ) (hppf : ∀ p, p ≤ 1 / 2 → ppf p ≤ 0) (systems : List (List ℝ)) (CI : ℝ) (hCI2 : 1 / 2 ≤ CI) (plot_CI : Bool)
    (ci : String) (c c' : Canvas) (rows : List (OutRow ℝ)) (h : plotNP ppf systems CI true plot_CI ci c = .ok (rows, c')) :
    c'.ylim.1 = 0 ∧ (∀ l ∈ c'.lines.drop c.lines.length, ∀ y ∈ l.2, 0 ≤ y ∧ y ≤ c'.ylim.2) ∧
    (∀ b ∈ c'.bands.drop c.bands.length, ∀ y ∈ b.2.1 ++ b.2.2, 0 ≤ y ∧ y ≤ c'.ylim.2) := by
  simp only [plotNP, bind_ok, if_true] at h
  obtain ⟨rows', hr, last, hl, c1, hd, h⟩ := h
  cases h
  have hb := C21_bounds_bracket_partial ppf hppf systems CI hCI2 rows hr
  obtain ⟨top, ht, hmax, hdr⟩ := drawNP_spec (rows_ne hr) (last := last) (plot_CI := plot_CI) (ci := ci) (c := c)
  rw [hdr] at hd
  cases hd
  have htop : 0 ≤ top := by
    obtain ⟨r, hr', rfl⟩ := mem_map.1 ht
    have := hb r hr'
    linarith [this.1, this.2.1, this.2.2]
  have key : ∀ (g : OutRow ℝ → ℝ) (gv : Vertex → ℝ), (∀ r, gv (vtx r) = g r) → (∀ (r : OutRow ℝ) x, gv ⟨x, r.MCF, r.lower, r.upper⟩ = g r) →
      g ⟨0, 0, 0, 0, 0⟩ = 0 → (∀ r ∈ rows, 0 ≤ g r ∧ g r ≤ r.upper) →
      ∀ y ∈ (walk ⟨0, 0, 0, 0, 0⟩ rows last).map gv, 0 ≤ y ∧ y ≤ top * (105 / 100) := by
    intro g gv hg hg' h0 hle
    have hval : ∀ (rs : List (OutRow ℝ)) (p : OutRow ℝ), ∀ v ∈ walk p rs last, ∃ r ∈ p :: rs, gv v = g r := by
      intro rs
      induction rs with
      | nil =>
        intro p v hv
        rw [walk_nil] at hv
        rcases mem_cons.1 hv with rfl | hv
        · exact ⟨p, by simp, hg p⟩
        · rw [mem_singleton.1 hv]
          exact ⟨p, by simp, hg' p _⟩
      | cons r rs ih =>
        intro p v hv
        rw [walk_cons] at hv
        rcases mem_cons.1 hv with rfl | hv
        · exact ⟨p, by simp, hg p⟩
        · rcases mem_cons.1 hv with rfl | hv
          · exact ⟨p, by simp, hg' p _⟩
          · obtain ⟨s, hs, he⟩ := ih r v hv
            exact ⟨s, mem_cons_of_mem _ hs, he⟩
    intro y hy
    obtain ⟨v, hv, rfl⟩ := mem_map.1 hy
    obtain ⟨r, hr', he⟩ := hval rows _ v hv
    rw [he]
    rcases mem_cons.1 hr' with rfl | hr'
    · rw [h0]
      exact ⟨le_rfl, by positivity⟩
    · have h1 := hle r hr'
      have h2 := hmax r.upper (mem_map_of_mem hr')
      exact ⟨h1.1, by linarith⟩
  refine ⟨rfl, ?_, ?_⟩
  · intro l hl'
    simp only [drop_append_of_le_length le_rfl, drop_length, nil_append, mem_singleton] at hl'
    rw [hl']
    exact key (·.MCF) _ (fun _ => rfl) (fun _ _ => rfl) rfl fun r hr' => by
      have := hb r hr'
      exact ⟨by linarith, this.2.2⟩
  · intro b hb'
    cases plot_CI
    · simp at hb'
    · simp only [if_true, drop_append_of_le_length le_rfl, drop_length, nil_append, mem_singleton] at hb'
      rw [hb']
      intro y hy
      rcases mem_append.1 hy with hy | hy
      · exact key (·.lower) _ (fun _ => rfl) (fun _ _ => rfl) rfl (fun r hr' => by
          have := hb r hr'
          exact ⟨this.1.le, by linarith⟩) y hy
      · exact key (·.upper) _ (fun _ => rfl) (fun _ _ => rfl) rfl (fun r hr' => by
          have := hb r hr'
          exact ⟨by linarith, le_rfl⟩) y hy

/-- Two systems: repairs at 1 and 2, ends at 3 and 4. -/
def twoSystems : List (List ℝ) := [[1, 3], [2, 4]]

theorem two_repairs : Spec.repairs twoSystems = [1, 2] := by
  have h1 : ([1, 3] : List ℝ).max? = some 3 := by norm_num [max?, max_def]
  have h2 : ([2, 4] : List ℝ).max? = some 4 := by norm_num [max?, max_def]
  simp only [Spec.repairs, twoSystems, flatMap_cons, flatMap_nil, h1, h2]
  norm_num [List.erase_cons]

theorem two_times : Spec.times twoSystems = [1, 2] := by
  rw [Spec.times, two_repairs]
  norm_num [insertionSort, orderedInsert]

theorem two_risk (t : ℝ) (h : t ≤ 3) : Spec.atRisk twoSystems t = 2 := by
  have h1 : ([1, 3] : List ℝ).max? = some 3 := by norm_num [max?, max_def]
  have h2 : ([2, 4] : List ℝ).max? = some 4 := by norm_num [max?, max_def]
  have h4 : t ≤ 4 := by linarith
  simp [Spec.atRisk, Spec.ends, twoSystems, h1, h2, h, h4]

/-- The results for them. -/
theorem two_rows (ppf : ℝ → ℝ) (CI : ℝ) (hCI : 0 ≤ CI ∧ CI ≤ 1) : mcfSystems Real.exp Real.sqrt ppf twoSystems CI = .ok
    [outRow Real.exp Real.sqrt (-(ppf (1 - CI))) 1 (1 / 2) (1 / 8), outRow Real.exp Real.sqrt (-(ppf (1 - CI))) 2 1 (1 / 4)] := by
  rw [mcfSystems_eq _ _ _ _ _ hCI (by rw [two_repairs]; simp), two_times]
  simp only [cum, two_risk 1 (by norm_num), two_risk 2 (by norm_num), map_cons, map_nil, varTerm]
  norm_num

/-- Non-vacuity: two systems are plotted; the function is 1/2 after the first repair and 1 after the second. -/
example (ppf : ℝ → ℝ) (ci : String) (c : Canvas) : ∃ rows c', plotNP ppf twoSystems (95 / 100) true true ci c = .ok (rows, c') ∧
    mcfAt twoSystems (1 / 2) = 0 ∧ mcfAt twoSystems (3 / 2) = 1 / 2 ∧ mcfAt twoSystems 3 = 1 := by
  obtain ⟨c', h⟩ := C145_np_accepts ppf twoSystems (95 / 100) true true ci c _ (two_rows ppf (95 / 100) (by norm_num))
  refine ⟨_, c', h, ?_, ?_, ?_⟩ <;> rw [mcfAt, two_times]
  · norm_num [filter_cons]
  · norm_num [filter_cons, two_risk]
  · norm_num [filter_cons, two_risk]

/-- **Finding (C145).** With CI = 0.1 (the quantile of the standard normal distribution at 0.9 is more than 1) the vertical axis is made from the
"upper" bounds, which are below the line: for the two systems the line ends at 1, outside the axes. -/
theorem C145_np_low_CI_finding (ppf : ℝ → ℝ) (hppf : 1 ≤ ppf (9 / 10)) (plot_CI : Bool) (ci : String) (c : Canvas) :
    ∃ rows c', plotNP ppf twoSystems (1 / 10) true plot_CI ci c = .ok (rows, c') ∧
      ∃ l ∈ c'.lines.drop c.lines.length, ∃ y ∈ l.2, c'.ylim.2 < y := by
  have hr := two_rows ppf (1 / 10) (by norm_num)
  have hz : (1 : ℝ) - 1 / 10 = 9 / 10 := by norm_num
  rw [hz] at hr
  obtain ⟨m, hm, hmax, hm'⟩ := last_ok (systems := twoSystems) (by rw [two_repairs]; simp)
  obtain ⟨top, ht, -, hdr⟩ := drawNP_spec (rows_ne hr) (last := m) (plot_CI := plot_CI) (ci := ci) (c := c)
  refine ⟨_, _, by simp only [plotNP, hr, hm', hdr, bind, Except.bind, if_true]; rfl, ?_⟩
  simp only [drop_append_of_le_length le_rfl, drop_length, nil_append, mem_singleton, exists_eq_left]
  refine ⟨1, ?_, ?_⟩
  · rw [walk_cons]
    simp [walk, stepLoop, outRow, vtx]
  · simp only [map_cons, map_nil, mem_cons, not_mem_nil, or_false, outRow] at ht
    have e1 : Real.exp (-(1 / 2)) < 7 / 10 := by
      rw [Real.exp_neg, inv_lt_comm₀ (Real.exp_pos _) (by norm_num)]
      have := Real.quadratic_le_exp_of_nonneg (show (0 : ℝ) ≤ 1 / 2 by norm_num)
      norm_num at this ⊢
      linarith
    have s1 : 0 ≤ Real.sqrt (1 / 8) := Real.sqrt_nonneg _
    have s2 : Real.sqrt (1 / 4) = 1 / 2 := by
      rw [show (1 : ℝ) / 4 = (1 / 2) ^ 2 by norm_num, Real.sqrt_sq (by norm_num)]
    rcases ht with rfl | rfl
    · have : Real.exp (-ppf (9 / 10) * Real.sqrt (1 / 8) / (1 / 2)) ≤ 1 := by
        rw [Real.exp_le_one_iff]
        have := mul_nonneg (show 0 ≤ ppf (9 / 10) by linarith) s1
        rw [div_nonpos_iff]
        right
        constructor <;> nlinarith
      linarith
    · have : Real.exp (-ppf (9 / 10) * Real.sqrt (1 / 4) / 1) ≤ Real.exp (-(1 / 2)) := by
        apply Real.exp_le_exp.2
        rw [s2]
        linarith
      linarith

end Reliability.MCF.Plot

namespace Reliability.MCFP.Plot

open Reliability Reliability.MCFP List
open Reliability.Props (bind_ok)

/-! ## MCF_parametric -/

/-- The standard error of `f α β` by the delta method: from the derivatives of `f` at the estimates, the variances and the covariance. -/
def IsDeltaSE (f : ℝ → ℝ → ℝ) (fit : Fit) (se : ℝ) : Prop :=
  ∃ da db, HasDerivAt (fun a => f a fit.b) da fit.a ∧ HasDerivAt (fun b => f fit.a b) db fit.b ∧
    se = Real.sqrt (fit.varA * da ^ 2 + fit.varB * db ^ 2 + 2 * fit.cov * da * db)

theorem varLine_delta (fit : Fit) (ha : 0 < fit.a) (x : ℝ) (hx : 0 < x) :
    IsDeltaSE (fun a b => (x / a) ^ b) fit (Real.sqrt (varLine fit x)) := by
  have hxa : 0 < x / fit.a := div_pos hx ha
  refine ⟨-(fit.b / fit.a) * (x / fit.a) ^ fit.b, (x / fit.a) ^ fit.b * Real.log (x / fit.a), ?_, ?_, ?_⟩
  · have h1 : HasDerivAt (fun a : ℝ => x / a) (-x / fit.a ^ 2) fit.a := by
      have := (hasDerivAt_inv ha.ne').const_mul x
      simpa [div_eq_mul_inv] using this
    have h2 := h1.rpow_const (p := fit.b) (.inl hxa.ne')
    convert h2 using 1
    rw [Real.rpow_sub_one hxa.ne']
    field_simp
  · have := (Real.hasStrictDerivAt_const_rpow hxa fit.b).hasDerivAt
    exact this
  · simp only [varLine]
    congr 1
    ring

/-- What `drawP` makes. -/
theorem drawP_spec {Z : ℝ} {times mcf : List ℝ} (h1 : times ≠ []) (h2 : mcf ≠ []) {fit : Fit} {plot_CI : Bool} {a4 b4 : String} {c : MCF.Canvas} :
    ∃ tm ∈ times, (∀ t ∈ times, t ≤ tm) ∧ ∃ ym ∈ mcf, (∀ y ∈ mcf, y ≤ ym) ∧ drawP Z times mcf fit plot_CI a4 b4 c = .ok
      { xlim := (0, tm * (12 / 10)), ylim := (0, ym * (14 / 10))
        lines := c.lines ++ [(Np.linspace (1 / 1000) (tm * 10) 1000, (Np.linspace (1 / 1000) (tm * 10) 1000).map (yLine fit))]
        bands := if plot_CI then c.bands ++ [(Np.linspace (1 / 1000) (tm * 10) 1000, (Np.linspace (1 / 1000) (tm * 10) 1000).map (lowerLine Z fit),
          (Np.linspace (1 / 1000) (tm * 10) 1000).map (upperLine Z fit))] else c.bands
        points := c.points ++ [(times, mcf)]
        title := "Parametric estimate of the Mean Cumulative Function\n" ++ "$MCF = (\\frac{t}{\\alpha})^\\beta$ with α=" ++ a4 ++ ", β=" ++ b4 } := by
  obtain ⟨tm, ht⟩ := MCF.max?_isSome h1
  obtain ⟨ym, hy⟩ := MCF.max?_isSome h2
  have t' := max?_eq_some_iff.1 ht
  have y' := max?_eq_some_iff.1 hy
  refine ⟨tm, t'.1, t'.2, ym, y'.1, y'.2, ?_⟩
  simp only [drawP, MCF.maxOf, ht, hy, bind, Except.bind]

/-- **C145 (MCF_parametric).** With a plot the results are the same as without. One line is added: the curve (t/alpha)^beta of the results at 1000
times in equal steps from 0.001 to ten times the last repair. The points of the non-parametric estimate are added, and are
within the axes. With plot_CI a band is added around the line: at each time its edges are the curve times and divided by
exp(Z SE / curve), where SE is the standard error of the curve by the delta method and Z the two-sided quantile. -/
theorem C145_parametric (ppf : ℝ → ℝ) (hppf : ∀ p, p ≤ 1 / 2 → ppf p ≤ 0) (polyfit : List ℝ → List ℝ → ℝ × ℝ)
    (cf : (ℝ → ℝ → ℝ → ℝ) → List ℝ → List ℝ → ℝ × ℝ → Except Err Fit) (systems : List (List ℝ)) (hne : systems ≠ []) (CI : ℝ) (plot_CI : Bool)
    (a4 b4 : String) (c c' : MCF.Canvas) (r : Result) (hpos : ∀ t ∈ MCF.Spec.repairs systems, 0 < t)
    (h : plotP ppf polyfit cf (.list (systems.map .list)) CI true plot_CI a4 b4 c = .ok (r, c')) (ha : 0 < r.alpha) :
    plotP ppf polyfit cf (.list (systems.map .list)) CI false plot_CI a4 b4 c = .ok (r, c) ∧
    c'.title = "Parametric estimate of the Mean Cumulative Function\n" ++ "$MCF = (\\frac{t}{\\alpha})^\\beta$ with α=" ++ a4 ++ ", β=" ++ b4 ∧
    c'.points = c.points ++ [(r.times, r.MCF)] ∧ c'.xlim.1 = 0 ∧ c'.ylim.1 = 0 ∧ (∀ t ∈ r.times, 0 < t ∧ t < c'.xlim.2) ∧
    (∀ m ∈ r.MCF, 0 < m ∧ m < c'.ylim.2) ∧
    ∃ tm ∈ r.times, (∀ t ∈ r.times, t ≤ tm) ∧ ∃ xs, xs.length = 1000 ∧
      (∀ i : Nat, i < 1000 → xs[i]? = some (1 / 1000 + (i : ℝ) / 999 * (10 * tm - 1 / 1000))) ∧
      c'.lines = c.lines ++ [(xs, xs.map fun x => (x / r.alpha) ^ r.beta)] ∧
      (plot_CI = false → c'.bands = c.bands) ∧
      (plot_CI = true → ∃ (fit : Fit) (lo up : List ℝ), fit.a = r.alpha ∧ fit.b = r.beta ∧ r.alpha_SE = Real.sqrt fit.varA ∧
        r.beta_SE = Real.sqrt fit.varB ∧ r.cov_alpha_beta = fit.cov ∧ c'.bands = c.bands ++ [(xs, lo, up)] ∧ lo.length = 1000 ∧ up.length = 1000 ∧
        ∀ (i : Nat) x l u, xs[i]? = some x → lo[i]? = some l → up[i]? = some u → ∃ se y, y = (x / r.alpha) ^ r.beta ∧
          IsDeltaSE (fun a b => (x / a) ^ b) fit se ∧ u = y * Real.exp (-ppf ((1 - CI) / 2) * se / y) ∧
          l = y / Real.exp (-ppf ((1 - CI) / 2) * se / y) ∧ 0 < l ∧ l ≤ y ∧ y ≤ u) := by
  simp only [plotP, bind_ok, if_true] at h
  obtain ⟨r', hr, fit, hf, c1, hd, h⟩ := h
  cases h
  obtain ⟨h0, h1, rows, fit', hrows, et, em, hf', ea, eb, es, es2, ec, -⟩ := Reliability.Props.mcfp_ok hr
  rw [hf] at hf'
  cases hf'
  rw [MCF.C20_list_of_lists _ _ _ systems hne] at hrows
  have hrne := MCF.Plot.rows_ne hrows
  obtain ⟨hCI, hrep⟩ := (MCF.C19_accepts_iff Real.exp Real.sqrt ppf systems 0.95).1.1 ⟨rows, hrows⟩
  obtain ⟨rows', h', ht, -⟩ := MCF.C19_mcf_is_sum_of_reciprocals Real.exp Real.sqrt ppf systems 0.95 hCI hrep
  rw [hrows] at h'
  cases h'
  have htp : ∀ t ∈ r.times, 0 < t := by
    intro t hmem
    rw [et, ht, (MCF.times_perm systems).mem_iff] at hmem
    exact hpos t hmem
  have hmp : ∀ m ∈ r.MCF, 0 < m := by
    intro m hmem
    rw [em] at hmem
    obtain ⟨q, hq, rfl⟩ := mem_map.1 hmem
    exact MCF.row_pos _ _ _ _ _ _ hrows q hq
  obtain ⟨tm, htm, htmax, ym, hym, hymax, hdr⟩ := drawP_spec (Z := -ppf ((1 - CI) / 2)) (times := r.times) (mcf := r.MCF)
    (by rw [et]; simpa using hrne) (by rw [em]; simpa using hrne) (fit := fit) (plot_CI := plot_CI) (a4 := a4) (b4 := b4) (c := c)
  rw [hdr] at hd
  cases hd
  have hxs : ∀ i : Nat, i < 1000 → (Np.linspace (1 / 1000) (tm * 10) 1000)[i]? = some (1 / 1000 + (i : ℝ) / 999 * (10 * tm - 1 / 1000)) := by
    intro i hi
    rw [Np.linspace_get _ _ _ _ hi]
    congr 1
    norm_num
    ring
  have htm0 := htp tm htm
  have hym0 := hmp ym hym
  refine ⟨?_, rfl, rfl, rfl, rfl, ?_, ?_, tm, htm, htmax, Np.linspace (1 / 1000) (tm * 10) 1000, Np.linspace_length _ _ _, hxs, ?_, ?_, ?_⟩
  · simp only [plotP, hr, bind, Except.bind]
    rfl
  · intro t hmem
    refine ⟨htp t hmem, ?_⟩
    have := htmax t hmem
    change t < tm * (12 / 10)
    linarith
  · intro m hmem
    refine ⟨hmp m hmem, ?_⟩
    have := hymax m hmem
    change m < ym * (14 / 10)
    linarith
  · change c.lines ++ _ = _
    rw [ea, eb]
    rfl
  · rintro rfl
    rfl
  · rintro rfl
    refine ⟨fit, _, _, ea.symm, eb.symm, es, es2, ec, rfl, by rw [length_map, Np.linspace_length], by rw [length_map, Np.linspace_length], ?_⟩
    intro i x l u hx hl hu
    rw [getElem?_map, hx, Option.map_some, Option.some.injEq] at hl hu
    have hi : i < 1000 := by
      have := (List.getElem?_eq_some_iff.1 hx).1
      rwa [Np.linspace_length] at this
    have hx0 : 0 < x := by
      rw [hxs i hi] at hx
      cases hx
      have h9 : (i : ℝ) / 999 ≤ 1 := by
        rw [div_le_one (by norm_num)]
        exact_mod_cast (by omega : i ≤ 999)
      have h8 : (0 : ℝ) ≤ (i : ℝ) / 999 := by positivity
      rcases h8.lt_or_eq with h8 | h8
      · have := mul_pos h8 htm0
        linarith
      · rw [← h8]; norm_num
    rw [ea] at ha ⊢
    rw [eb]
    have hy0 : 0 < (x / fit.a) ^ fit.b := Real.rpow_pos_of_pos (div_pos hx0 ha) _
    have hZ : 0 ≤ -ppf ((1 - CI) / 2) := by linarith [hppf ((1 - CI) / 2) (by linarith)]
    have hE : 1 ≤ Real.exp (-ppf ((1 - CI) / 2) * Real.sqrt (varLine fit x) / (x / fit.a) ^ fit.b) := by
      rw [Real.one_le_exp_iff]
      exact div_nonneg (mul_nonneg hZ (Real.sqrt_nonneg _)) hy0.le
    have hu' : u = (x / fit.a) ^ fit.b * Real.exp (-ppf ((1 - CI) / 2) * Real.sqrt (varLine fit x) / (x / fit.a) ^ fit.b) := hu.symm
    have hl' : l = (x / fit.a) ^ fit.b / Real.exp (-ppf ((1 - CI) / 2) * Real.sqrt (varLine fit x) / (x / fit.a) ^ fit.b) := by
      rw [← hl, div_eq_mul_inv ((x / fit.a) ^ fit.b) (Real.exp _), ← Real.exp_neg, ← neg_div, ← neg_mul]
      rfl
    refine ⟨Real.sqrt (varLine fit x), _, rfl, varLine_delta fit ha x hx0, hu', hl', ?_, ?_, ?_⟩
    · rw [hl']; exact div_pos hy0 (Real.exp_pos _)
    · rw [hl', div_le_iff₀ (Real.exp_pos _)]
      nlinarith
    · rw [hu']
      nlinarith

/-- **C145 (MCF_parametric, accepted).** Whatever can be fitted is plotted. -/
theorem C145_parametric_accepts (ppf : ℝ → ℝ) (polyfit : List ℝ → List ℝ → ℝ × ℝ)
    (cf : (ℝ → ℝ → ℝ → ℝ) → List ℝ → List ℝ → ℝ × ℝ → Except Err Fit) (systems : List (List ℝ)) (hne : systems ≠ []) (CI : ℝ)
    (show_plot plot_CI : Bool) (a4 b4 : String) (c : MCF.Canvas) (r : Result)
    (h : mcfParametric ppf polyfit cf (.list (systems.map .list)) CI = .ok r) :
    ∃ c', plotP ppf polyfit cf (.list (systems.map .list)) CI show_plot plot_CI a4 b4 c = .ok (r, c') := by
  obtain ⟨h0, h1, rows, fit, hrows, et, em, hf, -⟩ := Reliability.Props.mcfp_ok h
  rw [MCF.C20_list_of_lists _ _ _ systems hne] at hrows
  have hrne := MCF.Plot.rows_ne hrows
  obtain ⟨tm, -, -, ym, -, -, hdr⟩ := drawP_spec (Z := -ppf ((1 - CI) / 2)) (times := r.times) (mcf := r.MCF)
    (by rw [et]; simpa using hrne) (by rw [em]; simpa using hrne) (fit := fit) (plot_CI := plot_CI) (a4 := a4) (b4 := b4) (c := c)
  cases show_plot
  · exact ⟨c, by simp only [plotP, h, bind, Except.bind]; rfl⟩
  · simp only [plotP, h, hf, hdr, bind, Except.bind, if_true]
    exact ⟨_, rfl⟩

/-- Non-vacuity: two systems, with an optimiser that returns alpha = 2 and beta = 1. -/
example (ppf : ℝ → ℝ) (a4 b4 : String) (c : MCF.Canvas) :
    ∃ r c', plotP ppf (fun _ _ => (1, 0)) (fun _ _ _ _ => .ok ⟨2, 1, 1, 1, 0⟩) (.list (MCF.Plot.twoSystems.map .list)) (9 / 10) true true a4 b4 c
      = .ok (r, c') ∧ 0 < r.alpha ∧ r.times = [1, 2] := by
  have hne : MCF.Plot.twoSystems ≠ [] := by simp [MCF.Plot.twoSystems]
  have hr : ∃ r, mcfParametric ppf (fun _ _ => (1, 0)) (fun _ _ _ _ => .ok ⟨2, 1, 1, 1, 0⟩) (.list (MCF.Plot.twoSystems.map .list)) (9 / 10) = .ok r ∧
      0 < r.alpha ∧ r.times = [1, 2] := by
    refine ⟨_, by
      unfold mcfParametric
      rw [if_neg (by norm_num), MCF.C20_list_of_lists _ _ _ _ hne, MCF.Plot.two_rows _ _ (by norm_num)], by norm_num, rfl⟩
  obtain ⟨r, h, h1, h2⟩ := hr
  obtain ⟨c', h'⟩ := C145_parametric_accepts ppf _ _ _ hne (9 / 10) true true a4 b4 c r h
  exact ⟨r, c', h', h1, h2⟩

end Reliability.MCFP.Plot

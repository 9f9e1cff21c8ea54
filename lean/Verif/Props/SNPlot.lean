import Verif.Model.PoFPlot
import Verif.Spec.PoFPlot
import Verif.Props.SNDiagram
import Verif.Props.StrainLifePlot

/-! # C151: the S-N diagram as drawn -/

namespace Reliability.Props.SNP

open Reliability Reliability.Fatigue Reliability.Spec List
open Reliability.Repairable (decadeUp decadeDown minmax)
open Reliability.Props (bind_ok)

/-- Everything a drawn diagram consists of. -/
theorem sn_ok {polyfit : List ℝ → List ℝ → ℝ × ℝ} {tppf : ℝ → ℕ → ℝ} {p : SNIn} {r : SNOut} {d : SNPlot}
    (h : snPlot polyfit tppf p = .ok (r, d)) :
    snDiagram polyfit tppf p = .ok r ∧ ∃ lo hi slo shi runouts,
      (lo ∈ p.cycles ∧ hi ∈ p.cycles ∧ ∀ x ∈ p.cycles, lo ≤ x ∧ x ≤ hi) ∧
      (slo ∈ p.stress ∧ shi ∈ p.stress ∧ ∀ x ∈ p.stress, slo ≤ x ∧ x ≤ shi) ∧
      snRunouts p (snXlim (p.xscale == "log") lo hi).2 = .ok runouts ∧
      d = { points := List.zip p.cycles p.stress
            xs := snGrid (((p.cycles.map fun x => Real.logb 10 x).max?).getD 0)
            line := (snGrid (((p.cycles.map fun x => Real.logb 10 x).max?).getD 0)).map r.line
            bounds := r.bounds.map fun b => ((snGrid (((p.cycles.map fun x => Real.logb 10 x).max?).getD 0)).map b.1,
              (snGrid (((p.cycles.map fun x => Real.logb 10 x).max?).getD 0)).map b.2)
            limit := snLimitLine p r
            stressTraces := List.zipWith (fun sv N => [(0, sv), (N, sv), (N, 0)]) (p.stress_trace.getD []) r.lives
            cyclesTraces := List.zipWith (fun N y => [(N, 0), (N, y), (0, y)]) (p.cycles_trace.getD []) r.strengths
            runouts := runouts
            log := p.xscale == "log"
            xlim := snXlim (p.xscale == "log") lo hi
            ylim := (slo - shi * (2 / 10), shi * (12 / 10)) } := by
  unfold snPlot at h
  obtain ⟨r', hr, h⟩ := bind_ok.1 h
  obtain ⟨d', hd, h⟩ := bind_ok.1 h
  rw [Except.ok.injEq, Prod.mk.injEq] at h
  obtain ⟨rfl, rfl⟩ := h
  refine ⟨hr, ?_⟩
  unfold snDraw at hd
  obtain ⟨n, hn, hd⟩ := bind_ok.1 hd
  obtain ⟨s, hs, hd⟩ := bind_ok.1 hd
  obtain ⟨ro, hro, hd⟩ := bind_ok.1 hd
  rw [Except.ok.injEq] at hd
  have mm : ∀ {l : List ℝ} {q : ℝ × ℝ}, minmax l = .ok q → q.1 ∈ l ∧ q.2 ∈ l ∧ ∀ x ∈ l, q.1 ≤ x ∧ x ≤ q.2 := by
    intro l q hq
    by_cases hl : l = []
    · subst hl
      simp [minmax] at hq
    · obtain ⟨a, b, hab, h1, h2, h3⟩ := Repairable.GPlot.minmax_ok hl
      rw [hab, Except.ok.injEq] at hq
      subst hq
      exact ⟨h1, h2, h3⟩
  exact ⟨n.1, n.2, s.1, s.2, ro, mm hn, mm hs, hro, hd.symm⟩

/-- Legal data: failures at positive stresses after positive numbers of cycles. -/
structure SNData (p : SNIn) : Prop where
  cycles : ∀ x ∈ p.cycles, 0 < x
  stress : ∀ x ∈ p.stress, 0 < x

/-- `lo` and `hi` are the ends of the data. -/
def Ends (l : List ℝ) (lo hi : ℝ) : Prop := lo ∈ l ∧ hi ∈ l ∧ ∀ x ∈ l, lo ≤ x ∧ x ≤ hi

theorem ends_unique {l : List ℝ} {a b a' b' : ℝ} (h : Ends l a b) (h' : Ends l a' b') : a = a' ∧ b = b' :=
  ⟨le_antisymm (h.2.2 _ h'.1).1 (h'.2.2 _ h.1).1, le_antisymm (h'.2.2 _ h.2.1).2 (h.2.2 _ h'.2.1).2⟩

theorem log_max {l : List ℝ} {lo hi : ℝ} (h : Ends l lo hi) (hpos : ∀ x ∈ l, 0 < x) :
    ((l.map fun x => Real.logb 10 x).max?).getD 0 = Real.logb 10 hi := by
  have : (l.map fun x => Real.logb 10 x).max? = some (Real.logb 10 hi) := by
    refine (Np.max?_iff _ _).2 ⟨mem_map_of_mem h.2.1, ?_⟩
    intro y hy
    obtain ⟨x, hx, rfl⟩ := mem_map.1 hy
    exact Real.logb_le_logb_of_le (by norm_num) (hpos x hx) (h.2.2 x hx).2
  rw [this]
  rfl

theorem snGrid_get {hi : ℝ} (h : 0 < hi) {i : ℕ} (hI : i < 1000) :
    (snGrid (Real.logb 10 hi))[i]? = some ((100 * hi) ^ ((i : ℝ) / 999)) := by
  unfold snGrid linspace
  rw [getElem?_map, getElem?_map, getElem?_range hI]
  simp only [Option.map_some, Option.some.injEq]
  have e : (100 * hi) = (10 : ℝ) ^ (Real.logb 10 hi + 2) := by
    rw [Real.rpow_add (by norm_num), Real.rpow_logb (by norm_num) (by norm_num) h]
    norm_num
    ring
  rw [e, ← Real.rpow_mul (by norm_num)]
  congr 1
  ring

theorem snGrid_length (u : ℝ) : (snGrid u).length = 1000 := by
  unfold snGrid
  rw [length_map, linspace_length]

/-- **C151 (axes).** On a logarithmic axis the cycles run between the nearest powers of ten around the failures, on a linear one from 0 to
1.2 times the longest life; the stresses run from the smallest minus a fifth of the largest to 1.2 times the largest.  Every failure is
drawn, and within the axes. -/
theorem C151_axes (polyfit : List ℝ → List ℝ → ℝ × ℝ) (tppf : ℝ → ℕ → ℝ) (p : SNIn) (hp : SNData p) (r : SNOut) (d : SNPlot)
    (h : snPlot polyfit tppf p = .ok (r, d)) (lo hi slo shi : ℝ) (hn : Ends p.cycles lo hi) (hs : Ends p.stress slo shi) :
    d.points = List.zip p.cycles p.stress ∧ (∀ q ∈ d.points, Visible d.xlim d.ylim q) ∧
    d.ylim = (slo - shi / 5, 1.2 * shi) ∧ (d.log = true ↔ p.xscale = "log") ∧
    (p.xscale = "linear" → d.xlim = (0, 1.2 * hi)) ∧
    (p.xscale = "log" → ∃ a b : ℤ, d.xlim = ((10 : ℝ) ^ a, (10 : ℝ) ^ b) ∧ (10 : ℝ) ^ a ≤ lo ∧ lo < (10 : ℝ) ^ (a + 1) ∧
      (10 : ℝ) ^ (b - 1) < hi ∧ hi ≤ (10 : ℝ) ^ b) := by
  obtain ⟨hr, lo', hi', slo', shi', ro, hn', hs', hro, rfl⟩ := sn_ok h
  obtain ⟨rfl, rfl⟩ := ends_unique hn hn'
  obtain ⟨rfl, rfl⟩ := ends_unique hs hs'
  obtain ⟨hv, -⟩ := sn_checks hr
  have hlo : 0 < lo := hp.cycles _ hn.1
  have hhi : 0 < hi := hp.cycles _ hn.2.1
  have hshi : 0 < shi := hp.stress _ hs.2.1
  refine ⟨rfl, ?_, ?_, ?_, ?_, ?_⟩
  · rintro ⟨x, y⟩ hq
    have hx := (of_mem_zip hq).1
    have hy := (of_mem_zip hq).2
    have hx1 := hn.2.2 x hx
    have hy1 := hs.2.2 y hy
    have hx0 := hp.cycles x hx
    unfold Visible
    simp only []
    have hX : (snXlim (p.xscale == "log") lo hi).1 ≤ x ∧ x ≤ (snXlim (p.xscale == "log") lo hi).2 := by
      unfold snXlim
      split
      · exact ⟨(Repairable.GPlot.decadeDown_le hlo).trans hx1.1, hx1.2.trans (Repairable.GPlot.decadeUp_ge hhi)⟩
      · exact ⟨hx0.le, by simp only []; linarith⟩
    exact ⟨hX.1, hX.2, by linarith, by linarith⟩
  · simp only [Prod.mk.injEq]
    constructor <;> ring
  · simp
  · intro hl
    simp only [hl, snXlim]
    rw [if_neg (by decide)]
    simp only [Prod.mk.injEq, true_and]
    ring
  · intro hl
    simp only [hl, snXlim]
    rw [if_pos (by decide)]
    refine ⟨⌊Real.logb 10 lo⌋, ⌈Real.logb 10 hi⌉, rfl, Repairable.GPlot.decadeDown_le hlo, SLP.decadeDown_next hlo,
      SLP.decadeUp_prev hhi, Repairable.GPlot.decadeUp_ge hhi⟩

/-- **C151 (line).** The line is drawn at 1000 numbers of cycles, in equal ratios from 1 to 100 times the longest life: the least-squares
line of stress on log cycles, not below the endurance limit if that is shown. -/
theorem C151_line (polyfit : List ℝ → List ℝ → ℝ × ℝ) (hfit : ∀ xs ys, IsLine xs ys (polyfit xs ys)) (tppf : ℝ → ℕ → ℝ) (p : SNIn)
    (hp : SNData p) (r : SNOut) (d : SNPlot) (h : snPlot polyfit tppf p = .ok (r, d)) (lo hi : ℝ) (hn : Ends p.cycles lo hi) :
    d.xs.length = 1000 ∧ d.line.length = 1000 ∧ ∃ m c, IsLine (p.cycles.map fun x => Real.logb 10 x) p.stress (m, c) ∧
      ∀ i : ℕ, i < 1000 → ∃ x y, d.xs[i]? = some x ∧ d.line[i]? = some y ∧ x = (100 * hi) ^ ((i : ℝ) / 999) ∧
        (p.stress_runout.isSome ∧ p.show_endurance_limit ≠ some false →
          y = max (m * Real.logb 10 x + c) (average (p.stress_runout.getD []))) ∧
        (¬ (p.stress_runout.isSome ∧ p.show_endurance_limit ≠ some false) → y = m * Real.logb 10 x + c) := by
  obtain ⟨hr, lo', hi', slo', shi', ro, hn', hs', hro, rfl⟩ := sn_ok h
  obtain ⟨rfl, rfl⟩ := ends_unique hn hn'
  obtain ⟨m, c, hl, h1, h2, -⟩ := C96_line polyfit hfit tppf p r hr
  simp only [log_max hn hp.cycles]
  refine ⟨snGrid_length _, by rw [length_map, snGrid_length], m, c, hl, fun i hI => ?_⟩
  have hg := snGrid_get (hp.cycles _ hn.2.1) hI
  refine ⟨_, _, hg, ?_, rfl, fun hs => (h1 hs).2 _, fun hs => (h2 hs).2 _⟩
  rw [getElem?_map, hg]
  rfl

/-- **C151 (the line spans the axes).** If every failure took at least one cycle, the line begins left of a logarithmic axis, and in either
case it ends right of the axes; so does the line of the endurance limit, which runs from 0 to ten times the longest life or run-out. -/
theorem C151_spans (polyfit : List ℝ → List ℝ → ℝ × ℝ) (tppf : ℝ → ℕ → ℝ) (p : SNIn)
    (hp : SNData p) (r : SNOut) (d : SNPlot) (h : snPlot polyfit tppf p = .ok (r, d)) :
    (∀ x ∈ d.xs.getLast?, d.xlim.2 ≤ x) ∧
    (p.xscale = "log" → (∀ x ∈ p.cycles, 1 ≤ x) → ∀ x ∈ d.xs.head?, x ≤ d.xlim.1) ∧
    (∀ a b, d.limit = some (a, b) → a.1 = 0 ∧ d.xlim.2 ≤ b.1 ∧ a.2 = b.2 ∧ a.2 = average (p.stress_runout.getD []) ∧
      ∃ N ∈ p.cycles ++ p.cycles_runout.getD [], (∀ N' ∈ p.cycles ++ p.cycles_runout.getD [], N' ≤ N) ∧ b.1 = 10 * N) := by
  obtain ⟨hr, lo, hi, slo', shi', ro, hn, hs', hro, rfl⟩ := sn_ok h
  have hhi : 0 < hi := hp.cycles _ hn.2.1
  have hlo : 0 < lo := hp.cycles _ hn.1
  have hright : (snXlim (p.xscale == "log") lo hi).2 ≤ 10 * hi := by
    unfold snXlim
    split
    · have := SLP.decadeUp_prev hhi
      have e : (10 : ℝ) ^ (⌈Real.logb 10 hi⌉ : ℤ) = 10 * (10 : ℝ) ^ (⌈Real.logb 10 hi⌉ - 1 : ℤ) := by
        rw [zpow_sub₀ (by norm_num)]
        norm_num
        ring
      show (10 : ℝ) ^ (⌈Real.logb 10 hi⌉ : ℤ) ≤ 10 * hi
      rw [e]
      linarith
    · simp only []; linarith
  simp only [log_max hn hp.cycles]
  refine ⟨?_, ?_, ?_⟩
  · intro x hx
    rw [getLast?_eq_getElem?, snGrid_length, snGrid_get hhi (by norm_num)] at hx
    have : x = 100 * hi := by
      rw [Option.mem_def, Option.some.injEq] at hx
      rw [← hx]
      norm_num
    rw [this]
    linarith
  · intro hl h1 x hx
    rw [head?_eq_getElem?, snGrid_get hhi (by norm_num)] at hx
    have : x = 1 := by
      rw [Option.mem_def, Option.some.injEq] at hx
      rw [← hx]
      norm_num
    rw [this, hl]
    simp only [snXlim]
    rw [if_pos (by decide)]
    show (1 : ℝ) ≤ (10 : ℝ) ^ (⌊Real.logb 10 lo⌋ : ℤ)
    apply one_le_zpow₀ (by norm_num)
    rw [Int.le_floor]
    push_cast
    exact Real.logb_nonneg (by norm_num) (h1 lo hn.1)
  · intro a b hab
    unfold snLimitLine at hab
    obtain ⟨L, hL, hab⟩ := Option.map_eq_some_iff.1 hab
    rw [Prod.mk.injEq] at hab
    obtain ⟨rfl, rfl⟩ := hab
    simp only []
    obtain ⟨-, e2, -⟩ := sn_eq hr (m := _) (c := _) rfl
    rw [hL] at e2
    split at e2
    · rw [Option.some.injEq] at e2
      cases hx : (p.cycles ++ p.cycles_runout.getD []).max? with
      | none =>
        rw [max?_eq_none_iff, append_eq_nil_iff] at hx
        exact absurd (hx.1 ▸ hn.2.1) not_mem_nil
      | some M =>
        obtain ⟨m1, m2⟩ := (Np.max?_iff _ _).1 hx
        have hM : hi ≤ M := m2 hi (mem_append_left _ hn.2.1)
        refine ⟨trivial, ?_, trivial, e2, M, m1, m2, ?_⟩
        · simp only [Option.getD_some]; linarith
        · simp only [Option.getD_some]; ring
    · cases e2

/-- **C151 (traces).** One path per value: from the left at the stress to the traced life and down; from the axis at the number of cycles up
to the traced strength and left.  If the line falls or rises at all, the corner of every path is on the fitted line, and it is on the line
as drawn if it is not below the endurance limit (or none is shown). -/
theorem C151_traces (polyfit : List ℝ → List ℝ → ℝ × ℝ) (hfit : ∀ xs ys, IsLine xs ys (polyfit xs ys)) (tppf : ℝ → ℕ → ℝ) (p : SNIn)
    (r : SNOut) (d : SNPlot) (h : snPlot polyfit tppf p = .ok (r, d)) :
    ∃ m c, IsLine (p.cycles.map fun x => Real.logb 10 x) p.stress (m, c) ∧
      (m ≠ 0 → Forall₂ (fun s path => ∃ N, path = [(0, s), (N, s), (N, 0)] ∧ 0 < N ∧ m * Real.logb 10 N + c = s ∧
        ((∀ L, r.endurance_limit = some L → L ≤ s) → r.line N = s)) (p.stress_trace.getD []) d.stressTraces) ∧
      Forall₂ (fun N path => ∃ s, path = [(N, 0), (N, s), (0, s)] ∧ s = m * Real.logb 10 N + c ∧
        ((∀ L, r.endurance_limit = some L → L ≤ s) → r.line N = s)) (p.cycles_trace.getD []) d.cyclesTraces := by
  obtain ⟨hr, lo, hi, slo', shi', ro, hn, hs', hro, rfl⟩ := sn_ok h
  obtain ⟨m, c, hl, h1, h2, h3, h4⟩ := C96_line polyfit hfit tppf p r hr
  have on : ∀ N s, m * Real.logb 10 N + c = s → (∀ L, r.endurance_limit = some L → L ≤ s) → r.line N = s := by
    intro N s he hL
    by_cases hs : p.stress_runout.isSome ∧ p.show_endurance_limit ≠ some false
    · rw [(h1 hs).2, he]
      exact max_eq_left (hL _ (h1 hs).1)
    · rw [(h2 hs).2, he]
  refine ⟨m, c, hl, ?_, ?_⟩
  · intro hm
    have := h4 hm
    show Forall₂ _ _ (zipWith _ (p.stress_trace.getD []) r.lives)
    revert this
    generalize p.stress_trace.getD [] = ss
    generalize r.lives = ns
    intro this
    induction this with
    | nil => exact Forall₂.nil
    | @cons s N ss ns hsn _ ih =>
      exact Forall₂.cons ⟨N, rfl, hsn.1, hsn.2, on N s hsn.2⟩ ih
  · show Forall₂ _ _ (zipWith _ (p.cycles_trace.getD []) r.strengths)
    rw [h3]
    generalize p.cycles_trace.getD [] = ns
    induction ns with
    | nil => exact Forall₂.nil
    | cons N ns ih =>
      exact Forall₂.cons ⟨_, rfl, rfl, on N _ rfl⟩ ih

/-- Finding: a trace at a stress below the endurance limit ends at a finite life, while the line as drawn stays above that stress there
(and everywhere): the trace does not meet the line. -/
theorem C151_trace_finding (polyfit : List ℝ → List ℝ → ℝ × ℝ) (hfit : ∀ xs ys, IsLine xs ys (polyfit xs ys)) (tppf : ℝ → ℕ → ℝ) (p : SNIn)
    (r : SNOut) (d : SNPlot) (h : snPlot polyfit tppf p = .ok (r, d)) (L : ℝ) (hL : r.endurance_limit = some L) :
    (∀ s ∈ p.stress_trace.getD [], s < L → ∀ N, s < r.line N) ∧
    ∀ s path, (s, path) ∈ (p.stress_trace.getD []).zip d.stressTraces → ∃ N, path = [(0, s), (N, s), (N, 0)] := by
  obtain ⟨hr, lo, hi, slo', shi', ro, hn, hs', hro, rfl⟩ := sn_ok h
  obtain ⟨m, c, hl, h1, h2, h3, h4⟩ := C96_line polyfit hfit tppf p r hr
  constructor
  · intro s _ hs N
    by_cases hsh : p.stress_runout.isSome ∧ p.show_endurance_limit ≠ some false
    · have e := (h1 hsh).1
      rw [hL, Option.some.injEq] at e
      rw [(h1 hsh).2, ← e]
      exact hs.trans_le (le_max_right _ _)
    · have := (h2 hsh).1
      rw [hL] at this
      cases this
  · intro s path hq
    simp only [] at hq
    revert hq
    generalize p.stress_trace.getD [] = ss
    generalize r.lives = ns
    induction ss generalizing ns with
    | nil => simp
    | cons a ss ih =>
      cases ns with
      | nil => simp
      | cons b ns =>
        rw [zipWith_cons_cons, zip_cons_cons]
        intro hq
        rcases mem_cons.1 hq with hq | hq
        · simp only [Prod.mk.injEq] at hq
          exact ⟨b, by rw [hq.2, hq.1]⟩
        · exact ih ns hq

/-- **C151 (run-outs).** One mark per run-out, at its stress, at the right end of the axes; it is within the axes exactly if its stress is
within the range of the stress axis. -/
theorem C151_runouts (polyfit : List ℝ → List ℝ → ℝ × ℝ) (tppf : ℝ → ℕ → ℝ) (p : SNIn) (hp : SNData p) (r : SNOut) (d : SNPlot)
    (h : snPlot polyfit tppf p = .ok (r, d)) :
    d.runouts.map Prod.snd = p.stress_runout.getD [] ∧ ∀ q ∈ d.runouts, q.1 = d.xlim.2 ∧
      (Visible d.xlim d.ylim q ↔ d.ylim.1 ≤ q.2 ∧ q.2 ≤ d.ylim.2) := by
  have hax := fun lo hi slo shi => C151_axes polyfit tppf p hp r d h lo hi slo shi
  obtain ⟨hr, lo, hi, slo, shi, ro, hn, hs, hro, hd⟩ := sn_ok h
  obtain ⟨hv, -⟩ := sn_checks hr
  have hle : d.xlim.1 ≤ d.xlim.2 := by
    obtain ⟨-, -, -, -, h1, h2⟩ := hax lo hi slo shi hn hs
    rcases hv.scale with hx | hx
    · obtain ⟨a, b, hX, ha, -, -, hb⟩ := h2 hx
      rw [hX]
      exact ha.trans ((hn.2.2 _ hn.1).2.trans hb)
    · rw [h1 hx]
      have := hp.cycles _ hn.2.1
      simp only []
      linarith
  have hro' : ro = (p.stress_runout.getD []).map fun y => (d.xlim.2, y) := by
    have e : d.xlim.2 = (snXlim (p.xscale == "log") lo hi).2 := by rw [hd]
    rw [e]
    unfold snRunouts at hro
    cases hsr : p.stress_runout with
    | none => rw [hsr] at hro; simp only [Except.ok.injEq] at hro; rw [← hro]; rfl
    | some s =>
      rw [hsr] at hro
      cases hcr : p.cycles_runout with
      | none =>
        rw [hcr] at hro
        simp only at hro
        split at hro
        · rw [Except.ok.injEq] at hro; rw [← hro]; rfl
        · cases hro
      | some cy => rw [hcr] at hro; simp only [Except.ok.injEq] at hro; rw [← hro]; rfl
  have hd' : d.runouts = (p.stress_runout.getD []).map fun y => (d.xlim.2, y) := by rw [← hro', hd]
  rw [hd']
  constructor
  · rw [map_map]
    exact map_id'' (fun _ => rfl) _
  · intro q hq
    obtain ⟨y, -, rfl⟩ := mem_map.1 hq
    refine ⟨rfl, ?_⟩
    unfold Visible
    simp only []
    constructor
    · exact fun h => h.2.2
    · exact fun h => ⟨hle, le_rfl, h⟩

/-- **C151 (when it draws).** For at least one failure, whatever passes the checks (C96) is drawn, except run-outs without run-out cycles. -/
theorem C151_draws (polyfit : List ℝ → List ℝ → ℝ × ℝ) (tppf : ℝ → ℕ → ℝ) (p : SNIn) (hne : p.cycles ≠ []) (r : SNOut) :
    (∃ d, snPlot polyfit tppf p = .ok (r, d)) ↔ snDiagram polyfit tppf p = .ok r ∧
      ∀ s, p.stress_runout = some s → p.cycles_runout = none → s.length = 1 := by
  constructor
  · rintro ⟨d, h⟩
    obtain ⟨hr, lo, hi, slo, shi, ro, -, -, hro, -⟩ := sn_ok h
    refine ⟨hr, fun s hs hc => ?_⟩
    unfold snRunouts at hro
    rw [hs, hc] at hro
    simp only at hro
    split at hro
    · assumption
    · cases hro
  · rintro ⟨hr, hone⟩
    obtain ⟨hv, -⟩ := sn_checks hr
    have hs : p.stress ≠ [] := by
      intro h0
      apply hne
      have := hv.len
      rw [h0] at this
      exact length_eq_zero_iff.1 this
    obtain ⟨a, b, hab, -⟩ := Repairable.GPlot.minmax_ok hne
    obtain ⟨a', b', hab', -⟩ := Repairable.GPlot.minmax_ok hs
    have : ∀ x, ∃ ro, snRunouts p x = .ok ro := by
      intro x
      unfold snRunouts
      cases hsr : p.stress_runout with
      | none => exact ⟨_, rfl⟩
      | some s =>
        cases hcr : p.cycles_runout with
        | none => simp only []; rw [if_pos (hone s hsr hcr)]; exact ⟨_, rfl⟩
        | some cy => exact ⟨_, rfl⟩
    obtain ⟨ro, hro⟩ := this (snXlim (p.xscale == "log") a b).2
    unfold snPlot
    rw [hr]
    unfold snDraw
    simp only [bind, Except.bind, hab, hab', hro]
    exact ⟨_, rfl⟩

/-- Finding: run-outs well below the failures are drawn outside the axes, and so is the endurance limit: the stress axis looks at the
failures only. -/
theorem C151_runout_outside_finding (polyfit : List ℝ → List ℝ → ℝ × ℝ) (tppf : ℝ → ℕ → ℝ) :
    ∃ r d a b, snPlot polyfit tppf ⟨[100, 90], [1000, 20000], some [10], some [1000000], "log", none, none, none, none, 0.95⟩ = .ok (r, d) ∧
      d.limit = some (a, b) ∧ a.2 < d.ylim.1 ∧ ∃ q ∈ d.runouts, q.2 < d.ylim.1 := by
  set p : SNIn := ⟨[100, 90], [1000, 20000], some [10], some [1000000], "log", none, none, none, none, 0.95⟩ with hpdef
  have hp : SNData p := by
    constructor <;> intro x hx <;> simp [hpdef] at hx <;> rcases hx with rfl | rfl <;> norm_num
  obtain ⟨r, hr⟩ := (C96_accepts polyfit tppf p).2 ⟨⟨rfl, by
    intro s c h1 h2
    simp only [hpdef, Option.some.injEq] at h1 h2
    rw [← h1, ← h2]
    rfl, by norm_num [hpdef], Or.inl rfl, Or.inr (Or.inr rfl)⟩, fun _ _ => rfl, by simp [hpdef]⟩
  obtain ⟨d, hd⟩ := (C151_draws polyfit tppf p (by simp [hpdef]) r).2 ⟨hr, by simp [hpdef]⟩
  have hax := C151_axes polyfit tppf p hp r d hd 1000 20000 90 100
    ⟨by simp [hpdef], by simp [hpdef], by intro x hx; simp [hpdef] at hx; rcases hx with rfl | rfl <;> norm_num⟩
    ⟨by simp [hpdef], by simp [hpdef], by intro x hx; simp [hpdef] at hx; rcases hx with rfl | rfl <;> norm_num⟩
  have hro := C151_runouts polyfit tppf p hp r d hd
  have hsp := (C151_spans polyfit tppf p hp r d hd).2.2
  obtain ⟨-, e2, -⟩ := sn_eq hr (m := _) (c := _) rfl
  have hshow : showLimit p = true := rfl
  rw [if_pos hshow] at e2
  have hlim : ∃ a b, d.limit = some (a, b) := by
    obtain ⟨-, lo, hi, slo, shi, ro, -, -, -, hdd⟩ := sn_ok hd
    rw [hdd]
    unfold snLimitLine
    rw [e2]
    exact ⟨_, _, rfl⟩
  obtain ⟨a, b, hab⟩ := hlim
  refine ⟨r, d, a, b, hd, hab, ?_, ?_⟩
  · rw [(hsp a b hab).2.2.2.1, hax.2.2.1]
    simp [hpdef, average]
    norm_num
  · have hmem : (10 : ℝ) ∈ d.runouts.map Prod.snd := by rw [hro.1]; simp [hpdef]
    obtain ⟨q, hq, hq2⟩ := mem_map.1 hmem
    refine ⟨q, hq, ?_⟩
    rw [hq2, hax.2.2.1]
    norm_num

/-- Finding: run-out stresses without run-out cycles pass the checks if the endurance limit is switched off, and then fail in the drawing
(unless there is just one). -/
theorem C151_runout_cycles_finding (polyfit : List ℝ → List ℝ → ℝ × ℝ) (tppf : ℝ → ℕ → ℝ) (p : SNIn) (hv : SNValid p) (hne : p.cycles ≠ [])
    (s : List ℝ) (hs : p.stress_runout = some s) (hc : p.cycles_runout = none) (h1 : s.length ≠ 1) (hoff : p.show_endurance_limit = some false)
    (hm : p.method_for_bounds ≠ some "residual") :
    (∃ r, snDiagram polyfit tppf p = .ok r) ∧ snPlot polyfit tppf p = valueErr := by
  have hex := (C96_accepts polyfit tppf p).2 ⟨hv, fun _ h => absurd hoff h, fun h => absurd h hm⟩
  refine ⟨hex, ?_⟩
  obtain ⟨r, hr⟩ := hex
  have hst : p.stress ≠ [] := by
    intro h0
    apply hne
    have := hv.len
    rw [h0] at this
    exact length_eq_zero_iff.1 this
  obtain ⟨a, b, hab, -⟩ := Repairable.GPlot.minmax_ok hne
  obtain ⟨a', b', hab', -⟩ := Repairable.GPlot.minmax_ok hst
  unfold snPlot
  rw [hr]
  unfold snDraw
  have hro : ∀ x, snRunouts p x = valueErr := by
    intro x
    unfold snRunouts
    rw [hs, hc]
    simp only []
    rw [if_neg h1]
  simp only [bind, Except.bind, hab, hab', hro]

/-- **C151 (bounds).** Bounds of either kind are drawn over the same numbers of cycles as the line, on either side of it; without a method there
are none. -/
theorem C151_bounds (polyfit : List ℝ → List ℝ → ℝ × ℝ) (tppf : ℝ → ℕ → ℝ) (htpp : ∀ q k, 1 / 2 ≤ q → 0 ≤ tppf q k) (p : SNIn) (r : SNOut)
    (d : SNPlot) (h : snPlot polyfit tppf p = .ok (r, d)) :
    (p.method_for_bounds = none → d.bounds = none) ∧
    (p.method_for_bounds ≠ none → ∃ lo up, d.bounds = some (lo, up) ∧ Forall₂ (· ≤ ·) lo d.line ∧ Forall₂ (· ≤ ·) d.line up) := by
  obtain ⟨hr, lo, hi, slo, shi, ro, hn, hs, hro, rfl⟩ := sn_ok h
  obtain ⟨hv, -, hsh⟩ := sn_checks hr
  obtain ⟨⟨m, c⟩, hmc⟩ : ∃ q, polyfit (p.cycles.map fun x => Real.logb 10 x) p.stress = q := ⟨_, rfl⟩
  obtain ⟨e1, e2, e3, e4, e5⟩ := sn_eq hr hmc
  have lift : ∀ {f g : ℝ → ℝ} (l : List ℝ), (∀ x, f x ≤ g x) → Forall₂ (· ≤ ·) (l.map f) (l.map g) := by
    intro f g l hfg
    rw [forall₂_map_left_iff, forall₂_map_right_iff, forall₂_same]
    exact fun x _ => hfg x
  constructor
  · intro hm
    rw [if_neg (by simp [hm]), if_neg (by simp [hm])] at e5
    simp only [e5]
    rfl
  · intro hm
    rcases hv.bounds with hb | hb | hb
    · rw [if_neg (by simp [hb]), if_pos hb] at e5
      simp only at e5
      simp only [e5, Option.map_some]
      have hcl : ∀ N, 0 ≤ tppf ((p.CI + 1) / 2) (p.cycles.length - 2) *
          Real.sqrt ((zipWith (fun s y => (s - y) ^ 2) p.stress ((p.cycles.map fun x => Real.logb 10 x).map fun x => m * x + c)).sum /
            ((p.cycles.length : ℝ) - 2)) *
          Real.sqrt (1 / (p.cycles.length : ℝ) + (N - average p.cycles) ^ 2 / (p.cycles.map fun x => (x - average p.cycles) ^ 2).sum) := by
        intro N
        have := htpp ((p.CI + 1) / 2) (p.cycles.length - 2) (by linarith [hv.ci.1])
        positivity
      exact ⟨_, _, rfl, lift _ fun x => by linarith [hcl x], lift _ fun x => by linarith [hcl x]⟩
    · rw [if_pos hb] at e5
      simp only at e5
      have hshow := hsh hb
      set res := ((zipWith (fun a b => |a - b|) ((p.cycles.map fun x => Real.logb 10 x).map fun x => m * x + c) p.stress).max?).getD 0
        with hres
      have hres0 : 0 ≤ res := by
        rw [hres]
        cases hx : (zipWith (fun a b => |a - b|) ((p.cycles.map fun x => Real.logb 10 x).map fun x => m * x + c) p.stress).max? with
        | none => exact le_rfl
        | some M =>
          obtain ⟨hM, -⟩ := (Np.max?_iff _ _).1 hx
          obtain ⟨i, hi', rfl⟩ := List.mem_iff_getElem.1 hM
          rw [Option.getD_some, getElem_zipWith]
          exact abs_nonneg _
      simp only [e5, e1, Option.map_some]
      refine ⟨_, _, rfl, lift _ fun x => ?_, lift _ fun x => ?_⟩
      · simp only [hshow, true_and]
        split <;> split <;> linarith
      · simp only [hshow, true_and]
        split <;> split <;> linarith
    · exact absurd hb hm

end Reliability.Props.SNP

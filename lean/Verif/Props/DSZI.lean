import Mathlib.MeasureTheory.Integral.IntegrableOn
import Mathlib.MeasureTheory.Integral.Bochner.Set
import Verif.Props.Combined

/-!
# Properties of DSZI models and of the interpolating quantile functions (C40, C70)
-/

namespace Reliability.Props.DSZI

open Reliability Reliability.Distributions Reliability.Combined Spec Filter Topology
open Reliability.Props.Distributions Reliability.Props.Combined

/-! ## np.interp -/

/-- Both coordinates non-decreasing along the nodes. -/
abbrev Ascending (l : List (ℝ × ℝ)) : Prop := l.Pairwise fun a b => a.1 ≤ b.1 ∧ a.2 ≤ b.2

theorem interpAux_spec (l : List (ℝ × ℝ)) : ∀ (q x0 y0 : ℝ), Ascending ((x0, y0) :: l) → x0 ≤ q →
    y0 ≤ interpAux q x0 y0 l ∧ (∀ n ∈ l, n.1 ≤ q → n.2 ≤ interpAux q x0 y0 l) ∧
    (∀ n ∈ l, q < n.1 → interpAux q x0 y0 l ≤ n.2) := by
  induction l with
  | nil => intro q x0 y0 _ _; simp [interpAux]
  | cons a l ih =>
    obtain ⟨x1, y1⟩ := a
    intro q x0 y0 hs hq
    obtain ⟨h0, hs'⟩ := List.pairwise_cons.1 hs
    obtain ⟨h1, _⟩ := List.pairwise_cons.1 hs'
    have h01 := h0 (x1, y1) (by simp)
    simp only at h01
    simp only [interpAux]
    by_cases hc : q < x1
    · rw [if_pos hc]
      have hpos : 0 < x1 - x0 := by linarith
      have hfrac : 0 ≤ (q - x0) / (x1 - x0) ∧ (q - x0) / (x1 - x0) ≤ 1 :=
        ⟨div_nonneg (by linarith) hpos.le, (div_le_one hpos).2 (by linarith)⟩
      have he : (y1 - y0) / (x1 - x0) * (q - x0) + y0 = y0 + (y1 - y0) * ((q - x0) / (x1 - x0)) := by ring
      have hd : 0 ≤ y1 - y0 := by linarith
      have hle : (y1 - y0) / (x1 - x0) * (q - x0) + y0 ≤ y1 := by
        rw [he]; nlinarith
      refine ⟨by rw [he]; nlinarith [mul_nonneg hd hfrac.1], fun n hn hnq => ?_, fun n hn hnq => ?_⟩
      · exfalso
        rcases List.mem_cons.1 hn with rfl | hn
        · simp only at hnq; linarith
        · have := (h1 n hn).1; simp only at this; linarith
      · rcases List.mem_cons.1 hn with rfl | hn
        · exact hle
        · have := (h1 n hn).2; simp only at this; linarith
    · rw [if_neg hc]
      have hq1 : x1 ≤ q := not_lt.1 hc
      obtain ⟨i1, i2, i3⟩ := ih q x1 y1 hs' hq1
      refine ⟨by linarith, fun n hn hnq => ?_, fun n hn hnq => ?_⟩
      · rcases List.mem_cons.1 hn with rfl | hn
        · exact i1
        · exact i2 n hn hnq
      · rcases List.mem_cons.1 hn with rfl | hn
        · simp only at hnq; linarith
        · exact i3 n hn hnq

/-- Nodes at or before `q` bound the result from below, nodes after `q` from above. -/
theorem interp_bracket {l : List (ℝ × ℝ)} (hs : Ascending l) (q : ℝ) :
    (∀ n ∈ l, n.1 ≤ q → n.2 ≤ interp q l) ∧ (∀ n ∈ l, q < n.1 → interp q l ≤ n.2) := by
  cases l with
  | nil => simp
  | cons a l =>
    obtain ⟨x0, y0⟩ := a
    simp only [interp]
    by_cases hc : q < x0
    · rw [if_pos hc]
      obtain ⟨h0, _⟩ := List.pairwise_cons.1 hs
      refine ⟨fun n hn hnq => ?_, fun n hn _ => ?_⟩
      · exfalso
        rcases List.mem_cons.1 hn with rfl | hn
        · simp only at hnq; linarith
        · have := (h0 n hn).1; simp only at this; linarith
      · rcases List.mem_cons.1 hn with rfl | hn
        · exact le_refl _
        · exact (h0 n hn).2
    · rw [if_neg hc]
      obtain ⟨i1, i2, i3⟩ := interpAux_spec l q x0 y0 hs (not_lt.1 hc)
      refine ⟨fun n hn hnq => ?_, fun n hn hnq => ?_⟩
      · rcases List.mem_cons.1 hn with rfl | hn
        · exact i1
        · exact i2 n hn hnq
      · rcases List.mem_cons.1 hn with rfl | hn
        · exact absurd hnq hc
        · exact i3 n hn hnq

theorem interpAux_mono (l : List (ℝ × ℝ)) : ∀ (q r x0 y0 : ℝ), Ascending ((x0, y0) :: l) → x0 ≤ q → q ≤ r →
    interpAux q x0 y0 l ≤ interpAux r x0 y0 l := by
  induction l with
  | nil => intro q r x0 y0 _ _ _; simp [interpAux]
  | cons a l ih =>
    obtain ⟨x1, y1⟩ := a
    intro q r x0 y0 hs hq hr
    have hs' := (List.pairwise_cons.1 hs).2
    have h01 := (List.pairwise_cons.1 hs).1 (x1, y1) (by simp)
    simp only at h01
    by_cases hc : q < x1
    · by_cases hd : r < x1
      · simp only [interpAux]
        rw [if_pos hc, if_pos hd]
        have : 0 ≤ (y1 - y0) / (x1 - x0) := div_nonneg (by linarith) (by linarith)
        nlinarith
      · have h1 := (interpAux_spec ((x1, y1) :: l) q x0 y0 hs hq).2.2 (x1, y1) (by simp) hc
        have h2 := (interpAux_spec ((x1, y1) :: l) r x0 y0 hs (by linarith)).2.1 (x1, y1) (by simp) (not_lt.1 hd)
        exact h1.trans h2
    · have hd : ¬ r < x1 := by linarith
      simp only [interpAux]
      rw [if_neg hc, if_neg hd]
      exact ih q r x1 y1 hs' (not_lt.1 hc) hr

theorem interp_mono {l : List (ℝ × ℝ)} (hs : Ascending l) {q r : ℝ} (h : q ≤ r) : interp q l ≤ interp r l := by
  cases l with
  | nil => simp [interp]
  | cons a l =>
    obtain ⟨x0, y0⟩ := a
    by_cases hc : q < x0
    · by_cases hd : r < x0
      · simp only [interp]; rw [if_pos hc, if_pos hd]
      · simp only [interp]; rw [if_pos hc, if_neg hd]
        exact (interpAux_spec l r x0 y0 hs (not_lt.1 hd)).1
    · have hd : ¬ r < x0 := by linarith
      simp only [interp]; rw [if_neg hc, if_neg hd]
      exact interpAux_mono l q r x0 y0 hs (not_lt.1 hc) h

/-- The result stays between the first and the last node. -/
theorem interpAux_last (l : List (ℝ × ℝ)) : ∀ (q x0 y0 : ℝ), Ascending ((x0, y0) :: l) → x0 ≤ q →
    interpAux q x0 y0 l ≤ (((x0, y0) :: l).getLast (by simp)).2 := by
  induction l with
  | nil => intro q x0 y0 _ _; simp [interpAux]
  | cons a l ih =>
    obtain ⟨x1, y1⟩ := a
    intro q x0 y0 hs hq
    have hs' := (List.pairwise_cons.1 hs).2
    rw [List.getLast_cons (by simp)]
    by_cases hc : q < x1
    · have h1 := (interpAux_spec ((x1, y1) :: l) q x0 y0 hs hq).2.2
      have hmem := List.getLast_mem (l := (x1, y1) :: l) (by simp)
      have hx : x1 ≤ (((x1, y1) :: l).getLast (by simp)).1 := by
        rcases List.mem_cons.1 hmem with h | h
        · rw [h]
        · exact ((List.pairwise_cons.1 hs').1 _ h).1
      exact h1 _ hmem (by linarith)
    · simp only [interpAux]
      rw [if_neg hc]
      exact ih q x1 y1 hs' (not_lt.1 hc)

/-- Where `q` falls: before the first node, at or after the last, or in exactly one cell. -/
theorem interpAux_cell (l : List (ℝ × ℝ)) : ∀ (q x0 y0 : ℝ), Ascending ((x0, y0) :: l) → x0 ≤ q →
    ((((x0, y0) :: l).getLast (by simp)).1 ≤ q ∧ interpAux q x0 y0 l = (((x0, y0) :: l).getLast (by simp)).2) ∨
    ∃ (i : ℕ) (a b : ℝ × ℝ), ((x0, y0) :: l)[i]? = some a ∧ ((x0, y0) :: l)[i + 1]? = some b ∧ a.1 ≤ q ∧ q < b.1 ∧
      interpAux q x0 y0 l = a.2 + (b.2 - a.2) * ((q - a.1) / (b.1 - a.1)) := by
  induction l with
  | nil => intro q x0 y0 _ hq; left; simpa [interpAux] using hq
  | cons a l ih =>
    obtain ⟨x1, y1⟩ := a
    intro q x0 y0 hs hq
    have hs' := (List.pairwise_cons.1 hs).2
    by_cases hc : q < x1
    · right
      refine ⟨0, (x0, y0), (x1, y1), by simp, by simp, hq, hc, ?_⟩
      simp only [interpAux]
      rw [if_pos hc]
      ring
    · simp only [interpAux]
      rw [if_neg hc, List.getLast_cons (by simp)]
      rcases ih q x1 y1 hs' (not_lt.1 hc) with h | ⟨i, a, b, h1, h2, h3⟩
      · exact Or.inl h
      · exact Or.inr ⟨i + 1, a, b, by simpa using h1, by simpa using h2, h3⟩

/-! ## C70: quantile and inverse_SF of the combined models -/

/-- **C70.** `quantile` and `inverse_SF` of a Competing Risks or Mixture model (nodes: the model's CDF on its
ascending internal grid): they accept exactly non-empty lists of probabilities in [0,1]; each answer depends on its
own `q` only, is between two neighbouring grid points whose CDF values enclose `q` (and never leaves the
grid), does not decrease when `q` increases, and `inverse_SF(q) = quantile(1 - q)`. -/
theorem C70_model_quantile (nodes : List (ℝ × ℝ)) (hs : Ascending nodes) (qs : List ℝ) :
    (modelQuantile nodes qs = valueErr ∧ modelInverseSF nodes qs = valueErr ∧
      ¬ (qs ≠ [] ∧ ∀ q ∈ qs, 0 ≤ q ∧ q ≤ 1)) ∨
    ∃ r s, modelQuantile nodes qs = .ok r ∧ modelInverseSF nodes qs = .ok s ∧
      r.length = qs.length ∧ s.length = qs.length ∧
      (∀ (i : ℕ) q x, qs[i]? = some q → r[i]? = some x →
        (∀ n ∈ nodes, n.1 ≤ q → n.2 ≤ x) ∧ (∀ n ∈ nodes, q < n.1 → x ≤ n.2)) ∧
      (∀ (i j : ℕ) q q' x x', qs[i]? = some q → qs[j]? = some q' → r[i]? = some x → r[j]? = some x' →
        q ≤ q' → x ≤ x') ∧
      modelQuantile nodes (qs.map fun q => 1 - q) = .ok s := by
  rcases checkQ_cases qs with ⟨h, hne, hr⟩ | ⟨h, hno⟩
  · right
    refine ⟨qs.map fun q => interp q nodes, qs.map fun q => interp (1 - q) nodes, by simp [modelQuantile, h],
      by simp [modelInverseSF, h], by simp, by simp, fun i q x hq hx => ?_, fun i j q q' x x' hq hq' hx hx' hle => ?_,
      ?_⟩
    · rw [List.getElem?_map, hq, Option.map_some, Option.some.injEq] at hx
      rw [← hx]
      exact interp_bracket hs q
    · rw [List.getElem?_map, hq, Option.map_some, Option.some.injEq] at hx
      rw [List.getElem?_map, hq', Option.map_some, Option.some.injEq] at hx'
      rw [← hx, ← hx']
      exact interp_mono hs hle
    · have h' : checkQ (qs.map fun q => 1 - q) = .ok () := by
        rcases checkQ_cases (qs.map fun q => 1 - q) with ⟨h', _⟩ | ⟨_, h'⟩
        · exact h'
        · refine absurd ⟨by simpa using hne, fun q hq => ?_⟩ h'
          obtain ⟨p, hp, rfl⟩ := List.mem_map.1 hq
          have := hr p hp
          constructor <;> linarith
      simp [modelQuantile, h', List.map_map, Function.comp_def]
  · left
    exact ⟨by simp [modelQuantile, h, valueErr], by simp [modelInverseSF, h, valueErr], hno⟩

theorem zip_ascending (F : ℝ → ℝ) (hF : Monotone F) {X : List ℝ} (hX : X.Pairwise (· ≤ ·)) :
    Ascending (X.map fun x => (F x, x)) := by
  rw [Ascending, List.pairwise_map]
  exact hX.imp fun h => ⟨hF h, h⟩

theorem zip_map_left (F : ℝ → ℝ) (X : List ℝ) : (X.map F).zip X = X.map fun x => (F x, x) := by
  induction X with
  | nil => rfl
  | cons x X ih => simp [ih]

theorem prod_antitone (ds : List Dist) (hd : ∀ d ∈ ds, Proper d) : Monotone fun x => 1 - (ds.map fun d => d.sp.sf x).prod := by
  have key : ∀ (ds : List Dist), (∀ d ∈ ds, Proper d) → ∀ x y, x ≤ y →
      0 ≤ (ds.map fun d => d.sp.sf y).prod ∧
      (ds.map fun d => d.sp.sf y).prod ≤ (ds.map fun d => d.sp.sf x).prod := by
    intro ds
    induction ds with
    | nil => intro _ x y _; simp
    | cons d ds ih =>
      intro hd x y hxy
      obtain ⟨i1, i2⟩ := ih (fun d' h => hd d' (by simp [h])) x y hxy
      have law := (hd d (by simp)).law
      have m := law.mono hxy
      have c1 := law.compl x
      have c2 := law.compl y
      have r1 := law.range x
      have r2 := law.range y
      simp only [List.map_cons, List.prod_cons]
      have s2 : 0 ≤ d.sp.sf y := by linarith
      have s12 : d.sp.sf y ≤ d.sp.sf x := by linarith
      exact ⟨mul_nonneg s2 i1, mul_le_mul s12 i2 i1 (s2.trans s12)⟩
  intro x y hxy
  have := (key ds hd x y hxy).2
  simp only
  linarith

theorem wsum_mono (ds : List Dist) (p : List ℝ) (hd : ∀ d ∈ ds, Proper d) (hp : ∀ a ∈ p, 0 ≤ a) :
    Monotone fun x => wsum ds p fun d => d.sp.cdf x := by
  intro x y hxy
  simp only [wsum]
  apply List.sum_le_sum
  intro dp hdp
  obtain ⟨h1, h2⟩ := List.of_mem_zip (a := dp.1) (b := dp.2) hdp
  exact mul_le_mul_of_nonneg_right ((hd _ h1).law.mono hxy) (hp _ h2)

/-- **C70 (the nodes are ascending).** The nodes the two models build from their own CDF on an ascending grid
are ascending — for the mixture provided the proportions are non-negative — so C70 applies to them. -/
theorem C70_nodes (ds : List Dist) (hd : ∀ d ∈ ds, Proper d) (p : List ℝ) (X : List ℝ)
    (hX : X.Pairwise (· ≤ ·)) :
    (∀ A, competing ds X = .ok A → Ascending (A.cdf.zip X)) ∧
    ((∀ a ∈ p, 0 ≤ a) → ∀ A, mixture ds p X = .ok A → Ascending (A.cdf.zip X)) := by
  constructor
  · intro A hA
    obtain ⟨_, _, _, e, _⟩ := competing_sorted hX hA
    have : A.cdf = X.map fun x => 1 - (ds.map fun d => d.sp.sf x).prod := by
      rw [e]
      refine List.map_congr_left fun x _ => ?_
      rw [List.map_congr_left fun d hd' => (hd d hd').sfValue x]
    rw [this, zip_map_left]
    exact zip_ascending _ (prod_antitone ds hd) hX
  · intro hp A hA
    obtain ⟨e, _⟩ := mixture_sorted hX hA
    have : A.cdf = X.map fun x => wsum ds p fun d => d.sp.cdf x := by
      rw [e]
      exact List.map_congr_left fun x _ => wsum_congr fun d hd' => (hd d hd').cdfValue x
    rw [this, zip_map_left]
    exact zip_ascending _ (wsum_mono ds p hd hp) hX

/-- Three nodes; the quantile of 1/4 is half way through the first cell. -/
example : Ascending [((0:ℝ), (10:ℝ)), (1/2, 20), (1, 40)] ∧ interp (1/4) [((0:ℝ), (10:ℝ)), (1/2, 20), (1, 40)] = 15 := by
  constructor
  · simp [Ascending]; norm_num
  · simp only [interp, interpAux]; norm_num

/-! ## C40: DSZI -/

/-- **C40 (construction).** DSZI_Model is created exactly when at least one of DS and ZI is given and, with DS
defaulting to 1 and ZI to 0, `0 ≤ ZI < 1`, `0 < DS ≤ 1` and `ZI ≤ DS`; otherwise ValueError. -/
theorem C40_init (base : Dist) (DS ZI : Option ℝ) :
    (∃ m, dsziInit base DS ZI = .ok m ∧ m.base = base ∧ m.DS = DS.getD 1 ∧ m.ZI = ZI.getD 0 ∧
      (DS ≠ none ∨ ZI ≠ none) ∧ 0 ≤ m.ZI ∧ m.ZI < 1 ∧ 0 < m.DS ∧ m.DS ≤ 1 ∧ m.ZI ≤ m.DS) ∨
    (dsziInit base DS ZI = valueErr ∧ ¬ ((DS ≠ none ∨ ZI ≠ none) ∧ 0 ≤ ZI.getD 0 ∧ ZI.getD 0 < 1 ∧
      0 < DS.getD 1 ∧ DS.getD 1 ≤ 1 ∧ ZI.getD 0 ≤ DS.getD 1)) := by
  simp only [dsziInit]
  by_cases h0 : DS = none ∧ ZI = none
  · right; rw [if_pos h0]; exact ⟨rfl, fun hc => by rcases hc.1 with h | h; exacts [h h0.1, h h0.2]⟩
  rw [if_neg h0]
  by_cases h1 : ZI.getD 0 > DS.getD 1
  · right; rw [if_pos h1]; exact ⟨rfl, fun hc => by linarith [hc.2.2.2.2.2]⟩
  rw [if_neg h1]
  by_cases h2 : ZI.getD 0 ≥ 1 ∨ ZI.getD 0 < 0
  · right; rw [if_pos h2]; exact ⟨rfl, fun hc => by rcases h2 with h | h <;> linarith [hc.2.1, hc.2.2.1]⟩
  rw [if_neg h2]
  by_cases h3 : DS.getD 1 > 1 ∨ DS.getD 1 ≤ 0
  · right; rw [if_pos h3]
    exact ⟨rfl, fun hc => by rcases h3 with h | h <;> linarith [hc.2.2.2.1, hc.2.2.2.2.1]⟩
  rw [if_neg h3]
  left
  push Not at h1 h2 h3
  refine ⟨_, rfl, rfl, rfl, rfl, ?_, h2.2, h2.1, h3.2, h3.1, h1⟩
  by_contra hc
  push Not at hc
  exact h0 hc

/-- A DSZI model as the constructor leaves it. -/
structure Valid (m : DSZI) : Prop where
  law : SurvivalLaw m.base.sp.cdf m.base.sp.sf
  zi : 0 ≤ m.ZI
  zi1 : m.ZI < 1
  ds : 0 < m.DS
  ds1 : m.DS ≤ 1
  le : m.ZI ≤ m.DS

/-- **C40 (CDF).** The CDF is continuous and non-decreasing from ZI (at -∞) to DS (at +∞), never outside
[ZI, DS]; and where the base distribution has a density, the DSZI PDF is the derivative of the DSZI CDF. -/
theorem C40_cdf (m : DSZI) (h : Valid m) :
    Monotone m.cdfAt ∧ Continuous m.cdfAt ∧ Tendsto m.cdfAt atBot (𝓝 m.ZI) ∧ Tendsto m.cdfAt atTop (𝓝 m.DS) ∧
    (∀ x, m.ZI ≤ m.cdfAt x ∧ m.cdfAt x ≤ m.DS) ∧
    (∀ x, HasDerivAt m.base.sp.cdf (m.base.sp.pdf x) x → HasDerivAt m.cdfAt (m.pdfAt x) x) := by
  have hd : 0 ≤ m.DS - m.ZI := by linarith [h.le]
  refine ⟨fun x y hxy => ?_, ?_, ?_, ?_, fun x => ?_, fun x hx => ?_⟩
  · have := mul_le_mul_of_nonneg_right (h.law.mono hxy) hd
    simp only [DSZI.cdfAt]; linarith
  · exact (h.law.cont.mul continuous_const).add continuous_const
  · have := (h.law.bot.mul_const (m.DS - m.ZI)).add_const m.ZI
    rw [zero_mul, zero_add] at this
    exact this
  · have := (h.law.top.mul_const (m.DS - m.ZI)).add_const m.ZI
    rw [one_mul, sub_add_cancel] at this
    exact this
  · have r := h.law.range x
    simp only [DSZI.cdfAt]
    constructor <;> nlinarith
  · exact (hx.mul_const (m.DS - m.ZI)).add_const m.ZI

/-- **C40 (the five functions).** For every xvals the base distribution accepts, all five functions return one
value per xval: CDF in [ZI, DS], SF = 1 - CDF ≥ 1 - DS, HF = PDF/SF, CHF = -ln SF; otherwise all raise
ValueError. -/
theorem C40_functions (m : DSZI) (h : Valid m) (X : List ℝ) :
    (dsziPDF m X = valueErr ∧ dsziCDF m X = valueErr ∧ dsziSF m X = valueErr ∧ dsziHF m X = valueErr ∧
      dsziCHF m X = valueErr ∧ ¬ TakesX m.base.fam X) ∨
    ∃ p c s hh H, dsziPDF m X = .ok p ∧ dsziCDF m X = .ok c ∧ dsziSF m X = .ok s ∧ dsziHF m X = .ok hh ∧
      dsziCHF m X = .ok H ∧
      ∀ (i : ℕ) x, X[i]? = some x →
        p[i]? = some (m.base.sp.pdf x * (m.DS - m.ZI)) ∧ ∃ u, c[i]? = some u ∧ s[i]? = some (1 - u) ∧
        hh[i]? = some (m.base.sp.pdf x * (m.DS - m.ZI) / (1 - u)) ∧ H[i]? = some (-Real.log (1 - u)) ∧
        m.ZI ≤ u ∧ u ≤ m.DS ∧ 1 - m.DS ≤ 1 - u := by
  by_cases hc : checkX m.base.fam X = .ok ()
  · right
    have e1 : PDF m.base X = .ok (X.map m.base.sp.pdf) := by simp [PDF, hc]
    have e2 : CDF m.base X = .ok (X.map m.base.sp.cdf) := by simp [CDF, hc]
    refine ⟨X.map fun x => m.base.sp.pdf x * (m.DS - m.ZI), X.map m.cdfAt, X.map fun x => 1 - m.cdfAt x,
      X.map fun x => m.base.sp.pdf x * (m.DS - m.ZI) / (1 - m.cdfAt x), X.map fun x => -Real.log (1 - m.cdfAt x),
      ?_, ?_, ?_, ?_, ?_, fun i x hx => ?_⟩
    · simp [dsziPDF, e1]
    · simp [dsziCDF, e2, DSZI.cdfAt]
    · simp [dsziSF, dsziCDF, e2, DSZI.cdfAt]
    · simp only [dsziHF, dsziPDF, dsziCDF, e1, e2, List.map_map]
      rw [zipWith_map_map]
      rfl
    · simp [dsziCHF, dsziCDF, e2, DSZI.cdfAt]
    · have hb := (C40_cdf m h).2.2.2.2.1 x
      refine ⟨by simp [hx], m.cdfAt x, by simp [hx], by simp [hx], by simp [hx], by simp [hx], hb.1, hb.2, by linarith⟩
  · left
    have he := checkX_err _ _ hc
    rw [← checkX_ok]
    simp [dsziPDF, dsziCDF, dsziSF, dsziHF, dsziCHF, PDF, CDF, he, valueErr]

/-- **C40 (base distribution).** With DS = 1 and ZI = 0 the PDF and CDF are those of the base distribution, for
all xvals (including errors). -/
theorem C40_base (base : Dist) (m : DSZI) (h : dsziInit base (some 1) (some 0) = .ok m) (X : List ℝ) :
    dsziPDF m X = PDF base X ∧ dsziCDF m X = CDF base X ∧ (∀ t, dsziMRL m t = .fin (meanResidualLife base t)) := by
  have hm : m = ⟨base, 1, 0⟩ := by
    simp only [dsziInit, Option.getD_some] at h
    rw [if_neg (by simp), if_neg (by norm_num), if_neg (by norm_num), if_neg (by norm_num)] at h
    cases h; rfl
  subst hm
  refine ⟨?_, ?_, fun t => by simp [dsziMRL]⟩
  · simp only [dsziPDF]
    cases hp : PDF base X with
    | error e => rfl
    | ok Y => simp
  · simp only [dsziCDF]
    cases hp : CDF base X with
    | error e => rfl
    | ok Y => simp

theorem consecutive_le {X : List ℝ} (hX : X.Pairwise (· ≤ ·)) {i : ℕ} {a b : ℝ} (ha : X[i]? = some a)
    (hb : X[i+1]? = some b) : a ≤ b := by
  obtain ⟨hi, rfl⟩ := List.getElem?_eq_some_iff.1 ha
  obtain ⟨hj, rfl⟩ := List.getElem?_eq_some_iff.1 hb
  exact List.pairwise_iff_getElem.1 hX i (i+1) hi hj (by omega)

/-- **C40 (quantile).** A scalar `q` outside [ZI, DS] raises ValueError.  For `q` in [ZI, DS] the quantile
inverts the CDF up to the resolution of the internal grid: if the grid starts where the base CDF is at
most ε, ends where it is at least 1 - ε, and the base CDF rises by at most ε between neighbouring grid
points, then the CDF at the returned value differs from `q` by at most ε(DS - ZI). -/
theorem C40_quantile (m : DSZI) (h : Valid m) (X : List ℝ) (hX : X.Pairwise (· ≤ ·)) (q ε : ℝ) :
    ((q < m.ZI ∨ m.DS < q) → dsziQuantile m X q = valueErr) ∧
    (m.ZI ≤ q → q ≤ m.DS → (∃ x, X.head? = some x ∧ m.base.sp.cdf x ≤ ε) →
      (∃ x, X.getLast? = some x ∧ 1 - ε ≤ m.base.sp.cdf x) →
      (∀ (i : ℕ) a b, X[i]? = some a → X[i+1]? = some b → m.base.sp.cdf b - m.base.sp.cdf a ≤ ε) →
      ∃ r, dsziQuantile m X q = .ok r ∧ |m.cdfAt r - q| ≤ ε * (m.DS - m.ZI)) := by
  constructor
  · intro hq; simp only [dsziQuantile]; rw [if_pos hq]
  · rintro hq1 hq2 ⟨x0, hx0, he0⟩ ⟨xl, hxl, hel⟩ hstep
    refine ⟨interp q (dsziNodes m X), by simp only [dsziQuantile]; rw [if_neg (by push Not; exact ⟨hq1, hq2⟩)], ?_⟩
    have hd : 0 ≤ m.DS - m.ZI := by linarith [h.le]
    have hmono := (C40_cdf m h).1
    cases X with
    | nil => simp at hx0
    | cons x X =>
      simp only [List.head?_cons, Option.some.injEq] at hx0
      subst hx0
      have hasc : Ascending (dsziNodes m (x :: X)) := zip_ascending m.cdfAt hmono hX
      simp only [dsziNodes, List.map_cons] at hasc ⊢
      simp only [interp]
      have hF0 : m.cdfAt x ≤ m.ZI + ε * (m.DS - m.ZI) := by
        have := mul_le_mul_of_nonneg_right he0 hd
        simp only [DSZI.cdfAt]; linarith
      have hFl : m.DS - ε * (m.DS - m.ZI) ≤ m.cdfAt xl := by
        have := mul_le_mul_of_nonneg_right hel hd
        simp only [DSZI.cdfAt]; linarith
      by_cases hc : q < m.cdfAt x
      · rw [if_pos hc, abs_le]; constructor <;> linarith
      · rw [if_neg hc]
        rcases interpAux_cell _ q _ _ hasc (not_lt.1 hc) with ⟨h1, h2⟩ | ⟨i, a, b, ha, hb, haq, hqb, hv⟩
        · have hlast : ((m.cdfAt x, x) :: X.map fun x => (m.cdfAt x, x)).getLast (by simp) = (m.cdfAt xl, xl) := by
            have e : ((m.cdfAt x, x) :: X.map fun x => (m.cdfAt x, x)) = (x :: X).map fun x => (m.cdfAt x, x) := rfl
            rw [List.getLast_eq_iff_getLast?_eq_some, e, List.getLast?_map, hxl]
            rfl
          rw [hlast] at h1 h2
          rw [h2, abs_le]
          simp only at h1 ⊢
          constructor <;> linarith
        · have hbr := interp_bracket hasc q
          simp only [interp] at hbr
          rw [if_neg hc] at hbr
          have hra := hbr.1 a (List.mem_of_getElem? ha) haq
          have hrb := hbr.2 b (List.mem_of_getElem? hb) hqb
          have e : ((m.cdfAt x, x) :: X.map fun x => (m.cdfAt x, x)) = (x :: X).map fun x => (m.cdfAt x, x) := rfl
          rw [e, List.getElem?_map, Option.map_eq_some_iff] at ha hb
          obtain ⟨a', ha', rfl⟩ := ha
          obtain ⟨b', hb', rfl⟩ := hb
          simp only at haq hqb hra hrb
          have hs := mul_le_mul_of_nonneg_right (hstep i a' b' ha' hb') hd
          have m1 := hmono hra
          have m2 := hmono hrb
          have hw : m.cdfAt b' - m.cdfAt a' ≤ ε * (m.DS - m.ZI) := by
            simp only [DSZI.cdfAt]; linarith
          rw [abs_le]; constructor <;> linarith

/-- **C40 (quantile on the library's own grid).** With the internal grid of 1000000 points between the base
distribution's quantiles at 1e-10 and 1 - 1e-10, and a base CDF rising by at most `M` per unit (e.g. `M` a bound on
its density): for every `q` in [ZI, DS] the CDF at the quantile differs from `q` by at most (DS - ZI) times
max(1e-10, M·(grid step)). -/
theorem C40_quantile_grid (m : DSZI) (h : Valid m) (D : Set ℝ)
    (hq : QuantileLaw D m.base.sp.cdf m.base.sp.sf m.base.sp.ppf m.base.sp.isf) (M : ℝ)
    (hM : ∀ a b, a ≤ b → m.base.sp.cdf b - m.base.sp.cdf a ≤ M * (b - a)) (q : ℝ) (h1 : m.ZI ≤ q) (h2 : q ≤ m.DS) :
    ∃ r, dsziQuantile m (dsziGrid m.base 1000000) q = .ok r ∧
      |m.cdfAt r - q| ≤ max (1 / 10 ^ 10)
        (M * ((m.base.sp.ppf (1 - 1 / 10 ^ 10) - m.base.sp.ppf (1 / 10 ^ 10)) / 999999)) * (m.DS - m.ZI) := by
  have c0 := hq.cdf_quantile (1 / 10 ^ 10) (by norm_num) (by norm_num)
  have c1 := hq.cdf_quantile (1 - 1 / 10 ^ 10) (by norm_num) (by norm_num)
  have hlt : m.base.sp.ppf (1 / 10 ^ 10) < m.base.sp.ppf (1 - 1 / 10 ^ 10) := by
    by_contra hc
    have := h.law.mono (not_lt.1 hc)
    rw [c0, c1] at this
    norm_num at this
  have hX : (dsziGrid m.base 1000000).Pairwise (· ≤ ·) := (Np.linspace_strictMono hlt).imp le_of_lt
  refine (C40_quantile m h _ hX q _).2 h1 h2 ⟨m.base.sp.ppf (1 / 10 ^ 10), ?_, ?_⟩
    ⟨m.base.sp.ppf (1 - 1 / 10 ^ 10), ?_, ?_⟩ ?_
  · rw [List.head?_eq_getElem?]; exact Np.linspace_first _ _ _ (by norm_num)
  · rw [c0]; exact le_max_left _ _
  · rw [List.getLast?_eq_getElem?, dsziGrid, Np.linspace_length]; exact Np.linspace_last _ _ _ (by norm_num)
  · rw [c1]; have := le_max_left (1 / 10 ^ 10 : ℝ)
      (M * ((m.base.sp.ppf (1 - 1 / 10 ^ 10) - m.base.sp.ppf (1 / 10 ^ 10)) / 999999)); linarith
  · intro i a b ha hb
    refine (hM a b (consecutive_le hX ha hb)).trans (le_trans (le_of_eq ?_) (le_max_right _ _))
    have hi : i + 1 < 1000000 := by
      have := (List.getElem?_eq_some_iff.1 hb).1
      rwa [dsziGrid, Np.linspace_length] at this
    rw [dsziGrid, Np.linspace_get _ _ _ _ (by omega), Option.some.injEq] at ha
    rw [dsziGrid, Np.linspace_get _ _ _ _ hi, Option.some.injEq] at hb
    have e : ((1000000 - 1 : ℕ) : ℝ) = 999999 := by norm_num
    rw [e] at ha hb
    rw [← ha, ← hb, Nat.cast_add, Nat.cast_one]
    ring

/-- **C40 (finding).** A list of quantiles is only checked against [0,1]: a value above DS (which no time
reaches) is accepted and answered with the last grid point instead of the documented ValueError. -/
theorem C40_quantile_list_finding (m : DSZI) (h : Valid m) (hlt : m.DS < 1) (X : List ℝ) (hX : X.Pairwise (· ≤ ·))
    (xl : ℝ) (hxl : X.getLast? = some xl) :
    dsziQuantileList m X [1] = .ok [xl] ∧ dsziQuantile m X 1 = valueErr ∧ ∀ x, m.cdfAt x ≠ 1 := by
  have hb := (C40_cdf m h).2.2.2.2.1
  refine ⟨?_, ?_, fun x hx => ?_⟩
  · have hq : checkQ [(1:ℝ)] = .ok () := by
      rcases checkQ_cases [(1:ℝ)] with ⟨h, _⟩ | ⟨_, h⟩
      · exact h
      · exact absurd ⟨by simp, by simp⟩ h
    simp only [dsziQuantileList, hq, List.map_cons, List.map_nil]
    congr 2
    cases X with
    | nil => simp at hxl
    | cons x X =>
      have hasc : Ascending (dsziNodes m (x :: X)) := zip_ascending m.cdfAt (C40_cdf m h).1 hX
      simp only [dsziNodes, List.map_cons] at hasc ⊢
      simp only [interp]
      rw [if_neg (by have := (hb x).2; linarith)]
      have e : ((m.cdfAt x, x) :: X.map fun x => (m.cdfAt x, x)) = (x :: X).map fun x => (m.cdfAt x, x) := rfl
      rcases interpAux_cell _ 1 _ _ hasc (by have := (hb x).2; linarith) with ⟨h1, h2⟩ | ⟨i, a, b, ha, hb', haq, hqb, hv⟩
      · have hlast : ((m.cdfAt x, x) :: X.map fun x => (m.cdfAt x, x)).getLast (by simp) = (m.cdfAt xl, xl) := by
          rw [List.getLast_eq_iff_getLast?_eq_some, e, List.getLast?_map, hxl]
          rfl
        rw [h2, hlast]
      · rw [e, List.getElem?_map, Option.map_eq_some_iff] at hb'
        obtain ⟨b', _, rfl⟩ := hb'
        have := (hb b').2
        simp only at hqb
        linarith
  · simp only [dsziQuantile]; rw [if_pos (Or.inr hlt)]
  · have := (hb x).2; linarith

/-- **C40 (mean residual life).** With DS = 1 the value returned (the base distribution's) is the mean residual
life of the DSZI model itself; with DS < 1 `inf` is returned and indeed the survival function is not
integrable. -/
theorem C40_mrl (m : DSZI) (h : Valid m) (t : ℝ) :
    (m.DS = 1 → dsziMRL m t = .fin ((∫ x in Set.Ioi t, (1 - m.cdfAt x)) / (1 - m.cdfAt t))) ∧
    (m.DS < 1 → dsziMRL m t = .pinf ∧
      ¬ MeasureTheory.IntegrableOn (fun x => 1 - m.cdfAt x) (Set.Ioi t)) := by
  constructor
  · intro hd
    have e : ∀ x, 1 - m.cdfAt x = (1 - m.ZI) * m.base.sp.sf x := by
      intro x
      have := h.law.compl x
      simp only [DSZI.cdfAt, hd]
      linear_combination -(1 - m.ZI) * this
    simp only [dsziMRL]
    rw [if_neg (by rw [hd]; exact lt_irrefl _)]
    simp only [e, meanResidualLife]
    rw [MeasureTheory.integral_const_mul, mul_div_mul_left _ _ (by linarith [h.zi1])]
  · intro hd
    refine ⟨by simp only [dsziMRL]; rw [if_pos hd], fun hint => ?_⟩
    have hb := (C40_cdf m h).2.2.2.2.1
    have hc : MeasureTheory.IntegrableOn (fun _ : ℝ => 1 - m.DS) (Set.Ioi t) := by
      refine MeasureTheory.Integrable.mono' hint MeasureTheory.aestronglyMeasurable_const ?_
      refine Filter.Eventually.of_forall fun x => ?_
      rw [Real.norm_eq_abs, abs_of_nonneg (by linarith)]
      have := (hb x).2
      linarith
    rw [MeasureTheory.integrableOn_const_iff] at hc
    rcases hc with h0 | h0
    · rw [enorm_eq_zero] at h0; linarith
    · simp at h0

/-- **C40 (random samples).** For every outcome of the random choices (one per requested sample) and of the base
distribution's draws: without `right_censored_time` and DS < 1, and for a number of samples below 1, ValueError;
otherwise, if at least one sample is a failure, the number of failures plus the number of right censored is the
number requested, every right censored value is the right censored time, and with DS < 1 no failure
exceeds it. With DS = 1 (no sample is immortal) nothing is censored and the failures are the zero-inflated zeros
followed by the draws. -/
theorem C40_samples (m : DSZI) (choices : List (Fin 3)) (draws : ℕ → List ℝ) (hdr : ∀ k, (draws k).length = k)
    (n : ℕ) (hn : choices.length = n) (rct : Option ℝ) :
    ((rct = none ∧ m.DS < 1) ∨ n < 1 → dsziSamples m choices draws n rct = valueErr) ∧
    (¬ (rct = none ∧ m.DS < 1) → 1 ∈ choices →
      ∃ f rc, dsziSamples m choices draws n rct = .ok (f, rc) ∧ f.length + rc.length = n ∧
        (∀ r, rct = some r → ∀ c ∈ rc, c = r) ∧
        (∀ r, rct = some r → m.DS < 1 → ∀ a ∈ f, a ≤ r) ∧
        (∀ r, rct = some r → choices.count 2 ≤ rc.length) ∧
        (m.DS = 1 → 2 ∉ choices → rc = [] ∧ f = List.replicate (choices.count 0) 0 ++ draws (choices.count 1))) := by
  constructor
  · intro h
    simp only [dsziSamples]
    by_cases h1 : rct = none ∧ m.DS < 1
    · rw [if_pos h1]
    · rw [if_neg h1, if_pos (h.resolve_left h1)]
  · intro h1 h2
    have hn1 : ¬ n < 1 := by
      have := List.length_pos_of_mem h2
      omega
    have hc1 : ¬ choices.count 1 < 1 := by
      have := List.count_pos_iff.2 h2
      omega
    simp only [dsziSamples]
    rw [if_neg h1, if_neg hn1, if_neg hc1]
    have hcount : choices.count 0 + choices.count 1 + choices.count 2 = n := by
      rw [← hn]
      clear hdr hn h1 h2 hn1 hc1
      induction choices with
      | nil => rfl
      | cons c cs ih =>
        simp only [List.count_cons, List.length_cons]
        have hc : c = 0 ∨ c = 1 ∨ c = 2 := by omega
        rcases hc with rfl | rfl | rfl <;> simp <;> omega
    generalize hfe : List.replicate (choices.count 0) 0 ++ draws (choices.count 1) = F
    have hlen : F.length = choices.count 0 + choices.count 1 := by
      rw [← hfe]; simp [hdr]
    by_cases hb : m.DS < 1 ∧ F.any (fun f => decide (f > rct.getD 1)) = true
    · rw [if_pos hb]
      refine ⟨_, _, rfl, ?_, ?_, ?_, ?_, fun h => absurd hb.1 (by rw [h]; exact lt_irrefl _)⟩
      · have e : F.countP (fun f => decide (f > rct.getD 1)) +
            (F.filter fun f => ! decide (f > rct.getD 1)).length = F.length := by
          rw [← List.countP_eq_length_filter]
          have := List.length_eq_countP_add_countP (fun f => decide (f > rct.getD 1)) (l := F)
          rw [this]
          congr 2
          funext f
          by_cases hf : f > rct.getD 1 <;> simp [hf]
        simp only [List.length_append, List.length_replicate]
        omega
      · rintro r rfl c hc
        simp only [Option.getD_some, List.mem_append, List.mem_replicate] at hc
        rcases hc with hc | hc <;> exact hc.2
      · rintro r rfl _ a ha
        simpa using (List.mem_filter.1 ha).2
      · rintro r rfl
        simp
    · rw [if_neg hb]
      refine ⟨_, _, rfl, ?_, ?_, ?_, ?_, ?_⟩
      · simp only [List.length_replicate]; omega
      · rintro r rfl c hc
        exact (List.mem_replicate.1 hc).2
      · rintro r rfl hds a ha
        by_contra hcon
        exact hb ⟨hds, List.any_eq_true.2 ⟨a, ha, by simpa using hcon⟩⟩
      · rintro r rfl
        simp
      · intro _ h2'
        rw [List.count_eq_zero_of_not_mem h2']
        exact ⟨rfl, rfl⟩

/-- **C40 (finding).** If none of the samples happens to be an ordinary failure (all zero inflated or immortal —
certain to happen sometimes, e.g. for one sample) `random_samples` raises ValueError. -/
theorem C40_samples_finding (m : DSZI) (choices : List (Fin 3)) (draws : ℕ → List ℝ) (n : ℕ) (rct : Option ℝ)
    (h : 1 ∉ choices) : dsziSamples m choices draws n rct = valueErr := by
  simp only [dsziSamples]
  by_cases h1 : rct = none ∧ m.DS < 1
  · rw [if_pos h1]
  · rw [if_neg h1]
    by_cases h2 : n < 1
    · rw [if_pos h2]
    · rw [if_neg h2, if_pos (by rw [List.count_eq_zero_of_not_mem h]; exact Nat.one_pos)]

/-- **C40 (finding).** The `median` attribute is copied from the base distribution although the DSZI CDF there is
(DS + ZI)/2 (here for a Normal base): it is the DSZI median only if DS + ZI = 1. -/
theorem C40_median_finding (mu sigma : ℝ) (hs : 0 < sigma) (DS ZI : ℝ) :
    (DSZI.mk (normal mu sigma) DS ZI).cdfAt (normalMedian mu) = (DS + ZI) / 2 := by
  simp only [DSZI.cdfAt]
  rw [(C68_median mu sigma hs).2]
  ring

/-- A valid DSZI model with non-degenerate DS and ZI. -/
example : ∃ m, dsziInit (weibull 100 2 0) (some (4/5)) (some (1/10)) = .ok m ∧ Valid m := by
  rcases C40_init (weibull 100 2 0) (some (4/5)) (some (1/10)) with ⟨m, h, hb, h1, h2, _, h3⟩ | ⟨_, h⟩
  · refine ⟨m, h, ?_, h3.1, h3.2.1, h3.2.2.1, h3.2.2.2.1, h3.2.2.2.2⟩
    rw [hb]
    exact (C33_weibull 100 2 0 (by norm_num) (by norm_num)).1
  · exfalso; apply h; refine ⟨Or.inl (by simp), ?_⟩; simp only [Option.getD_some]; norm_num

/-- An Exponential base meets the hypotheses of C40_quantile_grid. -/
example : ∃ r, dsziQuantile ⟨exponential 1 0, 9/10, 1/10⟩ (dsziGrid (exponential 1 0) 1000000) (1/2) = .ok r := by
  have hv : Valid ⟨exponential 1 0, 9/10, 1/10⟩ :=
    ⟨(C33_exponential 1 0 one_pos).1, by norm_num, by norm_num, by norm_num, by norm_num, by norm_num⟩
  obtain ⟨r, hr, _⟩ := C40_quantile_grid ⟨exponential 1 0, 9/10, 1/10⟩ hv _ (C34_exponential 1 0 one_pos) 1 (by
    intro a b hab
    simp only [exponential, locScale, exponStd, sub_zero, div_one]
    by_cases hb : b ≤ 0
    · rw [if_pos hb, if_pos (hab.trans hb)]; linarith
    · rw [if_neg hb]
      by_cases ha : a ≤ 0
      · rw [if_pos ha]
        have := Real.add_one_le_exp (-b)
        linarith
      · rw [if_neg ha]
        have h1 := Real.add_one_le_exp (a - b)
        have h2 : Real.exp (-b) = Real.exp (-a) * Real.exp (a - b) := by rw [← Real.exp_add]; congr 1; ring
        have h3 : Real.exp (-a) ≤ 1 := Real.exp_le_one_iff.2 (by linarith)
        have h4 := Real.exp_pos (-a)
        have h5 : Real.exp (a - b) ≤ 1 := Real.exp_le_one_iff.2 (by linarith)
        rw [h2]
        nlinarith) (1/2) (by norm_num) (by norm_num)
  exact ⟨r, hr⟩

/-- Random samples meeting the hypotheses of C40_samples: two zeros, two failures (one late), one immortal. -/
example : ∃ f rc, dsziSamples ⟨exponential 1 0, 4/5, 1/10⟩ [0, 1, 2, 0, 1] (fun k => (List.range k).map fun i : ℕ => (i : ℝ) + 1) 5 (some (3/2)) = .ok (f, rc) ∧ f.length + rc.length = 5 := by
  obtain ⟨f, rc, h, h', _⟩ := (C40_samples ⟨exponential 1 0, 4/5, 1/10⟩ [0, 1, 2, 0, 1]
    (fun k => (List.range k).map fun i : ℕ => (i : ℝ) + 1) (by simp) 5 rfl (some (3/2))).2 (by simp) (by simp)
  exact ⟨f, rc, h, h'⟩

end Reliability.Props.DSZI

import Verif.Model.PoFPlot
import Verif.Spec.PoFPlot
import Verif.Props.StrainLife
import Verif.Props.GrowthPlot

/-! # C150: the strain-life diagram as drawn -/

namespace Reliability.Props

open Reliability Reliability.Fatigue Reliability.Spec List
open Reliability.Props.CrackInit (life_exists life_strict life_unique)
open Reliability.Repairable (decadeUp decadeDown)

namespace SLP

/-! ## The grid -/

theorem grid_get {i : ℕ} (hi : i < 1000) : reversalGrid[i]? = some ((10 : ℝ) ^ (1 + 7 * (i : ℝ) / 999)) := by
  unfold reversalGrid linspace
  rw [getElem?_map, getElem?_map, getElem?_range hi]
  simp only [Option.map_some, Option.some.injEq]
  congr 1
  ring

theorem grid_length : reversalGrid.length = 1000 := by
  unfold reversalGrid
  rw [length_map, linspace_length]

theorem grid_mem {x : ℝ} (h : x ∈ reversalGrid) : 10 ≤ x ∧ x ≤ 10 ^ 8 := by
  unfold reversalGrid at h
  obtain ⟨u, hu, rfl⟩ := mem_map.1 h
  obtain ⟨v, h0, h1, rfl⟩ := linspace_mem hu
  constructor
  · calc (10 : ℝ) = 10 ^ (1 : ℝ) := (Real.rpow_one _).symm
      _ ≤ _ := Real.rpow_le_rpow_of_exponent_le (by norm_num) (by nlinarith)
  · calc (10 : ℝ) ^ (1 + v * (8 - 1)) ≤ (10 : ℝ) ^ (8 : ℝ) := Real.rpow_le_rpow_of_exponent_le (by norm_num) (by nlinarith)
      _ = _ := by rw [← Real.rpow_natCast]; norm_num

theorem grid_first : (10 : ℝ) ∈ reversalGrid := by
  have := grid_get (i := 0) (by norm_num)
  have h := List.mem_of_getElem? this
  simpa using h

theorem grid_last : (10 ^ 8 : ℝ) ∈ reversalGrid := by
  have := grid_get (i := 999) (by norm_num)
  have h := List.mem_of_getElem? this
  have e : (10 : ℝ) ^ (1 + 7 * ((999 : ℕ) : ℝ) / 999) = 10 ^ 8 := by
    rw [show (1 + 7 * ((999 : ℕ) : ℝ) / 999) = ((8 : ℕ) : ℝ) by push_cast; norm_num, Real.rpow_natCast]
  rwa [e] at h

theorem grid_min : reversalGrid.min? = some 10 := (Np.min?_iff _ _).2 ⟨grid_first, fun _ h => (grid_mem h).1⟩
theorem grid_max : reversalGrid.max? = some (10 ^ 8) := (Np.max?_iff _ _).2 ⟨grid_last, fun _ h => (grid_mem h).2⟩

attribute [local irreducible] reversalGrid

/-! ## The curves -/

/-- All four forms of the diagram are a sum of two falling powers. -/
theorem forms {p : SLIn} (hp : LifeParams p) {S ms : ℝ} (hS : 0 < S ∨ ms = 0) (hms : ms < p.sigma_f) :
    ∃ α β u v : ℝ, 0 < α ∧ 0 < β ∧ u < 0 ∧ v < 0 ∧ v - u = p.c - p.b ∧ ∀ x, slElastic p S ms x = α * x ^ u ∧
      slPlastic p S ms x = β * x ^ v ∧ slTotal p S ms x = α * x ^ u + β * x ^ v := by
  obtain ⟨hE, hA, hB, hb, hc, hm⟩ := hp
  have hAm : 0 < p.sigma_f - ms := by linarith
  unfold slElastic slPlastic slTotal
  by_cases h0 : ms = 0
  · simp only [if_pos h0]
    exact ⟨p.sigma_f / p.E, p.epsilon_f, p.b, p.c, by positivity, hB, hb, hc, rfl, fun x => ⟨rfl, rfl, rfl⟩⟩
  have hS : 0 < S := hS.resolve_right h0
  simp only [if_neg h0]
  by_cases h1 : p.method = "morrow"
  · simp only [if_pos h1]
    exact ⟨(p.sigma_f - ms) / p.E, p.epsilon_f, p.b, p.c, by positivity, hB, hb, hc, rfl, fun x => ⟨rfl, rfl, rfl⟩⟩
  simp only [if_neg h1]
  by_cases h2 : p.method = "modified_morrow" ∨ p.method = "modified morrow"
  · simp only [if_pos h2]
    exact ⟨(p.sigma_f - ms) / p.E, p.epsilon_f * ((p.sigma_f - ms) / p.sigma_f) ^ (p.c / p.b), p.b, p.c, by positivity,
      by positivity, hb, hc, rfl, fun x => ⟨rfl, rfl, rfl⟩⟩
  · simp only [if_neg h2]
    refine ⟨p.sigma_f ^ 2 / p.E / S, p.sigma_f * p.epsilon_f / S, 2 * p.b, p.b + p.c, by positivity, by positivity,
      by linarith, by linarith, by ring, fun x => ⟨by ring, by ring, by ring⟩⟩

theorem total_spec {p : SLIn} (hp : LifeParams p) {S ms : ℝ} (hS : 0 < S ∨ ms = 0) (x y : ℝ) :
    StrainLife p.method p.E p.sigma_f p.epsilon_f p.b p.c S ms y x ↔ y = slTotal p S ms x := by
  unfold StrainLife slTotal
  by_cases h0 : ms = 0
  · simp only [if_pos h0]
  have hS : 0 < S := hS.resolve_right h0
  simp only [if_neg h0]
  rcases hp.method with h | h | h | h <;> simp only [h]
  · simp
  · simp
  · simp
  · simp only [if_true, String.reduceEq, if_false, or_self]
    rw [eq_div_iff hS.ne', mul_comm]

theorem elastic_spec {p : SLIn} (hp : LifeParams p) {S ms : ℝ} (hS : 0 < S ∨ ms = 0) (x : ℝ) :
    ElasticStrain p.method p.E p.sigma_f p.b S ms x (slElastic p S ms x) := by
  unfold ElasticStrain slElastic
  by_cases h0 : ms = 0
  · simp only [if_pos h0]
  have hS : 0 < S := hS.resolve_right h0
  simp only [if_neg h0]
  rcases hp.method with h | h | h | h <;> simp [h]
  field_simp

theorem plastic_spec {p : SLIn} (hp : LifeParams p) {S ms : ℝ} (hS : 0 < S ∨ ms = 0) (x : ℝ) :
    PlasticStrain p.method p.sigma_f p.epsilon_f p.b p.c S ms x (slPlastic p S ms x) := by
  unfold PlasticStrain slPlastic
  by_cases h0 : ms = 0
  · simp only [if_pos h0]
  have hS : 0 < S := hS.resolve_right h0
  simp only [if_neg h0]
  rcases hp.method with h | h | h | h <;> simp [h]
  field_simp

theorem equal_spec {p : SLIn} (hp : LifeParams p) {S ms : ℝ} (hS : 0 < S ∨ ms = 0) (x : ℝ) :
    EqualParts p.method p.E p.sigma_f p.epsilon_f p.b p.c ms x ↔ slElastic p S ms x = slPlastic p S ms x := by
  unfold EqualParts slElastic slPlastic
  by_cases h0 : ms = 0
  · simp only [if_pos h0]
  have hS : 0 < S := hS.resolve_right h0
  simp only [if_neg h0]
  rcases hp.method with h | h | h | h <;> simp only [h]
  · simp
  · simp
  · simp
  · simp only [if_true, String.reduceEq, if_false, or_self]
    rw [div_left_inj' hS.ne']

/-- What the curves are, for the two plots. -/
def CurvesOK (p : SLIn) (S ms : ℝ) (d : SLPlot) : Prop :=
  d.xs.length = 1000 ∧ ∀ i : ℕ, i < 1000 → d.xs[i]? = some ((10 : ℝ) ^ (1 + 7 * (i : ℝ) / 999)) ∧
    ∃ t pl el, d.total[i]? = some t ∧ d.plastic[i]? = some pl ∧ d.elastic[i]? = some el ∧ t = el + pl ∧
      StrainLife p.method p.E p.sigma_f p.epsilon_f p.b p.c S ms t ((10 : ℝ) ^ (1 + 7 * (i : ℝ) / 999)) ∧
      ElasticStrain p.method p.E p.sigma_f p.b S ms ((10 : ℝ) ^ (1 + 7 * (i : ℝ) / 999)) el ∧
      PlasticStrain p.method p.sigma_f p.epsilon_f p.b p.c S ms ((10 : ℝ) ^ (1 + 7 * (i : ℝ) / 999)) pl

theorem base_curves {p : SLIn} (hp : LifeParams p) {S ms : ℝ} (hS : 0 < S ∨ ms = 0) (hms : ms < p.sigma_f) (nt : ℝ) :
    CurvesOK p S ms (slBase p S ms nt) := by
  refine ⟨grid_length, fun i hi => ⟨grid_get hi, ?_⟩⟩
  obtain ⟨α, β, u, v, -, -, -, -, -, hf⟩ := forms hp hS hms
  refine ⟨slTotal p S ms _, slPlastic p S ms _, slElastic p S ms _, ?_, ?_, ?_, ?_, (total_spec hp hS _ _).2 rfl,
    elastic_spec hp hS _, plastic_spec hp hS _⟩
  · unfold slBase; simp only []; rw [getElem?_map, grid_get hi]; rfl
  · unfold slBase; simp only []; rw [getElem?_map, grid_get hi]; rfl
  · unfold slBase; simp only []; rw [getElem?_map, grid_get hi]; rfl
  · rw [(hf _).1, (hf _).2.1, (hf _).2.2]

/-- The limits: the x-axis is the grid; the y-axis runs between the powers of ten nearest around the plastic strain and the total
strain. -/
def LimitsOK (d : SLPlot) : Prop :=
  d.xlim = (10, 10 ^ 8) ∧ ∃ a b : ℤ, d.ylim = ((10 : ℝ) ^ a, (10 : ℝ) ^ b) ∧
    (∀ y ∈ d.total ++ d.plastic, (10 : ℝ) ^ a ≤ y ∧ y ≤ (10 : ℝ) ^ b) ∧ (∀ y ∈ d.elastic, 0 < y ∧ y ≤ (10 : ℝ) ^ b) ∧
    (∃ y ∈ d.plastic, y < (10 : ℝ) ^ (a + 1)) ∧ ∃ y ∈ d.total, (10 : ℝ) ^ (b - 1) < y

theorem decadeDown_next {x : ℝ} (hx : 0 < x) : x < (10 : ℝ) ^ (⌊Real.logb 10 x⌋ + 1 : ℤ) := by
  rw [← Real.rpow_intCast]
  calc x = (10 : ℝ) ^ (Real.logb 10 x) := (Real.rpow_logb (by norm_num) (by norm_num) hx).symm
    _ < _ := Real.rpow_lt_rpow_of_exponent_lt (by norm_num) (by push_cast; exact Int.lt_floor_add_one _)

theorem decadeUp_prev {x : ℝ} (hx : 0 < x) : (10 : ℝ) ^ (⌈Real.logb 10 x⌉ - 1 : ℤ) < x := by
  rw [← Real.rpow_intCast]
  calc (10 : ℝ) ^ ((⌈Real.logb 10 x⌉ - 1 : ℤ) : ℝ) < (10 : ℝ) ^ (Real.logb 10 x) :=
        Real.rpow_lt_rpow_of_exponent_lt (by norm_num) (by push_cast; linarith [Int.ceil_lt_add_one (Real.logb 10 x)])
    _ = x := Real.rpow_logb (by norm_num) (by norm_num) hx

theorem min_map {f : ℝ → ℝ} : ∃ a, (reversalGrid.map f).min? = some a ∧ a ∈ reversalGrid.map f ∧
    ∀ y ∈ reversalGrid.map f, a ≤ y := by
  cases h : (reversalGrid.map f).min? with
  | none =>
    rw [min?_eq_none_iff, map_eq_nil_iff] at h
    exact absurd (h ▸ grid_first) not_mem_nil
  | some a => exact ⟨a, rfl, ((Np.min?_iff _ _).1 h).1, ((Np.min?_iff _ _).1 h).2⟩

theorem max_map {f : ℝ → ℝ} : ∃ a, (reversalGrid.map f).max? = some a ∧ a ∈ reversalGrid.map f ∧
    ∀ y ∈ reversalGrid.map f, y ≤ a := by
  cases h : (reversalGrid.map f).max? with
  | none =>
    rw [max?_eq_none_iff, map_eq_nil_iff] at h
    exact absurd (h ▸ grid_first) not_mem_nil
  | some a => exact ⟨a, rfl, ((Np.max?_iff _ _).1 h).1, ((Np.max?_iff _ _).1 h).2⟩

theorem base_limits {p : SLIn} (hp : LifeParams p) {S ms : ℝ} (hS : 0 < S ∨ ms = 0) (hms : ms < p.sigma_f) (nt : ℝ) :
    LimitsOK (slBase p S ms nt) := by
  obtain ⟨α, β, u, v, hα, hβ, -, -, -, hf⟩ := forms hp hS hms
  obtain ⟨lo, hlo, hlom, hlob⟩ := min_map (f := slPlastic p S ms)
  obtain ⟨hi, hhi, hhim, hhib⟩ := max_map (f := slTotal p S ms)
  have pos : ∀ x ∈ reversalGrid, 0 < slPlastic p S ms x ∧ 0 < slElastic p S ms x ∧
      slTotal p S ms x = slElastic p S ms x + slPlastic p S ms x := by
    intro x hx
    have h0 : 0 < x := by linarith [(grid_mem hx).1]
    rw [(hf x).1, (hf x).2.1, (hf x).2.2]
    exact ⟨by positivity, by positivity, rfl⟩
  obtain ⟨x1, hx1, rfl⟩ := mem_map.1 hlom
  obtain ⟨x2, hx2, rfl⟩ := mem_map.1 hhim
  have p1 := (pos x1 hx1).1
  have p2 : 0 < slTotal p S ms x2 := by have := pos x2 hx2; linarith
  have low := Repairable.GPlot.decadeDown_le p1
  have high := Repairable.GPlot.decadeUp_ge p2
  unfold decadeDown at low
  unfold decadeUp at high
  unfold LimitsOK slBase
  simp only []
  refine ⟨by rw [grid_min, grid_max]; rfl, ⌊Real.logb 10 (slPlastic p S ms x1)⌋, ⌈Real.logb 10 (slTotal p S ms x2)⌉, ?_, ?_, ?_,
    ⟨_, hlom, decadeDown_next p1⟩, ⟨_, hhim, decadeUp_prev p2⟩⟩
  · unfold slYlim
    rw [hlo, hhi]
    rfl
  · intro y hy
    rcases mem_append.1 hy with hy | hy
    · obtain ⟨x, hx, rfl⟩ := mem_map.1 hy
      have := pos x hx
      exact ⟨by linarith [hlob _ (mem_map_of_mem hx), low], (hhib _ hy).trans high⟩
    · obtain ⟨x, hx, rfl⟩ := mem_map.1 hy
      have := pos x hx
      exact ⟨low.trans (hlob _ hy), by linarith [hhib _ (mem_map_of_mem hx), high]⟩
  · intro y hy
    obtain ⟨x, hx, rfl⟩ := mem_map.1 hy
    have := pos x hx
    exact ⟨this.2.1, by linarith [hhib _ (mem_map_of_mem hx), high]⟩

/-! ## The call -/

/-- What a call with a load has drawn. -/
theorem loaded {fs : Solver} {p : SLIn} {r : SLOut} {d : SLPlot} (h : strainLifePlot fs p true = .ok (.life r, some d)) :
    strainLife fs p = .ok (some r) ∧ ∃ m, r.min_strain = some m ∧ d = slDraw p r ((r.max_strain - m) / 2) := by
  unfold strainLifePlot at h
  cases hs : strainLife fs p with
  | error e => rw [hs] at h; cases h
  | ok o =>
    rw [hs] at h
    simp only [Except.map, Except.ok.injEq] at h
    cases o with
    | none => simp [slFinish] at h
    | some r' =>
      simp only [slFinish, if_true, Prod.mk.injEq, SLAttr.life.injEq] at h
      obtain ⟨rfl, h⟩ := h
      obtain ⟨m, hm, hd⟩ := Option.map_eq_some_iff.1 h
      exact ⟨rfl, m, hm, hd.symm⟩

/-- The mean stress of a load. -/
noncomputable abbrev mean (r : SLOut) : ℝ := (r.max_stress + r.min_stress) / 2

theorem mean_eq (r : SLOut) : r.min_stress + (r.max_stress - r.min_stress) / 2 = mean r := by unfold mean; ring

/-- The reversals behind the reported life. -/
theorem life_reversals {fs : Solver} {p : SLIn} {r : SLOut} (h : strainLife fs p = .ok (some r)) :
    reversals fs p r.max_stress r.max_strain (mean r) (r.min_strain.map fun m => (r.max_strain - m) / 2) =
      .ok (2 * r.cycles_to_failure, r.cycles_2Nt) := by
  unfold strainLife at h
  repeat (split at h; · cases h)
  split at h
  swap
  · cases h
  cases hl : slLoading fs p (p.K.getD 0) (p.n.getD 0) with
  | error e => rw [hl] at h; cases h
  | ok q =>
    obtain ⟨S, s, e, m⟩ := q
    rw [hl] at h
    simp only at h
    cases hr : reversals fs p S e (s + (S - s) / 2) (m.map fun m => (e - m) / 2) with
    | error e => rw [hr] at h; cases h
    | ok q =>
      obtain ⟨n2, nt⟩ := q
      rw [hr] at h
      simp only [Except.ok.injEq, Option.some.injEq] at h
      subst h
      simp only [mean]
      rw [show 2 * (n2 / 2) = n2 by ring, show (S + s) / 2 = s + (S - s) / 2 by ring]
      exact hr

/-- **C150 (curves).** The red curve is the strain-life relation of the chosen method at the mean stress of the load, from 10 to 10⁸
reversals; the other two are its elastic and plastic parts and add up to it at every point. -/
theorem C150_curves (fs : Solver) (p : SLIn) (hp : LifeParams p) (r : SLOut) (d : SLPlot)
    (h : strainLifePlot fs p true = .ok (.life r, some d)) (hS : 0 < r.max_stress) (hms : mean r < p.sigma_f) :
    CurvesOK p r.max_stress (mean r) d := by
  obtain ⟨-, m, -, rfl⟩ := loaded h
  have := base_curves hp (Or.inl hS) hms r.cycles_2Nt
  rw [← mean_eq] at this ⊢
  exact this

/-- **C150 (limits).** -/
theorem C150_limits (fs : Solver) (p : SLIn) (hp : LifeParams p) (r : SLOut) (d : SLPlot)
    (h : strainLifePlot fs p true = .ok (.life r, some d)) (hS : 0 < r.max_stress) (hms : mean r < p.sigma_f) :
    LimitsOK d := by
  obtain ⟨-, m, -, rfl⟩ := loaded h
  have := base_limits hp (Or.inl hS) hms r.cycles_2Nt
  rw [← mean_eq] at this
  exact this

/-- The load: largest and smallest strain, with a mean stress below `sigma_f`.  If the mean stress is 0 the strain is reversed too. -/
structure Load (p : SLIn) (r : SLOut) (m : ℝ) : Prop where
  stress : 0 < r.max_stress
  mean : mean r < p.sigma_f
  strain : 0 < r.max_strain
  min_strain : r.min_strain = some m
  range : m < r.max_strain
  reversed : SLP.mean r = 0 → m = -r.max_strain

theorem load_reversals {fs : Solver} (hfs : RootFinder fs) {p : SLIn} (hp : LifeParams p) {r : SLOut} {m : ℝ} (hl : Load p r m)
    (h : strainLife fs p = .ok (some r)) : 0 < 2 * r.cycles_to_failure ∧
      StrainLife p.method p.E p.sigma_f p.epsilon_f p.b p.c r.max_stress (mean r) ((r.max_strain - m) / 2)
        (2 * r.cycles_to_failure) ∧ 0 < r.cycles_2Nt ∧
      (p.b ≠ p.c → EqualParts p.method p.E p.sigma_f p.epsilon_f p.b p.c (mean r) r.cycles_2Nt) := by
  have h1 := life_reversals h
  rw [hl.min_strain] at h1
  obtain ⟨n2, nt, h2, h3⟩ := reversals_spec hfs hp hl.stress hl.strain (half := (r.max_strain - m) / 2) (by linarith [hl.range]) hl.mean
    (fun h0 => by rw [hl.reversed h0]; ring)
  rw [Option.map_some, h2] at h1
  simp only [Except.ok.injEq, Prod.mk.injEq] at h1
  rw [← h1.1, ← h1.2]
  exact h3

/-- **C150 (the load).** The marked point is the reported life (in reversals) and the strain amplitude, and it lies on the red curve
(the relation of `C150_curves`); the dashed lines lead from it to the left and down. -/
theorem C150_point (fs : Solver) (hfs : RootFinder fs) (p : SLIn) (hp : LifeParams p) (r : SLOut) (m : ℝ) (hl : Load p r m) (d : SLPlot)
    (h : strainLifePlot fs p true = .ok (.life r, some d)) :
    ∃ n2 a, d.point = some (n2, a) ∧ n2 = 2 * r.cycles_to_failure ∧ 0 < n2 ∧ a = (r.max_strain - m) / 2 ∧
      StrainLife p.method p.E p.sigma_f p.epsilon_f p.b p.c r.max_stress (mean r) a n2 ∧
      d.guide = [(1, a), (n2, a), (n2, 0)] := by
  obtain ⟨hs, m', hm', rfl⟩ := loaded h
  rw [hl.min_strain, Option.some.injEq] at hm'
  subst hm'
  obtain ⟨h1, h2, -⟩ := load_reversals hfs hp hl hs
  refine ⟨r.cycles_to_failure * 2, (r.max_strain - m) / 2, rfl, mul_comm _ _, by linarith, rfl, ?_, rfl⟩
  rw [mul_comm (r.cycles_to_failure)]
  exact h2

/-- The red curve falls. -/
theorem falls {p : SLIn} (hp : LifeParams p) {S ms : ℝ} (hS : 0 < S ∨ ms = 0) (hms : ms < p.sigma_f) {x y : ℝ} (hx : 0 < x)
    (hxy : x < y) : slTotal p S ms y < slTotal p S ms x := by
  obtain ⟨α, β, u, v, hα, hβ, hu, hv, -, hf⟩ := forms hp hS hms
  rw [(hf x).2.2, (hf y).2.2]
  exact life_strict hα hβ.le hu hv hx hxy

theorem falls_iff {p : SLIn} (hp : LifeParams p) {S ms : ℝ} (hS : 0 < S ∨ ms = 0) (hms : ms < p.sigma_f) {x y : ℝ} (hx : 0 < x)
    (hy : 0 < y) : slTotal p S ms y ≤ slTotal p S ms x ↔ x ≤ y := by
  constructor
  · intro h
    by_contra hc
    exact absurd h (not_le.2 (falls hp hS hms hy (not_le.1 hc)))
  · intro h
    rcases h.lt_or_eq with h | rfl
    · exact (falls hp hS hms hx h).le
    · exact le_rfl

/-- **C150 (is the load seen?).** The marked point is within the axes exactly if the life is between 10 and 10⁸ reversals, i.e. if the
amplitude is between the ends of the red curve. -/
theorem C150_visible (fs : Solver) (hfs : RootFinder fs) (p : SLIn) (hp : LifeParams p) (r : SLOut) (m : ℝ) (hl : Load p r m)
    (d : SLPlot) (h : strainLifePlot fs p true = .ok (.life r, some d)) (q : ℝ × ℝ) (hq : d.point = some q) :
    (Visible d.xlim d.ylim q ↔ 10 ≤ 2 * r.cycles_to_failure ∧ 2 * r.cycles_to_failure ≤ 10 ^ 8) ∧
    ∃ first last, d.total[0]? = some first ∧ d.total[999]? = some last ∧
      (Visible d.xlim d.ylim q ↔ last ≤ (r.max_strain - m) / 2 ∧ (r.max_strain - m) / 2 ≤ first) := by
  obtain ⟨n2, a, hpt, hn2, hpos, ha, hrel, -⟩ := C150_point fs hfs p hp r m hl d h
  rw [hpt, Option.some.injEq] at hq
  subst hq
  have hS : 0 < r.max_stress ∨ mean r = 0 := Or.inl hl.stress
  rw [total_spec hp hS] at hrel
  obtain ⟨-, hcur⟩ := C150_curves fs p hp r d h hl.stress hl.mean
  obtain ⟨hxl, lo, hi, hyl, hb, -⟩ := C150_limits fs p hp r d h hl.stress hl.mean
  obtain ⟨-, t0, -, -, ht0, -, -, -, hr0, -⟩ := hcur 0 (by norm_num)
  obtain ⟨-, t9, -, -, ht9, -, -, -, hr9, -⟩ := hcur 999 (by norm_num)
  rw [total_spec hp hS] at hr0 hr9
  rw [show (1 + 7 * ((0 : ℕ) : ℝ) / 999) = 1 by push_cast; norm_num, Real.rpow_one] at hr0
  rw [show (1 + 7 * ((999 : ℕ) : ℝ) / 999) = ((8 : ℕ) : ℝ) by push_cast; norm_num, Real.rpow_natCast] at hr9
  have e1 : t9 ≤ a ↔ n2 ≤ 10 ^ 8 := by rw [hr9, hrel]; exact falls_iff hp hS hl.mean hpos (by norm_num)
  have e2 : a ≤ t0 ↔ 10 ≤ n2 := by rw [hr0, hrel]; exact falls_iff hp hS hl.mean (by norm_num) hpos
  have key : Visible d.xlim d.ylim (n2, a) ↔ 10 ≤ n2 ∧ n2 ≤ 10 ^ 8 := by
    unfold Visible
    rw [hxl, hyl]
    simp only []
    constructor
    · exact fun h => ⟨h.1, h.2.1⟩
    · rintro ⟨h1, h2⟩
      exact ⟨h1, h2, (hb t9 (mem_append_left _ (mem_of_getElem? ht9))).1.trans (e1.2 h2),
        (e2.2 h1).trans (hb t0 (mem_append_left _ (mem_of_getElem? ht0))).2⟩
  rw [← hn2, ← ha]
  refine ⟨key, t0, t9, ht0, ht9, ?_⟩
  rw [key, e1, e2]
  exact and_comm

/-- **C150 (transition).** The dashed red line stands where the elastic and the plastic strain are equal and ends on the red curve, at
twice either of them. -/
theorem C150_transition (fs : Solver) (hfs : RootFinder fs) (p : SLIn) (hp : LifeParams p) (hbc : p.b ≠ p.c) (r : SLOut) (m : ℝ)
    (hl : Load p r m) (d : SLPlot) (h : strainLifePlot fs p true = .ok (.life r, some d)) :
    ∃ nt top, d.transition = [(nt, 1 / 10 ^ 6), (nt, top)] ∧ 0 < nt ∧
      EqualParts p.method p.E p.sigma_f p.epsilon_f p.b p.c (mean r) nt ∧
      StrainLife p.method p.E p.sigma_f p.epsilon_f p.b p.c r.max_stress (mean r) top nt ∧
      ElasticStrain p.method p.E p.sigma_f p.b r.max_stress (mean r) nt (top / 2) ∧
      PlasticStrain p.method p.sigma_f p.epsilon_f p.b p.c r.max_stress (mean r) nt (top / 2) := by
  obtain ⟨hs, m', hm', rfl⟩ := loaded h
  obtain ⟨-, -, h3, h4⟩ := load_reversals hfs hp hl hs
  have hS : 0 < r.max_stress ∨ mean r = 0 := Or.inl hl.stress
  have heq := (equal_spec hp hS _).1 (h4 hbc)
  obtain ⟨α, β, u, v, -, -, -, -, -, hf⟩ := forms hp hS hl.mean
  have hsum : slTotal p r.max_stress (mean r) r.cycles_2Nt =
      slElastic p r.max_stress (mean r) r.cycles_2Nt + slPlastic p r.max_stress (mean r) r.cycles_2Nt := by
    rw [(hf _).1, (hf _).2.1, (hf _).2.2]
  refine ⟨r.cycles_2Nt, slTotal p r.max_stress (mean r) r.cycles_2Nt, ?_, h3, h4 hbc, (total_spec hp hS _ _).2 rfl, ?_, ?_⟩
  · unfold slDraw slBase
    simp only [mean_eq]
    norm_num
  · have e : slTotal p r.max_stress (mean r) r.cycles_2Nt / 2 = slElastic p r.max_stress (mean r) r.cycles_2Nt := by
      rw [hsum, ← heq]; ring
    rw [e]
    exact elastic_spec hp hS _
  · have e : slTotal p r.max_stress (mean r) r.cycles_2Nt / 2 = slPlastic p r.max_stress (mean r) r.cycles_2Nt := by
      rw [hsum, heq]; ring
    rw [e]
    exact plastic_spec hp hS _

/-- **C150 (numbers).** The plot names the life and the transition life, rounded down, and the amplitude; the names stand on the sides
that face away from each other. -/
theorem C150_notes (fs : Solver) (p : SLIn) (r : SLOut) (m : ℝ) (hm : r.min_strain = some m) (d : SLPlot)
    (h : strainLifePlot fs p true = .ok (.life r, some d)) :
    ∃ A B C, d.notes = [A, B, C] ∧ A.name = "2N_t" ∧ A.x = r.cycles_2Nt ∧ A.value ≤ r.cycles_2Nt ∧ r.cycles_2Nt < A.value + 1 ∧
      B.name = "Life" ∧ B.x = 2 * r.cycles_to_failure ∧ B.value ≤ 2 * r.cycles_to_failure ∧
      2 * r.cycles_to_failure < B.value + 1 ∧ (∃ j k : ℤ, A.value = j ∧ B.value = k) ∧ A.y = d.ylim.1 ∧ B.y = d.ylim.1 ∧
      (A.toRight = true ↔ B.x < A.x) ∧ (B.toRight = true ↔ A.x ≤ B.x) ∧
      C.name = "e_a" ∧ C.value = (r.max_strain - m) / 2 ∧ C.x = 10 ∧ C.y = C.value ∧ C.toRight = true := by
  obtain ⟨hs, m', hm', rfl⟩ := loaded h
  rw [hm, Option.some.injEq] at hm'
  subst hm'
  refine ⟨_, _, _, rfl, rfl, rfl, Int.floor_le _, Int.lt_floor_add_one _, rfl, mul_comm _ _, ?_, ?_, ⟨_, _, rfl, rfl⟩, rfl, rfl, ?_, ?_,
    rfl, rfl, rfl, rfl, rfl⟩
  · rw [mul_comm]; exact Int.floor_le _
  · rw [mul_comm]; exact Int.lt_floor_add_one _
  · simp
  · simp

/-- **C150 (elastic line).** If elastic strain falls more slowly than plastic strain, as in metals, and the transition life is at most
10⁸ reversals, the elastic line is within the axes. -/
theorem C150_elastic (fs : Solver) (hfs : RootFinder fs) (p : SLIn) (hp : LifeParams p) (hbc : p.c < p.b) (r : SLOut) (m : ℝ)
    (hl : Load p r m) (d : SLPlot) (h : strainLifePlot fs p true = .ok (.life r, some d)) (hnt : r.cycles_2Nt ≤ 10 ^ 8) :
    ∀ y ∈ d.elastic, d.ylim.1 ≤ y ∧ y ≤ d.ylim.2 := by
  obtain ⟨hxl, lo, hi, hyl, hb, he, -⟩ := C150_limits fs p hp r d h hl.stress hl.mean
  obtain ⟨hs, m', hm', rfl⟩ := loaded h
  obtain ⟨-, -, h3, h4⟩ := load_reversals hfs hp hl hs
  have hS : 0 < r.max_stress ∨ mean r = 0 := Or.inl hl.stress
  have heq := (equal_spec hp hS _).1 (h4 hbc.ne')
  obtain ⟨α, β, u, v, hα, hβ, hu, hv, huv, hf⟩ := forms hp hS hl.mean
  rw [(hf _).1, (hf _).2.1] at heq
  intro y hy
  rw [hyl]
  refine ⟨?_, (he y hy).2⟩
  have hel : (slDraw p r ((r.max_strain - m') / 2)).elastic = reversalGrid.map (slElastic p r.max_stress (mean r)) := by
    unfold slDraw slBase; simp only [mean_eq]
  have hpl : (slDraw p r ((r.max_strain - m') / 2)).plastic = reversalGrid.map (slPlastic p r.max_stress (mean r)) := by
    unfold slDraw slBase; simp only [mean_eq]
  rw [hel] at hy
  obtain ⟨x, hx, rfl⟩ := mem_map.1 hy
  have hx0 : 0 < x := by linarith [(grid_mem hx).1]
  have hlast := (hb (slPlastic p r.max_stress (mean r) (10 ^ 8)) (mem_append_right _ (by rw [hpl]; exact mem_map_of_mem grid_last))).1
  refine hlast.trans ?_
  rw [(hf _).1, (hf _).2.1]
  have step1 : β * ((10 : ℝ) ^ 8) ^ v ≤ α * ((10 : ℝ) ^ 8) ^ u := by
    have hA : (0 : ℝ) < (10 : ℝ) ^ 8 := by norm_num
    have hu' : ((10 : ℝ) ^ 8) ^ v = ((10 : ℝ) ^ 8) ^ u * ((10 : ℝ) ^ 8) ^ (v - u) := by rw [← Real.rpow_add hA]; congr 1; ring
    have hn' : r.cycles_2Nt ^ v = r.cycles_2Nt ^ u * r.cycles_2Nt ^ (v - u) := by rw [← Real.rpow_add h3]; congr 1; ring
    have hanti : ((10 : ℝ) ^ 8) ^ (v - u) ≤ r.cycles_2Nt ^ (v - u) :=
      Real.rpow_le_rpow_of_nonpos h3 hnt (by rw [huv]; linarith)
    have hα' : α = β * r.cycles_2Nt ^ (v - u) := by
      have hp' : (0 : ℝ) < r.cycles_2Nt ^ u := Real.rpow_pos_of_pos h3 _
      rw [hn'] at heq
      have : r.cycles_2Nt ^ u * α = r.cycles_2Nt ^ u * (β * r.cycles_2Nt ^ (v - u)) := by linarith
      exact mul_left_cancel₀ hp'.ne' this
    rw [hu', hα']
    have hp8 : (0 : ℝ) < ((10 : ℝ) ^ 8) ^ u := Real.rpow_pos_of_pos hA _
    calc β * (((10 : ℝ) ^ 8) ^ u * ((10 : ℝ) ^ 8) ^ (v - u)) ≤ β * (((10 : ℝ) ^ 8) ^ u * r.cycles_2Nt ^ (v - u)) := by gcongr
      _ = _ := by ring
  refine step1.trans ?_
  exact mul_le_mul_of_nonneg_left (Real.rpow_le_rpow_of_nonpos hx0 (grid_mem hx).2 hu.le) hα.le

/-- Stress control, fully reversed or between two stresses that are not negative, is such a load. -/
theorem C150_stress_control (fs : Solver) (hfs : RootFinder fs) (p : SLIn) (hp : LifeParams p) (K n S s : ℝ) (hK : p.K = some K)
    (hn : p.n = some n) (hm : Material p.E K n) (hS : 0 < S) (hmean : (S + s) / 2 < p.sigma_f) (h1 : p.max_stress = some S)
    (h2 : p.max_strain = none) (h3 : (p.min_stress = some s ∧ 0 ≤ s ∧ s < S) ∨ (p.min_stress = none ∧ s = -S)) (h4 : p.min_strain = none) :
    ∃ r m d, strainLifePlot fs p true = .ok (.life r, some d) ∧ Load p r m ∧ r.max_stress = S ∧ r.min_stress = s := by
  have hE := hm.E; have hK0 := hm.K
  have hpos : 0 < loadingStrain p.E K n S := by unfold loadingStrain; positivity
  rcases h3 with ⟨h3, h0, hlt⟩ | ⟨h3, rfl⟩
  · obtain ⟨r, hr, a1, a2, a3, a4, -⟩ := C94_stress_range fs hfs p hp K n S s hK hn hm hS hlt (Or.inl h0) hmean h1 h2 h3 h4
    refine ⟨r, _, slDraw p r ((r.max_strain - loadingStrain p.E K n s) / 2), ?_, ⟨by rw [a1]; exact hS, by unfold mean; rw [a1, a2]; exact hmean, by rw [a3]; exact hpos, a4, ?_, ?_⟩, a1, a2⟩
    · unfold strainLifePlot
      rw [hr]
      simp only [Except.map, slFinish, if_true, a4, Option.map_some]
    · rw [a3]; exact (loading_lt hm.E hm.K hm.n h0 hS.le).2 hlt
    · intro h; unfold mean at h; rw [a1, a2] at h; linarith
  · obtain ⟨r, hr, a1, a2, a3, a4, -⟩ := C94_reversed fs hfs p hp K n S hK hn hm hS h1 h2 h3
    refine ⟨r, _, slDraw p r ((r.max_strain - -loadingStrain p.E K n S) / 2), ?_, ⟨by rw [a1]; exact hS, by unfold mean; rw [a1, a2]; exact hmean, by rw [a3]; exact hpos, a4, ?_, ?_⟩, a1, a2⟩
    · unfold strainLifePlot
      rw [hr]
      simp only [Except.map, slFinish, if_true, a4, Option.map_some]
    · rw [a3]; linarith
    · intro _; rw [a3]

/-- **C150 (no load).** Without a largest stress or strain the diagram is that of fully reversed loading, with no point; the transition is
where the two lines cross. -/
theorem C150_unloaded (fs : Solver) (p : SLIn) (hp : LifeParams p) (h1 : p.max_stress = none) (h2 : p.max_strain = none)
    (h3 : ¬ (p.min_stress.isSome ∧ p.min_strain.isSome)) :
    ∃ d, strainLifePlot fs p true = .ok (.notCalculated, some d) ∧ CurvesOK p 0 0 d ∧ LimitsOK d ∧ d.point = none ∧
      ∃ nt top, d.transition = [(nt, 1 / 10 ^ 6), (nt, top)] ∧ 0 < nt ∧ top = p.sigma_f / p.E * nt ^ p.b + p.epsilon_f * nt ^ p.c ∧
        (p.b ≠ p.c → p.sigma_f / p.E * nt ^ p.b = p.epsilon_f * nt ^ p.c) ∧
        ∃ k : ℤ, d.notes = [⟨nt, d.ylim.1, "2N_t", k, true⟩] ∧ (k : ℝ) ≤ nt ∧ nt < k + 1 := by
  have hs : strainLife fs p = .ok none := by
    unfold strainLife
    rw [if_neg (by simp [h1]), if_neg h3, if_neg (by simp [h1, h2]), if_neg (by
      rcases hp.method with h | h | h | h <;> simp [h]), if_neg (by simp [h1, h2])]
  refine ⟨slDrawUnloaded p, by unfold strainLifePlot; rw [hs]; rfl, 
    base_curves hp (Or.inr rfl) hp.sigma_f ((p.epsilon_f * p.E / p.sigma_f) ^ (1 / (p.b - p.c))),
    base_limits hp (Or.inr rfl) hp.sigma_f ((p.epsilon_f * p.E / p.sigma_f) ^ (1 / (p.b - p.c))), rfl, (p.epsilon_f * p.E / p.sigma_f) ^ (1 / (p.b - p.c)),
    slTotal p 0 0 ((p.epsilon_f * p.E / p.sigma_f) ^ (1 / (p.b - p.c))), ?_, ?_, ?_, ?_, _, rfl, Int.floor_le _,
    Int.lt_floor_add_one _⟩
  · unfold slDrawUnloaded slBase
    simp only []
    norm_num
  · have := hp.E; have := hp.sigma_f; have := hp.epsilon_f; positivity
  · unfold slTotal; rw [if_pos rfl]
  · intro hbc
    obtain ⟨n2, nt, hr, -, -, -, heq⟩ := reversals_spec someFinder_ok hp (S := 1) (e := 1) (ms := 0) (half := 1) one_pos one_pos one_pos
      hp.sigma_f (fun _ => rfl)
    unfold reversals at hr
    rw [if_pos rfl, Except.ok.injEq, Prod.mk.injEq] at hr
    have := heq hbc
    unfold EqualParts at this
    rw [if_pos rfl, ← hr.2] at this
    exact this

/-- Finding: without a load and without the plot, the attribute `cycles_to_failure` (which the plot sets to a message) does not
exist. -/
theorem C150_unset_finding (fs : Solver) (p : SLIn) (hp : LifeParams p) (h1 : p.max_stress = none) (h2 : p.max_strain = none)
    (h3 : ¬ (p.min_stress.isSome ∧ p.min_strain.isSome)) :
    strainLifePlot fs p false = .ok (.unset, none) ∧ ∃ d, strainLifePlot fs p true = .ok (.notCalculated, d) := by
  have hs : strainLife fs p = .ok none := by
    unfold strainLife
    rw [if_neg (by simp [h1]), if_neg h3, if_neg (by simp [h1, h2]), if_neg (by
      rcases hp.method with h | h | h | h <;> simp [h]), if_neg (by simp [h1, h2])]
  constructor
  · unfold strainLifePlot; rw [hs]; rfl
  · exact ⟨_, by unfold strainLifePlot; rw [hs]; rfl⟩

/-- With a load the attributes do not depend on whether the plot is shown, and no plot is drawn unless asked for. -/
theorem C150_attributes (fs : Solver) (p : SLIn) (r : SLOut) (show_plot : Bool) :
    ((∃ d, strainLifePlot fs p show_plot = .ok (.life r, d)) ↔ strainLife fs p = .ok (some r)) ∧
    ∀ a d, strainLifePlot fs p false = .ok (a, d) → d = none := by
  unfold strainLifePlot
  constructor
  · cases hs : strainLife fs p with
    | error e => simp [Except.map]
    | ok o =>
      cases o with
      | none => cases show_plot <;> simp [Except.map, slFinish]
      | some r' => simp [Except.map, slFinish]
  · intro a d h
    cases hs : strainLife fs p with
    | error e => rw [hs] at h; cases h
    | ok o =>
      rw [hs] at h
      simp only [Except.map, Except.ok.injEq] at h
      cases o with
      | none => simp [slFinish] at h; exact h.2.symm
      | some r' => simp [slFinish] at h; exact h.2.symm

/-- Finding: the line of the transition life begins at a strain of 10⁻⁶, so it does not reach down to the axis if the plastic strain at
10⁸ reversals is below 10⁻⁶. -/
theorem C150_dash_finding (fs : Solver) (p : SLIn) (hp : LifeParams p) (h1 : p.max_stress = none) (h2 : p.max_strain = none)
    (h3 : ¬ (p.min_stress.isSome ∧ p.min_strain.isSome)) (hc : p.epsilon_f * ((10 : ℝ) ^ 8) ^ p.c < 1 / 10 ^ 6) :
    ∃ a d nt top, strainLifePlot fs p true = .ok (a, some d) ∧ d.transition = [(nt, 1 / 10 ^ 6), (nt, top)] ∧
      d.ylim.1 ≤ 1 / 10 ^ 7 := by
  obtain ⟨d, hd, ⟨-, hcur⟩, ⟨-, lo, hi, hyl, hb, -⟩, -, nt, top, ht, -⟩ := C150_unloaded fs p hp h1 h2 h3
  refine ⟨_, d, nt, top, hd, ht, ?_⟩
  obtain ⟨-, -, pl, -, -, hpl, -, -, -, -, hps⟩ := hcur 999 (by norm_num)
  unfold PlasticStrain at hps
  rw [if_pos rfl, show (1 + 7 * ((999 : ℕ) : ℝ) / 999) = ((8 : ℕ) : ℝ) by push_cast; norm_num, Real.rpow_natCast] at hps
  have := (hb pl (mem_append_right _ (mem_of_getElem? hpl))).1
  rw [hyl]
  simp only []
  have hlt : (10 : ℝ) ^ lo < (10 : ℝ) ^ (-6 : ℤ) := by
    calc (10 : ℝ) ^ lo ≤ pl := this
      _ < 1 / 10 ^ 6 := by rw [hps]; exact hc
      _ = _ := by norm_num
  have hlo : lo < -6 := (zpow_lt_zpow_iff_right₀ (by norm_num)).1 hlt
  calc (10 : ℝ) ^ lo ≤ (10 : ℝ) ^ (-7 : ℤ) := zpow_le_zpow_right₀ (by norm_num) (by omega)
    _ = _ := by norm_num

/-- Finding: a load whose life is less than 10 reversals is drawn to the left of the axes, so neither the point nor its number is seen.
Here a stress of twice K. -/
theorem C150_short_life_finding (fs : Solver) (hfs : RootFinder fs) :
    ∃ r d q, strainLifePlot fs ⟨210000, 1000, 1.1, -0.1, -0.6, some 1200, some 0.2, "morrow", none, none, some 2400, none⟩ true =
      .ok (.life r, some d) ∧ d.point = some q ∧ q.1 < d.xlim.1 := by
  set p : SLIn := ⟨210000, 1000, 1.1, -0.1, -0.6, some 1200, some 0.2, "morrow", none, none, some 2400, none⟩ with hpdef
  have hp : LifeParams p := ⟨by norm_num [hpdef], by norm_num [hpdef], by norm_num [hpdef], by norm_num [hpdef], by norm_num [hpdef],
    Or.inl rfl⟩
  have hm : Material p.E 1200 0.2 := ⟨by norm_num [hpdef], by norm_num, by norm_num⟩
  obtain ⟨r, m, d, h, hl, h1, h2⟩ := C150_stress_control fs hfs p hp 1200 0.2 2400 (-2400) rfl rfl hm (by norm_num)
    (by norm_num [hpdef]) rfl rfl (Or.inr ⟨rfl, rfl⟩) rfl
  obtain ⟨n2, a, hpt, hn2, hpos, ha, hrel, -⟩ := C150_point fs hfs p hp r m hl d h
  obtain ⟨hxl, -⟩ := C150_limits fs p hp r d h hl.stress hl.mean
  refine ⟨r, d, _, h, hpt, ?_⟩
  rw [hxl]
  simp only []
  by_contra hc
  rw [not_lt] at hc
  have hmean : mean r = 0 := by unfold mean; rw [h1, h2]; norm_num
  have hmm := hl.reversed hmean
  obtain ⟨r', hr', -, -, b3, -⟩ := C94_reversed fs hfs p hp 1200 0.2 2400 rfl rfl hm (by norm_num) rfl rfl rfl
  have hrr : r' = r := by
    have := (loaded h).1
    rw [hr'] at this
    simpa using this
  rw [hrr] at b3
  have hbig : 32 ≤ a := by
    rw [ha, hmm, b3]
    unfold loadingStrain
    have : ((2400 : ℝ) / 1200) ^ (1 / (0.2 : ℝ)) = 32 := by
      rw [show (1 / (0.2 : ℝ)) = ((5 : ℕ) : ℝ) by norm_num, Real.rpow_natCast]
      norm_num
    rw [this]
    have : 0 < (2400 : ℝ) / p.E := by norm_num [hpdef]
    linarith
  unfold StrainLife at hrel
  rw [if_pos hmean] at hrel
  have e1 : n2 ^ p.b ≤ 1 := Real.rpow_le_one_of_one_le_of_nonpos (by linarith) hp.b.le
  have e2 : n2 ^ p.c ≤ 1 := Real.rpow_le_one_of_one_le_of_nonpos (by linarith) hp.c.le
  have e3 : p.sigma_f / p.E ≤ 1 := by norm_num [hpdef]
  have e4 : p.epsilon_f = 1.1 := rfl
  have e5 : 0 < p.sigma_f / p.E := by norm_num [hpdef]
  have e6 : 0 ≤ n2 ^ p.b := Real.rpow_nonneg hpos.le _
  have e7 : p.sigma_f / p.E * n2 ^ p.b ≤ 1 := mul_le_one₀ e3 e6 e1
  rw [e4] at hrel
  have e8 : (1.1 : ℝ) * n2 ^ p.c ≤ 2 := (mul_le_mul_of_nonneg_left e2 (by norm_num)).trans (by norm_num)
  have e9 : a ≤ 1 + 2 := hrel.trans_le (add_le_add e7 e8)
  linarith

/-- Finding: with a plastic strain that falls more slowly than the elastic strain (or a transition beyond 10⁸ reversals) part of the
elastic line is below the axes: the lower limit looks at the plastic line only. -/
theorem C150_elastic_finding (fs : Solver) :
    ∃ a d y, strainLifePlot fs ⟨1, 1, 1, -1 / 4, -1 / 8, none, none, "SWT", none, none, none, none⟩ true = .ok (a, some d) ∧
      y ∈ d.elastic ∧ y < d.ylim.1 := by
  set p : SLIn := ⟨1, 1, 1, -1 / 4, -1 / 8, none, none, "SWT", none, none, none, none⟩ with hpdef
  have hp : LifeParams p := ⟨by norm_num [hpdef], by norm_num [hpdef], by norm_num [hpdef], by norm_num [hpdef], by norm_num [hpdef],
    Or.inr (Or.inr (Or.inr rfl))⟩
  obtain ⟨d, hd, ⟨-, hcur⟩, ⟨-, lo, hi, hyl, hb, -, ⟨y0, hy0, hlow⟩, -⟩, -⟩ := C150_unloaded fs p hp rfl rfl (by simp [hpdef])
  obtain ⟨-, -, -, el, -, -, hel, -, -, hes, -⟩ := hcur 999 (by norm_num)
  unfold ElasticStrain at hes
  rw [if_pos rfl, show (1 + 7 * ((999 : ℕ) : ℝ) / 999) = ((8 : ℕ) : ℝ) by push_cast; norm_num, Real.rpow_natCast] at hes
  have eb : ((10 : ℝ) ^ 8) ^ p.b = 1 / 100 := by
    rw [← Real.rpow_natCast, ← Real.rpow_mul (by norm_num), show ((8 : ℕ) : ℝ) * p.b = ((-2 : ℤ) : ℝ) by norm_num [hpdef],
      Real.rpow_intCast]
    norm_num
  have ec : ((10 : ℝ) ^ 8) ^ p.c = 1 / 10 := by
    rw [← Real.rpow_natCast, ← Real.rpow_mul (by norm_num), show ((8 : ℕ) : ℝ) * p.c = ((-1 : ℤ) : ℝ) by norm_num [hpdef],
      Real.rpow_intCast]
    norm_num
  have hel' : el = 1 / 100 := by
    rw [hes, eb]
    norm_num [hpdef]
  refine ⟨_, d, el, hd, mem_of_getElem? hel, ?_⟩
  rw [hyl]
  simp only []
  -- every plastic strain is at least a tenth
  have hge : 1 / 10 ≤ y0 := by
    obtain ⟨i, hi, rfl⟩ := List.mem_iff_getElem.1 hy0
    have hlen : i < 1000 := by
      by_contra hc
      have : d.plastic.length = 1000 := by
        have := hd
        unfold strainLifePlot at this
        have hs : strainLife fs p = .ok none := by
          unfold strainLife
          rw [if_neg (by simp [hpdef]), if_neg (by simp [hpdef]), if_neg (by simp [hpdef]), if_neg (by simp [hpdef]),
            if_neg (by simp [hpdef])]
        rw [hs] at this
        simp only [Except.map, slFinish, if_true, Except.ok.injEq, Prod.mk.injEq, Option.some.injEq, true_and] at this
        rw [← this]
        unfold slDrawUnloaded slBase
        simp only [length_map, grid_length]
      omega
    obtain ⟨hx, -, pl, -, -, hpl, -, -, -, -, hps⟩ := hcur i hlen
    have hpe : d.plastic[i] = pl := by
      have := List.getElem?_eq_getElem hi
      rw [this] at hpl
      simpa using hpl
    rw [hpe]
    unfold PlasticStrain at hps
    rw [if_pos rfl] at hps
    rw [hps, ← ec]
    have hE : p.epsilon_f = 1 := rfl
    rw [hE, one_mul]
    apply Real.rpow_le_rpow_of_nonpos (by positivity) _ hp.c.le
    rw [← Real.rpow_natCast]
    apply Real.rpow_le_rpow_of_exponent_le (by norm_num)
    have : (i : ℝ) ≤ 999 := by exact_mod_cast (by omega : i ≤ 999)
    push_cast
    linarith
  have h10 : (10 : ℝ) ^ (-1 : ℤ) < (10 : ℝ) ^ (lo + 1) := by
    calc (10 : ℝ) ^ (-1 : ℤ) = 1 / 10 := by norm_num
      _ ≤ y0 := hge
      _ < _ := hlow
  have hlo : -1 < lo + 1 := (zpow_lt_zpow_iff_right₀ (by norm_num)).1 h10
  calc el = 1 / 100 := hel'
    _ < (10 : ℝ) ^ (-1 : ℤ) := by norm_num
    _ ≤ (10 : ℝ) ^ lo := zpow_le_zpow_right₀ (by norm_num) (by omega)

/-- The hypotheses can be met, with each mean stress correction. -/
example (me : String) (hme : me ∈ ["morrow", "modified_morrow", "SWT"]) :
    ∃ r m d, strainLifePlot someFinder ⟨210000, 1000, 1.1, -0.1, -0.6, some 1200, some 0.2, me, none, none, some 500, some 100⟩ true
      = .ok (.life r, some d) ∧
      Load ⟨210000, 1000, 1.1, -0.1, -0.6, some 1200, some 0.2, me, none, none, some 500, some 100⟩ r m := by
  obtain ⟨r, m, d, h, hl, -⟩ := C150_stress_control someFinder someFinder_ok
    ⟨210000, 1000, 1.1, -0.1, -0.6, some 1200, some 0.2, me, none, none, some 500, some 100⟩
    ⟨by norm_num, by norm_num, by norm_num, by norm_num, by norm_num, by
      simp only [mem_cons, not_mem_nil, or_false] at hme
      rcases hme with h | h | h <;> simp [h]⟩ 1200 0.2 500 100 rfl rfl
    ⟨by norm_num, by norm_num, by norm_num⟩ (by norm_num) (by norm_num) rfl rfl (Or.inl ⟨rfl, by norm_num, by norm_num⟩) rfl
  exact ⟨r, m, d, h, hl⟩

end SLP

end Reliability.Props

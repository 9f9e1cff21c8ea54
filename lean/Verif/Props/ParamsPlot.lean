import Verif.Model.PoFPlot2
import Verif.Spec.PoFPlot
import Verif.Props.SNDiagram
import Verif.Props.CreepPlot

/-! # C153: the figures of stress_strain_life_parameters_from_data -/

namespace Reliability.Props.ParamsPlot

open Reliability Reliability.Fatigue Reliability.Spec Reliability.Props List
open Reliability.Repairable (minmax)
open Reliability.Props (bind_ok)
open Reliability.Props.CreepPlot (below_spec above_spec)

attribute [local irreducible] Np.linspace reversalGrid

variable {polyfit : List ℝ → List ℝ → ℝ × ℝ} {stress strain : List ℝ} {E : ℝ} {cycles : Option (List ℝ)} {q : ParamsOut}

/-- **C153 (switching off).** Without the plots the results are the same and nothing is drawn. -/
theorem C153_hidden (polyfit : List ℝ → List ℝ → ℝ × ℝ) (stress strain : List ℝ) (E : ℝ) (cycles : Option (List ℝ)) :
    (∀ q, paramsFromData polyfit stress strain E cycles = .ok q ↔ paramsPlot polyfit stress strain E cycles false = .ok (q, none)) ∧
    ∀ q f b, paramsPlot polyfit stress strain E cycles b = .ok (q, f) → paramsFromData polyfit stress strain E cycles = .ok q ∧
      (f.isSome ↔ b = true) := by
  constructor
  · intro q
    unfold paramsPlot
    constructor
    · intro h; rw [h]; rfl
    · intro h
      obtain ⟨q', h1, h⟩ := bind_ok.1 h
      obtain ⟨f, -, h⟩ := bind_ok.1 h
      rw [h1, (Prod.mk.inj (Except.ok.inj h)).1]
  · intro q f b h
    unfold paramsPlot at h
    obtain ⟨q', h1, h⟩ := bind_ok.1 h
    obtain ⟨f', h2, h⟩ := bind_ok.1 h
    obtain ⟨rfl, rfl⟩ := Prod.mk.inj (Except.ok.inj h)
    refine ⟨h1, ?_⟩
    cases b
    · cases h2; simp
    · unfold paramsFigs at h2
      obtain ⟨f1, -, h2⟩ := bind_ok.1 h2
      obtain ⟨f2, -, h2⟩ := bind_ok.1 h2
      cases h2; simp

theorem figs {f : StressStrainFig} {g : Option StrainLifeFig} (h : paramsPlot polyfit stress strain E cycles true = .ok (q, some (f, g))) :
    paramsFromData polyfit stress strain E cycles = .ok q ∧ stressStrainFig q E stress strain = .ok f ∧
      lifeFig? q E strain cycles = .ok g := by
  unfold paramsPlot at h
  obtain ⟨q', h1, h⟩ := bind_ok.1 h
  obtain ⟨f', h2, h⟩ := bind_ok.1 h
  obtain ⟨rfl, rfl⟩ := Prod.mk.inj (Except.ok.inj h)
  unfold paramsFigs at h2
  obtain ⟨f1, e1, h2⟩ := bind_ok.1 h2
  obtain ⟨f2, e2, h2⟩ := bind_ok.1 h2
  obtain ⟨rfl, rfl⟩ := Prod.mk.inj (Option.some.inj (Except.ok.inj h2))
  exact ⟨h1, e1, e2⟩

/-- **C153 (stress-strain).** For positive data the first figure shows the Ramberg–Osgood curve with the fitted K and n, at 10000 stresses evenly spaced from
none to the largest in the data, and all of the data, within the axes, which end a fifth beyond the largest strain and stress. -/
theorem C153_stress_strain (polyfit : List ℝ → List ℝ → ℝ × ℝ) (stress strain : List ℝ) (E : ℝ) (cycles : Option (List ℝ)) (q : ParamsOut)
    (f : StressStrainFig) (g : Option StrainLifeFig) (h : paramsPlot polyfit stress strain E cycles true = .ok (q, some (f, g)))
    (hs : ∀ s ∈ stress, 0 < s) (he : ∀ e ∈ strain, 0 < e) :
    f.points = strain.zip stress ∧ (∀ x ∈ f.points, Visible f.xlim f.ylim x) ∧
    (∃ emax ∈ strain, (∀ e ∈ strain, e ≤ emax) ∧ f.xlim.1 = 0 ∧ f.xlim.2 = 1.2 * emax) ∧
    ∃ top ∈ stress, (∀ s ∈ stress, s ≤ top) ∧ f.ylim.1 = 0 ∧ f.ylim.2 = 1.2 * top ∧ f.stress.length = 10000 ∧ f.strain.length = 10000 ∧
      ∀ i : ℕ, i < 10000 → f.stress[i]? = some (top * i / 9999) ∧ f.strain[i]? = some (loadingStrain E q.K q.n (top * i / 9999)) := by
  obtain ⟨-, hf, -⟩ := figs h
  unfold stressStrainFig at hf
  obtain ⟨s, hs', hf⟩ := bind_ok.1 hf
  obtain ⟨e, he', hf⟩ := bind_ok.1 hf
  have hns : stress ≠ [] := by rintro rfl; simp [minmax] at hs'
  have hne : strain ≠ [] := by rintro rfl; simp [minmax] at he'
  obtain ⟨s0, s1, es, s2, s3, s4⟩ := Repairable.GPlot.minmax_ok hns
  obtain ⟨e0, e1, ee, e2, e3, e4⟩ := Repairable.GPlot.minmax_ok hne
  rw [es] at hs'; rw [ee] at he'
  obtain rfl := Except.ok.inj hs'
  obtain rfl := Except.ok.inj he'
  obtain rfl := Except.ok.inj hf
  refine ⟨rfl, ?_, ⟨e1, e3, fun e he => (e4 e he).2, rfl, by simp only; norm_num; ring⟩, s1, s3, fun s hs => (s4 s hs).2, rfl,
    by simp only; norm_num; ring, ?_, ?_, ?_⟩
  · rintro ⟨x, y⟩ hxy
    obtain ⟨hx, hy⟩ := List.of_mem_zip hxy
    have := he x hx; have := hs y hy; have := e4 x hx; have := s4 y hy
    exact ⟨by simp only; linarith, by simp only; linarith, by simp only; linarith, by simp only; linarith⟩
  · exact Np.linspace_length _ _ _
  · simp only [length_map]; exact Np.linspace_length _ _ _
  · intro i hi
    have e : (Np.linspace 0 s1 10000)[i]? = some (s1 * i / 9999) := by
      rw [Np.linspace_get _ _ _ _ hi]
      congr 1; push_cast; ring
    refine ⟨e, ?_⟩
    simp only [getElem?_map]
    rw [e]; rfl

/-- The equation of a strain-life curve. -/
theorem life {f : StressStrainFig} {g : Option StrainLifeFig} {cs : List ℝ}
    (h : paramsPlot polyfit stress strain E (some cs) true = .ok (q, some (f, g))) :
    ∃ A b B c g', q.life = some (A, b, B, c) ∧ g = some g' ∧ strainLifeFig E A b B c strain cs = .ok g' := by
  obtain ⟨hq, -, hg⟩ := figs h
  obtain ⟨A, b, B, c, hl⟩ : ∃ A b B c, q.life = some (A, b, B, c) := by
    unfold paramsFromData at hq
    split at hq
    · cases hq
    · simp only at hq
      split at hq
      · cases hq
      · obtain rfl := Except.ok.inj hq
        exact ⟨_, _, _, _, rfl⟩
  refine ⟨A, b, B, c, ?_⟩
  simp only [lifeFig?, hl] at hg
  cases hg' : strainLifeFig E A b B c strain cs with
  | error e => rw [hg'] at hg; cases hg
  | ok g' =>
    rw [hg'] at hg
    exact ⟨g', hl, (Except.ok.inj hg).symm, rfl⟩

/-- **C153 (strain-life).** For positive data with cycles the second figure shows, against reversals 10^(1 + 7 i/999), the strain-life curve of the fitted parameters and
its elastic and plastic parts, and all of the data, with at least one decade to spare on each side. -/
theorem C153_strain_life (polyfit : List ℝ → List ℝ → ℝ × ℝ) (stress strain : List ℝ) (E : ℝ) (cs : List ℝ) (q : ParamsOut)
    (f : StressStrainFig) (g : Option StrainLifeFig) (h : paramsPlot polyfit stress strain E (some cs) true = .ok (q, some (f, g)))
    (hc : ∀ N ∈ cs, 0 < N) (he : ∀ e ∈ strain, 0 < e) :
    ∃ A b B c d, q.life = some (A, b, B, c) ∧ g = some d ∧ d.points = (cs.map fun N => 2 * N).zip strain ∧
      (∀ x ∈ d.points, Visible d.xlim d.ylim x ∧ 10 * d.xlim.1 ≤ x.1 ∧ 10 * x.1 ≤ d.xlim.2 ∧ 10 * d.ylim.1 ≤ x.2 ∧ 10 * x.2 ≤ d.ylim.2) ∧
      d.xs.length = 1000 ∧ d.total.length = 1000 ∧ d.elastic.length = 1000 ∧ d.plastic.length = 1000 ∧
      ∀ i : ℕ, i < 1000 → ∃ x, x = (10 : ℝ) ^ (1 + 7 * (i : ℝ) / 999) ∧ d.xs[i]? = some x ∧
        d.elastic[i]? = some (A / E * x ^ b) ∧ d.plastic[i]? = some (B * x ^ c) ∧ d.total[i]? = some (A / E * x ^ b + B * x ^ c) := by
  obtain ⟨A, b, B, c, d, hl, hg, hd⟩ := life h
  refine ⟨A, b, B, c, d, hl, hg, ?_⟩
  unfold strainLifeFig at hd
  obtain ⟨s, hs', hd⟩ := bind_ok.1 hd
  obtain ⟨e, he', hd⟩ := bind_ok.1 hd
  have hns : cs.map (2 * ·) ≠ [] := by intro h0; rw [h0] at hs'; simp [minmax] at hs'
  have hne : strain ≠ [] := by rintro rfl; simp [minmax] at he'
  obtain ⟨s0, s1, es, s2, s3, s4⟩ := Repairable.GPlot.minmax_ok hns
  obtain ⟨e0, e1, ee, e2, e3, e4⟩ := Repairable.GPlot.minmax_ok hne
  rw [es] at hs'; rw [ee] at he'
  obtain rfl := Except.ok.inj hs'
  obtain rfl := Except.ok.inj he'
  obtain rfl := Except.ok.inj hd
  have hpos : ∀ x ∈ cs.map (2 * ·), 0 < x := by
    intro x hx
    obtain ⟨N, hN, rfl⟩ := mem_map.1 hx
    have := hc N hN; linarith
  have b1 := below_spec (hpos _ s2)
  have b2 := above_spec (hpos _ s3)
  have b3 := below_spec (he _ e2)
  have b4 := above_spec (he _ e3)
  refine ⟨rfl, ?_, ?_, ?_, ?_, ?_, ?_⟩
  · rintro ⟨x, y⟩ hxy
    obtain ⟨hx, hy⟩ := List.of_mem_zip hxy
    have k1 := hpos x hx; have k2 := he y hy; have k3 := s4 x hx; have k4 := e4 y hy
    have p1 := CreepPlot.below_pos s0; have p2 := CreepPlot.below_pos e0
    refine ⟨⟨?_, ?_, ?_, ?_⟩, ?_, ?_, ?_, ?_⟩ <;> simp only <;> linarith
  · exact SLP.grid_length
  · simp only [length_map]; exact SLP.grid_length
  · simp only [length_map]; exact SLP.grid_length
  · simp only [length_map]; exact SLP.grid_length
  · intro i hi
    refine ⟨_, rfl, SLP.grid_get hi, ?_, ?_, ?_⟩
    · simp only [getElem?_map]; rw [SLP.grid_get hi]; rfl
    · simp only [getElem?_map]; rw [SLP.grid_get hi]; rfl
    · simp only [getElem?_map]; rw [SLP.grid_get hi]; rfl

/-- **C153 (transition).** The vertical dashed line stands where the elastic and the plastic strain are equal and ends on the strain-life curve; the label beside it
is that number of reversals without its fraction. -/
theorem C153_transition (polyfit : List ℝ → List ℝ → ℝ × ℝ) (stress strain : List ℝ) (E : ℝ) (hE : 0 < E) (cs : List ℝ) (q : ParamsOut)
    (f : StressStrainFig) (d : StrainLifeFig) (h : paramsPlot polyfit stress strain E (some cs) true = .ok (q, some (f, some d)))
    (A b B c : ℝ) (hl : q.life = some (A, b, B, c)) (hA : 0 < A) (hB : 0 < B) (hbc : c < b) :
    ∃ nt, 0 < nt ∧ A / E * nt ^ b = B * nt ^ c ∧ (∀ x, 0 < x → A / E * x ^ b = B * x ^ c → x = nt) ∧
      d.transition = [(nt, 1 / 10 ^ 6), (nt, A / E * nt ^ b + B * nt ^ c)] ∧ d.note.x = nt ∧ d.note.y = d.ylim.1 ∧ d.note.toRight = true ∧
      ((d.note.value : ℝ) ≤ nt ∧ nt < d.note.value + 1) := by
  obtain ⟨A', b', B', c', d', hl', hg, hd⟩ := life h
  obtain ⟨rfl, rfl, rfl, rfl⟩ : A = A' ∧ b = b' ∧ B = B' ∧ c = c' := by
    rw [hl] at hl'
    have := Option.some.inj hl'
    simp only [Prod.mk.injEq] at this
    exact this
  obtain rfl := Option.some.inj hg
  unfold strainLifeFig at hd
  obtain ⟨s, hs', hd⟩ := bind_ok.1 hd
  obtain ⟨e, he', hd⟩ := bind_ok.1 hd
  obtain rfl := Except.ok.inj hd
  have hr : 0 < B * E / A := by positivity
  have hnt : 0 < (B * E / A) ^ (1 / (b - c)) := Real.rpow_pos_of_pos hr _
  have key : ∀ x : ℝ, 0 < x → (A / E * x ^ b = B * x ^ c ↔ x ^ (b - c) = B * E / A) := by
    intro x hx
    have h1 := Real.rpow_pos_of_pos hx c
    rw [Real.rpow_sub hx, div_eq_iff h1.ne', div_mul_eq_mul_div, div_mul_eq_mul_div, div_eq_iff hE.ne', eq_div_iff hA.ne']
    constructor <;> intro h' <;> linarith
  have hbc' : b - c ≠ 0 := by linarith
  have e1 : ((B * E / A) ^ (1 / (b - c))) ^ (b - c) = B * E / A := by
    rw [← Real.rpow_mul hr.le, one_div, inv_mul_cancel₀ hbc', Real.rpow_one]
  refine ⟨_, hnt, (key _ hnt).2 e1, ?_, ?_, rfl, rfl, rfl, ?_⟩
  · intro x hx h'
    rw [← (key x hx).1 h', ← Real.rpow_mul hx.le, mul_one_div, div_self hbc', Real.rpow_one]
  · norm_num
  · exact ⟨Int.floor_le _, Int.lt_floor_add_one _⟩

/-- **C153 (exact data, stress-strain).** Stresses and strains exactly on a Ramberg–Osgood curve lie on the curve drawn through them. -/
theorem C153_exact_stress_strain (polyfit : List ℝ → List ℝ → ℝ × ℝ) (hfit : ∀ xs ys, IsLine xs ys (polyfit xs ys))
    (E K n : ℝ) (hm : Material E K n) (stress : List ℝ) (hpos : ∀ s ∈ stress, 0 < s)
    (s t : ℝ) (hs : s ∈ stress) (ht : t ∈ stress) (hst : s ≠ t) (cycles : Option (List ℝ)) (q : ParamsOut) (f : StressStrainFig)
    (g : Option StrainLifeFig)
    (h : paramsPlot polyfit stress (stress.map (loadingStrain E K n)) E cycles true = .ok (q, some (f, g))) :
    (∀ x ∈ f.points, x.1 = loadingStrain E K n x.2) ∧
    ∀ x ∈ f.strain.zip f.stress, x.1 = loadingStrain E K n x.2 := by
  obtain ⟨hq, hf, -⟩ := figs h
  obtain ⟨hK, hn⟩ := C95_stress_strain polyfit hfit E K n hm stress hpos s t hs ht hst cycles q hq
  unfold stressStrainFig at hf
  obtain ⟨s, hs', hf⟩ := bind_ok.1 hf
  obtain ⟨e, he', hf⟩ := bind_ok.1 hf
  obtain rfl := Except.ok.inj hf
  constructor
  · rintro ⟨x, y⟩ hxy
    simp only at hxy
    rw [← List.map_id stress, List.map_map, List.zip_map'] at hxy
    obtain ⟨a, -, ha⟩ := mem_map.1 hxy
    simp only [Function.comp, id, Prod.mk.injEq] at ha
    simp only [← ha.1, ← ha.2]
  · rintro ⟨x, y⟩ hxy
    simp only [hK, hn] at hxy
    generalize Np.linspace 0 s.2 10000 = l at hxy
    rw [← List.map_id l, List.map_map, List.zip_map'] at hxy
    obtain ⟨a, -, ha⟩ := mem_map.1 hxy
    simp only [Function.comp, id, Prod.mk.injEq] at ha
    rw [← ha.1, ← ha.2]; rfl

/-- **C153 (exact data, strain-life).** Strains exactly on a strain-life curve lie on the curve drawn through them. -/
theorem C153_exact_strain_life (polyfit : List ℝ → List ℝ → ℝ × ℝ) (hfit : ∀ xs ys, IsLine xs ys (polyfit xs ys))
    (E A B b c : ℝ) (hE : 0 < E) (hA : 0 < A) (hB : 0 < B) (hc : c ≠ 0) (cycles : List ℝ)
    (hpos : ∀ N ∈ cycles, 0 < N) (M N : ℝ) (hM : M ∈ cycles) (hN : N ∈ cycles) (hMN : M ≠ N) :
    ∃ q f d, paramsPlot polyfit (cycles.map fun N => A * (2 * N) ^ b)
        (cycles.map fun N => A / E * (2 * N) ^ b + B * (2 * N) ^ c) E (some cycles) true = .ok (q, some (f, some d)) ∧
      d.points.length = cycles.length ∧ (∀ x ∈ d.points, x.2 = A / E * x.1 ^ b + B * x.1 ^ c) ∧
      ∀ x ∈ d.xs.zip d.total, x.2 = A / E * x.1 ^ b + B * x.1 ^ c := by
  obtain ⟨q, hq, hl, -, -⟩ := C95_strain_life polyfit hfit E A B b c hE hA hB hc cycles hpos M N hM hN hMN
  have hne : ∀ {α : Type} (g : ℝ → α), cycles.map g ≠ [] := by
    intro α g h0; rw [map_eq_nil_iff] at h0; rw [h0] at hM; cases hM
  obtain ⟨s0, s1, es, -⟩ := Repairable.GPlot.minmax_ok (hne fun N => A * (2 * N) ^ b)
  obtain ⟨e0, e1, ee, -⟩ := Repairable.GPlot.minmax_ok (hne fun N => A / E * (2 * N) ^ b + B * (2 * N) ^ c)
  obtain ⟨n0, n1, en, -⟩ := Repairable.GPlot.minmax_ok (hne fun N => 2 * N)
  refine ⟨q, _, _, by
    unfold paramsPlot paramsFigs lifeFig? stressStrainFig strainLifeFig
    rw [hq, es, ee]
    simp only [bind, Except.bind, hl, en, Except.map]
    exact rfl, ?_, ?_, ?_⟩
  · simp
  · rintro ⟨x, y⟩ hxy
    simp only at hxy
    rw [List.zip_map'] at hxy
    obtain ⟨a, -, ha⟩ := mem_map.1 hxy
    simp only [Prod.mk.injEq] at ha
    simp only [← ha.1, ← ha.2]
  · rintro ⟨x, y⟩ hxy
    simp only at hxy
    generalize reversalGrid = l at hxy
    rw [← List.map_id l, List.map_map, List.zip_map'] at hxy
    obtain ⟨a, -, ha⟩ := mem_map.1 hxy
    simp only [Function.comp, id, Prod.mk.injEq] at ha
    rw [← ha.1, ← ha.2]

/-- **C153, finding.** The strain-life curve starts at 10 reversals whatever the data: a test that lasted fewer than five cycles is to the left of it, though within the
axes. -/
theorem C153_few_cycles_finding (polyfit : List ℝ → List ℝ → ℝ × ℝ) (stress strain : List ℝ) (E : ℝ) (cs : List ℝ) (q : ParamsOut)
    (f : StressStrainFig) (d : StrainLifeFig) (h : paramsPlot polyfit stress strain E (some cs) true = .ok (q, some (f, some d)))
    (hc : ∀ N ∈ cs, 0 < N) (N : ℝ) (hN : N ∈ cs) (h5 : N < 5) : d.xlim.1 ≤ 2 * N ∧ ∀ x ∈ d.xs, 2 * N < x := by
  obtain ⟨A, b, B, c, d', hl, hg, hd⟩ := life h
  obtain rfl := Option.some.inj hg
  unfold strainLifeFig at hd
  obtain ⟨s, hs', hd⟩ := bind_ok.1 hd
  obtain ⟨e, he', hd⟩ := bind_ok.1 hd
  have hns : cs.map (2 * ·) ≠ [] := by intro h0; rw [h0] at hs'; simp [minmax] at hs'
  obtain ⟨s0, s1, es, s2, s3, s4⟩ := Repairable.GPlot.minmax_ok hns
  rw [es] at hs'
  obtain rfl := Except.ok.inj hs'
  obtain rfl := Except.ok.inj hd
  constructor
  · have hm := s4 (2 * N) (mem_map.2 ⟨N, hN, rfl⟩)
    obtain ⟨N', hN', e'⟩ := mem_map.1 s2
    have h0 : 0 < s0 := by have := hc N' hN'; linarith
    have := below_spec h0
    have := CreepPlot.below_pos s0
    simp only; linarith
  · intro x hx
    have := (SLP.grid_mem hx).1
    linarith

/-- Data on a strain-life curve of steel, one test of 4 cycles among them: both exact-data theorems, the transition and the finding apply. -/
example : ∃ (polyfit : List ℝ → List ℝ → ℝ × ℝ) (q : ParamsOut) (f : StressStrainFig) (d : StrainLifeFig),
    paramsPlot polyfit ([4, 1000, 100000].map fun N : ℝ => 1000 * (2 * N) ^ (-0.1 : ℝ))
        ([4, 1000, 100000].map fun N : ℝ => 1000 / 200000 * (2 * N) ^ (-0.1 : ℝ) + 1 * (2 * N) ^ (-0.6 : ℝ)) 200000 (some [4, 1000, 100000]) true =
      .ok (q, some (f, some d)) ∧ (∀ x ∈ d.points, x.2 = 1000 / 200000 * x.1 ^ (-0.1 : ℝ) + 1 * x.1 ^ (-0.6 : ℝ)) ∧
      d.points.length = 3 ∧ ∀ x ∈ d.xs, 2 * 4 < x := by
  choose polyfit hfit using line_exists
  obtain ⟨q, f, d, h, h1, h2, -⟩ := C153_exact_strain_life polyfit hfit 200000 1000 1 (-0.1) (-0.6) (by norm_num) (by norm_num) (by norm_num)
    (by norm_num) [4, 1000, 100000] (by intro N hN; simp at hN; rcases hN with rfl | rfl | rfl <;> norm_num) 4 1000 (by simp) (by simp) (by norm_num)
  refine ⟨polyfit, q, f, d, h, h2, h1, ?_⟩
  exact (C153_few_cycles_finding polyfit _ _ _ _ q f d h
    (by intro N hN; simp at hN; rcases hN with rfl | rfl | rfl <;> norm_num) 4 (by simp) (by norm_num)).2

end Reliability.Props.ParamsPlot

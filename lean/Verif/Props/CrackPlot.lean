import Verif.Model.PoFPlot2
import Verif.Props.Crack
import Verif.Props.GrowthPlot

/-! # C155: the plot of fracture_mechanics_crack_growth -/

namespace Reliability.Props.CrackPlot

open Reliability Reliability.PoF Reliability.Spec Reliability.Props.Crack List
open Reliability.Repairable (minmax)

variable {p : CrackIn}

theorem stateAt_crits (k : ℕ) : (stateAt p k).a_crit_array =
    (List.range k).map fun j => criticalLength p (crackLength p p.lt2 j) := by
  induction k with
  | zero => rfl
  | succ k ih =>
    rw [List.range_succ, List.map_append, ← ih, List.map_singleton, ← stateAt_crit, stateAt_succ]
    simp only [CrackIn.step]

/-- The run behind a plot. -/
theorem plot_some (h : Accepted p) {fuel : ℕ} {out : CrackOut} (ho : p.grow fuel = .ok (some out)) :
    crackPlot p fuel = (crackDraw (stateAt p out.Nf_total)).map some ∧ 1 ≤ out.Nf_total ∧
      StopsAfter p (transition p) (out.Nf_total - 1) ∧ (∀ k, k + 1 < out.Nf_total → ¬ StopsAfter p (transition p) k) ∧
      out.final_crack_length = criticalLength p (crackLength p (transition p) (out.Nf_total - 1)) := by
  obtain ⟨N, h1, h2, h3, h4, s, hs, hout⟩ := (grow_some h).1 ho
  obtain ⟨s', -, hg⟩ := grow_ok h
  have hl : p.loop fuel p.start = some (stateAt p N) := by
    rw [hg fuel] at ho
    cases hl : p.loop fuel p.start with
    | none => rw [hl] at ho; cases ho
    | some st =>
      rw [hl] at ho
      obtain ⟨j, -, -, rfl, -, -⟩ := (loop_eq (p := p) fuel 0 st).1 hl
      have : (stateAt p j).N = N := by
        have := Option.some.inj (Except.ok.inj ho)
        rw [hout] at this
        exact congrArg CrackOut.Nf_total this
      rw [(stateAt_a j).2.2.1] at this
      rw [this]
  have hN : out.Nf_total = N := by rw [hout]
  rw [hN]
  refine ⟨?_, h1, h3, h4, by rw [hout]⟩
  unfold crackPlot
  rw [ho]
  simp only [bind, Except.bind, hl, Option.isSome_some, if_true]

theorem draw_ok (N : ℕ) (hN : 1 ≤ N) : ∃ amin amax kmin kmax d, crackDraw (stateAt p N) = .ok d ∧
    d = ⟨(List.range N).map fun i : ℕ => ((i + 1 : ℕ) : ℝ), (stateAt p N).a_crit_array, (stateAt p N).a_array,
      [(0, amax), ((N : ℝ), amax), ((N : ℝ), 0)], (0, N * (11 / 10)), (0, kmax * (12 / 10))⟩ ∧
    amin ∈ (stateAt p N).a_array ∧ amax ∈ (stateAt p N).a_array ∧ kmin ∈ (stateAt p N).a_crit_array ∧
    kmax ∈ (stateAt p N).a_crit_array ∧
    (∀ x ∈ (stateAt p N).a_array, x ≤ amax) ∧ ∀ x ∈ (stateAt p N).a_crit_array, x ≤ kmax := by
  have ha : (stateAt p N).a_array ≠ [] := by
    rw [(stateAt_a N).2.2.2]; intro h0
    have := congrArg List.length h0; simp at this; omega
  have hc : (stateAt p N).a_crit_array ≠ [] := by
    rw [stateAt_crits]; intro h0
    have := congrArg List.length h0; simp at this; omega
  obtain ⟨amin, amax, e1, m1, m2, m3⟩ := Repairable.GPlot.minmax_ok ha
  obtain ⟨kmin, kmax, e2, m4, m5, m6⟩ := Repairable.GPlot.minmax_ok hc
  refine ⟨amin, amax, kmin, kmax, _, ?_, rfl, m1, m2, m4, m5, fun x hx => (m3 x hx).2, fun x hx => (m6 x hx).2⟩
  unfold crackDraw
  rw [e1, e2]
  simp only [bind, Except.bind, (stateAt_a N).2.2.1]

/-- **C155 (curves).** The plot has one point per cycle 1, …, N_f: the length of the crack after that cycle, and the critical length for
the crack as it was before that cycle. -/
theorem C155_curves (p : CrackIn) (h : Accepted p) (fuel : ℕ) (out : CrackOut) (ho : p.grow fuel = .ok (some out)) :
    ∃ d, crackPlot p fuel = .ok (some d) ∧ d.N.length = out.Nf_total ∧ d.crack.length = out.Nf_total ∧
      d.critical.length = out.Nf_total ∧ ∀ k : ℕ, k < out.Nf_total → d.N[k]? = some ((k : ℝ) + 1) ∧
        d.crack[k]? = some (crackLength p (transition p) (k + 1)) ∧
        d.critical[k]? = some (criticalLength p (crackLength p (transition p) k)) := by
  obtain ⟨hp, h1, -, -, -⟩ := plot_some h ho
  obtain ⟨amin, amax, kmin, kmax, d, hd, rfl, -⟩ := draw_ok (p := p) _ h1
  rw [hp, hd]
  refine ⟨_, rfl, by simp, by simp [(stateAt_a _).2.2.2], by simp [stateAt_crits], fun k hk => ⟨?_, ?_, ?_⟩⟩
  · simp only [getElem?_map, getElem?_range hk, Option.map_some, Nat.cast_add, Nat.cast_one]
  · simp only [(stateAt_a _).2.2.2, getElem?_map, getElem?_range hk, Option.map_some, lt2_eq]
  · simp only [stateAt_crits, getElem?_map, getElem?_range hk, Option.map_some, lt2_eq]

/-- **C155 (crossing).** The crack is drawn at or below the critical length (and `a_final`) until the last cycle, and above one of them at
the last: the curves cross in the last cycle and nowhere before. -/
theorem C155_crossing (p : CrackIn) (h : Accepted p) (fuel : ℕ) (out : CrackOut) (ho : p.grow fuel = .ok (some out))
    (d : CrackPlot) (hd : crackPlot p fuel = .ok (some d)) (k : ℕ) (a c : ℝ) (ha : d.crack[k]? = some a)
    (hc : d.critical[k]? = some c) :
    (k + 1 < out.Nf_total → a ≤ c ∧ ∀ af, p.a_final = some af → a ≤ af) ∧
    (k + 1 = out.Nf_total → c < a ∨ ∃ af, p.a_final = some af ∧ af < a) := by
  obtain ⟨hp, h1, h2, h3, -⟩ := plot_some h ho
  obtain ⟨d', e, -, el, -, hk⟩ := C155_curves p h fuel out ho
  obtain rfl : d' = d := Option.some.inj (Except.ok.inj (e.symm.trans hd))
  have hlt : k < out.Nf_total := el ▸ (List.getElem?_eq_some_iff.1 ha).1
  obtain ⟨-, g1, g2⟩ := hk k hlt
  obtain rfl := Option.some.inj (ha.symm.trans g1)
  obtain rfl := Option.some.inj (hc.symm.trans g2)
  constructor
  · intro hk'
    have := h3 k hk'
    unfold StopsAfter at this
    push Not at this
    exact ⟨this.1, this.2⟩
  · intro hk'
    have e : out.Nf_total - 1 = k := by omega
    rw [e] at h2
    exact h2

/-- **C155 (guide).** For a crack that stays within the net section until the last cycle, the dashed guide runs from the axis at the final
length to the last point of the crack's curve and down to the cycle at which it failed. -/
theorem C155_guide (p : CrackIn) (h : Accepted p) (hv : ValidCrack p) (fuel : ℕ) (out : CrackOut) (ho : p.grow fuel = .ok (some out))
    (hw : ∀ k < out.Nf_total, Within p (crackLength p (transition p) k)) (d : CrackPlot) (hd : crackPlot p fuel = .ok (some d)) :
    ∃ a, d.crack.getLast? = some a ∧ a = crackLength p (transition p) out.Nf_total ∧
      d.guide = [(0, a), ((out.Nf_total : ℝ), a), ((out.Nf_total : ℝ), 0)] := by
  obtain ⟨hp, h1, -⟩ := plot_some h ho
  obtain ⟨amin, amax, kmin, kmax, d', e, rfl, m1, m2, m3, m4, m5, m6⟩ := draw_ok (p := p) _ h1
  rw [hp, e] at hd
  obtain rfl := Option.some.inj (Except.ok.inj hd)
  rw [(stateAt_a _).2.2.2, lt2_eq] at *
  refine ⟨crackLength p (transition p) out.Nf_total, ?_, rfl, ?_⟩
  · simp only [getLast?_map]
    obtain ⟨N, hN⟩ : ∃ N, out.Nf_total = N + 1 := ⟨out.Nf_total - 1, by omega⟩
    rw [hN, range_succ]
    simp
  · have : amax = crackLength p (transition p) out.Nf_total := by
      obtain ⟨j, hj, rfl⟩ := mem_map.1 m2
      rw [mem_range] at hj
      apply le_antisymm
      · rcases Nat.lt_or_ge (j + 1) out.Nf_total with h' | h'
        · exact (mono_upto hv hw h' le_rfl).le
        · rw [show j + 1 = out.Nf_total by omega]
      · refine m5 _ (mem_map.2 ⟨out.Nf_total - 1, mem_range.2 (by omega), ?_⟩)
        congr 1; omega
    simp only [this]

/-- **C155 (axes).** Every cycle is on the horizontal axis, every critical length is on the vertical one with a sixth of it to spare, and so is the crack
up to the last cycle; its last point is if it is at most 1.2 times the largest critical length. -/
theorem C155_axes (p : CrackIn) (h : Accepted p) (hv : ValidCrack p) (fuel : ℕ) (out : CrackOut) (ho : p.grow fuel = .ok (some out))
    (hw : ∀ k < out.Nf_total, Within p (crackLength p (transition p) k)) (d : CrackPlot) (hd : crackPlot p fuel = .ok (some d)) :
    (∀ n ∈ d.N, d.xlim.1 ≤ n ∧ n ≤ d.xlim.2) ∧
    (∀ c ∈ d.critical, d.ylim.1 ≤ c ∧ c * (12 / 10) ≤ d.ylim.2) ∧
    (∀ k : ℕ, k + 1 < out.Nf_total → ∀ a, d.crack[k]? = some a → d.ylim.1 ≤ a ∧ a ≤ d.ylim.2) ∧
    (∀ k ∈ d.critical, (∀ c ∈ d.critical, c ≤ k) → d.ylim.2 = k * (12 / 10)) := by
  obtain ⟨hp, h1, -⟩ := plot_some h ho
  have hcross := C155_crossing p h fuel out ho d hd
  obtain ⟨d'', e', -, el, ec, hk⟩ := C155_curves p h fuel out ho
  obtain rfl : d'' = d := Option.some.inj (Except.ok.inj (e'.symm.trans hd))
  obtain ⟨amin, amax, kmin, kmax, d', e, rfl, m1, m2, m3, m4, m5, m6⟩ := draw_ok (p := p) _ h1
  rw [hp, e] at hd
  obtain rfl := Option.some.inj (Except.ok.inj hd)
  have hnn : ∀ c ∈ (stateAt p out.Nf_total).a_crit_array, 0 ≤ c := by
    intro c hc
    rw [stateAt_crits] at hc
    obtain ⟨j, -, rfl⟩ := mem_map.1 hc
    unfold criticalLength
    have := Real.pi_pos
    positivity
  refine ⟨?_, ?_, ?_, ?_⟩
  · intro n hn
    obtain ⟨i, hi, rfl⟩ := mem_map.1 hn
    rw [mem_range] at hi
    have : ((i + 1 : ℕ) : ℝ) ≤ out.Nf_total := by exact_mod_cast hi
    have h0 : (0 : ℝ) ≤ out.Nf_total := Nat.cast_nonneg _
    exact ⟨by positivity, by simp only; linarith⟩
  · intro c hc
    have := m6 c hc
    exact ⟨hnn c hc, by simp only; linarith⟩
  · intro k hk' a ha
    obtain ⟨-, g1, g2⟩ := hk k (by omega)
    have hc := ((hcross k a _ ha g2).1 hk').1
    obtain rfl := Option.some.inj (ha.symm.trans g1)
    have hpos := (hw (k + 1) hk').1
    have := m6 _ (List.mem_of_getElem? g2)
    exact ⟨hpos.le, by simp only; linarith⟩
  · intro k hk' hmax
    have : kmax = k := le_antisymm (hmax _ m4) (m6 _ hk')
    simp only [this]

/-- **C155, finding.** The height of the guide is not the final crack length in the results (that is the critical length, C64): if the crack broke by
reaching the critical length the guide is strictly above it. -/
theorem C155_final_length_finding (p : CrackIn) (h : Accepted p) (fuel : ℕ) (out : CrackOut) (ho : p.grow fuel = .ok (some out))
    (hf : p.a_final = none) (d : CrackPlot) (hd : crackPlot p fuel = .ok (some d)) :
    ∃ a, d.crack.getLast? = some a ∧ out.final_crack_length < a := by
  obtain ⟨hp, h1, h2, -, h4⟩ := plot_some h ho
  obtain ⟨d'', e', -, el, ec, hk⟩ := C155_curves p h fuel out ho
  obtain rfl : d'' = d := Option.some.inj (Except.ok.inj (e'.symm.trans hd))
  obtain ⟨-, g1, -⟩ := hk (out.Nf_total - 1) (by omega)
  refine ⟨crackLength p (transition p) (out.Nf_total - 1 + 1), ?_, ?_⟩
  · rw [getLast?_eq_getElem?, el]; exact g1
  · rw [h4]
    rcases h2 with h2 | ⟨af, e, -⟩
    · exact h2
    · rw [hf] at e; cases e

/-- **C155, finding.** A crack that starts at more than 1.2 times its critical length fails in the first cycle, and the single point drawn for it is above the
axes. -/
theorem C155_outside_finding (p : CrackIn) (h : Accepted p) (hv : ValidCrack p)
    (h0 : criticalLength p p.a_initial * (12 / 10) < p.a_initial) (fuel : ℕ) :
    ∃ out d a, p.grow (fuel + 1) = .ok (some out) ∧ out.Nf_total = 1 ∧ crackPlot p (fuel + 1) = .ok (some d) ∧
      d.crack = [a] ∧ d.ylim.2 < a := by
  have hs := C64_strictly_increasing p hv (transition p) 0 hv.start
  have hc : 0 ≤ criticalLength p p.a_initial := by
    unfold criticalLength
    have := Real.pi_pos
    positivity
  have hst : StopsAfter p (transition p) 0 := by
    left
    have : crackLength p (transition p) 0 = p.a_initial := rfl
    rw [this] at hs ⊢
    linarith
  obtain ⟨out, ho, hN⟩ := (C64_loop p h (fuel + 1) 1).2 ⟨le_rfl, by omega, hst, fun k hk => by omega⟩
  obtain ⟨hp, h1, -⟩ := plot_some h ho
  rw [hN] at hp
  obtain ⟨amin, amax, kmin, kmax, d', e, rfl, m1, m2, m3, m4, m5, m6⟩ := draw_ok (p := p) 1 le_rfl
  refine ⟨out, _, crackLength p (transition p) 1, ho, hN, by rw [hp, e]; rfl, ?_, ?_⟩
  · simp only [(stateAt_a 1).2.2.2, lt2_eq]; rfl
  · rw [stateAt_crits] at m4
    have : kmax = criticalLength p p.a_initial := by
      obtain ⟨j, hj, rfl⟩ := mem_map.1 m4
      rw [mem_range] at hj
      obtain rfl : j = 0 := by omega
      rfl
    simp only [this]
    have e0 : crackLength p (transition p) 0 = p.a_initial := rfl
    rw [e0] at hs
    linarith

/-- The documentation's centre crack meets the hypotheses: the loop ends, the plot is drawn. -/
example : ∃ fuel out d, docCrack.grow fuel = .ok (some out) ∧ crackPlot docCrack fuel = .ok (some d) ∧
    (∀ k < out.Nf_total, Within docCrack (crackLength docCrack (transition docCrack) k)) := by
  obtain ⟨N, out, h1, h2, h3⟩ := docCrack_ends
  obtain ⟨d, hd, -⟩ := C155_curves docCrack docCrack_accepted N out (h1 N le_rfl)
  exact ⟨N, out, d, h1 N le_rfl, hd, by rw [h2]; exact h3⟩

/-- The documentation's centre crack, 40 mm long to begin with. -/
noncomputable def longCrack : CrackIn := ⟨66, 3.81e-12, 3, 0.103, 100, 5, 1, 40, none, none, "center"⟩

theorem longCrack_valid : ValidCrack longCrack := by
  refine ⟨?_, ?_, ?_, ?_, ?_, ?_, ?_⟩ <;> norm_num [longCrack, CrackIn.d, Within]

theorem cos_bounds : 0 < Real.cos (Real.pi * (40 / 100)) ∧ Real.cos (Real.pi * (40 / 100)) < 1 / 2 := by
  have hpi := Real.pi_pos
  constructor
  · exact Real.cos_pos_of_mem_Ioo ⟨by linarith, by linarith⟩
  · rw [← Real.cos_pi_div_three]
    exact Real.cos_lt_cos_of_nonneg_of_le_pi (by positivity) (by linarith) (by linarith)

theorem longCrack_factor : geometryFactor (longCrack.crack_type = "edge") (40 / 100) = 1 / Real.sqrt (Real.cos (Real.pi * (40 / 100))) := by
  unfold geometryFactor
  rw [if_neg (by simp [longCrack])]

theorem longCrack_accepted : Accepted longCrack := by
  refine ⟨by norm_num [longCrack], by simp [longCrack], by norm_num [longCrack, CrackIn.d],
    by rw [if_neg (by simp [longCrack])]; norm_num [longCrack], ?_⟩
  have hx : (longCrack.a_initial + longCrack.d) / longCrack.W = 40 / 100 := by norm_num [longCrack, CrackIn.d]
  rw [hx, longCrack_factor]
  obtain ⟨h0, h1⟩ := cos_bounds
  rw [div_div_eq_mul_div, div_one, mul_pow, Real.sq_sqrt h0.le]
  have : longCrack.Kt = 1 := rfl
  rw [this]
  intro h
  nlinarith

/-- It meets the hypotheses of `C155_outside_finding`. -/
example : ∃ out d a, longCrack.grow 1 = .ok (some out) ∧ out.Nf_total = 1 ∧ crackPlot longCrack 1 = .ok (some d) ∧
      d.crack = [a] ∧ d.ylim.2 < a := by
  refine C155_outside_finding longCrack longCrack_accepted longCrack_valid ?_ 0
  obtain ⟨h0, h1⟩ := cos_bounds
  have e1 : longCrack.a_initial = 40 := rfl
  have e2 : longCrack.W = 100 := rfl
  have e3 : longCrack.Kc = 66 := rfl
  unfold criticalLength
  rw [e1, e2, e3, longCrack_factor]
  have e : netStress longCrack 40 = 103000 / 300 := by norm_num [netStress, longCrack, CrackIn.d]
  rw [e]
  have hs : Real.sqrt (Real.cos (Real.pi * (40 / 100))) ≠ 0 := (Real.sqrt_pos.2 h0).ne'
  have : (66 / (1 / Real.sqrt (Real.cos (Real.pi * (40 / 100))) * (103000 / 300))) ^ 2 =
      Real.cos (Real.pi * (40 / 100)) * (66 * 300 / 103000) ^ 2 := by
    rw [← Real.sq_sqrt h0.le]
    rw [Real.sqrt_sq (Real.sqrt_nonneg _)]
    field_simp
  rw [this]
  have hp : 1000 / Real.pi < 1000 / 3 := div_lt_div_of_pos_left (by norm_num) (by norm_num) Real.pi_gt_three
  have hpi : 0 < 1000 / Real.pi := by have := Real.pi_pos; positivity
  have : Real.cos (Real.pi * (40 / 100)) * (66 * 300 / 103000) ^ 2 ≤ 1 / 2 * (66 * 300 / 103000 : ℝ) ^ 2 := by nlinarith
  have h5 : 1000 / Real.pi * (Real.cos (Real.pi * (40 / 100)) * (66 * 300 / 103000) ^ 2) ≤ 1000 / 3 * (1 / 2 * (66 * 300 / 103000 : ℝ) ^ 2) := by
    apply mul_le_mul hp.le this (by positivity) (by norm_num)
  have h6 : 1000 / 3 * (1 / 2 * (66 * 300 / 103000 : ℝ) ^ 2) * (12 / 10) < 40 := by norm_num
  linarith

end Reliability.Props.CrackPlot

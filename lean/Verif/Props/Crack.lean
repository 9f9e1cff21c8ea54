import Verif.Lemmas.PoF
import Mathlib.Analysis.SpecialFunctions.Integrals.Basic
import Mathlib.Tactic.NormNum
import Mathlib.Analysis.Real.Pi.Bounds

/-! # C64: fracture_mechanics_crack_growth -/

namespace Reliability.Props.Crack

open Reliability Reliability.PoF Spec

/-- The transition length reported by the iterative method. -/
noncomputable def transition (p : CrackIn) : ℝ :=
  p.d / ((1.12 * p.Kt / geometryFactor (p.crack_type = "edge") ((p.a_initial + p.d) / p.W)) ^ 2 - 1)

theorem lt2_eq (p : CrackIn) : p.lt2 = transition p := by
  unfold CrackIn.lt2 transition; rw [fg_eq]

/-- The input is accepted: known crack type, `m ≠ 2`, notches not deeper than the plate, and neither transition length
divides by zero. -/
def Accepted (p : CrackIn) : Prop :=
  p.m ≠ 2 ∧ p.crack_type ∈ ["center", "edge", "centre"] ∧ 0 ≤ p.W - 2 * p.d ∧
    (1.12 * p.Kt / (if p.crack_type = "edge" then 1.12 else 1)) ^ 2 ≠ 1 ∧
    (1.12 * p.Kt / geometryFactor (p.crack_type = "edge") ((p.a_initial + p.d) / p.W)) ^ 2 ≠ 1

theorem simplified_ok {p : CrackIn} (h : (1.12 * p.Kt / p.fgFixed) ^ 2 ≠ 1) : ∃ s, p.simplified = .ok s := by
  unfold CrackIn.simplified
  simp only
  rw [if_neg (by intro h'; apply h; linarith)]
  exact ⟨_, rfl⟩

theorem grow_ok {p : CrackIn} (h : Accepted p) : ∃ s, p.simplified = .ok s ∧ ∀ fuel, p.grow fuel =
    .ok ((p.loop fuel p.start).map fun st => ⟨s, st.stage1, st.N - st.stage1, st.N, st.a_crit * 1000 - p.d, p.lt2⟩) := by
  obtain ⟨h1, h2, h3, h4, h5⟩ := h
  have h4' : (1.12 * p.Kt / p.fgFixed) ^ 2 ≠ 1 := by
    unfold CrackIn.fgFixed; norm_num at h4 ⊢; exact h4
  obtain ⟨s, hs⟩ := simplified_ok h4'
  refine ⟨s, hs, fun fuel => ?_⟩
  unfold CrackIn.grow
  rw [if_neg h1, if_neg (fun h' => h' h2), if_neg (not_lt.2 h3), hs, fg_eq]
  simp only
  rw [if_neg (by intro h'; apply h5; linarith)]

theorem grow_some {p : CrackIn} (h : Accepted p) {fuel : ℕ} {out : CrackOut} :
    p.grow fuel = .ok (some out) ↔ ∃ N, 1 ≤ N ∧ N ≤ fuel ∧ StopsAfter p (transition p) (N - 1) ∧
      (∀ k, k + 1 < N → ¬ StopsAfter p (transition p) k) ∧
      ∃ s, p.simplified = .ok s ∧
      out = ⟨s, (stateAt p N).stage1, N - (stateAt p N).stage1, N,
        criticalLength p (crackLength p (transition p) (N - 1)), transition p⟩ := by
  obtain ⟨s, hs, hg⟩ := grow_ok h
  rw [hg fuel]
  have hstart : p.start = stateAt p 0 := rfl
  have hfin : ∀ N, ((stateAt p N).finished = true ∧ ∀ i, 0 ≤ i → i < N → (stateAt p i).finished = false) ↔
      1 ≤ N ∧ StopsAfter p p.lt2 (N - 1) ∧ ∀ k, k + 1 < N → ¬ StopsAfter p p.lt2 k := by
    intro N
    constructor
    · rintro ⟨h1, h2⟩
      obtain ⟨j, hj, hst⟩ := (stateAt_finished_iff N).1 h1
      have hnot : ∀ k, k + 1 < N → ¬ StopsAfter p p.lt2 k := by
        intro k hk hs'
        have := h2 (k + 1) (Nat.zero_le _) hk
        rw [(stateAt_finished_iff (k + 1)).2 ⟨k, Nat.lt_succ_self _, hs'⟩] at this
        cases this
      have : j = N - 1 := by
        by_contra hne
        exact hnot j (by omega) hst
      exact ⟨by omega, this ▸ hst, hnot⟩
    · rintro ⟨h1, h2, h3⟩
      refine ⟨(stateAt_finished_iff N).2 ⟨N - 1, by omega, h2⟩, fun i _ hi => ?_⟩
      by_contra hf
      obtain ⟨j, hj, hst⟩ := (stateAt_finished_iff i).1 (by simpa using hf)
      exact h3 j (by omega) hst
  rw [lt2_eq] at hfin
  constructor
  · intro h'
    have h' := Except.ok.inj h'
    rw [Option.map_eq_some_iff] at h'
    obtain ⟨st, hst, rfl⟩ := h'
    rw [hstart, loop_eq] at hst
    obtain ⟨N, -, hN, rfl, hf1, hf2⟩ := hst
    obtain ⟨h1, h2, h3⟩ := (hfin N).1 ⟨hf1, hf2⟩
    refine ⟨N, h1, by omega, h2, h3, s, hs, ?_⟩
    obtain ⟨k, rfl⟩ : ∃ k, N = k + 1 := ⟨N - 1, by omega⟩
    rw [stateAt_crit, (stateAt_a (k + 1)).2.2.1, lt2_eq]; rfl
  · rintro ⟨N, h1, h2, h3, h4, s', hs', rfl⟩
    rw [hs] at hs'
    have hs' := Except.ok.inj hs'
    subst hs'
    obtain ⟨hf1, hf2⟩ := (hfin N).2 ⟨h1, h3, h4⟩
    have : p.loop fuel p.start = some (stateAt p N) := by
      rw [hstart, loop_eq]
      exact ⟨N, Nat.zero_le _, by omega, rfl, hf1, hf2⟩
    rw [this]
    obtain ⟨k, rfl⟩ : ∃ k, N = k + 1 := ⟨N - 1, by omega⟩
    simp only [Option.map_some, stateAt_crit, (stateAt_a (k + 1)).2.2.1, lt2_eq]; rfl

/-- **C64 (the loop).** The iterative method ends on cycle `N` exactly if that is the first cycle after which the crack is
longer than the critical length (or the requested final length); the stage counts then add up to the total. -/
theorem C64_loop (p : CrackIn) (h : Accepted p) (fuel N : ℕ) :
    (∃ out, p.grow fuel = .ok (some out) ∧ out.Nf_total = N) ↔
      1 ≤ N ∧ N ≤ fuel ∧ StopsAfter p (transition p) (N - 1) ∧ ∀ k, k + 1 < N → ¬ StopsAfter p (transition p) k := by
  constructor
  · rintro ⟨out, h', rfl⟩
    obtain ⟨N, h1, h2, h3, h4, s, -, rfl⟩ := (grow_some h).1 h'
    exact ⟨h1, h2, h3, h4⟩
  · rintro ⟨h1, h2, h3, h4⟩
    obtain ⟨s, hs, -⟩ := grow_ok h
    exact ⟨_, (grow_some h).2 ⟨N, h1, h2, h3, h4, s, hs, rfl⟩, rfl⟩

theorem growth_pos {p : CrackIn} (hv : ValidCrack p) {a l : ℝ} (ha : Within p a) (hl : 0 < l) :
    0 < stressIntensity p a l := by
  unfold stressIntensity
  have h1 := geometryFactor_ge p hv.W hv.d ha
  have h2 := netStress_ge p hv.P hv.t ha
  have h3 : 0 < Real.sqrt (Real.pi * l / 1000) := Real.sqrt_pos.2 (by positivity)
  have : 0 < netStress p a := lt_of_lt_of_le h2.1 h2.2
  positivity

/-- **C64 (growth).** Within the net section every cycle makes the crack strictly longer. -/
theorem C64_strictly_increasing (p : CrackIn) (hv : ValidCrack p) (lt : ℝ) (k : ℕ) (hk : Within p (crackLength p lt k)) :
    crackLength p lt k < crackLength p lt (k + 1) := by
  rw [crackLength]
  have hl : 0 < (if crackLength p lt k < lt then crackLength p lt k else crackLength p lt k + p.d) := by
    have := hk.1; have := hv.d
    split <;> linarith
  have := Real.rpow_pos_of_pos (growth_pos hv hk hl) p.m
  nlinarith [mul_pos hv.C (Real.rpow_pos_of_pos (growth_pos hv hk hl) p.m)]

theorem mono_upto {p : CrackIn} (hv : ValidCrack p) {lt : ℝ} {N : ℕ} (hw : ∀ k < N, Within p (crackLength p lt k))
    {i j : ℕ} (hij : i < j) (hj : j ≤ N) : crackLength p lt i < crackLength p lt j := by
  induction j with
  | zero => omega
  | succ j ih =>
    have hs := C64_strictly_increasing p hv lt j (hw j (by omega))
    rcases Nat.lt_succ_iff_lt_or_eq.1 hij with h | rfl
    · exact lt_trans (ih h (by omega)) hs
    · exact hs

theorem stage1_zero {p : CrackIn} {N : ℕ}
    (h : ∀ s, 1 ≤ s → s < N → ¬ (crackLength p p.lt2 s < p.lt2 ∧ p.lt2 < crackLength p p.lt2 (s + 1))) :
    (stateAt p N).stage1 = 0 := by
  induction N with
  | zero => rfl
  | succ N ih =>
    rw [stateAt_stage1, if_neg (by rintro ⟨h1, h2⟩; exact h N h1 (Nat.lt_succ_self _) h2)]
    exact ih fun s h1 h2 => h s h1 (by omega)

theorem stage1_cross {p : CrackIn} (hv : ValidCrack p) {N s : ℕ} (hw : ∀ k < N, Within p (crackLength p p.lt2 k))
    (h1 : 1 ≤ s) (h2 : s < N) (hc : crackLength p p.lt2 s < p.lt2 ∧ p.lt2 < crackLength p p.lt2 (s + 1)) :
    (stateAt p N).stage1 = s := by
  induction N with
  | zero => omega
  | succ N ih =>
    rw [stateAt_stage1]
    rcases Nat.lt_succ_iff_lt_or_eq.1 h2 with h | rfl
    · rw [if_neg]
      · exact ih (fun k hk => hw k (by omega)) h
      · rintro ⟨-, h', -⟩
        have hle : crackLength p p.lt2 (s + 1) ≤ crackLength p p.lt2 N := by
          rcases Nat.lt_or_ge (s + 1) N with h3 | h3
          · exact (mono_upto hv hw h3 (by omega)).le
          · obtain rfl : s + 1 = N := by omega
            exact le_refl _
        linarith [hc.2]
    · rw [if_pos ⟨h1, hc⟩]

/-- **C64 (stages).** The stage counts add up to the total.  If the crack outgrows the transition length by the end, and no
cycle ends exactly on it, stage 1 is the number of cycles after which the crack was still shorter than the transition
length. -/
theorem C64_stages (p : CrackIn) (h : Accepted p) (hv : ValidCrack p) (fuel : ℕ) (out : CrackOut)
    (ho : p.grow fuel = .ok (some out)) (hw : ∀ k < out.Nf_total, Within p (crackLength p out.transition_length k)) :
    out.transition_length = transition p ∧ out.Nf_stage_1 + out.Nf_stage_2 = out.Nf_total ∧
    (out.transition_length < crackLength p out.transition_length out.Nf_total →
      (∀ k ∈ Finset.Icc 1 out.Nf_total, crackLength p out.transition_length k ≠ out.transition_length) →
      out.Nf_stage_1 = ((Finset.Icc 1 out.Nf_total).filter fun k =>
        crackLength p out.transition_length k < out.transition_length).card) := by
  obtain ⟨N, h1, h2, h3, h4, s, hs, rfl⟩ := (grow_some h).1 ho
  simp only at hw ⊢
  rw [← lt2_eq] at hw ⊢
  have hle : (stateAt p N).stage1 ≤ N := by
    clear h1 h2 h3 h4 ho hw
    induction N with
    | zero => exact le_refl _
    | succ N ih => rw [stateAt_stage1]; split <;> omega
  refine ⟨trivial, by omega, fun hend hne => ?_⟩
  by_cases hc : ∃ s, 1 ≤ s ∧ s < N ∧ crackLength p p.lt2 s < p.lt2 ∧ p.lt2 < crackLength p p.lt2 (s + 1)
  · obtain ⟨s, hs1, hs2, hc⟩ := hc
    rw [stage1_cross hv hw hs1 hs2 hc]
    have : (Finset.Icc 1 N).filter (fun k => crackLength p p.lt2 k < p.lt2) = Finset.Icc 1 s := by
      ext k
      simp only [Finset.mem_filter, Finset.mem_Icc]
      constructor
      · rintro ⟨⟨k1, k2⟩, k3⟩
        refine ⟨k1, ?_⟩
        by_contra hk
        have : crackLength p p.lt2 (s + 1) ≤ crackLength p p.lt2 k := by
          rcases Nat.lt_or_ge (s + 1) k with h5 | h5
          · exact (mono_upto hv hw h5 k2).le
          · obtain rfl : s + 1 = k := by omega
            exact le_refl _
        linarith [hc.2]
      · rintro ⟨k1, k2⟩
        refine ⟨⟨k1, by omega⟩, ?_⟩
        rcases Nat.lt_or_ge k s with h5 | h5
        · exact lt_trans (mono_upto hv hw h5 (by omega)) hc.1
        · obtain rfl : k = s := by omega
          exact hc.1
    rw [this]; simp
  · rw [stage1_zero fun s h5 h6 h7 => hc ⟨s, h5, h6, h7⟩]
    symm
    rw [Finset.card_eq_zero, Finset.filter_eq_empty_iff]
    intro k hk hk'
    rw [Finset.mem_Icc] at hk
    -- otherwise the length crosses the transition somewhere between k and N
    apply hc
    have hex : ∃ j, k < j ∧ j ≤ N ∧ p.lt2 < crackLength p p.lt2 j := by
      refine ⟨N, ?_, le_refl _, hend⟩
      rcases Nat.lt_or_ge k N with h5 | h5
      · exact h5
      · obtain rfl : k = N := by omega
        linarith
    classical
    let j := Nat.find hex
    obtain ⟨j1, j2, j3⟩ := Nat.find_spec hex
    have hmin := fun i hi => Nat.find_min hex (m := i) hi
    refine ⟨j - 1, by omega, by omega, ?_, ?_⟩
    · rcases Nat.lt_or_ge k (j - 1) with h5 | h5
      · have := hmin (j - 1) (by omega)
        have h6 : ¬ p.lt2 < crackLength p p.lt2 (j - 1) := fun h6 => this ⟨h5, by omega, h6⟩
        exact lt_of_le_of_ne (not_lt.1 h6) (hne _ (Finset.mem_Icc.2 ⟨by omega, by omega⟩))
      · have : j - 1 = k := by omega
        rw [this]; exact hk'
    · have : j - 1 + 1 = j := by omega
      rw [this]; exact j3

/-- **C64, finding.** If the crack never outgrows the transition length, every cycle is stage 1 growth, but the code reports
zero cycles in stage 1 and all of them in stage 2. -/
theorem C64_stage1_lost_finding (p : CrackIn) (h : Accepted p) (hv : ValidCrack p) (fuel : ℕ) (out : CrackOut)
    (ho : p.grow fuel = .ok (some out)) (hw : ∀ k < out.Nf_total, Within p (crackLength p out.transition_length k))
    (hend : crackLength p out.transition_length out.Nf_total ≤ out.transition_length) :
    out.Nf_stage_1 = 0 ∧ out.Nf_stage_2 = out.Nf_total := by
  obtain ⟨N, h1, h2, h3, h4, s, hs, rfl⟩ := (grow_some h).1 ho
  simp only at hw hend ⊢
  rw [← lt2_eq] at hw hend
  have : (stateAt p N).stage1 = 0 := by
    apply stage1_zero
    rintro s s1 s2 ⟨-, s3⟩
    have : crackLength p p.lt2 (s + 1) ≤ crackLength p p.lt2 N := by
      rcases Nat.lt_or_ge (s + 1) N with h5 | h5
      · exact (mono_upto hv hw h5 (le_refl _)).le
      · obtain rfl : s + 1 = N := by omega
        exact le_refl _
    linarith
  exact ⟨this, by omega⟩

/-- **C64, finding.** The reported final crack length is the critical length of the last cycle, whatever `a_final` is and
however long the crack is. -/
theorem C64_final_length_finding (p : CrackIn) (h : Accepted p) (fuel : ℕ) (out : CrackOut)
    (ho : p.grow fuel = .ok (some out)) :
    out.final_crack_length = criticalLength p (crackLength p (transition p) (out.Nf_total - 1)) := by
  obtain ⟨N, h1, h2, h3, h4, s, hs, rfl⟩ := (grow_some h).1 ho
  rfl

/-- A lower bound of the growth per cycle. -/
theorem growth_ge {p : CrackIn} (hv : ValidCrack p) (lt : ℝ) : ∃ δ > 0, ∀ k, Within p (crackLength p lt k) →
    p.a_initial ≤ crackLength p lt k → crackLength p lt k + δ ≤ crackLength p lt (k + 1) := by
  have h0 := hv.start
  set S0 := p.P * 10 ^ 6 / (p.t * (p.W - 2 * p.d)) with hS0
  have hS0p : 0 < S0 := (netStress_ge p hv.P hv.t h0).1
  set K0 := S0 * Real.sqrt (Real.pi * p.a_initial / 1000) with hK0
  have hsq : 0 < Real.sqrt (Real.pi * p.a_initial / 1000) := by
    apply Real.sqrt_pos.2
    have := h0.1
    positivity
  have hK0p : 0 < K0 := mul_pos hS0p hsq
  refine ⟨1000 * (p.C * K0 ^ p.m), by have := Real.rpow_pos_of_pos hK0p p.m; have := hv.C; positivity, fun k hk hge => ?_⟩
  rw [crackLength]
  have hl : p.a_initial ≤ (if crackLength p lt k < lt then crackLength p lt k else crackLength p lt k + p.d) := by
    have := hv.d
    split <;> linarith
  have hKle : K0 ≤ stressIntensity p (crackLength p lt k)
      (if crackLength p lt k < lt then crackLength p lt k else crackLength p lt k + p.d) := by
    unfold stressIntensity
    generalize (if crackLength p lt k < lt then crackLength p lt k else crackLength p lt k + p.d) = l at hl
    have g1 := geometryFactor_ge p hv.W hv.d hk
    have g2 := (netStress_ge p hv.P hv.t hk).2
    have g3 : Real.sqrt (Real.pi * p.a_initial / 1000) ≤ Real.sqrt (Real.pi * l / 1000) := by
      apply Real.sqrt_le_sqrt
      have := Real.pi_pos
      have : Real.pi * p.a_initial ≤ Real.pi * l := mul_le_mul_of_nonneg_left hl this.le
      linarith
    rw [hK0]
    have g4 : S0 ≤ geometryFactor (p.crack_type = "edge") (crackLength p lt k / p.W) * netStress p (crackLength p lt k) := by
      nlinarith
    exact mul_le_mul g4 g3 hsq.le (le_trans hS0p.le g4)
  have := Real.rpow_le_rpow hK0p.le hKle hv.m
  have := mul_le_mul_of_nonneg_left this hv.C.le
  linarith

/-- **C64 (termination).** If the critical length for the initial net stress (without geometry factor) lies inside the net
section (for a centre crack, inside half the width), the iterative method ends, and the crack stays within the section up
to the last cycle. -/
theorem C64_terminates (p : CrackIn) (h : Accepted p) (hv : ValidCrack p)
    (hK : ∀ a, ¬ Within p a → 0 < a → 1000 / Real.pi * (p.Kc / netStress p 0) ^ 2 < a) :
    ∃ N out, (∀ fuel, N ≤ fuel → p.grow fuel = .ok (some out)) ∧ out.Nf_total = N ∧
      ∀ k < N, Within p (crackLength p (transition p) k) := by
  set lt := transition p
  obtain ⟨δ, hδ, hg⟩ := growth_ge hv lt
  -- some cycle stops: otherwise the crack grows without limit while staying in the section
  have key : ∃ k, StopsAfter p lt k ∧ ∀ j ≤ k, Within p (crackLength p lt j) := by
    by_contra hno
    push Not at hno
    have hall : ∀ k, Within p (crackLength p lt k) ∧ p.a_initial + k * δ ≤ crackLength p lt k := by
      intro k
      induction k using Nat.strong_induction_on with
      | _ k ih =>
        rcases k with _ | k
        · exact ⟨hv.start, by simp [crackLength]⟩
        · have hk := ih k (Nat.lt_succ_self _)
          have hgrow := hg k hk.1 (by nlinarith [hk.2, (Nat.cast_nonneg k : (0:ℝ) ≤ k)])
          refine ⟨?_, by push_cast; linarith [hk.2]⟩
          by_contra hnw
          -- then this cycle stops, contradiction
          have hpos : 0 < crackLength p lt (k + 1) := by linarith [hk.1.1]
          have hcrit : criticalLength p (crackLength p lt k) ≤ 1000 / Real.pi * (p.Kc / netStress p 0) ^ 2 := by
            unfold criticalLength
            have g1 := geometryFactor_ge p hv.W hv.d hk.1
            have g2 := netStress_ge p hv.P hv.t hk.1
            have e0 : netStress p 0 = p.P * 10 ^ 6 / (p.t * (p.W - 2 * p.d)) := by unfold netStress; rw [sub_zero]
            rw [e0]
            have g4 : p.P * 10 ^ 6 / (p.t * (p.W - 2 * p.d)) ≤
                geometryFactor (p.crack_type = "edge") (crackLength p lt k / p.W) * netStress p (crackLength p lt k) := by
              nlinarith [g2.1, g2.2]
            have hpi := Real.pi_pos
            apply mul_le_mul_of_nonneg_left _ (by positivity)
            rw [div_pow, div_pow]
            apply div_le_div_of_nonneg_left (sq_nonneg _) (pow_pos g2.1 2)
            exact pow_le_pow_left₀ g2.1.le g4 2
          obtain ⟨j, hj, hjw⟩ := hno k (.inl (lt_of_le_of_lt hcrit (hK _ hnw hpos)))
          exact hjw (ih j (by omega)).1
    obtain ⟨n, hn⟩ := exists_nat_gt ((p.W - 2 * p.d) / δ)
    have := hall n
    rw [div_lt_iff₀ hδ] at hn
    linarith [this.1.2.1, this.2, hv.start.1]
  classical
  obtain ⟨hstop, hwithin⟩ := Nat.find_spec key
  set k := Nat.find key
  have hfirst : ∀ j, j + 1 < k + 1 → ¬ StopsAfter p lt j := by
    intro j hj hs
    exact Nat.find_min key (m := j) (by omega) ⟨hs, fun i hi => hwithin i (by omega)⟩
  obtain ⟨s, hs, -⟩ := grow_ok h
  refine ⟨k + 1, _, fun fuel hf => (grow_some h).2 ⟨k + 1, by omega, hf, hstop, hfirst, s, hs, rfl⟩, rfl,
    fun j hj => hwithin j (by omega)⟩

/-- **C64 (refusals).** `m = 2`, an unknown crack type and notches deeper than the plate are ValueErrors. -/
theorem C64_errors (p : CrackIn) (fuel : ℕ) :
    p.grow fuel = .error .valueError ↔ p.m = 2 ∨ p.crack_type ∉ ["center", "edge", "centre"] ∨ p.W < 2 * p.d := by
  unfold CrackIn.grow
  by_cases h1 : p.m = 2
  · rw [if_pos h1]; simp [h1]
  rw [if_neg h1]
  by_cases h2 : p.crack_type ∉ ["center", "edge", "centre"]
  · rw [if_pos h2]; exact iff_of_true rfl (.inr (.inl h2))
  rw [if_neg h2]
  by_cases h3 : p.W - 2 * p.d < 0
  · rw [if_pos h3]; exact iff_of_true rfl (.inr (.inr (by linarith)))
  rw [if_neg h3]
  refine iff_of_false ?_ (by rintro (h | h | h); exacts [h1 h, h2 h, h3 (by linarith)])
  unfold CrackIn.simplified
  simp only
  by_cases h4 : (1.12 * p.Kt / p.fgFixed) ^ 2 - 1 = 0
  · rw [if_pos h4]; simp
  · rw [if_neg h4]
    simp only
    split <;> simp

/-- **C64 (default notch).** Leaving out the notch depth `D` is the same as giving `D = 0`. -/
theorem C64_default_notch (p : CrackIn) (fuel : ℕ) :
    ({ p with D := none } : CrackIn).grow fuel = ({ p with D := some 0 } : CrackIn).grow fuel := by
  have hl : ∀ (n : ℕ) (st : CrackState), ({ p with D := none } : CrackIn).loop n st =
      ({ p with D := some 0 } : CrackIn).loop n st := by
    intro n
    induction n with
    | zero => intro st; rfl
    | succ n ih => intro st; simp only [CrackIn.loop]; rw [ih]; rfl
  unfold CrackIn.grow
  simp only [hl]
  rfl

/-- **C64, finding.** A plain (un-notched) edge crack — the default crack type with the default `Kt = 1` — is never computed:
the transition length of the simplified method divides by zero, whatever the material, load and geometry. -/
theorem C64_default_edge_finding (p : CrackIn) (fuel : ℕ) (hm : p.m ≠ 2) (ht : p.crack_type = "edge") (hk : p.Kt = 1)
    (hW : 2 * p.d ≤ p.W) : p.grow fuel = .error .zeroDivision := by
  unfold CrackIn.grow
  rw [if_neg hm, if_neg (by rw [ht]; decide), if_neg (by linarith)]
  have : p.simplified = .error .zeroDivision := by
    unfold CrackIn.simplified
    simp only
    rw [if_pos (by rw [hk, CrackIn.fgFixed, if_pos ht]; norm_num)]
  rw [this]

/-! ### simplified method -/

/-- Paris law with constant stress and geometry factor: growth (m) per cycle of a crack of `a` metres. -/
noncomputable def parisRate (p : CrackIn) (a : ℝ) : ℝ :=
  p.C * ((if p.crack_type = "edge" then 1.12 else 1) * (p.P * 10 ^ 6 / (p.t * (p.W - 2 * p.d))) *
    Real.sqrt (Real.pi * a)) ^ p.m

theorem paris_integral (p : CrackIn) (hm : p.m ≠ 2) (hC : 0 < p.C) (hP : 0 < p.P) (ht : 0 < p.t) (hW : 2 * p.d < p.W)
    {x y : ℝ} (hx : 0 < x) (hy : 0 < y) :
    (y ^ (-0.5 * p.m + 1) - x ^ (-0.5 * p.m + 1)) /
      ((-0.5 * p.m + 1) * p.C * p.Smax ^ p.m * Real.pi ^ (0.5 * p.m) * p.fgFixed ^ p.m) =
    ∫ a in x..y, 1 / parisRate p a := by
  have hf : 0 < p.fgFixed := by unfold CrackIn.fgFixed; split <;> norm_num
  have hS : 0 < p.Smax := by
    unfold CrackIn.Smax
    have : 0 < p.t * (p.W - 2 * p.d) := mul_pos ht (by linarith)
    positivity
  have hpi := Real.pi_pos
  have hexp : (-0.5 * p.m + 1) ≠ 0 := by
    intro h; apply hm; linarith
  set D := p.C * p.Smax ^ p.m * Real.pi ^ (0.5 * p.m) * p.fgFixed ^ p.m with hD
  have hDp : 0 < D := by
    have := Real.rpow_pos_of_pos hS p.m
    have := Real.rpow_pos_of_pos hpi (0.5 * p.m)
    have := Real.rpow_pos_of_pos hf p.m
    positivity
  have hfun : ∀ a ∈ Set.uIcc x y, 1 / parisRate p a = D⁻¹ * a ^ (-0.5 * p.m) := by
    intro a ha
    have ha0 : 0 < a := by
      rcases Set.mem_uIcc.1 ha with h | h <;> linarith [h.1]
    have e1 : parisRate p a = p.C * (p.fgFixed * p.Smax * Real.sqrt (Real.pi * a)) ^ p.m := by
      unfold parisRate CrackIn.fgFixed CrackIn.Smax
      congr 3
      · congr 1
        · norm_num
        · ring
    rw [e1, Real.mul_rpow (by positivity) (Real.sqrt_nonneg _), Real.mul_rpow hf.le hS.le, Real.sqrt_eq_rpow,
      ← Real.rpow_mul (by positivity), Real.mul_rpow hpi.le ha0.le, show (1 / 2 * p.m : ℝ) = 0.5 * p.m by norm_num,
      show (-0.5 * p.m : ℝ) = -(0.5 * p.m) by ring, Real.rpow_neg ha0.le, hD]
    have := Real.rpow_pos_of_pos ha0 (0.5 * p.m)
    rw [one_div, ← mul_inv]
    congr 1; ring
  rw [intervalIntegral.integral_congr hfun, intervalIntegral.integral_const_mul, integral_rpow]
  · rw [hD]; field_simp
  · right
    refine ⟨fun h => hexp (by rw [h]; norm_num), fun h => ?_⟩
    rcases Set.mem_uIcc.1 h with h | h <;> linarith [h.1]

/-- The critical length (mm) of the simplified method: where the (constant) stress and geometry factor reach the
toughness. -/
noncomputable def criticalFixed (p : CrackIn) : ℝ :=
  1000 / Real.pi * (p.Kc / ((if p.crack_type = "edge" then 1.12 else 1) * (p.P * 10 ^ 6 / (p.t * (p.W - 2 * p.d))))) ^ 2

theorem acrit_eq (p : CrackIn) : p.acrit * 1000 - p.d = criticalFixed p := by
  have : p.Smax * p.fgFixed = (if p.crack_type = "edge" then 1.12 else 1) * (p.P * 10 ^ 6 / (p.t * (p.W - 2 * p.d))) := by
    unfold CrackIn.Smax CrackIn.fgFixed
    rw [mul_comm]
    congr 1
    · norm_num
    · ring
  unfold CrackIn.acrit criticalFixed
  rw [this]; ring

/-- **C64 (simplified method).** The cycle counts are the exact Paris-law times (integrals of 1/rate) with constant stress
and geometry factor; the final length is the smaller of the requested and the critical length; the stages add up.
(Lengths in metres inside the integrals. In a single stage the code integrates from the bare crack length to the final
length plus the notch, see `C64_simplified_notch_finding`.) -/
theorem C64_simplified (p : CrackIn) (hv : ValidCrack p) (hm : p.m ≠ 2) (hKc : 0 < p.Kc)
    (haf : ∀ af, p.a_final = some af → 0 < af) (s : Simplified) (hs : p.simplified = .ok s) :
    s.Nf_total = s.Nf_stage_1 + s.Nf_stage_2 ∧
    (s.final_crack_length = match p.a_final with
      | none => criticalFixed p
      | some af => min af (criticalFixed p)) ∧
    (p.a_initial < s.transition_length →
      s.Nf_stage_1 = (∫ a in (p.a_initial / 1000)..(s.transition_length / 1000), 1 / parisRate p a) ∧
      s.Nf_stage_2 = ∫ a in ((s.transition_length + p.d) / 1000)..((s.final_crack_length + p.d) / 1000),
        1 / parisRate p a) ∧
    (s.transition_length ≤ p.a_initial → s.Nf_stage_1 = 0 ∧
      s.Nf_stage_2 = ∫ a in (p.a_initial / 1000)..((s.final_crack_length + p.d) / 1000), 1 / parisRate p a) := by
  have h0 := hv.start
  have hd := hv.d
  have hW : 2 * p.d < p.W := by linarith [h0.1, h0.2.1]
  have int := fun {x y : ℝ} (hx : 0 < x) (hy : 0 < y) => paris_integral p hm hv.C hv.P hv.t hW hx hy
  have hcrit : 0 < criticalFixed p := by
    unfold criticalFixed
    have := hv.P; have := hv.t
    have h1 : 0 < p.t * (p.W - 2 * p.d) := mul_pos hv.t (by linarith)
    have h2 : (0:ℝ) < (if p.crack_type = "edge" then 1.12 else 1) := by split <;> norm_num
    have := Real.pi_pos
    positivity
  unfold CrackIn.simplified at hs
  simp only at hs
  by_cases hz : (1.12 * p.Kt / p.fgFixed) ^ 2 - 1 = 0
  · rw [if_pos hz] at hs; cases hs
  rw [if_neg hz] at hs
  have hs := Except.ok.inj hs
  generalize p.d / ((1.12 * p.Kt / p.fgFixed) ^ 2 - 1) / 1000 = lt at hs
  have hfin : ∃ F, 0 < F ∧ (F = match p.a_final with
      | none => criticalFixed p
      | some af => min af (criticalFixed p)) ∧ p.af = (F + p.d) / 1000 := by
    unfold CrackIn.af
    rw [acrit_eq]
    have hac : p.acrit = (criticalFixed p + p.d) / 1000 := by rw [← acrit_eq]; ring
    cases hf : p.a_final with
    | none => exact ⟨_, hcrit, rfl, hac⟩
    | some af =>
      refine ⟨min af (criticalFixed p), lt_min (haf af hf) hcrit, rfl, ?_⟩
      simp only
      by_cases hlt : af < criticalFixed p
      · rw [if_pos hlt, min_eq_left hlt.le]
      · rw [if_neg hlt, min_eq_right (not_lt.1 hlt), hac]
  obtain ⟨F, hF0, hF, hFe⟩ := hfin
  rw [hFe] at hs
  subst hs
  have e1 : (F + p.d) / 1000 * 1000 - p.d = F := by ring
  simp only [e1]
  refine ⟨trivial, hF, fun hlt => ?_, fun hlt => ?_⟩
  · have hlt' : lt > p.a_initial / 1000 := by rw [gt_iff_lt, div_lt_iff₀ (by norm_num)]; exact hlt
    have hltp : 0 < lt := lt_trans (div_pos h0.1 (by norm_num)) hlt'
    rw [if_pos hlt', if_pos hlt', int (div_pos h0.1 (by norm_num)) hltp,
      int (by positivity) (by positivity)]
    refine ⟨by rw [mul_div_cancel_right₀ _ (by norm_num)], ?_⟩
    rw [show lt + p.d / 1000 = (lt * 1000 + p.d) / 1000 by ring]
  · have hlt' : ¬ lt > p.a_initial / 1000 := by
      rw [gt_iff_lt, not_lt, le_div_iff₀ (by norm_num)]; exact hlt
    rw [if_neg hlt', if_neg hlt', int (div_pos h0.1 (by norm_num)) (by positivity)]
    exact ⟨rfl, rfl⟩

theorem parisRate_pos (p : CrackIn) (hv : ValidCrack p) {a : ℝ} (ha : 0 < a) : 0 < parisRate p a := by
  have h0 := hv.start
  have h1 : 0 < p.t * (p.W - 2 * p.d) := mul_pos hv.t (by linarith [h0.1, h0.2.1])
  have h2 : (0:ℝ) < (if p.crack_type = "edge" then 1.12 else 1) := by split <;> norm_num
  have := hv.P
  have h3 : 0 < Real.sqrt (Real.pi * a) := Real.sqrt_pos.2 (by positivity)
  unfold parisRate
  exact mul_pos hv.C (Real.rpow_pos_of_pos (by positivity) _)

/-- **C64, finding.** On a notched plate whose transition length does not exceed the initial crack, the simplified method
counts the notch depth as crack growth: asked for the cycles to grow from `a_initial` to the same length, it reports a
positive number. -/
theorem C64_simplified_notch_finding (p : CrackIn) (hv : ValidCrack p) (hm : p.m ≠ 2) (hKc : 0 < p.Kc)
    (hd : 0 < p.d) (haf : p.a_final = some p.a_initial) (hc : p.a_initial ≤ criticalFixed p) (s : Simplified)
    (hs : p.simplified = .ok s) (hlt : s.transition_length ≤ p.a_initial) : 0 < s.Nf_total := by
  have h0 := hv.start
  obtain ⟨h1, h2, -, h4⟩ := C64_simplified p hv hm hKc (fun af h => by rw [haf] at h; cases h; exact h0.1) s hs
  obtain ⟨h5, h6⟩ := h4 hlt
  simp only [haf, min_eq_left hc] at h2
  rw [h1, h5, h6, h2, zero_add]
  apply intervalIntegral.intervalIntegral_pos_of_pos_on
  · apply ContinuousOn.intervalIntegrable
    intro a ha
    have ha0 : 0 < a := by
      have := h0.1
      rcases Set.mem_uIcc.1 ha with h | h
      · linarith [h.1, div_pos this (by norm_num : (0:ℝ) < 1000)]
      · have : 0 < (p.a_initial + p.d) / 1000 := by positivity
        linarith [h.1]
    apply ContinuousAt.continuousWithinAt
    have hne := (parisRate_pos p hv ha0).ne'
    unfold parisRate at hne ⊢
    refine ContinuousAt.div continuousAt_const (ContinuousAt.mul continuousAt_const ?_) hne
    apply ContinuousAt.rpow_const
    · fun_prop
    · left
      intro h
      have h1 : 0 < p.t * (p.W - 2 * p.d) := mul_pos hv.t (by linarith [h0.1, h0.2.1])
      have h2 : (0:ℝ) < (if p.crack_type = "edge" then 1.12 else 1) := by split <;> norm_num
      have := hv.P
      have h3 : 0 < Real.sqrt (Real.pi * a) := Real.sqrt_pos.2 (by positivity)
      have : (0:ℝ) < (if p.crack_type = "edge" then 1.12 else 1) * (p.P * 10 ^ 6 / (p.t * (p.W - 2 * p.d))) *
        Real.sqrt (Real.pi * a) := by positivity
      linarith
  · intro a ha
    have ha0 : 0 < a := lt_trans (div_pos h0.1 (by norm_num)) ha.1
    exact one_div_pos.2 (parisRate_pos p hv ha0)
  · apply div_lt_div_of_pos_right _ (by norm_num); linarith

/-- The documentation's centre crack. -/
noncomputable def docCrack : CrackIn := ⟨66, 3.81e-12, 3, 0.103, 100, 5, 1, 1, none, none, "center"⟩

theorem docCrack_within {a : ℝ} : Within docCrack a ↔ 0 < a ∧ a < 50 := by
  unfold Within docCrack CrackIn.d
  simp only [Option.getD_none, mul_zero, sub_zero, ne_eq, String.reduceEq, not_false_eq_true, forall_const]
  constructor
  · rintro ⟨h1, h2, h3⟩; exact ⟨h1, by linarith⟩
  · rintro ⟨h1, h2⟩; exact ⟨h1, by linarith, by linarith⟩

theorem docCrack_valid : ValidCrack docCrack := by
  refine ⟨?_, ?_, ?_, ?_, ?_, ?_, docCrack_within.2 ?_⟩ <;> norm_num [docCrack, CrackIn.d]

theorem docCrack_accepted : Accepted docCrack := by
  refine ⟨by norm_num [docCrack], by simp [docCrack], by norm_num [docCrack, CrackIn.d],
    by rw [if_neg (by simp [docCrack])]; norm_num [docCrack], ?_⟩
  have hx : (docCrack.a_initial + docCrack.d) / docCrack.W = 1 / 100 := by norm_num [docCrack, CrackIn.d]
  rw [hx]
  have hne : docCrack.crack_type ≠ "edge" := by simp [docCrack]
  unfold geometryFactor
  rw [if_neg hne]
  have hc : (0.9 : ℝ) < Real.cos (Real.pi * (1 / 100)) := by
    have h1 := Real.one_sub_sq_div_two_le_cos (x := Real.pi * (1 / 100))
    have h2 := Real.pi_le_four
    have h3 := Real.pi_pos
    nlinarith
  have hc0 : 0 ≤ Real.cos (Real.pi * (1 / 100)) := by linarith
  rw [div_div_eq_mul_div, div_one, mul_pow, Real.sq_sqrt hc0]
  have : docCrack.Kt = 1 := rfl
  rw [this]
  intro h
  nlinarith

/-- The iterative method ends on the documentation's centre crack (so the hypotheses of the theorems above are met by an
execution of the loop). -/
theorem docCrack_ends : ∃ N out, (∀ fuel, N ≤ fuel → docCrack.grow fuel = .ok (some out)) ∧ out.Nf_total = N ∧
    ∀ k < N, Within docCrack (crackLength docCrack (transition docCrack) k) := by
  refine C64_terminates docCrack docCrack_accepted docCrack_valid fun a ha h0 => ?_
  have h50 : 50 ≤ a := by
    by_contra h
    exact ha (docCrack_within.2 ⟨h0, by linarith⟩)
  have h3 := Real.pi_gt_three
  have e : netStress docCrack 0 = 206 := by norm_num [netStress, docCrack, CrackIn.d]
  have e2 : docCrack.Kc = 66 := rfl
  rw [e, e2]
  have : 1000 / Real.pi < 1000 / 3 := div_lt_div_of_pos_left (by norm_num) (by norm_num) h3
  have h4 : 1000 / Real.pi * (66 / 206) ^ 2 ≤ 1000 / 3 * (66 / 206 : ℝ) ^ 2 := by nlinarith
  have h5 : 1000 / 3 * (66 / 206 : ℝ) ^ 2 < 50 := by norm_num
  linarith

/-- The documentation's notched edge crack, with the stress concentration and the final length left open. -/
noncomputable def notched (Kt af : ℝ) : CrackIn := ⟨66, 6.91e-12, 3, 0.15, 100, 5, Kt, 1, some 10, some af, "edge"⟩

theorem notched_within (Kt af : ℝ) {a : ℝ} : Within (notched Kt af) a ↔ 0 < a ∧ a < 80 := by
  unfold Within notched CrackIn.d
  simp only [Option.getD_some, ne_eq, not_true_eq_false, false_implies, and_true]
  norm_num

theorem notched_valid (Kt af : ℝ) : ValidCrack (notched Kt af) := by
  refine ⟨?_, ?_, ?_, ?_, ?_, ?_, (notched_within _ _).2 ?_⟩ <;> norm_num [notched, CrackIn.d]

/-- The hypotheses of `C64_simplified` and `C64_simplified_notch_finding` are met by a notched plate. -/
example : ∃ s, (notched 4 1).simplified = .ok s ∧ 0 < s.Nf_total := by
  have hne : (1.12 * (notched 4 1).Kt / (notched 4 1).fgFixed) ^ 2 - 1 ≠ 0 := by
    norm_num [notched, CrackIn.fgFixed]
  obtain ⟨s, hs⟩ := simplified_ok (p := notched 4 1) (by intro h; exact hne (by linarith))
  refine ⟨s, hs, C64_simplified_notch_finding _ (notched_valid 4 1) (by norm_num [notched]) (by norm_num [notched])
    (by norm_num [notched, CrackIn.d]) rfl ?_ s hs ?_⟩
  · have h4 := Real.pi_le_four
    have : (1000 : ℝ) / 4 ≤ 1000 / Real.pi := div_le_div_of_nonneg_left (by norm_num) Real.pi_pos h4
    unfold criticalFixed
    rw [if_pos (show (notched 4 1).crack_type = "edge" from rfl)]
    norm_num [notched, CrackIn.d]
    nlinarith
  · unfold CrackIn.simplified at hs
    simp only at hs
    rw [if_neg hne] at hs
    rw [← Except.ok.inj hs]
    norm_num [notched, CrackIn.d, CrackIn.fgFixed]

/-- The hypotheses of `C64_stage1_lost_finding` are met: the documentation's notched plate grown to `a_final = a_initial`
stops after one cycle, well below the transition length of 2.4 mm. -/
example : ∃ out, (notched 2.41 1).grow 5 = .ok (some out) ∧ out.Nf_stage_1 = 0 ∧ out.Nf_stage_2 = out.Nf_total := by
  set p := notched 2.41 1 with hp
  have hv := notched_valid 2.41 1
  have hg : geometryFactor (p.crack_type = "edge") ((p.a_initial + p.d) / p.W) = 1.1977850799 := by
    unfold geometryFactor
    rw [if_pos (show p.crack_type = "edge" from rfl)]
    norm_num [hp, notched, CrackIn.d]
  have hacc : Accepted p := by
    refine ⟨by norm_num [hp, notched], by simp [hp, notched], by norm_num [hp, notched, CrackIn.d], ?_, ?_⟩
    · rw [if_pos (show p.crack_type = "edge" from rfl)]; norm_num [hp, notched]
    · rw [hg]; norm_num [hp, notched]
  have htr : 2 < transition p := by
    unfold transition
    rw [hg]
    norm_num [hp, notched, CrackIn.d]
  have h1 := C64_strictly_increasing p hv (transition p) 0 hv.start
  have hstop : StopsAfter p (transition p) 0 := .inr ⟨1, rfl, h1⟩
  obtain ⟨out, ho, hN⟩ := (C64_loop p hacc 5 1).2 ⟨le_refl _, by norm_num, hstop, fun k hk => by omega⟩
  have htl : out.transition_length = transition p := by
    obtain ⟨N, -, -, -, -, s, -, rfl⟩ := (grow_some hacc).1 ho
    rfl
  refine ⟨out, ho, C64_stage1_lost_finding p hacc hv 5 out ho ?_ ?_⟩
  · rw [hN]
    intro k hk
    obtain rfl : k = 0 := by omega
    exact hv.start
  · rw [hN, htl]
    have e : crackLength p (transition p) 1 = 1 + 1000 * (6.91e-12 * stressIntensity p 1 1 ^ (3 : ℝ)) := by
      rw [crackLength, crackLength]
      have : p.a_initial = 1 := rfl
      rw [this, if_pos (by linarith)]; rfl
    have hK : stressIntensity p 1 1 ≤ 100 := by
      unfold stressIntensity netStress geometryFactor
      rw [if_pos (show p.crack_type = "edge" from rfl)]
      have hs : Real.sqrt (Real.pi * 1 / 1000) ≤ 0.1 := by
        rw [Real.sqrt_le_left (by norm_num)]
        linarith [Real.pi_le_four]
      norm_num [hp, notched, CrackIn.d] at hs ⊢
      linarith
    have hK0 : 0 < stressIntensity p 1 1 := growth_pos hv hv.start one_pos
    have h3 : stressIntensity p 1 1 ^ (3 : ℝ) ≤ 100 ^ (3 : ℝ) := Real.rpow_le_rpow hK0.le hK (by norm_num)
    have h100 : (100 : ℝ) ^ (3 : ℝ) = 1000000 := by
      rw [show (3 : ℝ) = ((3 : ℕ) : ℝ) by norm_num, Real.rpow_natCast]; norm_num
    rw [h100] at h3
    rw [e]
    linarith

end Reliability.Props.Crack

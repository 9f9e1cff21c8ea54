import Verif.Props.StressStrain
import Verif.Props.CrackInit

/-! # C94: the strain-life diagram -/

namespace Reliability.Props

open Reliability Reliability.Fatigue Reliability.Spec List
open Reliability.Props.CrackInit (life_exists life_strict)

/-- Legal strain-life parameters. -/
structure LifeParams (p : SLIn) : Prop where
  E : 0 < p.E
  sigma_f : 0 < p.sigma_f
  epsilon_f : 0 < p.epsilon_f
  b : p.b < 0
  c : p.c < 0
  method : p.method = "morrow" ∨ p.method = "modified_morrow" ∨ p.method = "modified morrow" ∨ p.method = "SWT"

theorem cm_solve {fs : Solver} (hfs : RootFinder fs) {A B b c e : ℝ} (hA : 0 < A) (hB : 0 ≤ B) (hb : b < 0) (hc : c < 0)
    (he : 0 < e) (g : ℝ) : 0 < fs (coffinManson A B b c e) g ∧
      A * fs (coffinManson A B b c e) g ^ b + B * fs (coffinManson A B b c e) g ^ c = e := by
  obtain ⟨x, hx, hxe⟩ := life_exists hA hB hb hc he
  have key : ∀ {y : ℝ}, 0 ≤ y → (coffinManson A B b c e y = some 0 ↔ A * y ^ b + B * y ^ c - e = 0) := by
    intro y hy
    unfold coffinManson
    rw [npPow_nonneg hy, npPow_nonneg hy]
    simp
  have hr := (key hx.le).2 hxe
  have h0 := (hfs (coffinManson A B b c e) g).2 ⟨x, hx.le, hr⟩
  have h1 := (key h0).1 ((hfs _ g).1 ⟨x, hr⟩)
  refine ⟨?_, by linarith⟩
  rcases h0.lt_or_eq with h | h
  · exact h
  · rw [← h, Real.zero_rpow hb.ne, Real.zero_rpow hc.ne] at h1
    linarith

theorem swt_solve {fs : Solver} (hfs : RootFinder fs) {A E B b c S e : ℝ} (hA : 0 < A) (hE : 0 < E) (hB : 0 < B)
    (hb : b < 0) (hc : c < 0) (hS : 0 < S) (he : 0 < e) (g : ℝ) : 0 < fs (swt A E B b c S e) g ∧
      A ^ 2 / E * fs (swt A E B b c S e) g ^ (2 * b) + A * B * fs (swt A E B b c S e) g ^ (b + c) = S * e := by
  have hb2 : 2 * b < 0 := by linarith
  have hbc : b + c < 0 := by linarith
  obtain ⟨x, hx, hxe⟩ := life_exists (by positivity : 0 < A ^ 2 / E) (by positivity : 0 ≤ A * B) hb2 hbc (mul_pos hS he)
  have key : ∀ {y : ℝ}, 0 ≤ y → (swt A E B b c S e y = some 0 ↔
      A ^ 2 / E * y ^ (2 * b) + A * B * y ^ (b + c) - S * e = 0) := by
    intro y hy
    unfold swt
    rw [npPow_nonneg hy, npPow_nonneg hy]
    simp only [Option.some.injEq, sub_eq_zero]
    rw [div_eq_iff hS.ne', mul_comm e S]
  have hr := (key hx.le).2 hxe
  have h0 := (hfs (swt A E B b c S e) g).2 ⟨x, hx.le, hr⟩
  have h1 := (key h0).1 ((hfs _ g).1 ⟨x, hr⟩)
  refine ⟨?_, by linarith⟩
  rcases h0.lt_or_eq with h | h
  · exact h
  · rw [← h, Real.zero_rpow hb2.ne, Real.zero_rpow hbc.ne] at h1
    have := mul_pos hS he
    linarith

/-- The number of reversals found satisfies the relation of the method, and the two parts cross at the transition life. -/
theorem reversals_spec {fs : Solver} (hfs : RootFinder fs) {p : SLIn} (hp : LifeParams p) {S e ms half : ℝ} (hS : 0 < S)
    (he : 0 < e) (hh : 0 < half) (hms : ms < p.sigma_f) (hz : ms = 0 → e = half) :
    ∃ n2 nt, reversals fs p S e ms (some half) = .ok (n2, nt) ∧ 0 < n2 ∧
      StrainLife p.method p.E p.sigma_f p.epsilon_f p.b p.c S ms half n2 ∧ 0 < nt ∧
      (p.b ≠ p.c → EqualParts p.method p.E p.sigma_f p.epsilon_f p.b p.c ms nt) := by
  obtain ⟨hE, hA, hB, hb, hc, hm⟩ := hp
  have hAm : 0 < p.sigma_f - ms := by linarith
  have cross : ∀ {X Y : ℝ}, 0 < X → 0 < Y → p.b ≠ p.c → X * ((Y / X) ^ (1 / (p.b - p.c))) ^ p.b =
      Y * ((Y / X) ^ (1 / (p.b - p.c))) ^ p.c := by
    intro X Y hX hY hbc
    have hq : 0 < Y / X := div_pos hY hX
    have ht : 0 < (Y / X) ^ (1 / (p.b - p.c)) := Real.rpow_pos_of_pos hq _
    have e1 : ((Y / X) ^ (1 / (p.b - p.c))) ^ p.b = ((Y / X) ^ (1 / (p.b - p.c))) ^ p.c * (Y / X) := by
      have e2 : ((Y / X) ^ (1 / (p.b - p.c))) ^ (p.b - p.c) = Y / X := by
        rw [← Real.rpow_mul hq.le, one_div_mul_cancel (sub_ne_zero.2 hbc), Real.rpow_one]
      generalize (Y / X) ^ (1 / (p.b - p.c)) = t at ht e2 ⊢
      rw [← e2, ← Real.rpow_add ht]
      congr 1
      ring
    rw [e1]
    field_simp
  unfold reversals StrainLife EqualParts
  by_cases h0 : ms = 0
  · simp only [if_pos h0]
    have := cm_solve hfs (by positivity : 0 < p.sigma_f / p.E) hB.le hb hc he 10
    refine ⟨_, _, rfl, this.1, ?_, by positivity, ?_⟩
    · rw [this.2, hz h0]
    · intro hbc
      have := cross (by positivity : 0 < p.sigma_f / p.E) hB hbc
      rwa [show p.epsilon_f / (p.sigma_f / p.E) = p.epsilon_f * p.E / p.sigma_f by field_simp] at this
  · simp only [if_neg h0]
    rcases hm with hm | hm
    · have hns : p.method ≠ "SWT" := by rw [hm]; decide
      simp only [if_pos hm, if_neg hns]
      have := cm_solve hfs (by positivity : 0 < (p.sigma_f - ms) / p.E) hB.le hb hc hh 10
      refine ⟨_, _, rfl, this.1, this.2.symm, by positivity, ?_⟩
      intro hbc
      have := cross (by positivity : 0 < (p.sigma_f - ms) / p.E) hB hbc
      rwa [show p.epsilon_f / ((p.sigma_f - ms) / p.E) = p.epsilon_f * p.E / (p.sigma_f - ms) by field_simp] at this
    · rcases hm with hm | hm | hm
      iterate 2
        have hns : p.method ≠ "SWT" := by rw [hm]; decide
        have hnm : p.method ≠ "morrow" := by rw [hm]; decide
        have hmm : p.method = "modified_morrow" ∨ p.method = "modified morrow" := by simp [hm]
        simp only [if_pos hmm, if_neg hns, if_neg hnm]
        have hBm : 0 < p.epsilon_f * ((p.sigma_f - ms) / p.sigma_f) ^ (p.c / p.b) := by positivity
        have := cm_solve hfs (by positivity : 0 < (p.sigma_f - ms) / p.E) hBm.le hb hc hh 10
        refine ⟨_, _, rfl, this.1, this.2.symm, by positivity, ?_⟩
        intro hbc
        have := cross (by positivity : 0 < (p.sigma_f - ms) / p.E) hBm hbc
        rwa [show p.epsilon_f * ((p.sigma_f - ms) / p.sigma_f) ^ (p.c / p.b) / ((p.sigma_f - ms) / p.E) =
          p.epsilon_f * p.E * ((p.sigma_f - ms) / p.sigma_f) ^ (p.c / p.b) / (p.sigma_f - ms) by field_simp] at this
      have hnm : p.method ≠ "morrow" := by rw [hm]; decide
      have hmm : ¬ (p.method = "modified_morrow" ∨ p.method = "modified morrow") := by rw [hm]; decide
      simp only [if_pos hm, if_neg hmm, if_neg hnm]
      have := swt_solve hfs hA hE hB hb hc hS hh 10
      refine ⟨_, _, rfl, this.1, this.2.symm, by positivity, ?_⟩
      intro hbc
      have hx := cross (by positivity : 0 < p.sigma_f / p.E) hB hbc
      rw [show p.epsilon_f / (p.sigma_f / p.E) = p.epsilon_f * p.E / p.sigma_f by field_simp] at hx
      have ht : 0 < (p.epsilon_f * p.E / p.sigma_f) ^ (1 / (p.b - p.c)) := by positivity
      rw [two_mul, Real.rpow_add ht, Real.rpow_add ht]
      have := congrArg (fun z => p.sigma_f * ((p.epsilon_f * p.E / p.sigma_f) ^ (1 / (p.b - p.c))) ^ p.b * z) hx
      calc _ = _ := by ring
        _ = _ := this
        _ = _ := by ring

/-- The call with the loading known. -/
theorem sl_eq {fs : Solver} {p : SLIn} (hp : LifeParams p) {K n : ℝ} (hK : p.K = some K) (hn : p.n = some n)
    (h1 : p.max_stress.isSome ∨ p.max_strain.isSome) (h2 : ¬ (p.max_stress.isSome ∧ p.max_strain.isSome))
    (h3 : ¬ (p.min_stress.isSome ∧ p.min_strain.isSome)) {S s e m : ℝ}
    (hl : slLoading fs p K n = .ok (S, s, e, some m)) {n2 nt : ℝ}
    (hr : reversals fs p S e (s + (S - s) / 2) (some ((e - m) / 2)) = .ok (n2, nt)) :
    strainLife fs p = .ok (some ⟨S, s, e, some m, n2 / 2, nt⟩) := by
  unfold strainLife
  rw [if_neg h2, if_neg h3, if_neg (by simp [hK, hn]), if_neg (by
    rcases hp.method with h | h | h | h <;> simp [h]), if_pos h1, hK, hn]
  simp only [Option.getD_some]
  rw [hl]
  simp only [Option.map_some]
  rw [hr]

/-- **C94 (fully reversed stress).** Given a largest stress only, the strain is the material's strain at that stress, loading is
fully reversed and the life satisfies the Coffin–Manson relation, whatever the mean stress correction method. -/
theorem C94_reversed (fs : Solver) (hfs : RootFinder fs) (p : SLIn) (hp : LifeParams p) (K n S : ℝ) (hK : p.K = some K)
    (hn : p.n = some n) (hm : Material p.E K n) (hS : 0 < S) (h1 : p.max_stress = some S) (h2 : p.max_strain = none)
    (h3 : p.min_stress = none) :
    ∃ r, strainLife fs p = .ok (some r) ∧ r.max_stress = S ∧ r.min_stress = -S ∧ r.max_strain = loadingStrain p.E K n S ∧
      r.min_strain = some (-loadingStrain p.E K n S) ∧ 0 < r.cycles_to_failure ∧
      loadingStrain p.E K n S = p.sigma_f / p.E * (2 * r.cycles_to_failure) ^ p.b +
        p.epsilon_f * (2 * r.cycles_to_failure) ^ p.c := by
  have hE := hm.E; have hK0 := hm.K
  have hpos : 0 < loadingStrain p.E K n S := by unfold loadingStrain; positivity
  have hl : slLoading fs p K n = .ok (S, -S, loadingStrain p.E K n S, some (-loadingStrain p.E K n S)) := by
    unfold slLoading
    simp only [h1, h3]
    rw [npPow_nonneg (by positivity)]
    rfl
  have hms : -S + (S - -S) / 2 = 0 := by ring
  have hh : (loadingStrain p.E K n S - -loadingStrain p.E K n S) / 2 = loadingStrain p.E K n S := by ring
  obtain ⟨n2, nt, hr, hn2, hrel, -⟩ := reversals_spec hfs hp hS hpos hpos hp.sigma_f (ms := 0) (fun _ => rfl)
  have := sl_eq hp hK hn (by simp [h1]) (by simp [h2]) (by simp [h3]) hl (by rw [hms, hh]; exact hr)
  refine ⟨_, this, rfl, rfl, rfl, rfl, by simp only; positivity, ?_⟩
  simp only
  rw [mul_div_cancel₀ _ two_ne_zero]
  unfold StrainLife at hrel
  rwa [if_pos rfl] at hrel

/-- A larger stress means fewer cycles to failure. -/
theorem C94_monotone (fs : Solver) (hfs : RootFinder fs) (p : SLIn) (hp : LifeParams p) (K n S S' : ℝ) (hK : p.K = some K)
    (hn : p.n = some n) (hm : Material p.E K n) (hS : 0 < S) (hSS : S < S') (h2 : p.max_strain = none)
    (h3 : p.min_stress = none) :
    ∃ r r', strainLife fs { p with max_stress := some S } = .ok (some r) ∧
      strainLife fs { p with max_stress := some S' } = .ok (some r') ∧ r'.cycles_to_failure < r.cycles_to_failure := by
  have hp' : ∀ s, LifeParams { p with max_stress := some s } := fun s =>
    ⟨hp.E, hp.sigma_f, hp.epsilon_f, hp.b, hp.c, hp.method⟩
  obtain ⟨r, hr, -, -, -, -, c1, e1⟩ := C94_reversed fs hfs { p with max_stress := some S } (hp' S) K n S hK hn hm hS rfl h2 h3
  obtain ⟨r', hr', -, -, -, -, c2, e2⟩ := C94_reversed fs hfs { p with max_stress := some S' } (hp' S') K n S' hK hn hm
    (hS.trans hSS) rfl h2 h3
  refine ⟨r, r', hr, hr', ?_⟩
  have hE := hp.E; have hA := hp.sigma_f
  by_contra hc
  push Not at hc
  have hlt := (loading_lt hm.E hm.K hm.n hS.le (hS.trans hSS).le).2 hSS
  simp only at e1 e2
  rw [e1, e2] at hlt
  rcases hc.lt_or_eq with h | h
  · have := life_strict (by positivity : 0 < p.sigma_f / p.E) hp.epsilon_f.le hp.b hp.c
      (by positivity : 0 < 2 * r.cycles_to_failure) (by linarith : 2 * r.cycles_to_failure < 2 * r'.cycles_to_failure)
    linarith
  · rw [h] at hlt
    exact lt_irrefl _ hlt

/-- `1/n` is an odd number -/
def OddExponent (n : ℝ) : Prop := ∃ k : ℕ, 1 / n = ((2 * k + 1 : ℕ) : ℝ)

theorem loading_mono_odd {E K n : ℝ} (hm : Material E K n) (ho : OddExponent n) {s t : ℝ} (h : s < t) :
    loadingStrain E K n s < loadingStrain E K n t := by
  obtain ⟨k, hk⟩ := ho
  rcases le_or_gt 0 s with hs | hs
  · exact (loading_lt hm.E hm.K hm.n hs (hs.trans h.le)).2 h
  · rcases le_or_gt 0 t with ht | ht
    · have h1 : 0 < loadingStrain E K n (-s) := by
        have := hm.E; have := hm.K
        have : 0 < -s := by linarith
        unfold loadingStrain; positivity
      have h2 : 0 ≤ loadingStrain E K n t := by
        have := hm.E; have := hm.K
        unfold loadingStrain; positivity
      rw [loading_odd hk] at h1
      linarith
    · have := (loading_lt hm.E hm.K hm.n (by linarith : 0 ≤ -t) (by linarith : 0 ≤ -s)).2 (by linarith)
      rw [loading_odd hk, loading_odd hk] at this
      linarith

/-- **C94 (general stress control).** Given a largest stress and a smallest one, either not negative or with 1/n odd: the
life satisfies the relation of the chosen mean stress correction for the amplitude between the two strains. -/
theorem C94_stress_range (fs : Solver) (hfs : RootFinder fs) (p : SLIn) (hp : LifeParams p) (K n S m : ℝ) (hK : p.K = some K)
    (hn : p.n = some n) (hm : Material p.E K n) (hS : 0 < S) (hmS : m < S) (ho : 0 ≤ m ∨ OddExponent n)
    (hmean : (S + m) / 2 < p.sigma_f) (h1 : p.max_stress = some S)
    (h2 : p.max_strain = none) (h3 : p.min_stress = some m) (h4 : p.min_strain = none) :
    ∃ r, strainLife fs p = .ok (some r) ∧ r.max_stress = S ∧ r.min_stress = m ∧ r.max_strain = loadingStrain p.E K n S ∧
      r.min_strain = some (loadingStrain p.E K n m) ∧ 0 < r.cycles_to_failure ∧
      StrainLife p.method p.E p.sigma_f p.epsilon_f p.b p.c S ((S + m) / 2)
        ((loadingStrain p.E K n S - loadingStrain p.E K n m) / 2) (2 * r.cycles_to_failure) := by
  have hE := hm.E; have hK0 := hm.K
  have hpos : 0 < loadingStrain p.E K n S := by unfold loadingStrain; positivity
  have hlt : loadingStrain p.E K n m < loadingStrain p.E K n S := by
    rcases ho with h0 | ho
    · exact (loading_lt hm.E hm.K hm.n h0 hS.le).2 hmS
    · exact loading_mono_odd hm ho hmS
  have hpw : npPow (m / K) (1 / n) = some ((m / K) ^ (1 / n)) := by
    rcases ho with h0 | ⟨k, hk⟩
    · exact npPow_nonneg (by positivity)
    · exact npPow_int ((2 * k + 1 : ℕ) : ℤ) (by rw [hk]; push_cast; rfl)
  have hl : slLoading fs p K n = .ok (S, m, loadingStrain p.E K n S, some (loadingStrain p.E K n m)) := by
    unfold slLoading
    simp only [h1, h3]
    rw [npPow_nonneg (by positivity), hpw]
    rfl
  have hms : m + (S - m) / 2 = (S + m) / 2 := by ring
  obtain ⟨n2, nt, hr, hn2, hrel, -⟩ := reversals_spec hfs hp hS hpos
    (by linarith : 0 < (loadingStrain p.E K n S - loadingStrain p.E K n m) / 2) hmean (by
      intro h0
      have hm' : m = -S := by linarith
      rcases ho with h | ⟨k, hk⟩
      · linarith
      · rw [hm', loading_odd hk]; ring)
  have := sl_eq hp hK hn (by simp [h1]) (by simp [h2]) (by simp [h4]) hl (by rw [hms]; exact hr)
  refine ⟨_, this, rfl, rfl, rfl, rfl, by simp only; positivity, ?_⟩
  simp only
  rw [mul_div_cancel₀ _ two_ne_zero]
  exact hrel

/-- **C94 (strain control).** If 1/n is odd, a largest strain (with or without a smallest one) gives the stresses of the
material at those strains and the life for them. -/
theorem C94_strain_range (fs : Solver) (hfs : RootFinder fs) (p : SLIn) (hp : LifeParams p) (K n e m : ℝ) (hK : p.K = some K)
    (hn : p.n = some n) (hm : Material p.E K n) (ho : OddExponent n) (he : 0 < e) (hme : m < e)
    (h1 : p.max_strain = some e) (h2 : p.max_stress = none) (h3 : p.min_strain = some m ∨ (p.min_strain = none ∧ m = -e))
    (h4 : p.min_stress = none) (S s : ℝ) (hS : loadingStrain p.E K n S = e) (hs : loadingStrain p.E K n s = m)
    (hmean : (S + s) / 2 < p.sigma_f) :
    ∃ r, strainLife fs p = .ok (some r) ∧ r.max_stress = S ∧ r.min_stress = s ∧ r.max_strain = e ∧ r.min_strain = some m ∧
      0 < r.cycles_to_failure ∧
      StrainLife p.method p.E p.sigma_f p.epsilon_f p.b p.c S ((S + s) / 2) ((e - m) / 2) (2 * r.cycles_to_failure) := by
  have inj : ∀ {x y : ℝ}, loadingStrain p.E K n x = loadingStrain p.E K n y → x = y := by
    intro x y hxy
    rcases lt_trichotomy x y with h | h | h
    · exact absurd hxy (loading_mono_odd hm ho h).ne
    · exact h
    · exact absurd hxy (loading_mono_odd hm ho h).ne'
  obtain ⟨k, hk⟩ := ho
  have zero : loadingStrain p.E K n 0 = 0 := by
    have := loading_odd (E := p.E) (K := K) hk 0
    rw [neg_zero] at this
    linarith
  have hS0 : 0 < S := by
    by_contra hc
    push Not at hc
    rcases hc.lt_or_eq with h | h
    · have := loading_mono_odd hm ⟨k, hk⟩ h
      rw [hS, zero] at this
      linarith
    · rw [h, zero] at hS
      linarith
  have root : ∀ {x d : ℝ} (g : ℝ), loadingStrain p.E K n x = d → fs (rambergOsgood p.E K n d) g = x := by
    intro x d g hx
    apply inj
    rw [hx]
    exact (ro_odd hk).1 ((hfs _ g).1 ⟨x, (ro_odd hk).2 hx⟩)
  have hl : slLoading fs p K n = .ok (S, s, e, some m) := by
    unfold slLoading
    rcases h3 with h3 | ⟨h3, h3'⟩
    · simp only [h1, h2, h3]
      rw [root 100 hS, root (-100) hs]
    · simp only [h1, h2, h3]
      rw [← h3', root 100 hS, root (-100) hs]
  have hms : s + (S - s) / 2 = (S + s) / 2 := by ring
  obtain ⟨n2, nt, hr, hn2, hrel, -⟩ := reversals_spec hfs hp hS0 he (by linarith : 0 < (e - m) / 2) hmean (by
      intro h0
      have : s = -S := by linarith
      rw [this, loading_odd hk, hS] at hs
      linarith)
  have := sl_eq hp hK hn (by simp [h1]) (by simp [h2]) (by simp [h4]) hl (by rw [hms]; exact hr)
  refine ⟨_, this, rfl, rfl, rfl, rfl, by simp only; positivity, ?_⟩
  simp only
  rw [mul_div_cancel₀ _ two_ne_zero]
  exact hrel

/-- The transition life drawn in the diagram is where the elastic and the plastic line cross (here for stress control). -/
theorem C94_transition (fs : Solver) (hfs : RootFinder fs) (p : SLIn) (hp : LifeParams p) (hbc : p.b ≠ p.c) (K n S m : ℝ)
    (hK : p.K = some K) (hn : p.n = some n) (hm : Material p.E K n) (hS : 0 < S) (hmS : m < S) (h0 : 0 ≤ m)
    (hmean : (S + m) / 2 < p.sigma_f) (h1 : p.max_stress = some S) (h2 : p.max_strain = none)
    (h3 : p.min_stress = some m) (h4 : p.min_strain = none) :
    ∃ r, strainLife fs p = .ok (some r) ∧ 0 < r.cycles_2Nt ∧
      EqualParts p.method p.E p.sigma_f p.epsilon_f p.b p.c ((S + m) / 2) r.cycles_2Nt := by
  have hE := hm.E; have hK0 := hm.K
  have hpos : 0 < loadingStrain p.E K n S := by unfold loadingStrain; positivity
  have hlt : loadingStrain p.E K n m < loadingStrain p.E K n S := (loading_lt hm.E hm.K hm.n h0 hS.le).2 hmS
  have hl : slLoading fs p K n = .ok (S, m, loadingStrain p.E K n S, some (loadingStrain p.E K n m)) := by
    unfold slLoading
    simp only [h1, h3]
    rw [npPow_nonneg (by positivity), npPow_nonneg (by positivity)]
    rfl
  have hms : m + (S - m) / 2 = (S + m) / 2 := by ring
  obtain ⟨n2, nt, hr, -, -, hnt, heq⟩ := reversals_spec hfs hp hS hpos
    (by linarith : 0 < (loadingStrain p.E K n S - loadingStrain p.E K n m) / 2) hmean (by intro h; linarith)
  exact ⟨_, sl_eq hp hK hn (by simp [h1]) (by simp [h2]) (by simp [h4]) hl (by rw [hms]; exact hr), hnt, heq hbc⟩

/-- Finding: with a largest stress and a negative smallest stress (other than minus the largest) the call raises unless
1/n is an integer: Python's power of a negative number is complex. -/
theorem C94_negative_min_stress_finding (fs : Solver) (p : SLIn) (hp : LifeParams p) (K n S m : ℝ) (hK : p.K = some K)
    (hn : p.n = some n) (hm : Material p.E K n) (hS : 0 < S) (hm0 : m < 0) (hmS : m ≠ -S) (hk : ∀ k : ℤ, (k : ℝ) ≠ 1 / n)
    (h1 : p.max_stress = some S) (h2 : p.max_strain = none) (h3 : p.min_stress = some m) (h4 : p.min_strain = none) :
    strainLife fs p = .error .runtimeError := by
  have hK0 := hm.K
  unfold strainLife
  rw [if_neg (by simp [h2]), if_neg (by simp [h4]), if_neg (by simp [hK, hn]), if_neg (by
    rcases hp.method with h | h | h | h <;> simp [h]), if_pos (by simp [h1]), hK, hn]
  have hl : slLoading fs p K n = .ok (S, m, loadingStrain p.E K n S, none) := by
    unfold slLoading
    simp only [h1, h3]
    rw [npPow_nonneg (by positivity), npPow_none (div_neg_of_neg_of_pos hm0 hm.K) hk]
    rfl
  simp only [Option.getD_some]
  rw [hl]
  simp only [Option.map_none]
  unfold reversals
  rw [if_neg (by intro h; apply hmS; linarith)]

/-- Finding: in strain control (even fully reversed, the default) the smallest stress has no equation to come from unless
1/n is an integer: the reported smallest stress, hence the mean stress and the life, may be anything whatsoever. -/
theorem C94_strain_control_finding (p : SLIn) (hp : LifeParams p) (K n e : ℝ) (hK : p.K = some K) (hn : p.n = some n)
    (hm : Material p.E K n) (he : 0 < e) (hk : ∀ k : ℤ, (k : ℝ) ≠ 1 / n)
    (h1 : p.max_strain = some e) (h2 : p.max_stress = none) (h3 : p.min_strain = none) (h4 : p.min_stress = none) (v : ℝ) :
    ∃ fs, RootFinder fs ∧ ∃ r, strainLife fs p = .ok (some r) ∧ r.min_stress = v := by
  classical
  refine ⟨fun f g => if ∃ x, f x = some 0 then someFinder f g else v, ?_, ?_⟩
  · intro f g
    constructor
    · intro h
      simp only [if_pos h]
      exact (someFinder_ok f g).1 h
    · intro h
      have h' : ∃ x, f x = some 0 := h.imp fun x hx => hx.2
      simp only [if_pos h']
      exact (someFinder_ok f g).2 h
  · set fs : Solver := fun f g => if ∃ x, f x = some 0 then someFinder f g else v with hfs
    have hno : ¬ ∃ x, rambergOsgood p.E K n (-e) x = some 0 := by
      rintro ⟨x, hx⟩
      rcases lt_or_ge x 0 with h | h
      · unfold rambergOsgood at hx
        rw [npPow_none (div_neg_of_neg_of_pos h hm.K) hk] at hx
        cases hx
      · rw [ro_nonneg hm.K h] at hx
        have := hm.E; have := hm.K
        have : 0 ≤ loadingStrain p.E K n x := by unfold loadingStrain; positivity
        linarith
    unfold strainLife
    rw [if_neg (by simp [h2]), if_neg (by simp [h4]), if_neg (by simp [hK, hn]), if_neg (by
      rcases hp.method with h | h | h | h <;> simp [h]), if_pos (by simp [h1]), hK, hn]
    have hl : slLoading fs p K n = .ok (fs (rambergOsgood p.E K n e) 100, v, e, some (-e)) := by
      unfold slLoading
      simp only [h1, h2, h3]
      have : fs (rambergOsgood p.E K n (-e)) (-100) = v := by rw [hfs]; simp only [if_neg hno]
      rw [this]
    simp only [Option.getD_some]
    rw [hl]
    simp only [Option.map_some]
    have : ∃ q, reversals fs p (fs (rambergOsgood p.E K n e) 100) e (v + (fs (rambergOsgood p.E K n e) 100 - v) / 2)
        (some ((e - -e) / 2)) = .ok q := by
      unfold reversals
      split
      · exact ⟨_, rfl⟩
      · simp only
        split
        · exact ⟨_, rfl⟩
        · split <;> exact ⟨_, rfl⟩
    obtain ⟨q, hq⟩ := this
    rw [hq]
    exact ⟨_, rfl, rfl⟩

/-- Errors; without a maximum no life is calculated. -/
theorem C94_errors (fs : Solver) (p : SLIn) :
    ((p.max_stress.isSome ∧ p.max_strain.isSome) ∨ (p.min_stress.isSome ∧ p.min_strain.isSome) ∨
      ((p.max_stress.isSome ∨ p.max_strain.isSome) ∧ (p.K = none ∨ p.n = none)) ∨
      p.method ∉ ["morrow", "modified_morrow", "modified morrow", "SWT"] → strainLife fs p = valueErr) ∧
    (p.max_stress = none → p.max_strain = none → strainLife fs p = valueErr ∨ strainLife fs p = .ok none) := by
  constructor
  · intro h
    unfold strainLife
    split
    · rfl
    split
    · rfl
    split
    · rfl
    split
    · rfl
    exfalso
    rename_i h1 h2 h3 h4
    rcases h with h | h | h | h
    · exact h1 h
    · exact h2 h
    · exact h3 h
    · exact h4 h
  · intro h1 h2
    unfold strainLife
    split
    · exact Or.inl rfl
    split
    · exact Or.inl rfl
    split
    · exact Or.inl rfl
    split
    · exact Or.inl rfl
    right
    rw [if_neg (by simp [h1, h2])]

/-- The hypotheses can be met. -/
example : ∃ r, strainLife someFinder ⟨210000, 1000, 1.1, -0.1, -0.6, some 1200, some 0.2, "SWT", none, none, some 500, some 100⟩
    = .ok (some r) ∧ 0 < r.cycles_to_failure := by
  obtain ⟨r, hr, -, -, -, -, h, -⟩ := C94_stress_range someFinder someFinder_ok
    ⟨210000, 1000, 1.1, -0.1, -0.6, some 1200, some 0.2, "SWT", none, none, some 500, some 100⟩
    ⟨by norm_num, by norm_num, by norm_num, by norm_num, by norm_num, by simp⟩ 1200 0.2 500 100 rfl rfl
    ⟨by norm_num, by norm_num, by norm_num⟩ (by norm_num) (by norm_num) (Or.inl (by norm_num)) (by norm_num) rfl rfl rfl rfl
  exact ⟨r, hr, h⟩

end Reliability.Props

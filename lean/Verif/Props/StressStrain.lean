import Verif.Lemmas.Fatigue
import Verif.Spec.Fatigue

/-! # C93: the stress-strain diagram -/

namespace Reliability.Props

open Reliability Reliability.Fatigue Reliability.Spec List

attribute [local irreducible] linspace

theorem loading_curve (E K n s : ℝ) : loadingStrain E K n s = curve E 1 K (1 / n) s := by
  simp [loadingStrain, curve]

theorem reversal_curve (E K n s : ℝ) : reversalStrain E K n s = curve E 2 (2 * K) (1 / n) s := by
  simp [reversalStrain, curve]

theorem ro_nonneg {E K n e s : ℝ} (hK : 0 < K) (hs : 0 ≤ s) :
    rambergOsgood E K n e s = some 0 ↔ loadingStrain E K n s = e := by
  unfold rambergOsgood loadingStrain
  rw [npPow_nonneg (by positivity)]
  simp [sub_eq_zero]

theorem rod_nonneg {E K n e s : ℝ} (hK : 0 < K) (hs : 0 ≤ s) :
    rambergOsgoodDelta E K n e s = some 0 ↔ reversalStrain E K n s = e := by
  unfold rambergOsgoodDelta reversalStrain
  rw [npPow_nonneg (by positivity)]
  simp [sub_eq_zero]

theorem ro_solve {fs : Solver} (hfs : RootFinder fs) {E K n e : ℝ} (hE : 0 < E) (hK : 0 < K) (hn : 0 < n) (he : 0 ≤ e)
    (g : ℝ) : 0 ≤ fs (rambergOsgood E K n e) g ∧ loadingStrain E K n (fs (rambergOsgood E K n e) g) = e := by
  obtain ⟨s, hs, hse⟩ := curve_root (A := 1) hE zero_le_one hK (one_div_pos.2 hn) he
  have hr : rambergOsgood E K n e s = some 0 := (ro_nonneg hK hs).2 (by rw [loading_curve]; exact hse)
  have h0 := (hfs (rambergOsgood E K n e) g).2 ⟨s, hs, hr⟩
  exact ⟨h0, (ro_nonneg hK h0).1 ((hfs _ g).1 ⟨s, hr⟩)⟩

theorem rod_solve {fs : Solver} (hfs : RootFinder fs) {E K n e : ℝ} (hE : 0 < E) (hK : 0 < K) (hn : 0 < n) (he : 0 ≤ e)
    (g : ℝ) : 0 ≤ fs (rambergOsgoodDelta E K n e) g ∧ reversalStrain E K n (fs (rambergOsgoodDelta E K n e) g) = e := by
  obtain ⟨s, hs, hse⟩ := curve_root (A := 2) hE zero_le_two (by positivity : 0 < 2 * K) (one_div_pos.2 hn) he
  have hr : rambergOsgoodDelta E K n e s = some 0 := (rod_nonneg hK hs).2 (by rw [reversal_curve]; exact hse)
  have h0 := (hfs (rambergOsgoodDelta E K n e) g).2 ⟨s, hs, hr⟩
  exact ⟨h0, (rod_nonneg hK h0).1 ((hfs _ g).1 ⟨s, hr⟩)⟩

theorem loading_inj {E K n s t : ℝ} (hE : 0 < E) (hK : 0 < K) (hn : 0 < n) (hs : 0 ≤ s) (ht : 0 ≤ t)
    (h : loadingStrain E K n s = loadingStrain E K n t) : s = t := by
  rw [loading_curve, loading_curve] at h
  exact curve_inj hE zero_le_one hK (one_div_pos.2 hn).le hs ht h

theorem reversal_inj {E K n s t : ℝ} (hE : 0 < E) (hK : 0 < K) (hn : 0 < n) (hs : 0 ≤ s) (ht : 0 ≤ t)
    (h : reversalStrain E K n s = reversalStrain E K n t) : s = t := by
  rw [reversal_curve, reversal_curve] at h
  exact curve_inj hE zero_le_two (by positivity) (one_div_pos.2 hn).le hs ht h

theorem loading_lt {E K n s t : ℝ} (hE : 0 < E) (hK : 0 < K) (hn : 0 < n) (hs : 0 ≤ s) (ht : 0 ≤ t) :
    loadingStrain E K n s < loadingStrain E K n t ↔ s < t := by
  rw [loading_curve, loading_curve]
  exact curve_lt_iff hE zero_le_one hK (one_div_pos.2 hn).le hs ht

theorem reversal_lt {E K n s t : ℝ} (hE : 0 < E) (hK : 0 < K) (hn : 0 < n) (hs : 0 ≤ s) (ht : 0 ≤ t) :
    reversalStrain E K n s < reversalStrain E K n t ↔ s < t := by
  rw [reversal_curve, reversal_curve]
  exact curve_lt_iff hE zero_le_two (by positivity) (one_div_pos.2 hn).le hs ht

/-- A legal material. -/
structure Material (E K n : ℝ) : Prop where
  E : 0 < E
  K : 0 < K
  n : 0 < n

/-- The call, once the checks are passed and the two strains are known. -/
theorem ss_ok {fs : Solver} {p : SSIn} {r : SSOut} (h : stressStrain fs p = .ok r) :
    ssStrains p = .ok (r.max_strain, r.min_strain) ∧ (p.direction = "tension" ∨ p.direction = "compression") ∧
    (p.direction = "tension" →
      r.strain1 = linspace 0 r.max_strain ∧ r.stress1 = chain fs (rambergOsgood p.E p.K p.n) 10 r.strain1 ∧
      r.strain2 = linspace r.max_strain r.min_strain ∧
      r.stress2 = (chain fs (rambergOsgoodDelta p.E p.K p.n) 10 (linspace 0 (r.max_strain - r.min_strain))).map
        (fun d => r.stress1.getLast?.getD 0 - d) ∧
      r.strain3 = linspace r.min_strain r.max_strain ∧
      (∃ g, r.stress3 = (chain fs (rambergOsgoodDelta p.E p.K p.n) g (linspace 0 (r.max_strain - r.min_strain))).map
        (fun d => r.stress2.getLast?.getD 0 + d)) ∧
      r.max_stress = r.stress1.max?.getD 0 ∧ r.min_stress = r.stress2.min?.getD 0) ∧
    (p.direction = "compression" →
      r.strain1 = linspace 0 r.min_strain ∧ r.stress1 = chain fs (rambergOsgood p.E p.K p.n) 10 r.strain1 ∧
      r.strain2 = linspace r.min_strain r.max_strain ∧
      r.stress2 = (chain fs (rambergOsgoodDelta p.E p.K p.n) 10 (linspace 0 (r.max_strain - r.min_strain))).map
        (fun d => r.stress1.getLast?.getD 0 + d) ∧
      r.strain3 = linspace r.max_strain r.min_strain ∧
      (∃ g, r.stress3 = (chain fs (rambergOsgoodDelta p.E p.K p.n) g (linspace 0 (r.max_strain - r.min_strain))).map
        (fun d => r.stress2.getLast?.getD 0 - d)) ∧
      r.max_stress = r.stress2.max?.getD 0 ∧ r.min_stress = r.stress1.min?.getD 0) := by
  unfold stressStrain at h
  split at h
  · cases h
  split at h
  · cases h
  split at h
  · cases h
  split at h
  · cases h
  rename_i hd
  have hd' : p.direction = "tension" ∨ p.direction = "compression" := by
    by_contra hc
    push Not at hc
    exact hd (by simp [hc])
  cases hs : ssStrains p with
  | error e => rw [hs] at h; cases h
  | ok q =>
    obtain ⟨mx, mn⟩ := q
    rw [hs] at h
    rcases hd' with hd' | hd'
    · have ht : (p.direction == "tension") = true := by rw [hd']; rfl
      simp only [ht, if_true] at h
      cases h
      exact ⟨rfl, Or.inl hd', fun _ => ⟨rfl, rfl, rfl, rfl, rfl, ⟨_, rfl⟩, rfl, rfl⟩,
        fun hc => absurd (hd'.symm.trans hc) (by decide)⟩
    · have ht : (p.direction == "tension") = false := by rw [hd']; rfl
      simp only [ht, Bool.false_eq_true, if_false] at h
      cases h
      exact ⟨rfl, Or.inr hd', fun hc => absurd (hd'.symm.trans hc) (by decide),
        fun _ => ⟨rfl, rfl, rfl, rfl, rfl, ⟨_, rfl⟩, rfl, rfl⟩⟩

/-- the stress after first loading to strain `e` -/
noncomputable def loadStress (fs : Solver) (E K n e : ℝ) : ℝ := fs (rambergOsgood E K n e) 0

/-- the change of stress for a change of strain `e` -/
noncomputable def revStress (fs : Solver) (E K n e : ℝ) : ℝ := fs (rambergOsgoodDelta E K n e) 0

theorem chain_load {fs : Solver} (hfs : RootFinder fs) {E K n : ℝ} (h : Material E K n) {e : ℝ} (he : 0 ≤ e) (g : ℝ) :
    chain fs (rambergOsgood E K n) g (linspace 0 e) = (linspace 0 e).map (loadStress fs E K n) := by
  apply chain_eq
  intro x hx g'
  obtain ⟨u, hu, -, rfl⟩ := linspace_mem hx
  have hx0 : 0 ≤ 0 + u * (e - 0) := by nlinarith
  have h1 := ro_solve hfs h.E h.K h.n hx0 g'
  have h2 := ro_solve hfs h.E h.K h.n hx0 0
  exact loading_inj h.E h.K h.n h1.1 h2.1 (h1.2.trans h2.2.symm)

theorem chain_rev {fs : Solver} (hfs : RootFinder fs) {E K n : ℝ} (h : Material E K n) {e : ℝ} (he : 0 ≤ e) (g : ℝ) :
    chain fs (rambergOsgoodDelta E K n) g (linspace 0 e) = (linspace 0 e).map (revStress fs E K n) := by
  apply chain_eq
  intro x hx g'
  obtain ⟨u, hu, -, rfl⟩ := linspace_mem hx
  have hx0 : 0 ≤ 0 + u * (e - 0) := by nlinarith
  have h1 := rod_solve hfs h.E h.K h.n hx0 g'
  have h2 := rod_solve hfs h.E h.K h.n hx0 0
  exact reversal_inj h.E h.K h.n h1.1 h2.1 (h1.2.trans h2.2.symm)

theorem rev_spec {fs : Solver} (hfs : RootFinder fs) {E K n : ℝ} (h : Material E K n) {e : ℝ} (he : 0 ≤ e) :
    0 ≤ revStress fs E K n e ∧ reversalStrain E K n (revStress fs E K n e) = e := rod_solve hfs h.E h.K h.n he 0

/-- the largest of the stresses on the way to `e` is the last -/
theorem load_mono {fs : Solver} (hfs : RootFinder fs) {E K n : ℝ} (h : Material E K n) {d e : ℝ} (hd : 0 ≤ d) (hde : d ≤ e) :
    loadStress fs E K n d ≤ loadStress fs E K n e := by
  have h1 := ro_solve hfs h.E h.K h.n hd 0
  have h2 := ro_solve hfs h.E h.K h.n (hd.trans hde) 0
  by_contra hc
  push Not at hc
  have := (loading_lt h.E h.K h.n h2.1 h1.1).2 hc
  rw [h1.2, h2.2] at this
  linarith

theorem rev_mono {fs : Solver} (hfs : RootFinder fs) {E K n : ℝ} (h : Material E K n) {d e : ℝ} (hd : 0 ≤ d) (hde : d ≤ e) :
    revStress fs E K n d ≤ revStress fs E K n e := by
  have h1 := rod_solve hfs h.E h.K h.n hd 0
  have h2 := rod_solve hfs h.E h.K h.n (hd.trans hde) 0
  by_contra hc
  push Not at hc
  have := (reversal_lt h.E h.K h.n h2.1 h1.1).2 hc
  rw [h1.2, h2.2] at this
  linarith

theorem linspace_zero_mem {e x : ℝ} (he : 0 ≤ e) (h : x ∈ linspace 0 e) : 0 ≤ x ∧ x ≤ e := by
  obtain ⟨u, hu, hu1, rfl⟩ := linspace_mem h
  constructor <;> nlinarith

/-- everything about a call in tension in terms of the two solution functions -/
theorem ss_tension {fs : Solver} (hfs : RootFinder fs) {p : SSIn} (hm : Material p.E p.K p.n) {r : SSOut}
    (h : stressStrain fs p = .ok r) (ht : p.direction = "tension") (h0 : 0 ≤ r.max_strain)
    (hle : r.min_strain ≤ r.max_strain) :
    r.max_stress = loadStress fs p.E p.K p.n r.max_strain ∧
    r.min_stress = r.max_stress - revStress fs p.E p.K p.n (r.max_strain - r.min_strain) ∧
    r.strain1 = linspace 0 r.max_strain ∧ r.stress1 = r.strain1.map (loadStress fs p.E p.K p.n) ∧
    r.strain2 = (linspace 0 (r.max_strain - r.min_strain)).map (fun d => r.max_strain - d) ∧
    r.stress2 = (linspace 0 (r.max_strain - r.min_strain)).map (fun d => r.max_stress - revStress fs p.E p.K p.n d) ∧
    r.strain3 = (linspace 0 (r.max_strain - r.min_strain)).map (fun d => r.min_strain + d) ∧
    r.stress3 = (linspace 0 (r.max_strain - r.min_strain)).map (fun d => r.min_stress + revStress fs p.E p.K p.n d) ∧
    r.stress1.getLast? = some r.max_stress ∧ r.stress2.getLast? = some r.min_stress := by
  obtain ⟨-, -, htn, -⟩ := ss_ok h
  obtain ⟨e1, s1, e2, s2, e3, ⟨g, s3⟩, mx, mn⟩ := htn ht
  have hd0 : 0 ≤ r.max_strain - r.min_strain := by linarith
  rw [e1, chain_load hfs hm h0] at s1
  have l1 : r.stress1.getLast? = some (loadStress fs p.E p.K p.n r.max_strain) := by
    rw [s1, getLast?_map, linspace_last]; rfl
  have m1 : r.max_stress = loadStress fs p.E p.K p.n r.max_strain := by
    rw [mx, max?_of_last l1]
    · rfl
    · intro x hx
      rw [s1] at hx
      obtain ⟨y, hy, rfl⟩ := mem_map.1 hx
      obtain ⟨y0, y1⟩ := linspace_zero_mem h0 hy
      exact load_mono hfs hm y0 y1
  rw [l1, chain_rev hfs hm hd0, map_map] at s2
  simp only [Option.getD_some] at s2
  rw [← m1] at s2 l1
  have l2 : r.stress2.getLast? = some (r.max_stress - revStress fs p.E p.K p.n (r.max_strain - r.min_strain)) := by
    rw [s2, getLast?_map, linspace_last]; rfl
  have m2 : r.min_stress = r.max_stress - revStress fs p.E p.K p.n (r.max_strain - r.min_strain) := by
    rw [mn, min?_of_last l2]
    · rfl
    · intro x hx
      rw [s2] at hx
      obtain ⟨y, hy, rfl⟩ := mem_map.1 hx
      obtain ⟨y0, y1⟩ := linspace_zero_mem hd0 hy
      have := rev_mono hfs hm y0 y1
      simp only [Function.comp]
      linarith
  rw [l2, chain_rev hfs hm hd0, map_map] at s3
  simp only [Option.getD_some] at s3
  rw [← m2] at s3 l2
  refine ⟨m1, m2, e1, by rw [s1, e1], ?_, s2, ?_, s3, l1, l2⟩
  · rw [e2]
    symm
    apply linspace_map
    intro u
    ring
  · rw [e3]
    symm
    apply linspace_map
    intro u
    ring

/-- **C93 (tension).** With a legal material, loading starting in tension and an idealised root finder: the initial loading
follows the Ramberg–Osgood curve from the origin to the largest strain, the unloading branch follows the doubled
curve from there to the smallest strain, the reloading branch follows it back; the loop closes; the reported extreme
stresses are those at the tips. -/
theorem C93_tension (fs : Solver) (hfs : RootFinder fs) (p : SSIn) (hm : Material p.E p.K p.n) (r : SSOut)
    (h : stressStrain fs p = .ok r) (ht : p.direction = "tension") (h0 : 0 ≤ r.max_strain)
    (hle : r.min_strain ≤ r.max_strain) :
    (r.strain1.length = 1000 ∧ r.strain1.length = r.stress1.length ∧ r.strain2.length = 1000 ∧
      r.strain2.length = r.stress2.length ∧ r.strain3.length = 1000 ∧ r.strain3.length = r.stress3.length) ∧
    (∀ q ∈ r.strain1.zip r.stress1, 0 ≤ q.2 ∧ q.2 ≤ r.max_stress ∧ loadingStrain p.E p.K p.n q.2 = q.1) ∧
    (∀ q ∈ r.strain2.zip r.stress2, r.min_stress ≤ q.2 ∧ q.2 ≤ r.max_stress ∧
      reversalStrain p.E p.K p.n (r.max_stress - q.2) = r.max_strain - q.1) ∧
    (∀ q ∈ r.strain3.zip r.stress3, r.min_stress ≤ q.2 ∧ q.2 ≤ r.max_stress ∧
      reversalStrain p.E p.K p.n (q.2 - r.min_stress) = q.1 - r.min_strain) ∧
    (r.strain1.getLast? = some r.max_strain ∧ r.stress1.getLast? = some r.max_stress) ∧
    (r.strain2.getLast? = some r.min_strain ∧ r.stress2.getLast? = some r.min_stress) ∧
    (r.strain3.getLast? = some r.max_strain ∧ r.stress3.getLast? = some r.max_stress) := by
  obtain ⟨m1, m2, e1, s1, e2, s2, e3, s3, l1, l2⟩ := ss_tension hfs hm h ht h0 hle
  have hd0 : 0 ≤ r.max_strain - r.min_strain := by linarith
  have zipmap : ∀ {l : List ℝ} {f g : ℝ → ℝ} {q : ℝ × ℝ}, q ∈ (l.map f).zip (l.map g) → ∃ d ∈ l, q = (f d, g d) := by
    intro l f g q hq
    rw [zip_map'] at hq
    obtain ⟨d, hd, rfl⟩ := mem_map.1 hq
    exact ⟨d, hd, rfl⟩
  refine ⟨⟨?_, ?_, ?_, ?_, ?_, ?_⟩, ?_, ?_, ?_, ⟨?_, l1⟩, ⟨?_, l2⟩, ⟨?_, ?_⟩⟩
  · rw [e1, linspace_length]
  · rw [s1, length_map]
  · rw [e2, length_map, linspace_length]
  · rw [e2, s2, length_map, length_map]
  · rw [e3, length_map, linspace_length]
  · rw [e3, s3, length_map, length_map]
  · intro q hq
    rw [s1, e1] at hq
    obtain ⟨d, hd, rfl⟩ := zipmap (l := linspace 0 r.max_strain) (f := id) (g := loadStress fs p.E p.K p.n)
      (by rwa [map_id])
    obtain ⟨d0, d1⟩ := linspace_zero_mem h0 hd
    have := ro_solve hfs hm.E hm.K hm.n d0 0
    refine ⟨this.1, ?_, this.2⟩
    rw [m1]
    exact load_mono hfs hm d0 d1
  · intro q hq
    rw [e2, s2] at hq
    obtain ⟨d, hd, rfl⟩ := zipmap hq
    obtain ⟨d0, d1⟩ := linspace_zero_mem hd0 hd
    have hr := rod_solve hfs hm.E hm.K hm.n d0 0
    have hmn := rev_mono hfs hm d0 d1
    have hr1 : 0 ≤ revStress fs p.E p.K p.n d := hr.1
    refine ⟨?_, ?_, ?_⟩
    · simp only; linarith
    · simp only; linarith
    · simp only [sub_sub_cancel]
      exact hr.2
  · intro q hq
    rw [e3, s3] at hq
    obtain ⟨d, hd, rfl⟩ := zipmap hq
    obtain ⟨d0, d1⟩ := linspace_zero_mem hd0 hd
    have hr := rod_solve hfs hm.E hm.K hm.n d0 0
    have hmn := rev_mono hfs hm d0 d1
    have hr1 : 0 ≤ revStress fs p.E p.K p.n d := hr.1
    refine ⟨?_, ?_, ?_⟩
    · simp only; linarith
    · simp only; linarith
    · simp only [add_sub_cancel_left]
      exact hr.2
  · rw [e1, linspace_last]
  · rw [e2, getLast?_map, linspace_last]; simp
  · rw [e3, getLast?_map, linspace_last]; simp
  · rw [s3, getLast?_map, linspace_last]
    simp only [Option.map_some, Option.some.injEq]
    linarith

/-- Given a largest stress only, loading is fully reversed and both largest and smallest stress are as asked. -/
theorem C93_stress_controlled (fs : Solver) (hfs : RootFinder fs) (p : SSIn) (hm : Material p.E p.K p.n) (S : ℝ) (hS : 0 ≤ S)
    (h1 : p.max_stress = some S) (h2 : p.max_strain = none) (h3 : p.min_stress = none) (ht : p.direction = "tension") :
    ∃ r, stressStrain fs p = .ok r ∧ r.max_stress = S ∧ r.min_stress = -S ∧ r.max_strain = loadingStrain p.E p.K p.n S ∧
      r.min_strain = -r.max_strain := by
  have hst : ssStrains p = .ok (loadingStrain p.E p.K p.n S, -loadingStrain p.E p.K p.n S) := by
    unfold ssStrains
    simp only [h1, h3]
    rw [npPow_nonneg (div_nonneg hS hm.K.le)]
    rfl
  obtain ⟨r, hr⟩ : ∃ r, stressStrain fs p = .ok r := by
    unfold stressStrain
    rw [if_neg (by simp [h2]), if_neg (by simp [h3]), if_neg (by simp [h1]), if_neg (by simp [ht]), hst]
    exact ⟨_, rfl⟩
  have hst' := (ss_ok hr).1
  rw [hst] at hst'
  injection hst' with hst'
  have e1 : r.max_strain = loadingStrain p.E p.K p.n S := (congrArg Prod.fst hst').symm
  have e2 : r.min_strain = -loadingStrain p.E p.K p.n S := (congrArg Prod.snd hst').symm
  have hnn : 0 ≤ loadingStrain p.E p.K p.n S := by
    have := hm.E; have := hm.K
    unfold loadingStrain
    positivity
  obtain ⟨m1, m2, -⟩ := ss_tension hfs hm hr ht (e1 ▸ hnn) (by rw [e1, e2]; linarith)
  have q1 := ro_solve hfs hm.E hm.K hm.n hnn 0
  have hS' : r.max_stress = S := by
    rw [m1, e1]
    exact loading_inj hm.E hm.K hm.n q1.1 hS q1.2
  refine ⟨r, hr, hS', ?_, e1, by rw [e2, e1]⟩
  rw [m2, hS', e1, e2]
  have q2 := rev_spec hfs hm (by linarith : 0 ≤ loadingStrain p.E p.K p.n S - -loadingStrain p.E p.K p.n S)
  have : revStress fs p.E p.K p.n (loadingStrain p.E p.K p.n S - -loadingStrain p.E p.K p.n S) = 2 * S := by
    apply reversal_inj hm.E hm.K hm.n q2.1 (by positivity)
    rw [q2.2]
    unfold reversalStrain loadingStrain
    rw [mul_div_mul_left _ _ two_ne_zero]
    ring
  linarith

/-- Given a largest strain only, loading is fully reversed in strain and in stress. -/
theorem C93_strain_controlled (fs : Solver) (hfs : RootFinder fs) (p : SSIn) (hm : Material p.E p.K p.n) (e : ℝ) (he : 0 ≤ e)
    (h1 : p.max_strain = some e) (h2 : p.max_stress = none) (h3 : p.min_strain = none) (ht : p.direction = "tension") :
    ∃ r, stressStrain fs p = .ok r ∧ r.max_strain = e ∧ r.min_strain = -e ∧ 0 ≤ r.max_stress ∧
      loadingStrain p.E p.K p.n r.max_stress = e ∧ r.min_stress = -r.max_stress := by
  obtain ⟨S, hS, hSe⟩ : ∃ S, 0 ≤ S ∧ loadingStrain p.E p.K p.n S = e := ⟨_, ro_solve hfs hm.E hm.K hm.n he 0⟩
  have hst : ssStrains p = .ok (e, -e) := by
    unfold ssStrains
    simp only [h1, h2, h3]
  obtain ⟨r, hr⟩ : ∃ r, stressStrain fs p = .ok r := by
    unfold stressStrain
    rw [if_neg (by simp [h2]), if_neg (by simp [h3]), if_neg (by simp [h1]), if_neg (by simp [ht]), hst]
    exact ⟨_, rfl⟩
  have hst' := (ss_ok hr).1
  rw [hst] at hst'
  injection hst' with hst'
  have e1 : r.max_strain = e := (congrArg Prod.fst hst').symm
  have e2 : r.min_strain = -e := (congrArg Prod.snd hst').symm
  obtain ⟨m1, m2, -⟩ := ss_tension hfs hm hr ht (e1 ▸ he) (by rw [e1, e2]; linarith)
  have q1 := ro_solve hfs hm.E hm.K hm.n he 0
  have hS' : r.max_stress = S := by
    rw [m1, e1]
    exact loading_inj hm.E hm.K hm.n q1.1 hS (q1.2.trans hSe.symm)
  refine ⟨r, hr, e1, e2, hS'.symm ▸ hS, hS'.symm ▸ hSe, ?_⟩
  rw [m2, e1, e2, hS']
  have q2 := rev_spec hfs hm (by linarith : 0 ≤ e - -e)
  have : revStress fs p.E p.K p.n (e - -e) = 2 * S := by
    apply reversal_inj hm.E hm.K hm.n q2.1 (by positivity)
    rw [q2.2, ← hSe]
    unfold reversalStrain loadingStrain
    rw [mul_div_mul_left _ _ two_ne_zero]
    ring
  linarith

/-- Finding: asked for a smallest stress other than minus the largest one, a work-hardening material (n < 1) is always taken
further down: the reported smallest stress is strictly below the one asked for. -/
theorem C93_min_stress_finding (fs : Solver) (hfs : RootFinder fs) (p : SSIn) (hm : Material p.E p.K p.n) (hn : p.n < 1)
    (S m : ℝ) (hS : 0 < S) (hm0 : m ≤ 0) (hmS : m ≠ -S)
    (h1 : p.max_stress = some S) (h2 : p.max_strain = none) (h3 : p.min_stress = some m) (h4 : p.min_strain = none)
    (ht : p.direction = "tension") :
    ∃ r, stressStrain fs p = .ok r ∧ r.max_stress = S ∧ r.min_stress < m := by
  set M := -m with hM
  have hM0 : 0 ≤ M := by linarith
  have hE := hm.E
  have hK := hm.K
  have hst : ssStrains p = .ok (loadingStrain p.E p.K p.n S, -loadingStrain p.E p.K p.n M) := by
    unfold ssStrains
    simp only [h1, h3]
    rw [npPow_nonneg (div_nonneg hS.le hm.K.le), npPow_nonneg (div_nonneg hM0 hm.K.le)]
    rfl
  obtain ⟨r, hr⟩ : ∃ r, stressStrain fs p = .ok r := by
    unfold stressStrain
    rw [if_neg (by simp [h2]), if_neg (by simp [h4]), if_neg (by simp [h1]), if_neg (by simp [ht]), hst]
    exact ⟨_, rfl⟩
  have hst' := (ss_ok hr).1
  rw [hst] at hst'
  injection hst' with hst'
  have e1 : r.max_strain = loadingStrain p.E p.K p.n S := (congrArg Prod.fst hst').symm
  have e2 : r.min_strain = -loadingStrain p.E p.K p.n M := (congrArg Prod.snd hst').symm
  have hnn : 0 ≤ loadingStrain p.E p.K p.n S := by unfold loadingStrain; positivity
  have hnm : 0 ≤ loadingStrain p.E p.K p.n M := by unfold loadingStrain; positivity
  obtain ⟨m1, m2, -⟩ := ss_tension hfs hm hr ht (e1 ▸ hnn) (by rw [e1, e2]; linarith)
  have q1 := ro_solve hfs hm.E hm.K hm.n hnn 0
  have hS' : r.max_stress = S := by
    rw [m1, e1]
    exact loading_inj hm.E hm.K hm.n q1.1 hS.le q1.2
  refine ⟨r, hr, hS', ?_⟩
  rw [m2, hS', e1, e2]
  have hsum : 0 ≤ loadingStrain p.E p.K p.n S - -loadingStrain p.E p.K p.n M := by linarith
  have q2 := rev_spec hfs hm hsum
  have hlt : S + M < revStress fs p.E p.K p.n (loadingStrain p.E p.K p.n S - -loadingStrain p.E p.K p.n M) := by
    rw [← reversal_lt hm.E hm.K hm.n (by linarith) q2.1, q2.2]
    have hp : 1 < 1 / p.n := by rw [lt_div_iff₀ hm.n]; linarith
    have hne : S / p.K ≠ M / p.K := by
      intro hc
      rw [div_left_inj' hm.K.ne'] at hc
      exact hmS (by linarith)
    have hcx := (strictConvexOn_rpow hp).2 (Set.mem_Ici.2 (by positivity : 0 ≤ S / p.K))
      (Set.mem_Ici.2 (by positivity : 0 ≤ M / p.K)) hne (by norm_num : (0 : ℝ) < 1 / 2) (by norm_num : (0 : ℝ) < 1 / 2)
      (by norm_num)
    simp only [smul_eq_mul] at hcx
    unfold reversalStrain loadingStrain
    have e : (S + M) / (2 * p.K) = 1 / 2 * (S / p.K) + 1 / 2 * (M / p.K) := by field_simp
    rw [e]
    have : (S + M) / p.E = S / p.E + M / p.E := add_div _ _ _
    linarith
  linarith

/-- Finding: with a largest strain a smallest stress is silently ignored, with a largest stress a smallest strain is. -/
theorem C93_ignored_finding (fs : Solver) (p : SSIn) :
    (∀ e, p.max_strain = some e → p.max_stress = none → p.min_strain = none → ∀ m,
      stressStrain fs { p with min_stress := some m } = stressStrain fs { p with min_stress := none }) ∧
    (∀ s, p.max_stress = some s → p.max_strain = none → p.min_stress = none → ∀ m,
      stressStrain fs { p with min_strain := some m } = stressStrain fs { p with min_strain := none }) := by
  constructor
  · intro e h1 h2 h3 m
    simp [stressStrain, ssStrains, h1, h2, h3]
  · intro e h1 h2 h3 m
    simp [stressStrain, ssStrains, h1, h2, h3]

/-- Finding: unless 1/n is an integer, loading that starts in compression is wrong: no point of the initial loading curve
after the first satisfies the material equation (for a negative stress it is nan, so `fsolve` cannot solve it), whatever
the root finder. -/
theorem C93_compression_finding (fs : Solver) (p : SSIn) (hm : Material p.E p.K p.n) (hn : ∀ k : ℤ, (k : ℝ) ≠ 1 / p.n)
    (r : SSOut) (h : stressStrain fs p = .ok r) (ht : p.direction = "compression") (h0 : r.min_strain < 0) :
    ∀ q ∈ r.strain1.zip r.stress1, q.1 ≠ 0 →
      ∀ w, npPow (q.2 / p.K) (1 / p.n) = some w → q.2 / p.E + w ≠ q.1 := by
  obtain ⟨-, -, -, hc⟩ := ss_ok h
  obtain ⟨e1, -⟩ := hc ht
  intro q hq hq0 w hw
  have hmem : q.1 ∈ linspace 0 r.min_strain := by rw [← e1]; exact (of_mem_zip hq).1
  obtain ⟨u, hu, -, hue⟩ := linspace_mem hmem
  have hneg : q.1 < 0 := by
    rcases lt_or_eq_of_le (show q.1 ≤ 0 by rw [hue]; nlinarith) with h | h
    · exact h
    · exact absurd h hq0
  rcases lt_or_ge q.2 0 with hs | hs
  · rw [npPow_none (div_neg_of_neg_of_pos hs hm.K) hn] at hw
    cases hw
  · have hE := hm.E
    have hK := hm.K
    rw [npPow_nonneg (by positivity)] at hw
    cases hw
    have : 0 ≤ q.2 / p.E + (q.2 / p.K) ^ (1 / p.n) := by positivity
    linarith

theorem loading_odd {E K n : ℝ} {k : ℕ} (hk : 1 / n = ((2 * k + 1 : ℕ) : ℝ)) (s : ℝ) :
    loadingStrain E K n (-s) = -loadingStrain E K n s := by
  unfold loadingStrain
  rw [hk, Real.rpow_natCast, Real.rpow_natCast, neg_div, neg_div, Odd.neg_pow ⟨k, rfl⟩]
  ring

theorem ro_odd {E K n e s : ℝ} {k : ℕ} (hk : 1 / n = ((2 * k + 1 : ℕ) : ℝ)) :
    rambergOsgood E K n e s = some 0 ↔ loadingStrain E K n s = e := by
  unfold rambergOsgood loadingStrain
  rw [npPow_int ((2 * k + 1 : ℕ) : ℤ) (by rw [hk]; push_cast; rfl)]
  simp [sub_eq_zero]

theorem ro_solve_odd {fs : Solver} (hfs : RootFinder fs) {E K n e : ℝ} (hm : Material E K n) {k : ℕ}
    (hk : 1 / n = ((2 * k + 1 : ℕ) : ℝ)) (he : e ≤ 0) (g : ℝ) :
    fs (rambergOsgood E K n e) g ≤ 0 ∧ loadingStrain E K n (fs (rambergOsgood E K n e) g) = e := by
  have h1 := ro_solve hfs hm.E hm.K hm.n (by linarith : 0 ≤ -e) g
  have hroot : loadingStrain E K n (fs (rambergOsgood E K n e) g) = e := by
    rw [← ro_odd hk]
    apply (hfs _ g).1
    refine ⟨-fs (rambergOsgood E K n (-e)) g, ?_⟩
    rw [ro_odd hk, loading_odd hk, h1.2, neg_neg]
  refine ⟨?_, hroot⟩
  by_contra hc
  push Not at hc
  have : 0 < loadingStrain E K n (fs (rambergOsgood E K n e) g) := by
    have := hm.E; have := hm.K
    unfold loadingStrain
    positivity
  linarith

theorem chain_load_odd {fs : Solver} (hfs : RootFinder fs) {E K n : ℝ} (h : Material E K n) {k : ℕ}
    (hk : 1 / n = ((2 * k + 1 : ℕ) : ℝ)) {e : ℝ} (he : e ≤ 0) (g : ℝ) :
    chain fs (rambergOsgood E K n) g (linspace 0 e) = (linspace 0 e).map (loadStress fs E K n) := by
  apply chain_eq
  intro x hx g'
  obtain ⟨u, hu, -, rfl⟩ := linspace_mem hx
  have hx0 : 0 + u * (e - 0) ≤ 0 := by nlinarith
  have h1 := ro_solve_odd hfs h hk hx0 g'
  have h2 := ro_solve_odd hfs h hk hx0 0
  have := loading_inj h.E h.K h.n (neg_nonneg.2 h1.1) (neg_nonneg.2 h2.1)
    (by rw [loading_odd hk, loading_odd hk, h1.2, h2.2])
  exact neg_injective this

/-- If 1/n is an odd integer (e.g. n = 0.2), loading that starts in compression is the mirror image of tension: same curves,
closed loop, the reported extremes are at the tips. -/
theorem C93_compression_odd (fs : Solver) (hfs : RootFinder fs) (p : SSIn) (hm : Material p.E p.K p.n) (k : ℕ)
    (hk : 1 / p.n = ((2 * k + 1 : ℕ) : ℝ)) (r : SSOut) (h : stressStrain fs p = .ok r) (ht : p.direction = "compression")
    (h0 : r.min_strain ≤ 0) (hle : r.min_strain ≤ r.max_strain) :
    (∀ q ∈ r.strain1.zip r.stress1, r.min_stress ≤ q.2 ∧ q.2 ≤ 0 ∧ loadingStrain p.E p.K p.n q.2 = q.1) ∧
    (∀ q ∈ r.strain2.zip r.stress2, r.min_stress ≤ q.2 ∧ q.2 ≤ r.max_stress ∧
      reversalStrain p.E p.K p.n (q.2 - r.min_stress) = q.1 - r.min_strain) ∧
    (∀ q ∈ r.strain3.zip r.stress3, r.min_stress ≤ q.2 ∧ q.2 ≤ r.max_stress ∧
      reversalStrain p.E p.K p.n (r.max_stress - q.2) = r.max_strain - q.1) ∧
    (r.strain1.getLast? = some r.min_strain ∧ r.stress1.getLast? = some r.min_stress) ∧
    (r.strain2.getLast? = some r.max_strain ∧ r.stress2.getLast? = some r.max_stress) ∧
    (r.strain3.getLast? = some r.min_strain ∧ r.stress3.getLast? = some r.min_stress) := by
  obtain ⟨-, -, -, hcn⟩ := ss_ok h
  obtain ⟨e1, s1, e2, s2, e3, ⟨g, s3⟩, mx, mn⟩ := hcn ht
  have hd0 : 0 ≤ r.max_strain - r.min_strain := by linarith
  have mono : ∀ x ∈ linspace 0 r.min_strain, loadStress fs p.E p.K p.n r.min_strain ≤ loadStress fs p.E p.K p.n x ∧
      loadStress fs p.E p.K p.n x ≤ 0 ∧ loadingStrain p.E p.K p.n (loadStress fs p.E p.K p.n x) = x := by
    intro x hx
    obtain ⟨u, hu, hu1, rfl⟩ := linspace_mem hx
    have hx0 : 0 + u * (r.min_strain - 0) ≤ 0 := by nlinarith
    have hx1 : r.min_strain ≤ 0 + u * (r.min_strain - 0) := by nlinarith
    have q1 := ro_solve_odd hfs hm hk hx0 0
    have q2 := ro_solve_odd hfs hm hk h0 0
    refine ⟨?_, q1⟩
    by_contra hc
    push Not at hc
    have := (loading_lt hm.E hm.K hm.n (neg_nonneg.2 q2.1) (neg_nonneg.2 q1.1)).2 (by
      simp only [loadStress] at hc
      linarith)
    rw [loading_odd hk, loading_odd hk, q1.2, q2.2] at this
    linarith
  rw [e1, chain_load_odd hfs hm hk h0] at s1
  have l1 : r.stress1.getLast? = some (loadStress fs p.E p.K p.n r.min_strain) := by
    rw [s1, getLast?_map, linspace_last]; rfl
  have m1 : r.min_stress = loadStress fs p.E p.K p.n r.min_strain := by
    rw [mn, min?_of_last l1]
    · rfl
    · intro x hx
      rw [s1] at hx
      obtain ⟨y, hy, rfl⟩ := mem_map.1 hx
      exact (mono y hy).1
  rw [l1, chain_rev hfs hm hd0, map_map] at s2
  simp only [Option.getD_some] at s2
  rw [← m1] at s2 l1
  have l2 : r.stress2.getLast? = some (r.min_stress + revStress fs p.E p.K p.n (r.max_strain - r.min_strain)) := by
    rw [s2, getLast?_map, linspace_last]; rfl
  have m2 : r.max_stress = r.min_stress + revStress fs p.E p.K p.n (r.max_strain - r.min_strain) := by
    rw [mx, max?_of_last l2]
    · rfl
    · intro x hx
      rw [s2] at hx
      obtain ⟨y, hy, rfl⟩ := mem_map.1 hx
      obtain ⟨y0, y1⟩ := linspace_zero_mem hd0 hy
      have := rev_mono hfs hm y0 y1
      simp only [Function.comp]
      linarith
  rw [l2, chain_rev hfs hm hd0, map_map] at s3
  simp only [Option.getD_some] at s3
  rw [← m2] at s3 l2
  have e2' : r.strain2 = (linspace 0 (r.max_strain - r.min_strain)).map (fun d => r.min_strain + d) := by
    rw [e2]
    symm
    apply linspace_map
    intro u
    ring
  have e3' : r.strain3 = (linspace 0 (r.max_strain - r.min_strain)).map (fun d => r.max_strain - d) := by
    rw [e3]
    symm
    apply linspace_map
    intro u
    ring
  have zipmap : ∀ {l : List ℝ} {f g : ℝ → ℝ} {q : ℝ × ℝ}, q ∈ (l.map f).zip (l.map g) → ∃ d ∈ l, q = (f d, g d) := by
    intro l f g q hq
    rw [zip_map'] at hq
    obtain ⟨d, hd, rfl⟩ := mem_map.1 hq
    exact ⟨d, hd, rfl⟩
  refine ⟨?_, ?_, ?_, ⟨?_, l1⟩, ⟨?_, l2⟩, ⟨?_, ?_⟩⟩
  · intro q hq
    rw [s1, e1] at hq
    obtain ⟨d, hd, rfl⟩ := zipmap (l := linspace 0 r.min_strain) (f := id) (g := loadStress fs p.E p.K p.n)
      (by rwa [map_id])
    rw [m1]
    exact mono d hd
  · intro q hq
    rw [e2', s2] at hq
    obtain ⟨d, hd, rfl⟩ := zipmap hq
    obtain ⟨d0, d1⟩ := linspace_zero_mem hd0 hd
    have hr := rev_spec hfs hm d0
    have hmn := rev_mono hfs hm d0 d1
    refine ⟨?_, ?_, ?_⟩
    · simp only [Function.comp]; linarith
    · simp only [Function.comp]; linarith
    · simp only [Function.comp, add_sub_cancel_left]
      exact hr.2
  · intro q hq
    rw [e3', s3] at hq
    obtain ⟨d, hd, rfl⟩ := zipmap hq
    obtain ⟨d0, d1⟩ := linspace_zero_mem hd0 hd
    have hr := rev_spec hfs hm d0
    have hmn := rev_mono hfs hm d0 d1
    refine ⟨?_, ?_, ?_⟩
    · simp only [Function.comp]; linarith
    · simp only [Function.comp]; linarith
    · simp only [Function.comp, sub_sub_cancel]
      exact hr.2
  · rw [e1, linspace_last]
  · rw [e2, linspace_last]
  · rw [e3, linspace_last]
  · rw [s3, getLast?_map, linspace_last]
    simp only [Option.map_some, Option.some.injEq, Function.comp]
    linarith

/-- Errors: both maxima, both minima, no maximum, or another load direction. -/
theorem C93_errors (fs : Solver) (p : SSIn)
    (h : (p.max_stress.isSome ∧ p.max_strain.isSome) ∨ (p.min_stress.isSome ∧ p.min_strain.isSome) ∨
      (p.max_stress = none ∧ p.max_strain = none) ∨ (p.direction ≠ "tension" ∧ p.direction ≠ "compression")) :
    stressStrain fs p = valueErr := by
  unfold stressStrain
  split
  · rfl
  split
  · rfl
  split
  · rfl
  split
  · rfl
  exfalso
  rename_i h1 h2 h3 h4
  rcases h with h | h | h | h
  · exact h1 h
  · exact h2 h
  · exact h3 h
  · apply h4
    simp [h]

/-- A root finder as assumed exists. -/
noncomputable def someFinder : Solver := fun f _ =>
  open Classical in if h : ∃ x, 0 ≤ x ∧ f x = some 0 then h.choose else if h : ∃ x, f x = some 0 then h.choose else 0

theorem someFinder_ok : RootFinder someFinder := by
  intro f x0
  unfold someFinder
  by_cases h : ∃ x, 0 ≤ x ∧ f x = some 0
  · rw [dif_pos h]
    exact ⟨fun _ => h.choose_spec.2, fun _ => h.choose_spec.1⟩
  · rw [dif_neg h]
    refine ⟨fun h2 => ?_, fun h2 => absurd h2 h⟩
    rw [dif_pos h2]
    exact h2.choose_spec

/-- The hypotheses can be met: a steel with K = 1200, n = 0.2, loaded to 500 MPa. -/
example : ∃ r, stressStrain someFinder ⟨1200, 0.2, 210000, none, some 500, none, none, "tension"⟩ = .ok r ∧
    r.max_stress = 500 ∧ r.min_stress = -500 := by
  obtain ⟨r, hr, h1, h2, -⟩ := C93_stress_controlled someFinder someFinder_ok
      ⟨1200, 0.2, 210000, none, some 500, none, none, "tension"⟩ ⟨by norm_num, by norm_num, by norm_num⟩ 500 (by norm_num)
      rfl rfl rfl rfl
  exact ⟨r, hr, h1, h2⟩

/-- And for compression: 1/n is the odd number 5. -/
example : ∃ r, stressStrain someFinder ⟨1200, 0.2, 210000, some 0.01, none, none, none, "compression"⟩ = .ok r ∧
    r.stress3.getLast? = some r.min_stress := by
  refine ⟨_, rfl, ?_⟩
  exact (C93_compression_odd someFinder someFinder_ok ⟨1200, 0.2, 210000, some 0.01, none, none, none, "compression"⟩
    ⟨by norm_num, by norm_num, by norm_num⟩ 2 (by norm_num) _ rfl rfl (by norm_num) (by norm_num)).2.2.2.2.2.2

end Reliability.Props

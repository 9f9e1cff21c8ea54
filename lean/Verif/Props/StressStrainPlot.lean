import Verif.Model.PoFPlot2
import Verif.Spec.PoFPlot
import Verif.Props.StressStrain
import Verif.Props.SNPlot

/-! # C152: the stress-strain diagram as drawn -/

namespace Reliability.Props.SSP

open Reliability Reliability.Fatigue Reliability.Spec List

theorem ssp_ok {fs : Solver} {p : SSIn} {r : SSOut} {d : SSPlot} (h : stressStrainPlot fs p = .ok (r, d)) :
    stressStrain fs p = .ok r ∧ d = ssDraw p r := by
  unfold stressStrainPlot at h
  cases hs : stressStrain fs p with
  | error e => rw [hs] at h; cases h
  | ok r' =>
    rw [hs] at h
    simp only [Except.map, Except.ok.injEq, Prod.mk.injEq] at h
    exact ⟨by rw [h.1], by rw [← h.2, h.1]⟩

theorem between {x a b y : ℝ} (h1 : a ≤ y) (h2 : y ≤ b) (k : ℝ) (hk : 1 ≤ k) (hx : x = max |b| |a| * k) : -x ≤ y ∧ y ≤ x := by
  have hb : |b| ≤ max |b| |a| := le_max_left _ _
  have ha : |a| ≤ max |b| |a| := le_max_right _ _
  have h0 : 0 ≤ max |b| |a| := (abs_nonneg b).trans hb
  have hM : max |b| |a| ≤ x := by rw [hx]; nlinarith
  constructor
  · linarith [neg_abs_le a]
  · linarith [le_abs_self b]

/-- What is drawn follows the material and is within the axes. -/
def Drawn (p : SSIn) (r : SSOut) (d : SSPlot) (loadLo loadHi : ℝ) (f1 f2 : ℝ × ℝ → ℝ × ℝ) : Prop :=
  (∀ q ∈ d.loading.1.zip d.loading.2, Visible d.xlim d.ylim q ∧ loadingStrain p.E p.K p.n q.2 = q.1 ∧ loadLo ≤ q.2 ∧ q.2 ≤ loadHi) ∧
  (∀ q ∈ d.branch1.1.zip d.branch1.2, Visible d.xlim d.ylim q ∧ reversalStrain p.E p.K p.n (f1 q).2 = (f1 q).1) ∧
  (∀ q ∈ d.branch2.1.zip d.branch2.2, Visible d.xlim d.ylim q ∧ reversalStrain p.E p.K p.n (f2 q).2 = (f2 q).1) ∧
  d.left = (r.min_strain, r.min_stress) ∧ d.right = (r.max_strain, r.max_stress) ∧ Visible d.xlim d.ylim d.left ∧
  Visible d.xlim d.ylim d.right ∧ d.xlim.1 = -d.xlim.2 ∧ d.ylim.1 = -d.ylim.2 ∧
  d.loading.1.length = 1000 ∧ d.loading.2.length = 1000 ∧ d.branch1.1.length = 1000 ∧ d.branch1.2.length = 1000 ∧
  d.branch2.1.length = 1000 ∧ d.branch2.2.length = 1000

/-- **C152 (tension).** The red line is the first loading of the material, from no stress to the largest; the blue lines are its unloading
from the right tip and its reloading from the left tip; the labelled tips are the reported extreme strains and stresses.  All of it is
within the axes, which have the origin in their middle. -/
theorem C152_tension (fs : Solver) (hfs : RootFinder fs) (p : SSIn) (hm : Material p.E p.K p.n) (r : SSOut) (d : SSPlot)
    (h : stressStrainPlot fs p = .ok (r, d)) (ht : p.direction = "tension") (h0 : 0 ≤ r.max_strain) (hle : r.min_strain ≤ r.max_strain) :
    Drawn p r d 0 r.max_stress (fun q => (r.max_strain - q.1, r.max_stress - q.2)) (fun q => (q.1 - r.min_strain, q.2 - r.min_stress)) := by
  obtain ⟨hr, rfl⟩ := ssp_ok h
  obtain ⟨⟨n1, n1', n2, n2', n3, n3'⟩, c1, c2, c3, ⟨t1, t1'⟩, ⟨t2, t2'⟩, t3, t3'⟩ := C93_tension fs hfs p hm r hr ht h0 hle
  obtain ⟨-, -, htn, -⟩ := ss_ok hr
  obtain ⟨e1, -, e2, -, e3, -⟩ := htn ht
  have hbeq : (p.direction == "tension") = true := by rw [ht]; rfl
  have hd0 : 0 ≤ r.max_strain - r.min_strain := by linarith
  have X : ∀ y, r.min_strain ≤ y → y ≤ r.max_strain → (ssDraw p r).xlim.1 ≤ y ∧ y ≤ (ssDraw p r).xlim.2 :=
    fun y h1 h2 => between h1 h2 2 (by norm_num) rfl
  have Y : ∀ y, r.min_stress ≤ y → y ≤ r.max_stress → (ssDraw p r).ylim.1 ≤ y ∧ y ≤ (ssDraw p r).ylim.2 :=
    fun y h1 h2 => between h1 h2 (14 / 10) (by norm_num) rfl
  have hmin : r.min_stress ≤ r.max_stress := by
    have hmem : (r.min_strain, r.min_stress) ∈ r.strain2.zip r.stress2 := by
      rw [getLast?_eq_getElem?, n2] at t2
      rw [getLast?_eq_getElem?, ← n2', n2] at t2'
      exact mem_of_getElem? (i := 999) (by rw [zip_eq_zipWith, getElem?_zipWith, t2, t2'])
    exact (c2 _ hmem).2.1
  have X0 : ∀ y, 0 ≤ y → y ≤ r.max_strain → (ssDraw p r).xlim.1 ≤ y ∧ y ≤ (ssDraw p r).xlim.2 := by
    intro y y0 y1
    have hx := X r.max_strain hle le_rfl
    have : (ssDraw p r).xlim.1 = -(ssDraw p r).xlim.2 := rfl
    exact ⟨by linarith, y1.trans hx.2⟩
  have Y0 : ∀ y, 0 ≤ y → y ≤ r.max_stress → (ssDraw p r).ylim.1 ≤ y ∧ y ≤ (ssDraw p r).ylim.2 := by
    intro y y0 y1
    have hx := Y r.max_stress hmin le_rfl
    have : (ssDraw p r).ylim.1 = -(ssDraw p r).ylim.2 := rfl
    exact ⟨by linarith, y1.trans hx.2⟩
  have hleft : (ssDraw p r).left = (r.min_strain, r.min_stress) := by
    unfold ssDraw tip
    simp only [hbeq, if_true, t2, t2', Option.getD_some]
  have hright : (ssDraw p r).right = (r.max_strain, r.max_stress) := by
    unfold ssDraw tip
    simp only [hbeq, if_true, t3, t3', Option.getD_some]
  refine ⟨?_, ?_, ?_, hleft, hright, ?_, ?_, rfl, rfl, n1, n1' ▸ n1, n2, n2' ▸ n2, n3, n3' ▸ n3⟩
  · intro q hq
    obtain ⟨a1, a2, a3⟩ := c1 q hq
    have hx : q.1 ∈ linspace 0 r.max_strain := by rw [← e1]; exact (of_mem_zip hq).1
    obtain ⟨b1, b2⟩ := linspace_zero_mem h0 hx
    exact ⟨⟨(X0 _ b1 b2).1, (X0 _ b1 b2).2, Y0 _ a1 a2⟩, a3, a1, a2⟩
  · intro q hq
    obtain ⟨a1, a2, a3⟩ := c2 q hq
    have hx : q.1 ∈ linspace r.max_strain r.min_strain := by rw [← e2]; exact (of_mem_zip hq).1
    obtain ⟨u, u0, u1, hu⟩ := linspace_mem hx
    have b1 : r.min_strain ≤ q.1 := by rw [hu]; nlinarith
    have b2 : q.1 ≤ r.max_strain := by rw [hu]; nlinarith
    exact ⟨⟨(X _ b1 b2).1, (X _ b1 b2).2, Y _ a1 a2⟩, a3⟩
  · intro q hq
    obtain ⟨a1, a2, a3⟩ := c3 q hq
    have hx : q.1 ∈ linspace r.min_strain r.max_strain := by rw [← e3]; exact (of_mem_zip hq).1
    obtain ⟨u, u0, u1, hu⟩ := linspace_mem hx
    have b1 : r.min_strain ≤ q.1 := by rw [hu]; nlinarith
    have b2 : q.1 ≤ r.max_strain := by rw [hu]; nlinarith
    exact ⟨⟨(X _ b1 b2).1, (X _ b1 b2).2, Y _ a1 a2⟩, a3⟩
  · rw [hleft]
    exact ⟨(X _ le_rfl hle).1, (X _ le_rfl hle).2, Y _ le_rfl hmin⟩
  · rw [hright]
    exact ⟨(X _ hle le_rfl).1, (X _ hle le_rfl).2, Y _ hmin le_rfl⟩

theorem chain_length (fs : Solver) (f : ℝ → ℝ → Option ℝ) (g : ℝ) (l : List ℝ) : (chain fs f g l).length = l.length := by
  induction l generalizing g with
  | nil => rfl
  | cons a l ih => simp [chain, ih]

/-- **C152 (compression).** If 1/n is odd, loading that starts in compression gives the mirrored diagram. -/
theorem C152_compression (fs : Solver) (hfs : RootFinder fs) (p : SSIn) (hm : Material p.E p.K p.n) (k : ℕ)
    (hk : 1 / p.n = ((2 * k + 1 : ℕ) : ℝ)) (r : SSOut) (d : SSPlot)
    (h : stressStrainPlot fs p = .ok (r, d)) (ht : p.direction = "compression") (h0 : r.min_strain ≤ 0) (hle : r.min_strain ≤ r.max_strain) :
    Drawn p r d r.min_stress 0 (fun q => (q.1 - r.min_strain, q.2 - r.min_stress)) (fun q => (r.max_strain - q.1, r.max_stress - q.2)) := by
  obtain ⟨hr, rfl⟩ := ssp_ok h
  obtain ⟨c1, c2, c3, ⟨t1, t1'⟩, ⟨t2, t2'⟩, t3, t3'⟩ := C93_compression_odd fs hfs p hm k hk r hr ht h0 hle
  obtain ⟨-, -, -, hcn⟩ := ss_ok hr
  obtain ⟨e1, s1, e2, s2, e3, ⟨g, s3⟩, -⟩ := hcn ht
  have n1 : r.strain1.length = 1000 := by rw [e1, linspace_length]
  have n1' : r.stress1.length = 1000 := by rw [s1, chain_length, n1]
  have n2 : r.strain2.length = 1000 := by rw [e2, linspace_length]
  have n2' : r.stress2.length = 1000 := by rw [s2, length_map, chain_length, linspace_length]
  have n3 : r.strain3.length = 1000 := by rw [e3, linspace_length]
  have n3' : r.stress3.length = 1000 := by rw [s3, length_map, chain_length, linspace_length]
  have hbeq : (p.direction == "tension") = false := by rw [ht]; rfl
  have hd0 : 0 ≤ r.max_strain - r.min_strain := by linarith
  have X : ∀ y, r.min_strain ≤ y → y ≤ r.max_strain → (ssDraw p r).xlim.1 ≤ y ∧ y ≤ (ssDraw p r).xlim.2 :=
    fun y h1 h2 => between h1 h2 2 (by norm_num) rfl
  have Y : ∀ y, r.min_stress ≤ y → y ≤ r.max_stress → (ssDraw p r).ylim.1 ≤ y ∧ y ≤ (ssDraw p r).ylim.2 :=
    fun y h1 h2 => between h1 h2 (14 / 10) (by norm_num) rfl
  have hmin : r.min_stress ≤ r.max_stress := by
    have hmem : (r.max_strain, r.max_stress) ∈ r.strain2.zip r.stress2 := by
      rw [getLast?_eq_getElem?, n2] at t2
      rw [getLast?_eq_getElem?, n2'] at t2'
      exact mem_of_getElem? (i := 999) (by rw [zip_eq_zipWith, getElem?_zipWith, t2, t2'])
    exact (c2 _ hmem).1
  have X0 : ∀ y, y ≤ 0 → r.min_strain ≤ y → (ssDraw p r).xlim.1 ≤ y ∧ y ≤ (ssDraw p r).xlim.2 := by
    intro y y0 y1
    have hx := X r.min_strain le_rfl hle
    have : (ssDraw p r).xlim.1 = -(ssDraw p r).xlim.2 := rfl
    exact ⟨hx.1.trans y1, by linarith⟩
  have Y0 : ∀ y, y ≤ 0 → r.min_stress ≤ y → (ssDraw p r).ylim.1 ≤ y ∧ y ≤ (ssDraw p r).ylim.2 := by
    intro y y0 y1
    have hx := Y r.min_stress le_rfl hmin
    have : (ssDraw p r).ylim.1 = -(ssDraw p r).ylim.2 := rfl
    exact ⟨hx.1.trans y1, by linarith⟩
  have hleft : (ssDraw p r).left = (r.min_strain, r.min_stress) := by
    unfold ssDraw tip
    simp only [hbeq, Bool.false_eq_true, if_false, t3, t3', Option.getD_some]
  have hright : (ssDraw p r).right = (r.max_strain, r.max_stress) := by
    unfold ssDraw tip
    simp only [hbeq, Bool.false_eq_true, if_false, t2, t2', Option.getD_some]
  refine ⟨?_, ?_, ?_, hleft, hright, ?_, ?_, rfl, rfl, n1, n1', n2, n2', n3, n3'⟩
  · intro q hq
    obtain ⟨a1, a2, a3⟩ := c1 q hq
    have hx : q.1 ∈ linspace 0 r.min_strain := by rw [← e1]; exact (of_mem_zip hq).1
    obtain ⟨u, u0, u1, hu⟩ := linspace_mem hx
    have b1 : r.min_strain ≤ q.1 := by rw [hu]; nlinarith
    have b2 : q.1 ≤ 0 := by rw [hu]; nlinarith
    exact ⟨⟨(X0 _ b2 b1).1, (X0 _ b2 b1).2, Y0 _ a2 a1⟩, a3, a1, a2⟩
  · intro q hq
    obtain ⟨a1, a2, a3⟩ := c2 q hq
    have hx : q.1 ∈ linspace r.min_strain r.max_strain := by rw [← e2]; exact (of_mem_zip hq).1
    obtain ⟨u, u0, u1, hu⟩ := linspace_mem hx
    have b1 : r.min_strain ≤ q.1 := by rw [hu]; nlinarith
    have b2 : q.1 ≤ r.max_strain := by rw [hu]; nlinarith
    exact ⟨⟨(X _ b1 b2).1, (X _ b1 b2).2, Y _ a1 a2⟩, a3⟩
  · intro q hq
    obtain ⟨a1, a2, a3⟩ := c3 q hq
    have hx : q.1 ∈ linspace r.max_strain r.min_strain := by rw [← e3]; exact (of_mem_zip hq).1
    obtain ⟨u, u0, u1, hu⟩ := linspace_mem hx
    have b1 : r.min_strain ≤ q.1 := by rw [hu]; nlinarith
    have b2 : q.1 ≤ r.max_strain := by rw [hu]; nlinarith
    exact ⟨⟨(X _ b1 b2).1, (X _ b1 b2).2, Y _ a1 a2⟩, a3⟩
  · rw [hleft]
    exact ⟨(X _ le_rfl hle).1, (X _ le_rfl hle).2, Y _ le_rfl hmin⟩
  · rw [hright]
    exact ⟨(X _ hle le_rfl).1, (X _ hle le_rfl).2, Y _ hmin le_rfl⟩

/-- The plot is drawn whenever the function returns. -/
theorem C152_draws (fs : Solver) (p : SSIn) (r : SSOut) : (∃ d, stressStrainPlot fs p = .ok (r, d)) ↔ stressStrain fs p = .ok r := by
  constructor
  · rintro ⟨d, h⟩; exact (ssp_ok h).1
  · intro h; exact ⟨_, by unfold stressStrainPlot; rw [h]; rfl⟩

/-- The scale of the axes: no wider than needed by more than a factor of 2 in strain and 1.4 in stress. -/
theorem C152_scale (fs : Solver) (p : SSIn) (r : SSOut) (d : SSPlot) (h : stressStrainPlot fs p = .ok (r, d)) :
    (d.xlim.2 = 2 * |r.max_strain| ∨ d.xlim.2 = 2 * |r.min_strain|) ∧ (d.ylim.2 = 1.4 * |r.max_stress| ∨ d.ylim.2 = 1.4 * |r.min_stress|) := by
  obtain ⟨-, rfl⟩ := ssp_ok h
  unfold ssDraw
  simp only []
  constructor
  · rcases max_choice |r.max_strain| |r.min_strain| with hc | hc <;> rw [hc]
    · left; ring
    · right; ring
  · rcases max_choice |r.max_stress| |r.min_stress| with hc | hc <;> rw [hc]
    · left; ring
    · right; ring

/-- The hypotheses can be met: 500 MPa fully reversed. -/
example : ∃ r d, stressStrainPlot someFinder ⟨1200, 0.2, 210000, none, some 500, none, none, "tension"⟩ = .ok (r, d) ∧ 0 ≤ r.max_strain ∧
    r.min_strain ≤ r.max_strain ∧ r.max_stress = 500 := by
  have hm : Material 210000 1200 0.2 := ⟨by norm_num, by norm_num, by norm_num⟩
  obtain ⟨r, hr, h1, -, h3, h4⟩ := C93_stress_controlled someFinder someFinder_ok ⟨1200, 0.2, 210000, none, some 500, none, none, "tension"⟩
    hm 500 (by norm_num) rfl rfl rfl rfl
  obtain ⟨d, hd⟩ := (C152_draws _ _ r).2 hr
  have : 0 ≤ r.max_strain := by
    rw [h3]
    unfold loadingStrain
    positivity
  exact ⟨r, d, hd, this, by rw [h4]; linarith, h1⟩

end Reliability.Props.SSP

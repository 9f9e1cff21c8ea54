import Verif.Props.UniqueALT

/-! # C180, continued: the ALT fitters -/

namespace Reliability.Props.ALTGlue

open Reliability Reliability.ALT Reliability.ALTGlue Reliability.InputCheck Reliability.FitGlue Reliability.UniqueALT
open Reliability.Spec Reliability.Spec.InputCheck Reliability.Spec.ALTGlue

theorem mem_repeated {ι : Type} {k : ℕ} {l l' : List ι} (h : l'.Perm (List.replicate k l).flatten) {i : ι} (hi : i ∈ l') : i ∈ l := by
  rw [h.mem_iff, List.mem_flatten] at hi
  obtain ⟨m, hm, hi⟩ := hi
  rwa [(List.mem_replicate.1 hm).2] at hi

theorem mem_repeated' {ι : Type} {k : ℕ} (hk : 0 < k) {l l' : List ι} (h : l'.Perm (List.replicate k l).flatten) {i : ι} (hi : i ∈ l) :
    i ∈ l' :=
  h.mem_iff.2 (List.mem_flatten.2 ⟨l, List.mem_replicate.2 ⟨hk.ne', rfl⟩, hi⟩)

theorem prod_repeated {ι : Type} {k : ℕ} {l l' : List ι} (h : l'.Perm (List.replicate k l).flatten) (g : ι → ℝ) :
    (l'.map g).prod = (l.map g).prod ^ k := by
  rw [(h.map g).prod_eq, List.map_flatten, List.map_replicate, List.prod_flatten, List.map_replicate, List.prod_replicate]

/-- The likelihood of the repeated units is the `k`-th power. -/
theorem altLikelihood_repeated {σ : Type} {lifeAt : LifeStress → σ → ℝ} {m : LifeStress} {d : LifeDist} {F F' C C' : List (ℝ × σ)} {k : ℕ}
    (hF : F'.Perm (List.replicate k F).flatten) (hC : C'.Perm (List.replicate k C).flatten) :
    altLikelihood lifeAt m d F' C' = altLikelihood lifeAt m d F C ^ k := by
  unfold altLikelihood
  rw [prod_repeated hF, prod_repeated hC, mul_pow]

theorem alt_pos {σ : Type} {lifeAt : LifeStress → σ → ℝ} {m : LifeStress} {d : LifeDist} (hd : d.Valid) (hno : dname d ≠ "Normal")
    {F C : List (ℝ × σ)} (hF : ∀ i ∈ F, 0 < i.1 ∧ 0 < lifeAt m i.2) (hC : ∀ i ∈ C, 0 < i.1 ∧ 0 < lifeAt m i.2) :
    0 < altLikelihood lifeAt m d F C := by
  rw [alt_std hd hno hF hC]
  exact mul_pos (UniqueML.prod_map_pos fun i hi => mul_pos (mul_pos (slopeD_pos hd) ((UniqueML.slc_stdPdf _).pos _)) (one_div_pos.2 (hF i hi).1))
    (UniqueML.prod_map_pos fun i _ => (UniqueML.lc_stdSf _).pos _)

theorem altMax_repeated {σ : Type} {lifeAt : LifeStress → σ → ℝ} {m : LifeStress} {d : LifeDist} {F F' C C' : List (ℝ × σ)} {k : ℕ}
    (hk : 0 < k) (hF : F'.Perm (List.replicate k F).flatten) (hC : C'.Perm (List.replicate k C).flatten)
    (hpos : 0 < altLikelihood lifeAt m d F C) (h : ALTMax lifeAt m d F' C') : ALTMax lifeAt m d F C := by
  intro m₁ d₁ h1 h2 h3 h4
  have := h m₁ d₁ h1 h2 h3 h4
  rw [altLikelihood_repeated hF hC, altLikelihood_repeated hF hC] at this
  exact le_of_pow_le_pow_left₀ hk.ne' hpos.le this

/-- **C180 (one stress).** When every failure and every right censored item, with its stress, is entered `k` times instead of once,
in any order, an exact run of a Weibull, Lognormal or Exponential class reports the same estimates. -/
theorem C180_single {c : Cls ℝ} (hc : c ∈ singleClasses) (hno : c.dist ≠ "Normal") {x x' : ALTArgs} {res res' : ALTRes ℝ}
    (h : ExactALT1 c x res) (h' : ExactALT1 c x' res') {F C F' C' : List (ℝ × ℝ)} (hu : UsedSingle x F C) (hu' : UsedSingle x' F' C')
    {k : ℕ} (hk : 0 < k) (hF : F'.Perm (List.replicate k F).flatten) (hC : C'.Perm (List.replicate k C).flatten)
    (pF : ∀ i ∈ F, 0 < i.2) (pC : ∀ i ∈ C, 0 < i.2)
    {m m' : LifeStress} {d d' : LifeDist} (hmd : altModel c.dist c.model (estimates res) = some (m, d))
    (hmd' : altModel c.dist c.model (estimates res') = some (m', d')) (hm : m.Valid) (hd : d.Valid) (hm' : m'.Valid) (hd' : d'.Valid) :
    estimates res' = estimates res := by
  obtain ⟨a1, a2, ⟨i, hi, j, hj, hij⟩, a4⟩ := run1 hc h hu hmd hm hd pF pC
  obtain ⟨-, -, -, b4⟩ := run1 hc h' hu' hmd' hm' hd' (fun i hi => pF i (mem_repeated hF hi)) (fun i hi => pC i (mem_repeated hC hi))
  obtain ⟨k1, k2, k3⟩ := (altModel_iff ..).1 hmd
  obtain ⟨k1', k2', k3'⟩ := (altModel_iff ..).1 hmd'
  rw [k2] at hno
  have hpos : ∀ m : LifeStress, m.Valid → ∀ s : ℝ, 0 < s → 0 < lifeAt1 m s := fun m hm s hs => life_pos hm hs one_pos
  have c4 := altMax_repeated hk hF hC (alt_pos hd' (by rw [← k2', k2]; exact hno) (fun i hi => ⟨(a1 i hi).1, hpos m' hm' _ (a1 i hi).2⟩)
    (fun i hi => ⟨(a2 i hi).1, hpos m' hm' _ (a2 i hi).2⟩)) b4
  obtain ⟨r1, r2⟩ := same_life (lifeAt := lifeAt1) (pos := fun s : ℝ => 0 < s) hpos
    (fun w w' m m' hw hn hv hv' s hs => (mix_law hw hn hv hv').2.2 s 1 hs one_pos) hm hm' hd hd' (by rw [← k1, k1'])
    (by rw [← k2, k2']) hno a1 a2 (List.ne_nil_of_mem hi) a4 c4
  have e : m = m' := identify1 hm hm' (by rw [← k1, k1']) (by rw [← k1]; exact mname_single hc) (pF i hi) (pF j hj) hij (r2 i hi) (r2 j hj)
  rw [k3, k3', e, r1]

/-- **C180 (two stresses).** The same with two stresses, whose pairs are not all on one line on the scale on which the model is
linear. -/
theorem C180_dual {c : Cls (ℝ × ℝ)} (hc : c ∈ dualClasses) (hno : c.dist ≠ "Normal") {x x' : ALTArgs} {res res' : ALTRes (ℝ × ℝ)}
    (h : ExactALT2 c x res) (h' : ExactALT2 c x' res') {F C F' C' : List (ℝ × ℝ × ℝ)} (hu : UsedDual x F C) (hu' : UsedDual x' F' C')
    {k : ℕ} (hk : 0 < k) (hF : F'.Perm (List.replicate k F).flatten) (hC : C'.Perm (List.replicate k C).flatten)
    (pF : ∀ i ∈ F, 0 < i.2.1 ∧ 0 < i.2.2) (pC : ∀ i ∈ C, 0 < i.2.1 ∧ 0 < i.2.2)
    (hnc : ¬ Collinear2 (F.map fun i => stressScale c.model i.2))
    {m m' : LifeStress} {d d' : LifeDist} (hmd : altModel c.dist c.model (estimates res) = some (m, d))
    (hmd' : altModel c.dist c.model (estimates res') = some (m', d')) (hm : m.Valid) (hd : d.Valid) (hm' : m'.Valid) (hd' : d'.Valid) :
    estimates res' = estimates res := by
  obtain ⟨a1, a2, a4⟩ := run2 hc h hu hmd hm hd pF pC
  obtain ⟨-, -, b4⟩ := run2 hc h' hu' hmd' hm' hd' (fun i hi => pF i (mem_repeated hF hi)) (fun i hi => pC i (mem_repeated hC hi))
  obtain ⟨k1, k2, k3⟩ := (altModel_iff ..).1 hmd
  obtain ⟨k1', k2', k3'⟩ := (altModel_iff ..).1 hmd'
  rw [k2] at hno
  have hpos : ∀ m : LifeStress, m.Valid → ∀ s : ℝ × ℝ, 0 < s.1 ∧ 0 < s.2 → 0 < lifeAt2 m s := fun m hm s hs => life_pos hm hs.1 hs.2
  have c4 := altMax_repeated hk hF hC (alt_pos hd' (by rw [← k2', k2]; exact hno) (fun i hi => ⟨(a1 i hi).1, hpos m' hm' _ (a1 i hi).2⟩)
    (fun i hi => ⟨(a2 i hi).1, hpos m' hm' _ (a2 i hi).2⟩)) b4
  have hne : F ≠ [] := by
    rintro rfl
    exact hnc ⟨1, 0, 0, by simp, by simp⟩
  obtain ⟨r1, r2⟩ := same_life (lifeAt := lifeAt2) (pos := fun s : ℝ × ℝ => 0 < s.1 ∧ 0 < s.2) hpos
    (fun w w' m m' hw hn hv hv' s hs => (mix_law hw hn hv hv').2.2 s.1 s.2 hs.1 hs.2) hm hm' hd hd' (by rw [← k1, k1'])
    (by rw [← k2, k2']) hno a1 a2 hne a4 c4
  have e : m = m' := by
    refine identify2 (S := F.map Prod.snd) hm hm' (by rw [← k1, k1']) (by rw [← k1]; exact mname_dual hc) ?_ ?_ ?_
    · intro s hs
      obtain ⟨i, hi, rfl⟩ := List.mem_map.1 hs
      exact pF i hi
    · rw [← k1, List.map_map]
      exact hnc
    · intro s hs
      obtain ⟨i, hi, rfl⟩ := List.mem_map.1 hs
      exact r2 i hi
  rw [k3, k3', e, r1]

/-- Two units entered twice each. -/
example : [((10 : ℝ), (300 : ℝ)), (20, 350), (10, 300), (20, 350)].Perm (List.replicate 2 [((10 : ℝ), (300 : ℝ)), (20, 350)]).flatten :=
  .refl _

end Reliability.Props.ALTGlue

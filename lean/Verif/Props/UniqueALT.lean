import Verif.Lemmas.ExistALT
import Verif.Props.MaxLikelihoodALT
import Verif.Props.ALTGlueExamples

/-! # C165, C166: the maximum likelihood fit of an ALT model is unique, and follows the units -/

namespace Reliability.Props.ALTGlue

open Reliability Reliability.ALT Reliability.ALTGlue Reliability.InputCheck Reliability.FitGlue Reliability.UniqueALT
open Reliability.FunctionCI (Jac zOf Two)
open Reliability.Spec Reliability.Spec.InputCheck Reliability.Spec.ALTGlue

theorem usedSingle_unique {x : ALTArgs} {F C F' C' : List (ℝ × ℝ)} (h : UsedSingle x F C) (h' : UsedSingle x F' C') : F = F' ∧ C = C' := by
  obtain ⟨u1, u2, u3⟩ := h
  obtain ⟨v1, v2, v3⟩ := h'
  rw [u1] at v1; rw [u2] at v2
  injection v1 with v1; injection v2 with v2
  refine ⟨by rw [← zip_maps F, ← zip_maps F', v1, v2], ?_⟩
  rcases u3 with ⟨a1, a2⟩ | ⟨a1, a2⟩ <;> rcases v3 with ⟨b1, b2⟩ | ⟨b1, b2⟩
  · rw [a2, b2]
  · rw [a1] at b1; cases b1
  · rw [a1] at b1; cases b1
  · rw [a1] at b1; rw [a2] at b2
    injection b1 with b1; injection b2 with b2
    rw [← zip_maps C, ← zip_maps C', b1, b2]

theorem triple_ext : ∀ {F F' : List (ℝ × ℝ × ℝ)}, F.map Prod.fst = F'.map Prod.fst → (F.map fun i => i.2.1) = F'.map (fun i => i.2.1) →
    (F.map fun i => i.2.2) = F'.map (fun i => i.2.2) → F = F'
  | [], [], _, _, _ => rfl
  | [], _ :: _, h, _, _ => by simp at h
  | _ :: _, [], h, _, _ => by simp at h
  | (a, b, c) :: F, (a', b', c') :: F', h1, h2, h3 => by
    simp only [List.map_cons, List.cons.injEq] at h1 h2 h3
    rw [triple_ext h1.2 h2.2 h3.2, h1.1, h2.1, h3.1]

theorem usedDual_unique {x : ALTArgs} {F C F' C' : List (ℝ × ℝ × ℝ)} (h : UsedDual x F C) (h' : UsedDual x F' C') : F = F' ∧ C = C' := by
  obtain ⟨u1, u2, u4, u3⟩ := h
  obtain ⟨v1, v2, v4, v3⟩ := h'
  rw [u1] at v1; rw [u2] at v2; rw [u4] at v4
  injection v1 with v1; injection v2 with v2; injection v4 with v4
  refine ⟨triple_ext v1 v2 v4, ?_⟩
  rcases u3 with ⟨a1, a2⟩ | ⟨a1, a2, a3⟩ <;> rcases v3 with ⟨b1, b2⟩ | ⟨b1, b2, b3⟩
  · rw [a2, b2]
  · rw [a1] at b1; cases b1
  · rw [a1] at b1; cases b1
  · rw [a1] at b1; rw [a2] at b2; rw [a3] at b3
    injection b1 with b1; injection b2 with b2; injection b3 with b3
    exact triple_ext b1 b2 b3

theorem mname_single {c : Cls ℝ} (hc : c ∈ singleClasses) : c.model ∈ ["Exponential", "Eyring", "Power"] := (models_single hc).1
theorem mname_dual {c : Cls (ℝ × ℝ)} (hc : c ∈ dualClasses) : c.model ∈ ["Dual_Exponential", "Power_Exponential", "Dual_Power"] :=
  (models_dual hc).1

/-- What an exact run says, one stress. -/
theorem run1 {c : Cls ℝ} (hc : c ∈ singleClasses) {x : ALTArgs} {res : ALTRes ℝ} (h : ExactALT1 c x res) {F C : List (ℝ × ℝ)}
    (hu : UsedSingle x F C) {m : LifeStress} {d : LifeDist} (hmd : altModel c.dist c.model (estimates res) = some (m, d))
    (hm : m.Valid) (hd : d.Valid) (hF : ∀ i ∈ F, 0 < i.2) (hC : ∀ i ∈ C, 0 < i.2) :
    (∀ i ∈ F, 0 < i.1 ∧ 0 < i.2) ∧ (∀ i ∈ C, 0 < i.1 ∧ 0 < i.2) ∧ (∃ i ∈ F, ∃ j ∈ F, i.2 ≠ j.2) ∧ ALTMax lifeAt1 m d F C := by
  obtain ⟨hn, argsort, J, num, noise, minimize, hE, h⟩ := h
  obtain ⟨F₀, A, B, C₀, D, E, m', d', q, h1, h2⟩ := most_likely (lawful_single c hc) singleLaw hE (single_not_dual hc _) h hn
  obtain ⟨rfl, rfl⟩ := usedSingle_unique (used_single q) hu
  rw [show res.rows.map Row.point = estimates res from rfl, hmd] at h1
  cases h1
  refine ⟨fun i hi => ⟨q.positive.1 _ (List.of_mem_zip hi).1, hF i hi⟩, fun i hi => ⟨q.positive.2 _ (List.of_mem_zip hi).1, hC i hi⟩, ?_,
    fun m₁ d₁ e1 e2 hm₁ hd₁ => ?_⟩
  · obtain ⟨s, hs, t, ht, hst⟩ := Finset.one_lt_card.1 q.two_stresses.1
    have hl : A.length = F₀.length := q.one_stress_each.1
    have : (F₀.zip A).map Prod.snd = A := zip_snd _ _ hl
    rw [List.mem_toFinset, ← this, List.mem_map] at hs ht
    obtain ⟨i, hi, rfl⟩ := hs
    obtain ⟨j, hj, rfl⟩ := ht
    exact ⟨i, hi, j, hj, hst⟩
  · obtain ⟨k1, k2, k3⟩ := (altModel_iff ..).1 hmd
    exact h2 hm hd hF hC (mpars m₁ ++ dpars d₁) m₁ d₁ ((altModel_iff ..).2 ⟨by rw [k1, e1], by rw [k2, e2], rfl⟩) hm₁ hd₁

/-- What an exact run says, two stresses. -/
theorem run2 {c : Cls (ℝ × ℝ)} (hc : c ∈ dualClasses) {x : ALTArgs} {res : ALTRes (ℝ × ℝ)} (h : ExactALT2 c x res)
    {F C : List (ℝ × ℝ × ℝ)} (hu : UsedDual x F C) {m : LifeStress} {d : LifeDist}
    (hmd : altModel c.dist c.model (estimates res) = some (m, d)) (hm : m.Valid) (hd : d.Valid)
    (hF : ∀ i ∈ F, 0 < i.2.1 ∧ 0 < i.2.2) (hC : ∀ i ∈ C, 0 < i.2.1 ∧ 0 < i.2.2) :
    (∀ i ∈ F, 0 < i.1 ∧ 0 < i.2.1 ∧ 0 < i.2.2) ∧ (∀ i ∈ C, 0 < i.1 ∧ 0 < i.2.1 ∧ 0 < i.2.2) ∧ ALTMax lifeAt2 m d F C := by
  obtain ⟨hn, κ, inst, key, stress, argsort, J, num, noise, minimize, hkey, hE, h⟩ := h
  obtain ⟨F₀, A, B, C₀, D, E, m', d', q, h1, h2⟩ := most_likely (lawful_dual c hc) (dualLaw hkey) hE (dual_dual hc _) h hn
  obtain ⟨rfl, rfl⟩ := usedDual_unique (used_dual hkey q) hu
  rw [show res.rows.map Row.point = estimates res from rfl, hmd] at h1
  cases h1
  refine ⟨fun i hi => ⟨q.positive.1 _ (List.of_mem_zip hi).1, hF i hi⟩, fun i hi => ⟨q.positive.2 _ (List.of_mem_zip hi).1, hC i hi⟩,
    fun m₁ d₁ e1 e2 hm₁ hd₁ => ?_⟩
  obtain ⟨k1, k2, k3⟩ := (altModel_iff ..).1 hmd
  exact h2 hm hd hF hC (mpars m₁ ++ dpars d₁) m₁ d₁ ((altModel_iff ..).2 ⟨by rw [k1, e1], by rw [k2, e2], rfl⟩) hm₁ hd₁

/-- **C166 (one stress).** Two exact runs of a Weibull, Lognormal or Exponential class on the same units, in any order and with the
times multiplied by `k` and the stresses by `k₁`, report the same model in the other units. -/
theorem C166_single {c : Cls ℝ} (hc : c ∈ singleClasses) (hno : c.dist ≠ "Normal") {x x' : ALTArgs} {res res' : ALTRes ℝ}
    (h : ExactALT1 c x res) (h' : ExactALT1 c x' res') {F C F' C' : List (ℝ × ℝ)} (hu : UsedSingle x F C) (hu' : UsedSingle x' F' C')
    {k k₁ : ℝ} (hk : 0 < k) (hk₁ : 0 < k₁) (hF : F'.Perm (F.map fun i => (k * i.1, k₁ * i.2)))
    (hC : C'.Perm (C.map fun i => (k * i.1, k₁ * i.2))) (pF : ∀ i ∈ F, 0 < i.2) (pC : ∀ i ∈ C, 0 < i.2)
    {m m' : LifeStress} {d d' : LifeDist} (hmd : altModel c.dist c.model (estimates res) = some (m, d))
    (hmd' : altModel c.dist c.model (estimates res') = some (m', d')) (hm : m.Valid) (hd : d.Valid) (hm' : m'.Valid) (hd' : d'.Valid) :
    m' = convert k k₁ 1 m ∧ d' = d := by
  obtain ⟨a1, a2, ⟨i, hi, j, hj, hij⟩, a4⟩ := run1 hc h hu hmd hm hd pF pC
  have tr : ∀ {G G' : List (ℝ × ℝ)}, G'.Perm (G.map fun i => (k * i.1, k₁ * i.2)) → (∀ i ∈ G, 0 < i.2) → ∀ i ∈ G', 0 < i.2 := by
    intro G G' hG hp i hi
    obtain ⟨j, hj, rfl⟩ := List.mem_map.1 (hG.subset hi)
    exact mul_pos hk₁ (hp j hj)
  obtain ⟨b1, b2, -, b4⟩ := run1 hc h' hu' hmd' hm' hd' (tr hF pF) (tr hC pC)
  obtain ⟨k1, k2, -⟩ := (altModel_iff ..).1 hmd
  obtain ⟨k1', k2', -⟩ := (altModel_iff ..).1 hmd'
  rw [k2] at hno
  have hpos : ∀ m : LifeStress, m.Valid → ∀ s : ℝ, 0 < s → 0 < lifeAt1 m s := fun m hm s hs => life_pos hm hs one_pos
  have hg : ∀ m : LifeStress, m.Valid → ∀ s : ℝ, 0 < s → lifeAt1 (convert k k₁ 1 m) (k₁ * s) = k * lifeAt1 m s := fun m hm s hs => by
    have := (convert_law hk hk₁ one_pos hm).2.2 s 1 hs one_pos
    rwa [one_mul] at this
  obtain ⟨e1, e2, -⟩ := convert_law hk hk₁ one_pos hm
  have c4 := (ALTMax.convert (pos := fun s => 0 < s) (g := (k₁ * ·)) hk hk₁ one_pos hpos hg hm hd hno a1 a2 a4).perm hF hC
  have hne : F' ≠ [] := by
    rintro rfl
    have := (hF.symm.subset (List.mem_map_of_mem hi))
    simp at this
  obtain ⟨r1, r2⟩ := same_life (lifeAt := lifeAt1) (pos := fun s : ℝ => 0 < s) hpos
    (fun w w' m m' hw hn hv hv' s hs => (mix_law hw hn hv hv').2.2 s 1 hs one_pos) e2 hm' hd hd' (by rw [e1, ← k1, k1'])
    (by rw [← k2, k2']) hno b1 b2 hne c4 b4
  refine ⟨(identify1 e2 hm' (by rw [e1, ← k1, k1']) (by rw [e1, ← k1]; exact mname_single hc) (mul_pos hk₁ (pF i hi))
    (mul_pos hk₁ (pF j hj)) (fun e => hij (mul_left_cancel₀ hk₁.ne' e)) ?_ ?_).symm, r1.symm⟩
  · exact r2 _ (hF.symm.subset (List.mem_map_of_mem hi))
  · exact r2 _ (hF.symm.subset (List.mem_map_of_mem hj))

/-- **C165 (one stress).** The estimates of a Weibull, Lognormal or Exponential class depend only on the units: two exact runs on
the same units in any order report the same estimates. -/
theorem C165_single {c : Cls ℝ} (hc : c ∈ singleClasses) (hno : c.dist ≠ "Normal") {x x' : ALTArgs} {res res' : ALTRes ℝ}
    (h : ExactALT1 c x res) (h' : ExactALT1 c x' res') {F C F' C' : List (ℝ × ℝ)} (hu : UsedSingle x F C) (hu' : UsedSingle x' F' C')
    (hF : F'.Perm F) (hC : C'.Perm C) (pF : ∀ i ∈ F, 0 < i.2) (pC : ∀ i ∈ C, 0 < i.2)
    {m m' : LifeStress} {d d' : LifeDist} (hmd : altModel c.dist c.model (estimates res) = some (m, d))
    (hmd' : altModel c.dist c.model (estimates res') = some (m', d')) (hm : m.Valid) (hd : d.Valid) (hm' : m'.Valid) (hd' : d'.Valid) :
    estimates res' = estimates res := by
  have hid : ∀ l : List (ℝ × ℝ), (l.map fun i => ((1 : ℝ) * i.1, (1 : ℝ) * i.2)) = l := fun l => by simp
  obtain ⟨r1, r2⟩ := C166_single hc hno h h' hu hu' one_pos one_pos (by rwa [hid]) (by rwa [hid]) pF pC hmd hmd' hm hd hm' hd'
  rw [convert_one] at r1
  rw [((altModel_iff ..).1 hmd).2.2, ((altModel_iff ..).1 hmd').2.2, r1, r2]

/-- **C166 (two stresses).** The same with two stresses, whose pairs are not all on one line on the scale on which the model is
linear. -/
theorem C166_dual {c : Cls (ℝ × ℝ)} (hc : c ∈ dualClasses) (hno : c.dist ≠ "Normal") {x x' : ALTArgs} {res res' : ALTRes (ℝ × ℝ)}
    (h : ExactALT2 c x res) (h' : ExactALT2 c x' res') {F C F' C' : List (ℝ × ℝ × ℝ)} (hu : UsedDual x F C) (hu' : UsedDual x' F' C')
    {k k₁ k₂ : ℝ} (hk : 0 < k) (hk₁ : 0 < k₁) (hk₂ : 0 < k₂) (hF : F'.Perm (F.map fun i => (k * i.1, k₁ * i.2.1, k₂ * i.2.2)))
    (hC : C'.Perm (C.map fun i => (k * i.1, k₁ * i.2.1, k₂ * i.2.2))) (pF : ∀ i ∈ F, 0 < i.2.1 ∧ 0 < i.2.2)
    (pC : ∀ i ∈ C, 0 < i.2.1 ∧ 0 < i.2.2) (hnc : ¬ Collinear2 (F'.map fun i => stressScale c.model i.2))
    {m m' : LifeStress} {d d' : LifeDist} (hmd : altModel c.dist c.model (estimates res) = some (m, d))
    (hmd' : altModel c.dist c.model (estimates res') = some (m', d')) (hm : m.Valid) (hd : d.Valid) (hm' : m'.Valid) (hd' : d'.Valid) :
    m' = convert k k₁ k₂ m ∧ d' = d := by
  obtain ⟨a1, a2, a4⟩ := run2 hc h hu hmd hm hd pF pC
  have tr : ∀ {G G' : List (ℝ × ℝ × ℝ)}, G'.Perm (G.map fun i => (k * i.1, k₁ * i.2.1, k₂ * i.2.2)) →
      (∀ i ∈ G, 0 < i.2.1 ∧ 0 < i.2.2) → ∀ i ∈ G', 0 < i.2.1 ∧ 0 < i.2.2 := by
    intro G G' hG hp i hi
    obtain ⟨j, hj, rfl⟩ := List.mem_map.1 (hG.subset hi)
    exact ⟨mul_pos hk₁ (hp j hj).1, mul_pos hk₂ (hp j hj).2⟩
  obtain ⟨b1, b2, b4⟩ := run2 hc h' hu' hmd' hm' hd' (tr hF pF) (tr hC pC)
  obtain ⟨k1, k2, -⟩ := (altModel_iff ..).1 hmd
  obtain ⟨k1', k2', -⟩ := (altModel_iff ..).1 hmd'
  rw [k2] at hno
  have hpos : ∀ m : LifeStress, m.Valid → ∀ s : ℝ × ℝ, 0 < s.1 ∧ 0 < s.2 → 0 < lifeAt2 m s := fun m hm s hs => life_pos hm hs.1 hs.2
  have hg : ∀ m : LifeStress, m.Valid → ∀ s : ℝ × ℝ, 0 < s.1 ∧ 0 < s.2 →
      lifeAt2 (convert k k₁ k₂ m) (k₁ * s.1, k₂ * s.2) = k * lifeAt2 m s := fun m hm s hs =>
    (convert_law hk hk₁ hk₂ hm).2.2 s.1 s.2 hs.1 hs.2
  obtain ⟨e1, e2, -⟩ := convert_law hk hk₁ hk₂ hm
  have c4 := (ALTMax.convert (pos := fun s : ℝ × ℝ => 0 < s.1 ∧ 0 < s.2) (g := fun s => (k₁ * s.1, k₂ * s.2)) hk hk₁ hk₂ hpos hg hm hd hno
    a1 a2 a4).perm hF hC
  have hne : F' ≠ [] := by
    rintro rfl
    exact hnc ⟨1, 0, 0, by simp, by simp⟩
  obtain ⟨r1, r2⟩ := same_life (lifeAt := lifeAt2) (pos := fun s : ℝ × ℝ => 0 < s.1 ∧ 0 < s.2) hpos
    (fun w w' m m' hw hn hv hv' s hs => (mix_law hw hn hv hv').2.2 s.1 s.2 hs.1 hs.2) e2 hm' hd hd' (by rw [e1, ← k1, k1'])
    (by rw [← k2, k2']) hno b1 b2 hne c4 b4
  refine ⟨(identify2 (S := F'.map Prod.snd) e2 hm' (by rw [e1, ← k1, k1']) (by rw [e1, ← k1]; exact mname_dual hc) ?_ ?_ ?_).symm, r1.symm⟩
  · intro s hs
    obtain ⟨i, hi, rfl⟩ := List.mem_map.1 hs
    exact tr hF pF i hi
  · rw [e1, ← k1, List.map_map]
    exact hnc
  · intro s hs
    obtain ⟨i, hi, rfl⟩ := List.mem_map.1 hs
    exact r2 i hi

/-- **C165 (two stresses).** -/
theorem C165_dual {c : Cls (ℝ × ℝ)} (hc : c ∈ dualClasses) (hno : c.dist ≠ "Normal") {x x' : ALTArgs} {res res' : ALTRes (ℝ × ℝ)}
    (h : ExactALT2 c x res) (h' : ExactALT2 c x' res') {F C F' C' : List (ℝ × ℝ × ℝ)} (hu : UsedDual x F C) (hu' : UsedDual x' F' C')
    (hF : F'.Perm F) (hC : C'.Perm C) (pF : ∀ i ∈ F, 0 < i.2.1 ∧ 0 < i.2.2) (pC : ∀ i ∈ C, 0 < i.2.1 ∧ 0 < i.2.2)
    (hnc : ¬ Collinear2 (F'.map fun i => stressScale c.model i.2))
    {m m' : LifeStress} {d d' : LifeDist} (hmd : altModel c.dist c.model (estimates res) = some (m, d))
    (hmd' : altModel c.dist c.model (estimates res') = some (m', d')) (hm : m.Valid) (hd : d.Valid) (hm' : m'.Valid) (hd' : d'.Valid) :
    estimates res' = estimates res := by
  have hid : ∀ l : List (ℝ × ℝ × ℝ), (l.map fun i => ((1 : ℝ) * i.1, (1 : ℝ) * i.2.1, (1 : ℝ) * i.2.2)) = l := fun l => by simp
  obtain ⟨r1, r2⟩ := C166_dual hc hno h h' hu hu' one_pos one_pos one_pos (by rwa [hid]) (by rwa [hid]) pF pC hnc hmd hmd' hm hd hm' hd'
  rw [convert_one] at r1
  rw [((altModel_iff ..).1 hmd).2.2, ((altModel_iff ..).1 hmd').2.2, r1, r2]

/-- **C165 finding.** When all the pairs of stresses are on one line on that scale (for example only two different pairs, which the
checks of the inputs accept), there are other estimates that make the data exactly as likely, so the reported ones are arbitrary. -/
theorem C165_dual_collinear_finding {c : Cls (ℝ × ℝ)} (hc : c ∈ dualClasses) {F C : List (ℝ × ℝ × ℝ)}
    (pF : ∀ i ∈ F, 0 < i.2.1 ∧ 0 < i.2.2) (pC : ∀ i ∈ C, 0 < i.2.1 ∧ 0 < i.2.2)
    (hcol : Collinear2 ((F ++ C).map fun i => stressScale c.model i.2)) (ps : List ℝ) (m : LifeStress) (d : LifeDist)
    (hmd : altModel c.dist c.model ps = some (m, d)) (hm : m.Valid) :
    ∃ ps' m', ps' ≠ ps ∧ altModel c.dist c.model ps' = some (m', d) ∧ m'.Valid ∧
      altLikelihood lifeAt2 m' d F C = altLikelihood lifeAt2 m d F C := by
  obtain ⟨k1, k2, k3⟩ := (altModel_iff ..).1 hmd
  obtain ⟨α, β, γ, hne, hl⟩ := hcol
  have hk : mname m ∈ ["Dual_Exponential", "Power_Exponential", "Dual_Power"] := by rw [← k1]; exact mname_dual hc
  obtain ⟨s1, s2, s3⟩ := shift_law hm hk α β γ
  have hlife : ∀ i ∈ F ++ C, (0 < i.2.1 ∧ 0 < i.2.2) → lifeAt2 (shift α β γ m) i.2 = lifeAt2 m i.2 := by
    intro i hi hp
    refine Real.log_injOn_pos (life_pos s2 hp.1 hp.2) (life_pos hm hp.1 hp.2) ?_
    show Real.log ((shift α β γ m).life i.2.1 i.2.2) = Real.log (m.life i.2.1 i.2.2)
    rw [s3 i.2 hp.1 hp.2, ← k1, hl _ (List.mem_map_of_mem hi), add_zero]
  refine ⟨mpars (shift α β γ m) ++ dpars d, shift α β γ m, fun e => ?_, (altModel_iff ..).2 ⟨by rw [s1, k1], k2, rfl⟩, s2, ?_⟩
  · rw [k3] at e
    have e1 := List.append_cancel_right e
    refine hne (shift_inj hm hk ?_)
    cases m <;> simp [mpars, shift] at e1 ⊢ <;> exact e1
  · unfold altLikelihood
    congr 2
    · exact List.map_congr_left fun i hi => by rw [hlife i (by simp [hi]) (pF i hi)]
    · exact List.map_congr_left fun i hi => by rw [hlife i (by simp [hi]) (pC i hi)]

end Reliability.Props.ALTGlue

import Verif.Spec.UnitsALT
import Verif.Props.ExistALT
import Verif.Props.FitEverythingALTFull

/-! # C171: ALT fits in other units of time and stress -/

namespace Reliability.Props.UnitsALT

open Reliability Reliability.ALT Reliability.ALTGlue Reliability.InputCheck Reliability.FitGlue Reliability.UniqueALT
open Reliability.FunctionCI (Jac zOf Two)
open Reliability.Spec Reliability.Spec.InputCheck Reliability.Spec.ALTGlue
open Reliability.Props.ALTGlue

/-- A Normal distribution keeps its shape when sigma is multiplied too. -/
noncomputable def convertD (k : ℝ) : LifeDist → LifeDist
  | .normal s => .normal (k * s)
  | d => d

theorem convertD_law {k : ℝ} (hk : 0 < k) {d : LifeDist} (hd : d.Valid) : dname (convertD k d) = dname d ∧ (convertD k d).Valid := by
  refine ⟨by cases d <;> rfl, ?_⟩
  cases d <;> simp only [convertD, LifeDist.Valid] at * <;> positivity

theorem convertD_inv {k : ℝ} (hk : 0 < k) (d : LifeDist) : convertD k (convertD k⁻¹ d) = d := by
  cases d <;> simp [convertD, hk.ne']

theorem convert_inv' {k k₁ k₂ : ℝ} (hk : 0 < k) (hk₁ : 0 < k₁) (hk₂ : 0 < k₂) (m : LifeStress) :
    convert k⁻¹ k₁⁻¹ k₂⁻¹ (convert k k₁ k₂ m) = m := by
  have := convert_inv (inv_pos.2 hk) (inv_pos.2 hk₁) (inv_pos.2 hk₂) m
  rwa [inv_inv, inv_inv, inv_inv] at this

section
variable {σ : Type} {lifeAt : LifeStress → σ → ℝ} {pos : σ → Prop} {k k₁ k₂ : ℝ} {g : σ → σ}

theorem normal_scale (hk : 0 < k) (mu s t : ℝ) :
    (Distributions.normal (k * mu) (k * s)).sp.pdf (k * t) = 1 / k * (Distributions.normal mu s).sp.pdf t ∧
      (Distributions.normal (k * mu) (k * s)).sp.sf (k * t) = (Distributions.normal mu s).sp.sf t := by
  have e : (k * t - k * mu) / (k * s) = (t - mu) / s := by rw [← mul_sub, mul_div_mul_left _ _ hk.ne']
  simp only [Distributions.normal, Distributions.ofScipy, Distributions.locScale, e]
  refine ⟨?_, trivial⟩
  rw [mul_comm k s, ← div_div, one_div, div_eq_inv_mul _ k]

theorem lik_convert_all (hk : 0 < k) (hk₁ : 0 < k₁) (hk₂ : 0 < k₂) (hpos : ∀ m : LifeStress, m.Valid → ∀ s, pos s → 0 < lifeAt m s)
    (hg : ∀ m : LifeStress, m.Valid → ∀ s, pos s → lifeAt (convert k k₁ k₂ m) (g s) = k * lifeAt m s)
    {m : LifeStress} {d : LifeDist} (hm : m.Valid) (hd : d.Valid) {F C : List (ℝ × σ)}
    (hF : ∀ i ∈ F, 0 < i.1 ∧ pos i.2) (hC : ∀ i ∈ C, 0 < i.1 ∧ pos i.2) :
    altLikelihood lifeAt (convert k k₁ k₂ m) (convertD k d) (F.map fun i => (k * i.1, g i.2)) (C.map fun i => (k * i.1, g i.2)) =
      (1 / k) ^ F.length * altLikelihood lifeAt m d F C := by
  by_cases hno : dname d = "Normal"
  · cases d <;> first | (simp [dname] at hno; done) | skip
    rename_i s
    unfold altLikelihood
    rw [List.map_map, List.map_map, ← mul_assoc]
    congr 1
    · clear hC
      induction F with
      | nil => simp
      | cons i F ih =>
        rw [List.map_cons, List.prod_cons, ih fun j hj => hF j (List.mem_cons_of_mem _ hj), List.map_cons, List.prod_cons, List.length_cons,
          pow_succ]
        simp only [Function.comp, convertD, LifeDist.dist]
        rw [hg m hm _ (hF i List.mem_cons_self).2, (normal_scale hk _ _ _).1]
        ring
    · refine congrArg List.prod (List.map_congr_left fun i hi => ?_)
      simp only [Function.comp, convertD, LifeDist.dist]
      rw [hg m hm _ (hC i hi).2, (normal_scale hk _ _ _).2]
  · have : convertD k d = d := by cases d <;> first | rfl | exact absurd rfl hno
    rw [this]
    exact lik_convert hk hk₁ hk₂ hpos hg hm hd hno hF hC

/-- The maxima of the likelihood in two systems of units. -/
theorem max_convert (hk : 0 < k) (hk₁ : 0 < k₁) (hk₂ : 0 < k₂) (hpos : ∀ m : LifeStress, m.Valid → ∀ s, pos s → 0 < lifeAt m s)
    (hg : ∀ m : LifeStress, m.Valid → ∀ s, pos s → lifeAt (convert k k₁ k₂ m) (g s) = k * lifeAt m s)
    {m m' : LifeStress} {d d' : LifeDist} (hm : m.Valid) (hd : d.Valid) (hm' : m'.Valid) (hd' : d'.Valid) (en : mname m' = mname m)
    (ed : dname d' = dname d) {F C F' C' : List (ℝ × σ)} (hF : ∀ i ∈ F, 0 < i.1 ∧ pos i.2) (hC : ∀ i ∈ C, 0 < i.1 ∧ pos i.2)
    (pF : F'.Perm (F.map fun i => (k * i.1, g i.2))) (pC : C'.Perm (C.map fun i => (k * i.1, g i.2)))
    (h : ALTMax lifeAt m d F C) (h' : ALTMax lifeAt m' d' F' C') :
    altLikelihood lifeAt m' d' F' C' = (1 / k) ^ F.length * altLikelihood lifeAt m d F C := by
  have hk' : 0 < (1 / k) ^ F.length := by positivity
  apply le_antisymm
  · have i1 := convert_law (inv_pos.2 hk) (inv_pos.2 hk₁) (inv_pos.2 hk₂) hm'
    have i2 := convertD_law (inv_pos.2 hk) hd'
    have := h _ _ (i1.1.trans en) (i2.1.trans ed) i1.2.1 i2.2
    rw [altLikelihood_perm pF pC, ← convert_inv hk hk₁ hk₂ m', ← convertD_inv hk d',
      lik_convert_all hk hk₁ hk₂ hpos hg i1.2.1 i2.2 hF hC]
    exact mul_le_mul_of_nonneg_left this hk'.le
  · have i1 := convert_law hk hk₁ hk₂ hm
    have i2 := convertD_law hk hd
    rw [← lik_convert_all hk hk₁ hk₂ hpos hg hm hd hF hC, ← altLikelihood_perm pF pC]
    exact h' _ _ (i1.1.trans en.symm) (i2.1.trans ed.symm) i1.2.1 i2.2

end

/-- The criteria, from the specification of the reports. -/
theorem shifted {σ : Type} {lifeAt : LifeStress → σ → ℝ} {k : ℝ} (hk : 0 < k) {m m' : LifeStress} {d d' : LifeDist} {n n' : ℕ}
    (hn : n' = n) {F C F' C' : List (ℝ × σ)} (lF : F'.length = F.length) (lC : C'.length = C.length)
    (hlik : altLikelihood lifeAt m' d' F' C' = (1 / k) ^ F.length * altLikelihood lifeAt m d F C) {res res' : ALTRes σ}
    {use use' : Option σ} {G G' : List σ} (h : IsALTFit d n (lifeAt m) F C use G res.fit)
    (h' : IsALTFit d' n' (lifeAt m') F' C' use' G' res'.fit) (h2 : res.loglik2 = -2 * res.fit.loglik)
    (h2' : res'.loglik2 = -2 * res'.fit.loglik) : ShiftedALT F.length k res res' := by
  have e : res'.fit.loglik = res.fit.loglik - F.length * Real.log k := by
    apply Real.exp_injective
    rw [h'.loglik, sub_eq_add_neg, Real.exp_add, h.loglik]
    have : Real.exp (-(F.length * Real.log k)) = (1 / k) ^ F.length := by
      rw [← mul_neg, ← Real.log_inv, Real.exp_nat_mul, Real.exp_log (inv_pos.2 hk), one_div]
    rw [this, mul_comm _ ((1 / k) ^ F.length)]
    exact hlik
  subst hn
  refine ⟨e, by rw [h2, h2', e]; ring, ?_, ?_⟩
  · rw [h'.AICc, h.AICc, lF, lC, e]
    split
    · simp only [Option.map_some]
      congr 1
      ring
    · rfl
  · rw [h'.BIC, h.BIC, lF, lC, e]
    ring

/-- The estimates of a report and its model. -/
theorem report_model {dist model : String} {n : ℕ} {p : Fin n → ℝ} {rows : List FitGlue.Row}
    (h : rows.map (fun w => (w.name, w.point)) = ((parameters dist model).map Prod.fst).zip (List.ofFn p))
    (hn : n = (parameters dist model).length) : rows.map FitGlue.Row.point = List.ofFn p := by
  have : rows.map FitGlue.Row.point = (rows.map fun w => (w.name, w.point)).map Prod.snd := by rw [List.map_map]; rfl
  rw [this, h, List.map_snd_zip]
  simp [hn]

/-- **C171 (one stress).** Two exact runs of a single-stress class on the same units in any order, the second with times multiplied
by `k` and stresses by `k₁`: the log-likelihood falls by `ln k` for every failure and AICc and BIC rise by twice that. -/
theorem C171_single {c : Cls ℝ} (hc : c ∈ singleClasses) {x x' : ALTArgs} {res res' : ALTRes ℝ}
    (h : ExactALT1 c x res) (h' : ExactALT1 c x' res') {F C F' C' : List (ℝ × ℝ)} (hu : UsedSingle x F C) (hu' : UsedSingle x' F' C')
    {k k₁ : ℝ} (hk : 0 < k) (hk₁ : 0 < k₁) (hF : F'.Perm (F.map fun i => (k * i.1, k₁ * i.2)))
    (hC : C'.Perm (C.map fun i => (k * i.1, k₁ * i.2))) (pF : ∀ i ∈ F, 0 < i.2) (pC : ∀ i ∈ C, 0 < i.2)
    {m m' : LifeStress} {d d' : LifeDist} (hmd : altModel c.dist c.model (estimates res) = some (m, d))
    (hmd' : altModel c.dist c.model (estimates res') = some (m', d')) (hm : m.Valid) (hd : d.Valid) (hm' : m'.Valid) (hd' : d'.Valid) :
    ShiftedALT F.length k res res' := by
  obtain ⟨a1, a2, -, a4⟩ := run1 hc h hu hmd hm hd pF pC
  have tr : ∀ {G G' : List (ℝ × ℝ)}, G'.Perm (G.map fun i => (k * i.1, k₁ * i.2)) → (∀ i ∈ G, 0 < i.2) → ∀ i ∈ G', 0 < i.2 := by
    intro G G' hG hp i hi
    obtain ⟨j, hj, rfl⟩ := List.mem_map.1 (hG.subset hi)
    exact mul_pos hk₁ (hp j hj)
  obtain ⟨b1, b2, -, b4⟩ := run1 hc h' hu' hmd' hm' hd' (tr hF pF) (tr hC pC)
  obtain ⟨k1, k2, -⟩ := (altModel_iff ..).1 hmd
  obtain ⟨k1', k2', -⟩ := (altModel_iff ..).1 hmd'
  have hpos : ∀ m : LifeStress, m.Valid → ∀ s : ℝ, 0 < s → 0 < lifeAt1 m s := fun m hm s hs => life_pos hm hs one_pos
  have hg : ∀ m : LifeStress, m.Valid → ∀ s : ℝ, 0 < s → lifeAt1 (convert k k₁ 1 m) (k₁ * s) = k * lifeAt1 m s := fun m hm s hs => by
    have := (convert_law hk hk₁ one_pos hm).2.2 s 1 hs one_pos
    rwa [one_mul] at this
  have hlik := max_convert (pos := fun s => 0 < s) (g := (k₁ * ·)) hk hk₁ one_pos hpos hg hm hd hm' hd' (by rw [← k1, k1'])
    (by rw [← k2, k2']) a1 a2 hF hC a4 b4
  obtain ⟨-, argsort, J, num, noise, minimize, -, h⟩ := h
  obtain ⟨-, argsort', J', num', noise', minimize', -, h'⟩ := h'
  obtain ⟨F₀, C₀, use, CI, ls, u, -, -, -, n, p, m₀, d₀, V, q1, q2, q3, -, -, q4, q5, -⟩ := C110_single c hc _ _ _ _ _ _ _ h
  obtain ⟨rfl, rfl⟩ := usedSingle_unique u hu
  obtain ⟨F₀', C₀', use', CI', ls', u', -, -, -, n', p', m₀', d₀', V', q1', q2', q3', -, -, q4', q5', -⟩ := C110_single c hc _ _ _ _ _ _ _ h'
  obtain ⟨rfl, rfl⟩ := usedSingle_unique u' hu'
  rw [← report_model q2 q3] at q1
  rw [← report_model q2' q3'] at q1'
  obtain ⟨rfl, rfl⟩ : m = m₀ ∧ d = d₀ := by have := hmd.symm.trans q1; cases this; exact ⟨rfl, rfl⟩
  obtain ⟨rfl, rfl⟩ : m' = m₀' ∧ d' = d₀' := by have := hmd'.symm.trans q1'; cases this; exact ⟨rfl, rfl⟩
  exact shifted hk (by rw [q3, q3']) (by simpa using hF.length_eq) (by simpa using hC.length_eq) hlik (q5 hm hd pF pC).2
    (q5' hm' hd' (tr hF pF) (tr hC pC)).2 q4 q4'

/-- **C171 (two stresses).** -/
theorem C171_dual {c : Cls (ℝ × ℝ)} (hc : c ∈ dualClasses) {x x' : ALTArgs} {res res' : ALTRes (ℝ × ℝ)}
    (h : ExactALT2 c x res) (h' : ExactALT2 c x' res') {F C F' C' : List (ℝ × ℝ × ℝ)} (hu : UsedDual x F C) (hu' : UsedDual x' F' C')
    {k k₁ k₂ : ℝ} (hk : 0 < k) (hk₁ : 0 < k₁) (hk₂ : 0 < k₂) (hF : F'.Perm (F.map fun i => (k * i.1, k₁ * i.2.1, k₂ * i.2.2)))
    (hC : C'.Perm (C.map fun i => (k * i.1, k₁ * i.2.1, k₂ * i.2.2))) (pF : ∀ i ∈ F, 0 < i.2.1 ∧ 0 < i.2.2)
    (pC : ∀ i ∈ C, 0 < i.2.1 ∧ 0 < i.2.2)
    {m m' : LifeStress} {d d' : LifeDist} (hmd : altModel c.dist c.model (estimates res) = some (m, d))
    (hmd' : altModel c.dist c.model (estimates res') = some (m', d')) (hm : m.Valid) (hd : d.Valid) (hm' : m'.Valid) (hd' : d'.Valid) :
    ShiftedALT F.length k res res' := by
  obtain ⟨a1, a2, a4⟩ := run2 hc h hu hmd hm hd pF pC
  have tr : ∀ {G G' : List (ℝ × ℝ × ℝ)}, G'.Perm (G.map fun i => (k * i.1, k₁ * i.2.1, k₂ * i.2.2)) →
      (∀ i ∈ G, 0 < i.2.1 ∧ 0 < i.2.2) → ∀ i ∈ G', 0 < i.2.1 ∧ 0 < i.2.2 := by
    intro G G' hG hp i hi
    obtain ⟨j, hj, rfl⟩ := List.mem_map.1 (hG.subset hi)
    exact ⟨mul_pos hk₁ (hp j hj).1, mul_pos hk₂ (hp j hj).2⟩
  obtain ⟨b1, b2, b4⟩ := run2 hc h' hu' hmd' hm' hd' (tr hF pF) (tr hC pC)
  obtain ⟨k1, k2, -⟩ := (altModel_iff ..).1 hmd
  obtain ⟨k1', k2', -⟩ := (altModel_iff ..).1 hmd'
  have hpos : ∀ m : LifeStress, m.Valid → ∀ s : ℝ × ℝ, 0 < s.1 ∧ 0 < s.2 → 0 < lifeAt2 m s := fun m hm s hs => life_pos hm hs.1 hs.2
  have hg : ∀ m : LifeStress, m.Valid → ∀ s : ℝ × ℝ, 0 < s.1 ∧ 0 < s.2 →
      lifeAt2 (convert k k₁ k₂ m) (k₁ * s.1, k₂ * s.2) = k * lifeAt2 m s := fun m hm s hs =>
    (convert_law hk hk₁ hk₂ hm).2.2 s.1 s.2 hs.1 hs.2
  have hlik := max_convert (pos := fun s : ℝ × ℝ => 0 < s.1 ∧ 0 < s.2) (g := fun s => (k₁ * s.1, k₂ * s.2)) hk hk₁ hk₂ hpos hg hm hd hm' hd'
    (by rw [← k1, k1']) (by rw [← k2, k2']) a1 a2 hF hC a4 b4
  obtain ⟨-, κ, inst, key, stress, argsort, J, num, noise, minimize, hkey, -, h⟩ := h
  obtain ⟨-, κ', inst', key', stress', argsort', J', num', noise', minimize', hkey', -, h'⟩ := h'
  obtain ⟨F₀, C₀, use, CI, ls, u, -, -, -, n, p, m₀, d₀, V, q1, q2, q3, -, -, q4, q5, -⟩ := C110_dual key stress hkey c hc _ _ _ _ _ _ _ h
  obtain ⟨rfl, rfl⟩ := usedDual_unique u hu
  obtain ⟨F₀', C₀', use', CI', ls', u', -, -, -, n', p', m₀', d₀', V', q1', q2', q3', -, -, q4', q5', -⟩ :=
    C110_dual key' stress' hkey' c hc _ _ _ _ _ _ _ h'
  obtain ⟨rfl, rfl⟩ := usedDual_unique u' hu'
  rw [← report_model q2 q3] at q1
  rw [← report_model q2' q3'] at q1'
  obtain ⟨rfl, rfl⟩ : m = m₀ ∧ d = d₀ := by have := hmd.symm.trans q1; cases this; exact ⟨rfl, rfl⟩
  obtain ⟨rfl, rfl⟩ : m' = m₀' ∧ d' = d₀' := by have := hmd'.symm.trans q1'; cases this; exact ⟨rfl, rfl⟩
  exact shifted hk (by rw [q3, q3']) (by simpa using hF.length_eq) (by simpa using hC.length_eq) hlik (q5 hm hd pF pC).2
    (q5' hm' hd' (tr hF pF) (tr hC pC)).2 q4 q4'

/-! ## Fit_Everything_ALT -/

open Reliability.FEAFull Reliability.Spec.FEAFull
open Reliability.Props.FEA (Asked)
open Reliability.Props.UniqueFit (exactNum exactMin_finds)
open Reliability.Props.FEAFull (single_family dual_family requirements C123_single C123_dual C123_best C123_returns_iff_each_does)
open Reliability.Fitters (up Item)

theorem names_unique : ∀ d ∈ ["Weibull", "Lognormal", "Normal", "Exponential"],
    ∀ m ∈ ["Exponential", "Eyring", "Power", "Dual_Exponential", "Power_Exponential", "Dual_Power"],
    ∀ d' ∈ ["Weibull", "Lognormal", "Normal", "Exponential"],
    ∀ m' ∈ ["Exponential", "Eyring", "Power", "Dual_Exponential", "Power_Exponential", "Dual_Power"],
      d ++ "_" ++ m = d' ++ "_" ++ m' → d = d' ∧ m = m' := by
  decide +kernel

theorem valid_of_log {m : LifeStress} {d : LifeDist}
    (h : ∀ p ∈ (parameters (dname d) (mname m)).zip (mpars m ++ dpars d), p.1.2 = Spec.FitGlue.Scale.log → 0 < p.2) : m.Valid ∧ d.Valid := by
  cases m <;> cases d <;> simp [parameters, stressParameters, shapeParameters, mname, dname, mpars, dpars] at h <;>
    simp [LifeStress.Valid, LifeDist.Valid] <;> tauto

theorem log_of_valid {m : LifeStress} {d : LifeDist} (hm : m.Valid) (hd : d.Valid) :
    ∀ p ∈ (parameters (dname d) (mname m)).zip (mpars m ++ dpars d), p.1.2 = Spec.FitGlue.Scale.log → 0 < p.2 := by
  cases m <;> cases d <;> simp [LifeStress.Valid, LifeDist.Valid] at hm hd <;>
    simp [parameters, stressParameters, shapeParameters, mname, dname, mpars, dpars] <;> tauto

theorem pars_length (m : LifeStress) (d : LifeDist) : (parameters (dname d) (mname m)).length = (mpars m ++ dpars d).length := by
  cases m <;> cases d <;> rfl

/-- A row is admissible exactly when the model it shows is. -/
theorem admissible_iff {σ : Type} {c : Cls σ} (h1 : c.dist ∈ ["Weibull", "Lognormal", "Normal", "Exponential"])
    (h2 : c.model ∈ ["Exponential", "Eyring", "Power", "Dual_Exponential", "Power_Exponential", "Dual_Power"]) {row : ALT.Row} {r : ALTRes σ}
    (hs : Shows row r) (hn : row.model = c.dist ++ "_" ++ c.model)
    {n : ℕ} {p : Fin n → ℝ} {m : LifeStress} {d : LifeDist} (q1 : altModel c.dist c.model (List.ofFn p) = some (m, d))
    (q2 : r.rows.map (fun w => (w.name, w.point)) = ((parameters c.dist c.model).map Prod.fst).zip (List.ofFn p)) :
    AdmissibleRow row ↔ r.optimizer ≠ none ∧ m.Valid ∧ d.Valid := by
  obtain ⟨k1, k2, k3⟩ := (altModel_iff ..).1 q1
  have hcell : ∀ name v, (name, v) ∈ ((parameters c.dist c.model).map Prod.fst).zip (List.ofFn p) → cell row.params name = some v := by
    intro name v hv
    rw [← q2] at hv
    obtain ⟨w, hw, e⟩ := List.mem_map.1 hv
    cases e
    exact hs.params w hw
  have hz : ((parameters c.dist c.model).map Prod.fst).zip (List.ofFn p) =
      ((parameters (dname d) (mname m)).zip (mpars m ++ dpars d)).map fun p => (p.1.1, p.2) := by
    rw [k1, k2, k3, List.zip_map_left]
    rfl
  rw [hz] at hcell
  constructor
  · rintro ⟨ho, ha⟩
    refine ⟨by rw [← hs.optimizer]; exact ho, valid_of_log fun q hq hl => ?_⟩
    obtain ⟨v, hv, hv0⟩ := ha c.dist h1 c.model h2 hn q.1 (by rw [k1, k2]; exact (List.of_mem_zip hq).1) hl
    have := hcell q.1.1 q.2 (List.mem_map.2 ⟨q, hq, rfl⟩)
    rw [hv] at this
    cases this
    exact hv0
  · rintro ⟨ho, hm, hd⟩
    refine ⟨by rw [hs.optimizer]; exact ho, fun dist hdist model hmodel hn' q hq hl => ?_⟩
    obtain ⟨rfl, rfl⟩ := names_unique _ h1 _ h2 _ hdist _ hmodel (hn.symm.trans hn')
    rw [k1, k2] at hq
    obtain ⟨i, hi, rfl⟩ := List.getElem_of_mem hq
    have hi' : i < (mpars m ++ dpars d).length := by rw [← pars_length]; exact hi
    have hmem : ((parameters (dname d) (mname m))[i], (mpars m ++ dpars d)[i]) ∈
        (parameters (dname d) (mname m)).zip (mpars m ++ dpars d) := by
      rw [List.mem_iff_getElem]
      exact ⟨i, by simp [List.length_zip]; exact ⟨hi, by simpa using hi'⟩, by simp⟩
    exact ⟨_, hcell _ _ (List.mem_map.2 ⟨_, hmem, rfl⟩), log_of_valid hm hd _ hmem hl⟩

theorem single_names {c : Cls ℝ} (hc : c ∈ singleClasses) : c.dist ∈ ["Weibull", "Lognormal", "Normal", "Exponential"] ∧
    c.model ∈ ["Exponential", "Eyring", "Power", "Dual_Exponential", "Power_Exponential", "Dual_Power"] := by
  obtain ⟨h1, h2⟩ := models_single hc
  simp only [List.mem_cons, List.not_mem_nil, or_false] at h1 h2 ⊢
  tauto

theorem dual_names {c : Cls (ℝ × ℝ)} (hc : c ∈ dualClasses) : c.dist ∈ ["Weibull", "Lognormal", "Normal", "Exponential"] ∧
    c.model ∈ ["Exponential", "Eyring", "Power", "Dual_Exponential", "Power_Exponential", "Dual_Power"] := by
  obtain ⟨h1, h2⟩ := models_dual hc
  simp only [List.mem_cons, List.not_mem_nil, or_false] at h1 h2 ⊢
  tauto

theorem single_inj {c c' : Cls ℝ} (hc : c ∈ singleClasses) (hc' : c' ∈ singleClasses)
    (h : c.dist ++ "_" ++ c.model = c'.dist ++ "_" ++ c'.model) : c = c' :=
  List.inj_on_of_nodup_map (f := clsName) (by rw [single_family.names]; decide +kernel) hc hc' h

theorem dual_inj {c c' : Cls (ℝ × ℝ)} (hc : c ∈ dualClasses) (hc' : c' ∈ dualClasses)
    (h : c.dist ++ "_" ++ c.model = c'.dist ++ "_" ++ c'.model) : c = c' :=
  List.inj_on_of_nodup_map (f := clsName) (by rw [dual_family.names]; decide +kernel) hc hc' h

/-- **C171 (Fit_Everything_ALT, one stress).** Two runs with exact optimizers, the second on the same units in any order with times
multiplied by `k` and stresses by `k₁`: the rows of a model differ by `ln k` for every failure. -/
theorem C171_rows_single {κ κ' : Type} [LinearOrder κ] [LinearOrder κ'] {key : ℝ → Option ℝ → κ} {key' : ℝ → Option ℝ → κ'}
    {stress : κ → ℝ × ℝ} {stress' : κ' → ℝ × ℝ} {argsort argsort' : List ℝ → List ℕ} (ha : IsArgsort argsort) (ha' : IsArgsort argsort')
    {J J' : Jac} {O₁ O₁' : Oracle ℝ} {O₂ O₂' : Oracle (ℝ × ℝ)} (hE : ∀ c, Exact (O₁.minimize c)) (hE' : ∀ c, Exact (O₁'.minimize c))
    {x x' : FEAArgs} (h1 : x.failure_stress_2 = .none) (h1' : x'.failure_stress_2 = .none) {res res' : ALT.FEAResult}
    (h : fitEverythingALT key stress argsort J O₁ O₂ x = .ok res) (h' : fitEverythingALT key' stress' argsort' J' O₁' O₂' x' = .ok res')
    {F C F' C' : List (ℝ × ℝ)} (hu : UsedSingle x.toALTArgs F C) (hu' : UsedSingle x'.toALTArgs F' C')
    {k k₁ : ℝ} (hk : 0 < k) (hk₁ : 0 < k₁) (hF : F'.Perm (F.map fun i => (k * i.1, k₁ * i.2)))
    (hC : C'.Perm (C.map fun i => (k * i.1, k₁ * i.2))) (pF : ∀ i ∈ F, 0 < i.2) (pC : ∀ i ∈ C, 0 < i.2)
    {row row' : ALT.Row} (hr : row ∈ res.results) (hr' : row' ∈ res'.results) (hn : row'.model = row.model) (hadm : AdmissibleRow row)
    (hadm' : AdmissibleRow row') : ShiftedRow F.length k row row' := by
  obtain ⟨-, -, rows⟩ := C123_single key stress ha J O₁ O₂ x h1 res h
  obtain ⟨-, -, rows'⟩ := C123_single key' stress' ha' J' O₁' O₂' x' h1' res' h'
  obtain ⟨c, hc, e, r, hfit, hs⟩ := rows row hr
  obtain ⟨c', hc', e', r', hfit', hs'⟩ := rows' row' hr'
  obtain rfl := single_inj hc hc' (by rw [← e, ← e', hn])
  obtain ⟨F₀, C₀, use, CI, ls, -, -, -, -, n, p, m, d, V, q1, q2, q3, -⟩ := C110_single c hc _ _ _ _ _ _ _ hfit
  obtain ⟨F₀', C₀', use', CI', ls', -, -, -, -, n', p', m', d', V', q1', q2', q3', -⟩ := C110_single c hc _ _ _ _ _ _ _ hfit'
  obtain ⟨ho, hm, hd⟩ := (admissible_iff (single_names hc).1 (single_names hc).2 hs e q1 q2).1 hadm
  obtain ⟨ho', hm', hd'⟩ := (admissible_iff (single_names hc).1 (single_names hc).2 hs' e' q1' q2').1 hadm'
  rw [← report_model q2 q3] at q1
  rw [← report_model q2' q3'] at q1'
  have := C171_single hc ⟨ho, _, _, _, _, _, hE c, hfit⟩ ⟨ho', _, _, _, _, _, hE' c, hfit'⟩ hu hu' hk hk₁ hF hC pF pC q1 q1' hm hd hm' hd'
  exact ⟨by rw [hs.loglik, hs'.loglik, this.loglik], by rw [hs.AICc, hs'.AICc, this.AICc], by rw [hs.BIC, hs'.BIC, this.BIC]⟩

/-- **C171 (Fit_Everything_ALT, two stresses).** -/
theorem C171_rows_dual {κ κ' : Type} [LinearOrder κ] [LinearOrder κ'] {key : ℝ → Option ℝ → κ} {key' : ℝ → Option ℝ → κ'}
    {stress : κ → ℝ × ℝ} {stress' : κ' → ℝ × ℝ} (hkey : ∀ a b, stress (key a (some b)) = (a, b))
    (hkey' : ∀ a b, stress' (key' a (some b)) = (a, b)) {argsort argsort' : List ℝ → List ℕ} (ha : IsArgsort argsort)
    (ha' : IsArgsort argsort')
    {J J' : Jac} {O₁ O₁' : Oracle ℝ} {O₂ O₂' : Oracle (ℝ × ℝ)} (hE : ∀ c, Exact (O₂.minimize c)) (hE' : ∀ c, Exact (O₂'.minimize c))
    {x x' : FEAArgs} (h1 : x.failure_stress_2 ≠ .none) (h1' : x'.failure_stress_2 ≠ .none) {res res' : ALT.FEAResult}
    (h : fitEverythingALT key stress argsort J O₁ O₂ x = .ok res) (h' : fitEverythingALT key' stress' argsort' J' O₁' O₂' x' = .ok res')
    {F C F' C' : List (ℝ × ℝ × ℝ)} (hu : UsedDual x.toALTArgs F C) (hu' : UsedDual x'.toALTArgs F' C')
    {k k₁ k₂ : ℝ} (hk : 0 < k) (hk₁ : 0 < k₁) (hk₂ : 0 < k₂) (hF : F'.Perm (F.map fun i => (k * i.1, k₁ * i.2.1, k₂ * i.2.2)))
    (hC : C'.Perm (C.map fun i => (k * i.1, k₁ * i.2.1, k₂ * i.2.2))) (pF : ∀ i ∈ F, 0 < i.2.1 ∧ 0 < i.2.2)
    (pC : ∀ i ∈ C, 0 < i.2.1 ∧ 0 < i.2.2)
    {row row' : ALT.Row} (hr : row ∈ res.results) (hr' : row' ∈ res'.results) (hn : row'.model = row.model) (hadm : AdmissibleRow row)
    (hadm' : AdmissibleRow row') : ShiftedRow F.length k row row' := by
  obtain ⟨-, -, rows⟩ := C123_dual key stress ha J O₁ O₂ x h1 res h
  obtain ⟨-, -, rows'⟩ := C123_dual key' stress' ha' J' O₁' O₂' x' h1' res' h'
  obtain ⟨c, hc, e, r, hfit, hs⟩ := rows row hr
  obtain ⟨c', hc', e', r', hfit', hs'⟩ := rows' row' hr'
  obtain rfl := dual_inj hc hc' (by rw [← e, ← e', hn])
  obtain ⟨F₀, C₀, use, CI, ls, -, -, -, -, n, p, m, d, V, q1, q2, q3, -⟩ := C110_dual key stress hkey c hc _ _ _ _ _ _ _ hfit
  obtain ⟨F₀', C₀', use', CI', ls', -, -, -, -, n', p', m', d', V', q1', q2', q3', -⟩ := C110_dual key' stress' hkey' c hc _ _ _ _ _ _ _ hfit'
  obtain ⟨ho, hm, hd⟩ := (admissible_iff (dual_names hc).1 (dual_names hc).2 hs e q1 q2).1 hadm
  obtain ⟨ho', hm', hd'⟩ := (admissible_iff (dual_names hc).1 (dual_names hc).2 hs' e' q1' q2').1 hadm'
  rw [← report_model q2 q3] at q1
  rw [← report_model q2' q3'] at q1'
  have := C171_dual hc ⟨ho, _, _, _, _, _, _, _, _, _, hkey, hE c, hfit⟩ ⟨ho', _, _, _, _, _, _, _, _, _, hkey', hE' c, hfit'⟩ hu hu' hk hk₁ hk₂
    hF hC pF pC q1 q1' hm hd hm' hd'
  exact ⟨by rw [hs.loglik, hs'.loglik, this.loglik], by rw [hs.AICc, hs'.AICc, this.AICc], by rw [hs.BIC, hs'.BIC, this.BIC]⟩

/-- The model with the lowest criterion, from shifted rows. -/
theorem best_of_rows {res res' : ALT.FEAResult} {n : ℕ} {k : ℝ} {s s' : String}
    (hsh : ∀ row ∈ res.results, ∀ row' ∈ res'.results, row'.model = row.model → ShiftedRow n k row row')
    (hmod : ∀ m, m ∈ res'.results.map ALT.Row.model ↔ m ∈ res.results.map ALT.Row.model)
    (hb : ∃ best rest, res.results = best :: rest ∧ best.model = res.best ∧
      ((up s = "BIC" ∨ (up s ∈ ["AIC", "AICC"] ∧ ∃ r ∈ res.results, r.AICc = none)) →
        res.results.Pairwise (fun a b => a.BIC ≤ b.BIC) ∧ ∀ r ∈ res.results, best.BIC ≤ r.BIC) ∧
      (up s ∈ ["AIC", "AICC"] → (∀ r ∈ res.results, r.AICc ≠ none) →
        ∀ r ∈ res.results, ∃ x y, best.AICc = some x ∧ r.AICc = some y ∧ x ≤ y))
    (hb' : ∃ best rest, res'.results = best :: rest ∧ best.model = res'.best ∧
      ((up s' = "BIC" ∨ (up s' ∈ ["AIC", "AICC"] ∧ ∃ r ∈ res'.results, r.AICc = none)) →
        res'.results.Pairwise (fun a b => a.BIC ≤ b.BIC) ∧ ∀ r ∈ res'.results, best.BIC ≤ r.BIC) ∧
      (up s' ∈ ["AIC", "AICC"] → (∀ r ∈ res'.results, r.AICc ≠ none) →
        ∀ r ∈ res'.results, ∃ x y, best.AICc = some x ∧ r.AICc = some y ∧ x ≤ y)) :
    (up s = "BIC" → up s' = "BIC" →
      (∃ r ∈ res.results, r.model = res'.best ∧ ∀ q ∈ res.results, r.BIC ≤ q.BIC) ∧
      ((∀ r ∈ res.results, ∀ q ∈ res.results, r.BIC = q.BIC → r = q) → res'.best = res.best)) ∧
    (up s ∈ ["AIC", "AICC"] → up s' ∈ ["AIC", "AICC"] → (∀ r ∈ res.results, r.AICc ≠ none) →
      (∃ r ∈ res.results, r.model = res'.best ∧ ∀ q ∈ res.results, ∃ u v, r.AICc = some u ∧ q.AICc = some v ∧ u ≤ v) ∧
      ((∀ r ∈ res.results, ∀ q ∈ res.results, r.AICc = q.AICc → r = q) → res'.best = res.best)) := by
  obtain ⟨b, rest, hbe, bn, hB, hA⟩ := hb
  obtain ⟨b', rest', hbe', bn', hB', hA'⟩ := hb'
  have hbm : b ∈ res.results := by rw [hbe]; exact List.mem_cons_self
  have hbm' : b' ∈ res'.results := by rw [hbe']; exact List.mem_cons_self
  obtain ⟨r, hr, hrm⟩ := List.mem_map.1 ((hmod _).1 (List.mem_map_of_mem hbm'))
  have s1 := hsh r hr b' hbm' hrm.symm
  have other : ∀ q ∈ res.results, ∃ q' ∈ res'.results, ShiftedRow n k q q' := by
    intro q hq
    obtain ⟨q', hq', hqm⟩ := List.mem_map.1 ((hmod _).2 (List.mem_map_of_mem hq))
    exact ⟨q', hq', hsh q hq q' hq' hqm⟩
  refine ⟨fun e e' => ?_, fun e e' hsome => ?_⟩
  · have low : ∀ q ∈ res.results, r.BIC ≤ q.BIC := by
      intro q hq
      obtain ⟨q', hq', s2⟩ := other q hq
      have := (hB' (.inl e')).2 q' hq'
      rw [s1.BIC, s2.BIC] at this
      linarith
    refine ⟨⟨r, hr, hrm.trans bn', low⟩, fun hinj => ?_⟩
    have := hinj r hr b hbm (le_antisymm (low b hbm) ((hB (.inl e)).2 r hr))
    rw [← bn', ← hrm, this, bn]
  · have hsome' : ∀ q' ∈ res'.results, q'.AICc ≠ none := by
      intro q' hq'
      obtain ⟨q, hq, hqm⟩ := List.mem_map.1 ((hmod _).1 (List.mem_map_of_mem hq'))
      rw [(hsh q hq q' hq' hqm.symm).AICc]
      simpa using hsome q hq
    have low : ∀ q ∈ res.results, ∃ u v, r.AICc = some u ∧ q.AICc = some v ∧ u ≤ v := by
      intro q hq
      obtain ⟨q', hq', s2⟩ := other q hq
      obtain ⟨u, v, e1, e2, huv⟩ := hA' e' hsome' q' hq'
      rw [s1.AICc] at e1
      rw [s2.AICc] at e2
      obtain ⟨u', hu', rfl⟩ := Option.map_eq_some_iff.1 e1
      obtain ⟨v', hv', rfl⟩ := Option.map_eq_some_iff.1 e2
      exact ⟨u', v', hu', hv', by linarith⟩
    refine ⟨⟨r, hr, hrm.trans bn', low⟩, fun hinj => ?_⟩
    obtain ⟨u, v, e1, e2, huv⟩ := low b hbm
    obtain ⟨v', u', e3, e4, hvu⟩ := hA e hsome r hr
    have := hinj r hr b hbm (by
      rw [e1, e2]
      rw [e2] at e3
      rw [e1] at e4
      cases e3
      cases e4
      rw [le_antisymm huv hvu])
    rw [← bn', ← hrm, this, bn]

/-- **C171 (the best model, one stress).** Sorting by BIC, or by AICc when all are reported: the model the second run calls the best
one has the lowest criterion in the first run too, so if no two are equal both runs choose the same model. -/
theorem C171_best_single {κ κ' : Type} [LinearOrder κ] [LinearOrder κ'] {key : ℝ → Option ℝ → κ} {key' : ℝ → Option ℝ → κ'}
    {stress : κ → ℝ × ℝ} {stress' : κ' → ℝ × ℝ} {argsort argsort' : List ℝ → List ℕ} (ha : IsArgsort argsort) (ha' : IsArgsort argsort')
    {J J' : Jac} {O₁ O₁' : Oracle ℝ} {O₂ O₂' : Oracle (ℝ × ℝ)} (hE : ∀ c, Exact (O₁.minimize c)) (hE' : ∀ c, Exact (O₁'.minimize c))
    {x x' : FEAArgs} (h1 : x.failure_stress_2 = .none) (h1' : x'.failure_stress_2 = .none) {res res' : ALT.FEAResult}
    (h : fitEverythingALT key stress argsort J O₁ O₂ x = .ok res) (h' : fitEverythingALT key' stress' argsort' J' O₁' O₂' x' = .ok res')
    {F C F' C' : List (ℝ × ℝ)} (hu : UsedSingle x.toALTArgs F C) (hu' : UsedSingle x'.toALTArgs F' C')
    {k k₁ : ℝ} (hk : 0 < k) (hk₁ : 0 < k₁) (hF : F'.Perm (F.map fun i => (k * i.1, k₁ * i.2)))
    (hC : C'.Perm (C.map fun i => (k * i.1, k₁ * i.2))) (pF : ∀ i ∈ F, 0 < i.2) (pC : ∀ i ∈ C, 0 < i.2)
    (he : x'.exclude = x.exclude) {s s' : String} (hs : x.sort_by = some s) (hs' : x'.sort_by = some s')
    (hadm : ∀ row ∈ res.results, AdmissibleRow row) (hadm' : ∀ row ∈ res'.results, AdmissibleRow row) :
    (up s = "BIC" → up s' = "BIC" →
      (∃ r ∈ res.results, r.model = res'.best ∧ ∀ q ∈ res.results, r.BIC ≤ q.BIC) ∧
      ((∀ r ∈ res.results, ∀ q ∈ res.results, r.BIC = q.BIC → r = q) → res'.best = res.best)) ∧
    (up s ∈ ["AIC", "AICC"] → up s' ∈ ["AIC", "AICC"] → (∀ r ∈ res.results, r.AICc ≠ none) →
      (∃ r ∈ res.results, r.model = res'.best ∧ ∀ q ∈ res.results, ∃ u v, r.AICc = some u ∧ q.AICc = some v ∧ u ≤ v) ∧
      ((∀ r ∈ res.results, ∀ q ∈ res.results, r.AICc = q.AICc → r = q) → res'.best = res.best)) := by
  obtain ⟨b, rest, g1, g2, g3, g4, -⟩ := C123_best key stress ha J O₁ O₂ x res h s hs
  obtain ⟨b', rest', g1', g2', g3', g4', -⟩ := C123_best key' stress' ha' J' O₁' O₂' x' res' h' s' hs'
  refine best_of_rows (n := F.length) (k := k) (fun row hr row' hr' hn => C171_rows_single ha ha' hE hE' h1 h1' h h' hu hu' hk hk₁ hF hC pF pC
    hr hr' hn (hadm row hr) (hadm' row' hr')) (fun m => ?_) ⟨b, rest, g1, g2, g3, g4⟩ ⟨b', rest', g1', g2', g3', g4'⟩
  rw [(C123_single key stress ha J O₁ O₂ x h1 res h).2.1, (C123_single key' stress' ha' J' O₁' O₂' x' h1' res' h').2.1, he]

/-- **C171 (the best model, two stresses).** -/
theorem C171_best_dual {κ κ' : Type} [LinearOrder κ] [LinearOrder κ'] {key : ℝ → Option ℝ → κ} {key' : ℝ → Option ℝ → κ'}
    {stress : κ → ℝ × ℝ} {stress' : κ' → ℝ × ℝ} (hkey : ∀ a b, stress (key a (some b)) = (a, b))
    (hkey' : ∀ a b, stress' (key' a (some b)) = (a, b)) {argsort argsort' : List ℝ → List ℕ} (ha : IsArgsort argsort)
    (ha' : IsArgsort argsort')
    {J J' : Jac} {O₁ O₁' : Oracle ℝ} {O₂ O₂' : Oracle (ℝ × ℝ)} (hE : ∀ c, Exact (O₂.minimize c)) (hE' : ∀ c, Exact (O₂'.minimize c))
    {x x' : FEAArgs} (h1 : x.failure_stress_2 ≠ .none) (h1' : x'.failure_stress_2 ≠ .none) {res res' : ALT.FEAResult}
    (h : fitEverythingALT key stress argsort J O₁ O₂ x = .ok res) (h' : fitEverythingALT key' stress' argsort' J' O₁' O₂' x' = .ok res')
    {F C F' C' : List (ℝ × ℝ × ℝ)} (hu : UsedDual x.toALTArgs F C) (hu' : UsedDual x'.toALTArgs F' C')
    {k k₁ k₂ : ℝ} (hk : 0 < k) (hk₁ : 0 < k₁) (hk₂ : 0 < k₂) (hF : F'.Perm (F.map fun i => (k * i.1, k₁ * i.2.1, k₂ * i.2.2)))
    (hC : C'.Perm (C.map fun i => (k * i.1, k₁ * i.2.1, k₂ * i.2.2))) (pF : ∀ i ∈ F, 0 < i.2.1 ∧ 0 < i.2.2)
    (pC : ∀ i ∈ C, 0 < i.2.1 ∧ 0 < i.2.2)
    (he : x'.exclude = x.exclude) {s s' : String} (hs : x.sort_by = some s) (hs' : x'.sort_by = some s')
    (hadm : ∀ row ∈ res.results, AdmissibleRow row) (hadm' : ∀ row ∈ res'.results, AdmissibleRow row) :
    (up s = "BIC" → up s' = "BIC" →
      (∃ r ∈ res.results, r.model = res'.best ∧ ∀ q ∈ res.results, r.BIC ≤ q.BIC) ∧
      ((∀ r ∈ res.results, ∀ q ∈ res.results, r.BIC = q.BIC → r = q) → res'.best = res.best)) ∧
    (up s ∈ ["AIC", "AICC"] → up s' ∈ ["AIC", "AICC"] → (∀ r ∈ res.results, r.AICc ≠ none) →
      (∃ r ∈ res.results, r.model = res'.best ∧ ∀ q ∈ res.results, ∃ u v, r.AICc = some u ∧ q.AICc = some v ∧ u ≤ v) ∧
      ((∀ r ∈ res.results, ∀ q ∈ res.results, r.AICc = q.AICc → r = q) → res'.best = res.best)) := by
  obtain ⟨b, rest, g1, g2, g3, g4, -⟩ := C123_best key stress ha J O₁ O₂ x res h s hs
  obtain ⟨b', rest', g1', g2', g3', g4', -⟩ := C123_best key' stress' ha' J' O₁' O₂' x' res' h' s' hs'
  refine best_of_rows (n := F.length) (k := k) (fun row hr row' hr' hn => C171_rows_dual hkey hkey' ha ha' hE hE' h1 h1' h h' hu hu' hk hk₁ hk₂
    hF hC pF pC hr hr' hn (hadm row hr) (hadm' row' hr')) (fun m => ?_) ⟨b, rest, g1, g2, g3, g4⟩ ⟨b', rest', g1', g2', g3', g4'⟩
  rw [(C123_dual key stress ha J O₁ O₂ x h1 res h).2.1, (C123_dual key' stress' ha' J' O₁' O₂' x' h1' res' h').2.1, he]

/-- **C167 (Fit_Everything_ALT, one stress).** With exact optimizers that succeed whenever there is a minimum, on data that meet the
documented requirements with the conditions of C167, Fit_Everything_ALT without the Normal models returns a table in which every row is
admissible. -/
theorem C167_everything_single {κ : Type} [LinearOrder κ] (key : ℝ → Option ℝ → κ) (stress : κ → ℝ × ℝ)
    (hkey : ∀ a b, stress (key a (some b)) = (a, b)) {argsort : List ℝ → List ℕ} (ha : IsArgsort argsort) (J : Jac)
    {O₁ : Oracle ℝ} (O₂ : Oracle (ℝ × ℝ)) (hE : ∀ c i fo, Exact (O₁.num c i fo).minimize ∧ Exact (O₁.num c i fo).minimize1)
    (hs : ∀ c i fo, Finds (O₁.num c i fo).minimize ∧ Finds (O₁.num c i fo).minimize1)
    (hmE : ∀ c, Exact (O₁.minimize c) ∧ Finds (O₁.minimize c)) (x : FEAArgs) (he : Item.other ∉ x.exclude.getD [])
    (hno : ∀ m ∈ ["Exponential", "Eyring", "Power"], Asked x.exclude ("Normal" ++ "_" ++ m)) (s : String) (hsb : x.sort_by = some s)
    (hn : up s ∈ ["BIC", "AIC", "AICC", "LOGLIK", "LOG LIK", "LOG-LIKELIHOOD", "LL", "LOGLIKELIHOOD", "LOG LIKELIHOOD"])
    (hm : ∃ m ∈ altModelNames false, ¬ Asked x.exclude m) (F C : List (ℝ × ℝ))
    (q : ALTRequirements "Everything" "Everything" x.failures x.failure_stress_1 x.failure_stress_2 x.right_censored
        x.right_censored_stress_1 x.right_censored_stress_2 x.CI x.use_level_stress x.optimizer false
        (F.map Prod.fst) (F.map Prod.snd) [] (C.map Prod.fst) (C.map Prod.snd) [])
    (hpos : ∀ i ∈ F, 0 < i.2) (hCF : ∀ i ∈ C, ∃ t, (t, i.2) ∈ F)
    (hG : ∀ i ∈ F, (unitsAt F i.2).length = 1 ∨ 2 ≤ (unitsAt F i.2).toFinset.card)
    (hex : ∀ m : LifeStress, m.Valid → ∃ i ∈ F, i.1 ≠ lifeAt1 m i.2) :
    ∃ res, fitEverythingALT key stress argsort J O₁ O₂ x = .ok res ∧ ∀ row ∈ res.results, AdmissibleRow row := by
  have each : ∀ c ∈ singleClasses, ¬ Asked x.exclude (c.dist ++ "_" ++ c.model) → ∃ r m d,
      fitALT c singleKind argsort J (O₁.num c) (O₁.noise c) (O₁.minimize c) x.toALTArgs = .ok r ∧ ExactALT1 c x.toALTArgs r ∧
        altModel c.dist c.model (estimates r) = some (m, d) ∧ m.Valid ∧ d.Valid := by
    intro c hc hx
    refine C167_single hc (fun e => hx ?_) ha J (fun i fo => (hE c i fo).1) (fun i fo => (hE c i fo).2) (fun i fo => (hs c i fo).1)
      (fun i fo => (hs c i fo).2) _ (hmE c).1 (hmE c).2 x.toALTArgs F C
      (requirements q (single_family.dists c hc) (single_family.models c hc) (single_family.kind c hc)) hpos hCF hG
      (fun _ _ m _ _ hm => hex m hm)
    rw [e]
    exact hno _ (models_single hc).1
  obtain ⟨res, hres⟩ := (C123_returns_iff_each_does key stress hkey ha J (O₁ := O₁) (O₂ := O₂) x he s hsb hn q hm).2
    ⟨fun _ c hc hx => (by obtain ⟨r, m, d, h, -⟩ := each c hc hx; exact ⟨r, h⟩), fun e => by cases e⟩
  refine ⟨res, hres, fun row hrow => ?_⟩
  have h1 : x.failure_stress_2 = .none := by
    by_contra h
    have := q.is_dual.2 (.inr (.inr (.inr ⟨rfl, h⟩)))
    cases this
  obtain ⟨-, r2, r3⟩ := C123_single key stress ha J O₁ O₂ x h1 res hres
  obtain ⟨c, hc, e, r, hfit, hsh⟩ := r3 row hrow
  have hx := ((r2 row.model).1 (List.mem_map_of_mem hrow)).2
  rw [e] at hx
  obtain ⟨r', m, d, hr', hE', hmd, hmv, hdv⟩ := each c hc hx
  obtain rfl : r = r' := by have := hfit.symm.trans hr'; cases this; rfl
  obtain ⟨F₀, C₀, use, CI, ls, -, -, -, -, n, p, m', d', V, q1, q2, q3, -⟩ := C110_single c hc _ _ _ _ _ _ _ hfit
  refine (admissible_iff (single_names hc).1 (single_names hc).2 hsh e q1 q2).2 ⟨hE'.1, ?_⟩
  rw [← report_model q2 q3] at q1
  have := hmd.symm.trans q1
  cases this
  exact ⟨hmv, hdv⟩

/-- **C167 (Fit_Everything_ALT, two stresses).** -/
theorem C167_everything_dual {κ : Type} [LinearOrder κ] (key : ℝ → Option ℝ → κ) (stress : κ → ℝ × ℝ)
    (hkey : ∀ a b, stress (key a (some b)) = (a, b)) {argsort : List ℝ → List ℕ} (ha : IsArgsort argsort) (J : Jac)
    (O₁ : Oracle ℝ) {O₂ : Oracle (ℝ × ℝ)} (hE : ∀ c i fo, Exact (O₂.num c i fo).minimize ∧ Exact (O₂.num c i fo).minimize1)
    (hs : ∀ c i fo, Finds (O₂.num c i fo).minimize ∧ Finds (O₂.num c i fo).minimize1)
    (hmE : ∀ c, Exact (O₂.minimize c) ∧ Finds (O₂.minimize c)) (x : FEAArgs) (he : Item.other ∉ x.exclude.getD [])
    (hno : ∀ m ∈ ["Dual_Exponential", "Power_Exponential", "Dual_Power"], Asked x.exclude ("Normal" ++ "_" ++ m)) (s : String)
    (hsb : x.sort_by = some s)
    (hn : up s ∈ ["BIC", "AIC", "AICC", "LOGLIK", "LOG LIK", "LOG-LIKELIHOOD", "LL", "LOGLIKELIHOOD", "LOG LIKELIHOOD"])
    (hm : ∃ m ∈ altModelNames true, ¬ Asked x.exclude m) (F C : List (ℝ × ℝ × ℝ))
    (q : ALTRequirements "Everything" "Everything" x.failures x.failure_stress_1 x.failure_stress_2 x.right_censored
        x.right_censored_stress_1 x.right_censored_stress_2 x.CI x.use_level_stress x.optimizer true
        (F.map Prod.fst) (F.map fun i => i.2.1) (F.map fun i => i.2.2)
        (C.map Prod.fst) (C.map fun i => i.2.1) (C.map fun i => i.2.2))
    (hpos : ∀ i ∈ F, 0 < i.2.1 ∧ 0 < i.2.2)
    (hG : ∀ i ∈ F, (unitsAt F i.2).length = 1 ∨ 2 ≤ (unitsAt F i.2).toFinset.card)
    (hnc : ∀ m ∈ ["Dual_Exponential", "Power_Exponential", "Dual_Power"], ¬ Collinear2 (F.map fun i => stressScale m i.2))
    (hex : ∀ m : LifeStress, m.Valid → ∃ i ∈ F, i.1 ≠ lifeAt2 m i.2) :
    ∃ res, fitEverythingALT key stress argsort J O₁ O₂ x = .ok res ∧ ∀ row ∈ res.results, AdmissibleRow row := by
  have each : ∀ c ∈ dualClasses, ¬ Asked x.exclude (c.dist ++ "_" ++ c.model) → ∃ r m d,
      fitALT c (dualKind key stress) argsort J (O₂.num c) (O₂.noise c) (O₂.minimize c) x.toALTArgs = .ok r ∧ ExactALT2 c x.toALTArgs r ∧
        altModel c.dist c.model (estimates r) = some (m, d) ∧ m.Valid ∧ d.Valid := by
    intro c hc hx
    refine C167_dual key stress hkey hc (fun e => hx ?_) ha J (fun i fo => (hE c i fo).1) (fun i fo => (hE c i fo).2)
      (fun i fo => (hs c i fo).1)
      (fun i fo => (hs c i fo).2) _ (hmE c).1 (hmE c).2 x.toALTArgs F C
      (requirements q (dual_family.dists c hc) (dual_family.models c hc) (dual_family.kind c hc)) hpos hG (hnc _ (models_dual hc).1)
      (fun _ _ m _ _ hm => hex m hm)
    rw [e]
    exact hno _ (models_dual hc).1
  obtain ⟨res, hres⟩ := (C123_returns_iff_each_does key stress hkey ha J (O₁ := O₁) (O₂ := O₂) x he s hsb hn q hm).2
    ⟨fun e => (by cases e), fun _ c hc hx => (by obtain ⟨r, m, d, h, -⟩ := each c hc hx; exact ⟨r, h⟩)⟩
  refine ⟨res, hres, fun row hrow => ?_⟩
  have h1 : x.failure_stress_2 ≠ .none := by
    intro h
    have := (isDual_iff _ _).2 (q.is_dual.1 rfl)
    rw [h] at this
    revert this
    decide
  obtain ⟨-, r2, r3⟩ := C123_dual key stress ha J O₁ O₂ x h1 res hres
  obtain ⟨c, hc, e, r, hfit, hsh⟩ := r3 row hrow
  have hx := ((r2 row.model).1 (List.mem_map_of_mem hrow)).2
  rw [e] at hx
  obtain ⟨r', m, d, hr', hE', hmd, hmv, hdv⟩ := each c hc hx
  obtain rfl : r = r' := by have := hfit.symm.trans hr'; cases this; rfl
  obtain ⟨F₀, C₀, use, CI, ls, -, -, -, -, n, p, m', d', V, q1, q2, q3, -⟩ := C110_dual key stress hkey c hc _ _ _ _ _ _ _ hfit
  refine (admissible_iff (dual_names hc).1 (dual_names hc).2 hsh e q1 q2).2 ⟨hE'.1, ?_⟩
  rw [← report_model q2 q3] at q1
  have := hmd.symm.trans q1
  cases this
  exact ⟨hmv, hdv⟩

/-! ## Example -/

/-- Times multiplied by `k` and stresses by `k₁`. -/
noncomputable def exUnits (k k₁ : ℝ) (l : List (ℝ × ℝ)) : List (ℝ × ℝ) := l.map fun i => (k * i.1, k₁ * i.2)

/-- A call without the Normal models on the data of the example for C110 in any units. -/
noncomputable def exFEA (k k₁ : ℝ) (s : String) : FEAArgs :=
  { failures := .array ((exUnits k k₁ exF).map Prod.fst), failure_stress_1 := .array ((exUnits k k₁ exF).map Prod.snd),
    right_censored := .array ((exUnits k k₁ exC).map Prod.fst), right_censored_stress_1 := .array ((exUnits k k₁ exC).map Prod.snd),
    exclude := some [.str "normal_exponential", .str "Normal_Eyring", .str "NORMAL_POWER"], sort_by := some s }

noncomputable def exOracle (σ : Type) : Oracle σ := ⟨fun _ _ => exactNum, fun _ => 0, fun _ => exactMin⟩

theorem exFEA_returns {argsort : List ℝ → List ℕ} (ha : IsArgsort argsort) (J : Jac) {k k₁ : ℝ} (hk : 0 < k) (hk₁ : 0 < k₁) (s : String)
    (hs : up s ∈ ["BIC", "AIC", "AICC", "LOGLIK", "LOG LIK", "LOG-LIKELIHOOD", "LL", "LOGLIKELIHOOD", "LOG LIKELIHOOD"]) :
    ∃ res, fitEverythingALT (κ := ℝ ×ₗ ℝ) (fun a b => toLex (a, b.getD 0)) ofLex argsort J (exOracle ℝ) (exOracle (ℝ × ℝ))
      (exFEA k k₁ s) = .ok res ∧ ∀ row ∈ res.results, AdmissibleRow row := by
  have asked : ∀ m ∈ ["Exponential", "Eyring", "Power"], Asked (exFEA k k₁ s).exclude ("Normal" ++ "_" ++ m) := by
    intro m hm
    simp only [List.mem_cons, List.not_mem_nil, or_false] at hm
    rcases hm with rfl | rfl | rfl
    · exact ⟨_, rfl, "normal_exponential", by simp, by unfold SameName; decide +kernel⟩
    · exact ⟨_, rfl, "Normal_Eyring", by simp, by unfold SameName; decide +kernel⟩
    · exact ⟨_, rfl, "NORMAL_POWER", by simp, by unfold SameName; decide +kernel⟩
  have hne : k₁ * 2 ≠ k₁ * 1 := fun e => by have := mul_left_cancel₀ hk₁.ne' e; norm_num at this
  have h3 : k₁ * 3 ≠ k₁ * 1 := fun e => by have := mul_left_cancel₀ hk₁.ne' e; norm_num at this
  have h32 : k₁ * 3 ≠ k₁ * 2 := fun e => by have := mul_left_cancel₀ hk₁.ne' e; norm_num at this
  have t1 : k * 5 ≠ k * 6 := fun e => by have := mul_left_cancel₀ hk.ne' e; norm_num at this
  have t2 : k * 10 ≠ k * 12 := fun e => by have := mul_left_cancel₀ hk.ne' e; norm_num at this
  refine C167_everything_single _ _ (by intros; rfl) ha J _ (fun _ _ _ => ⟨exactMin_exact, exactMin_exact⟩)
    (fun _ _ _ => ⟨exactMin_finds, exactMin_finds⟩) (fun _ => ⟨exactMin_exact, exactMin_finds⟩) _ (by simp [exFEA]) asked s rfl hs ?_
    (exUnits k k₁ exF) (exUnits k k₁ exC) ?_ ?_ ?_ ?_ ?_
  · refine ⟨"Weibull_Power", by decide, ?_⟩
    rintro ⟨l, hl, t, ht, hst⟩
    cases hl
    simp only [List.mem_cons, List.not_mem_nil, or_false, Item.str.injEq] at ht
    rcases ht with rfl | rfl | rfl <;> revert hst <;> unfold SameName <;> decide +kernel
  · refine ⟨by simp, by simp, ?_, ⟨rfl, rfl, by simp, fun _ => rfl⟩, .inr ⟨rfl, rfl, by simp, fun _ => rfl⟩,
      ⟨by simp, by simp, by simp⟩, ⟨?_, ?_⟩, ⟨0.95, rfl, by norm_num, by norm_num⟩, ⟨none, .inl ⟨rfl, rfl⟩⟩, ⟨?_, by simp⟩, ?_,
      by simp, .inl rfl⟩
    · rw [← isDual_iff]; simp [exFEA, isDual]
    · simp [exF, exUnits, hk]
    · simp [exC, exUnits, hk]
    · refine Finset.one_lt_card.2 ⟨k₁ * 2, by simp [exF, exUnits], k₁ * 1, by simp [exF, exUnits], hne⟩
    · simp only [Bool.false_eq_true, if_false]
      refine Finset.two_lt_card.2 ⟨((k₁ * 1, none), k * 5), ?_, ((k₁ * 1, none), k * 6), ?_, ((k₁ * 2, none), k * 12), ?_, ?_, ?_, ?_⟩
      · simp [exF, exUnits, stressRows]
      · simp [exF, exUnits, stressRows]
      · simp [exF, exUnits, stressRows]
      · intro e; exact t1 (congrArg Prod.snd e)
      · intro e; exact hne (congrArg (fun p => p.1.1) e).symm
      · intro e; exact hne (congrArg (fun p => p.1.1) e).symm
  · simp [exF, exUnits, hk₁]
  · intro i hi
    simp only [exC, exUnits, List.map_cons, List.map_nil, List.mem_cons, List.not_mem_nil, or_false] at hi
    subst hi
    exact ⟨k * 5, by simp [exF, exUnits]⟩
  · intro i hi
    simp only [exF, exUnits, List.map_cons, List.map_nil, List.mem_cons, List.not_mem_nil, or_false] at hi
    have q1 : ∀ a b : ℝ, k₁ * a = k₁ * b ↔ a = b := fun a b => mul_right_inj' hk₁.ne'
    rcases hi with rfl | rfl | rfl | rfl | rfl
    · right; refine Finset.one_lt_card.2 ⟨k * 5, ?_, k * 6, ?_, t1⟩ <;> simp [unitsAt, exF, exUnits]
    · right; refine Finset.one_lt_card.2 ⟨k * 5, ?_, k * 6, ?_, t1⟩ <;> simp [unitsAt, exF, exUnits]
    · right; refine Finset.one_lt_card.2 ⟨k * 10, ?_, k * 12, ?_, t2⟩ <;> simp [unitsAt, exF, exUnits]
    · right; refine Finset.one_lt_card.2 ⟨k * 10, ?_, k * 12, ?_, t2⟩ <;> simp [unitsAt, exF, exUnits]
    · left
      have e1 : k₁ ≠ k₁ * 3 := fun e => h3 (by rw [mul_one]; exact e.symm)
      simp [unitsAt, exF, exUnits, List.filter_cons, e1, h32.symm]
  · intro m hm
    by_contra h
    push Not at h
    have h1 := h (k * 5, k₁ * 1) (by simp [exF, exUnits])
    have h2 := h (k * 6, k₁ * 1) (by simp [exF, exUnits])
    exact t1 (h1.trans h2.symm)

/-- C171 applies: hours and kelvin, or minutes and another scale of stress. -/
example {argsort : List ℝ → List ℕ} (ha : IsArgsort argsort) (J : Jac) : ∃ res res' : ALT.FEAResult,
    fitEverythingALT (κ := ℝ ×ₗ ℝ) (fun a b => toLex (a, b.getD 0)) ofLex argsort J (exOracle ℝ) (exOracle (ℝ × ℝ)) (exFEA 1 1 "BIC") = .ok res ∧
    fitEverythingALT (κ := ℝ ×ₗ ℝ) (fun a b => toLex (a, b.getD 0)) ofLex argsort J (exOracle ℝ) (exOracle (ℝ × ℝ)) (exFEA 60 2 "bic") = .ok res' ∧
    (∀ row ∈ res.results, ∀ row' ∈ res'.results, row'.model = row.model → row'.BIC = row.BIC + 2 * 5 * Real.log 60) ∧
    ∃ r ∈ res.results, r.model = res'.best ∧ ∀ q ∈ res.results, r.BIC ≤ q.BIC := by
  obtain ⟨res, h, hadm⟩ := exFEA_returns ha J one_pos one_pos "BIC" (by decide +kernel)
  obtain ⟨res', h', hadm'⟩ := exFEA_returns ha J (k := 60) (k₁ := 2) (by norm_num) (by norm_num) "bic" (by decide +kernel)
  have perm : ∀ l : List (ℝ × ℝ), (exUnits 60 2 l).Perm ((exUnits 1 1 l).map fun i => (60 * i.1, 2 * i.2)) := fun l => by
    simp [exUnits]
  have hu : ∀ k k₁ s, UsedSingle (exFEA k k₁ s).toALTArgs (exUnits k k₁ exF) (exUnits k k₁ exC) := fun _ _ _ => ⟨rfl, rfl, .inr ⟨rfl, rfl⟩⟩
  have pF : ∀ i ∈ exUnits 1 1 exF, (0 : ℝ) < i.2 := by simp [exUnits, exF]
  have pC : ∀ i ∈ exUnits 1 1 exC, (0 : ℝ) < i.2 := by simp [exUnits, exC]
  refine ⟨res, res', h, h', fun row hr row' hr' hn => ?_, ?_⟩
  · have := (C171_rows_single ha ha (fun _ => exactMin_exact) (fun _ => exactMin_exact) rfl rfl h h' (hu ..) (hu ..) (k := 60) (k₁ := 2)
      (by norm_num) (by norm_num) (perm _) (perm _) pF pC hr hr' hn (hadm row hr) (hadm' row' hr')).BIC
    rw [this]
    norm_num [exUnits, exF]
  · exact ((C171_best_single ha ha (fun _ => exactMin_exact) (fun _ => exactMin_exact) rfl rfl h h' (hu ..) (hu ..) (k := 60) (k₁ := 2)
      (by norm_num) (by norm_num) (perm _) (perm _) pF pC rfl rfl rfl hadm hadm').1 (by decide +kernel) (by decide +kernel)).1

end Reliability.Props.UnitsALT

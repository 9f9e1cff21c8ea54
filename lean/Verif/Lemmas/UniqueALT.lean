import Verif.Lemmas.UniqueML
import Verif.Spec.UniqueALT

/-! # The likelihood of a log-linear life-stress model has at most one maximum -/

namespace Reliability.UniqueALT

open Reliability Reliability.Distributions Reliability.Spec Reliability.LogConcave Reliability.UniqueML Reliability.Spec.ALTGlue
open Reliability.FunctionCI (CFam distOf)
open Reliability.Props Reliability.RankReg

/-! ## Names and parameters -/

def mname : LifeStress → String
  | .exponential .. => "Exponential"
  | .eyring .. => "Eyring"
  | .power .. => "Power"
  | .dualExponential .. => "Dual_Exponential"
  | .powerExponential .. => "Power_Exponential"
  | .dualPower .. => "Dual_Power"

def mpars : LifeStress → List ℝ
  | .exponential a b => [a, b]
  | .eyring a c => [a, c]
  | .power a n => [a, n]
  | .dualExponential a b c => [a, b, c]
  | .powerExponential a c n => [a, c, n]
  | .dualPower c m n => [c, m, n]

def dname : LifeDist → String
  | .weibull _ => "Weibull"
  | .lognormal _ => "Lognormal"
  | .normal _ => "Normal"
  | .exponential => "Exponential"

def dpars : LifeDist → List ℝ
  | .weibull b => [b]
  | .lognormal b => [b]
  | .normal b => [b]
  | .exponential => []

theorem stressModel_iff (model : String) (l : List ℝ) (m : LifeStress) :
    stressModel model l = some m ↔ model = mname m ∧ l = mpars m := by
  constructor
  · intro h
    unfold stressModel at h
    split at h <;> cases h <;> exact ⟨rfl, rfl⟩
  · rintro ⟨rfl, rfl⟩
    cases m <;> rfl

theorem lifeDist_iff (dist : String) (l : List ℝ) (d : LifeDist) : lifeDist dist l = some d ↔ dist = dname d ∧ l = dpars d := by
  constructor
  · intro h
    unfold lifeDist at h
    split at h <;> cases h <;> exact ⟨rfl, rfl⟩
  · rintro ⟨rfl, rfl⟩
    cases d <;> rfl

theorem mpars_length (m : LifeStress) : (stressParameters (mname m)).length = (mpars m).length := by cases m <;> rfl

theorem altModel_iff (dist model : String) (ps : List ℝ) (m : LifeStress) (d : LifeDist) :
    altModel dist model ps = some (m, d) ↔ model = mname m ∧ dist = dname d ∧ ps = mpars m ++ dpars d := by
  constructor
  · intro h
    unfold altModel at h
    split at h
    · rename_i m' d' h1 h2
      cases h
      obtain ⟨rfl, e1⟩ := (stressModel_iff ..).1 h1
      obtain ⟨rfl, e2⟩ := (lifeDist_iff ..).1 h2
      refine ⟨rfl, rfl, ?_⟩
      rw [← e1, ← e2, List.take_append_drop]
    · cases h
  · rintro ⟨rfl, rfl, rfl⟩
    unfold altModel
    rw [mpars_length, List.take_left, List.drop_left, (stressModel_iff ..).2 ⟨rfl, rfl⟩, (lifeDist_iff ..).2 ⟨rfl, rfl⟩]

/-! ## Mixing two models -/

/-- The geometric mean with weights. -/
noncomputable def gm (w w' x x' : ℝ) : ℝ := Real.exp (w * Real.log x + w' * Real.log x')

noncomputable def mix (w w' : ℝ) : LifeStress → LifeStress → LifeStress
  | .exponential a b, .exponential a' b' => .exponential (w * a + w' * a') (gm w w' b b')
  | .eyring a c, .eyring a' c' => .eyring (w * a + w' * a') (w * c + w' * c')
  | .power a n, .power a' n' => .power (gm w w' a a') (w * n + w' * n')
  | .dualExponential a b c, .dualExponential a' b' c' => .dualExponential (w * a + w' * a') (w * b + w' * b') (gm w w' c c')
  | .powerExponential a c n, .powerExponential a' c' n' => .powerExponential (w * a + w' * a') (gm w w' c c') (w * n + w' * n')
  | .dualPower c m n, .dualPower c' m' n' => .dualPower (gm w w' c c') (w * m + w' * m') (w * n + w' * n')
  | m, _ => m

theorem log_life (m : LifeStress) (h : m.Valid) {S1 S2 : ℝ} (h1 : 0 < S1) (h2 : 0 < S2) :
    Real.log (m.life S1 S2) = match m with
      | .exponential a b => Real.log b + a / S1
      | .eyring a c => a / S1 - c - Real.log S1
      | .power a n => Real.log a + n * Real.log S1
      | .dualExponential a b c => Real.log c + (a / S1 + b / S2)
      | .powerExponential a c n => Real.log c + n * Real.log S2 + a / S1
      | .dualPower c m n => Real.log c + m * Real.log S1 + n * Real.log S2 := by
  cases m with
  | exponential a b =>
    have h : 0 < b := h
    simp only [LifeStress.life]
    rw [Real.log_mul h.ne' (Real.exp_pos _).ne', Real.log_exp]
  | eyring a c =>
    simp only [LifeStress.life]
    rw [Real.log_div (Real.exp_pos _).ne' h1.ne', Real.log_exp]
  | power a n =>
    have h : 0 < a := h
    simp only [LifeStress.life]
    rw [Real.log_mul h.ne' (Real.rpow_pos_of_pos h1 _).ne', Real.log_rpow h1]
  | dualExponential a b c =>
    have h : 0 < c := h
    simp only [LifeStress.life]
    rw [Real.log_mul h.ne' (Real.exp_pos _).ne', Real.log_exp]
  | powerExponential a c n =>
    have h : 0 < c := h
    have := Real.rpow_pos_of_pos h2 n
    simp only [LifeStress.life]
    rw [Real.log_mul (by positivity) (Real.exp_pos _).ne', Real.log_mul h.ne' this.ne', Real.log_rpow h2, Real.log_exp]
  | dualPower c m n =>
    have h : 0 < c := h
    have p1 := Real.rpow_pos_of_pos h1 m
    have p2 := Real.rpow_pos_of_pos h2 n
    simp only [LifeStress.life]
    rw [Real.log_mul (by positivity) p2.ne', Real.log_mul h.ne' p1.ne', Real.log_rpow h1, Real.log_rpow h2]

theorem mix_law {w w' : ℝ} (hw : w + w' = 1) {m m' : LifeStress} (hn : mname m = mname m') (h : m.Valid) (h' : m'.Valid) :
    mname (mix w w' m m') = mname m ∧ (mix w w' m m').Valid ∧ ∀ S1 S2, 0 < S1 → 0 < S2 →
      Real.log ((mix w w' m m').life S1 S2) = w * Real.log (m.life S1 S2) + w' * Real.log (m'.life S1 S2) := by
  have hv : (mix w w' m m').Valid := by
    cases m <;> cases m' <;> first | (exact Real.exp_pos _) | trivial | (simp [mname, dname] at hn; done)
  refine ⟨?_, hv, fun S1 S2 h1 h2 => ?_⟩
  · cases m <;> cases m' <;> first | rfl | (simp [mname, dname] at hn; done)
  · rw [log_life _ hv h1 h2, log_life m h h1 h2, log_life m' h' h1 h2]
    have hw' : w' = 1 - w := by linarith
    subst hw'
    cases m <;> cases m' <;> first | (simp [mname, dname] at hn; done) | (simp only [mix, gm, Real.log_exp]; ring)

/-- The slope on the scale of the logarithm of time. -/
noncomputable def slopeD : LifeDist → ℝ
  | .weibull b => b
  | .lognormal s => 1 / s
  | .normal s => 1 / s
  | .exponential => 1

noncomputable def mixD : LifeDist → LifeDist → LifeDist
  | .weibull b, .weibull b' => .weibull ((b + b') / 2)
  | .lognormal s, .lognormal s' => .lognormal (1 / ((1 / s + 1 / s') / 2))
  | d, _ => d

theorem slopeD_pos {d : LifeDist} (h : d.Valid) : 0 < slopeD d := by
  cases d <;> simp only [slopeD, LifeDist.Valid] at * <;> positivity

theorem mixD_law {d d' : LifeDist} (hn : dname d = dname d') (h : d.Valid) (h' : d'.Valid) (hno : dname d ≠ "Normal") :
    dname (mixD d d') = dname d ∧ (mixD d d').Valid ∧ slopeD (mixD d d') = (slopeD d + slopeD d') / 2 := by
  cases d <;> cases d' <;> first | (simp [mname, dname] at hn; done) | (exact absurd rfl hno) | skip
  · simp only [LifeDist.Valid] at h h'
    exact ⟨rfl, show 0 < (_ : ℝ) by positivity, rfl⟩
  · simp only [LifeDist.Valid] at h h'
    refine ⟨rfl, show 0 < (_ : ℝ) by positivity, ?_⟩
    simp only [mixD, slopeD, one_div_one_div]
  · exact ⟨rfl, trivial, by simp [mixD, slopeD]⟩

/-! ## Standard form -/

/-- The location-scale family of a life distribution. -/
def famD : LifeDist → CFam
  | .lognormal _ => .lognormal
  | _ => .weibull

theorem dist_std {d : LifeDist} (hd : d.Valid) (hno : dname d ≠ "Normal") {life t : ℝ} (hl : 0 < life) (ht : 0 < t) :
    (d.dist life).sp.pdf t = slopeD d * stdPdf (famD d) (slopeD d * (Real.log t - Real.log life)) * (1 / t) ∧
      (d.dist life).sp.sf t = stdSf (famD d) (slopeD d * (Real.log t - Real.log life)) := by
  cases d with
  | weibull b =>
    have hp : ParamsOK .weibull life b := ⟨hd, fun _ => hl⟩
    have h1 := pdf_std (f := .weibull) (by decide) hp (t := t) ht
    have h2 := sf_std (f := .weibull) (by decide) hp (t := t) ht
    simp only [distOf, slopeOf, icptOf, timeScale, sub_zero, jac] at h1 h2
    simp only [LifeDist.dist, slopeD, famD, mul_sub]
    rw [sub_eq_add_neg]
    exact ⟨h1, h2⟩
  | lognormal s =>
    have hp : ParamsOK .lognormal (Real.log life) s := ⟨hd, fun h => by rcases h with h | h <;> cases h⟩
    have h1 := pdf_std (f := .lognormal) (by decide) hp (t := t) ht
    have h2 := sf_std (f := .lognormal) (by decide) hp (t := t) ht
    simp only [distOf, slopeOf, icptOf, timeScale, sub_zero, jac] at h1 h2
    simp only [LifeDist.dist, slopeD, famD]
    rw [show 1 / s * (Real.log t - Real.log life) = 1 / s * Real.log t + -(Real.log life / s) by ring]
    exact ⟨h1, h2⟩
  | normal s => exact absurd rfl hno
  | exponential =>
    have hp : ParamsOK .weibull life 1 := ⟨one_pos, fun _ => hl⟩
    have h1 := pdf_std (f := .weibull) (by decide) hp (t := t) ht
    have h2 := sf_std (f := .weibull) (by decide) hp (t := t) ht
    have e : (exponential (1 / life) 0).sp = (weibull life 1 0).sp := by
      simp only [Distributions.weibull, exponential, exponStd_eq, one_div_one_div]
    simp only [distOf, slopeOf, icptOf, timeScale, sub_zero, jac] at h1 h2
    simp only [LifeDist.dist, slopeD, famD, mul_sub]
    rw [sub_eq_add_neg, e]
    exact ⟨h1, h2⟩

theorem alt_std {σ : Type} {lifeAt : LifeStress → σ → ℝ} {m : LifeStress} {d : LifeDist} (hd : d.Valid) (hno : dname d ≠ "Normal")
    {F C : List (ℝ × σ)} (hF : ∀ i ∈ F, 0 < i.1 ∧ 0 < lifeAt m i.2) (hC : ∀ i ∈ C, 0 < i.1 ∧ 0 < lifeAt m i.2) :
    altLikelihood lifeAt m d F C =
      (F.map fun i => slopeD d * stdPdf (famD d) (slopeD d * (Real.log i.1 - Real.log (lifeAt m i.2))) * (1 / i.1)).prod *
        (C.map fun i => stdSf (famD d) (slopeD d * (Real.log i.1 - Real.log (lifeAt m i.2)))).prod := by
  unfold altLikelihood
  congr 2
  · exact List.map_congr_left fun i hi => (dist_std hd hno (hF i hi).2 (hF i hi).1).1
  · exact List.map_congr_left fun i hi => (dist_std hd hno (hC i hi).2 (hC i hi).1).2

theorem famD_eq {d d' : LifeDist} (h : dname d = dname d') : famD d = famD d' := by
  cases d <;> cases d' <;> first | rfl | (simp [dname] at h; done)

/-- Two most likely models have the same shape and the same life at the stresses of the failures. -/
theorem same_life {σ : Type} {lifeAt : LifeStress → σ → ℝ} {pos : σ → Prop}
    (hpos : ∀ m : LifeStress, m.Valid → ∀ s, pos s → 0 < lifeAt m s)
    (hmix : ∀ w w' m m', w + w' = 1 → mname m = mname m' → m.Valid → m'.Valid → ∀ s, pos s →
      Real.log (lifeAt (mix w w' m m') s) = w * Real.log (lifeAt m s) + w' * Real.log (lifeAt m' s))
    {m m' : LifeStress} {d d' : LifeDist} (hm : m.Valid) (hm' : m'.Valid) (hd : d.Valid) (hd' : d'.Valid)
    (hmn : mname m = mname m') (hdn : dname d = dname d') (hno : dname d ≠ "Normal") {F C : List (ℝ × σ)}
    (hF : ∀ i ∈ F, 0 < i.1 ∧ pos i.2) (hC : ∀ i ∈ C, 0 < i.1 ∧ pos i.2) (hne : F ≠ [])
    (h : ∀ m₁ d₁, mname m₁ = mname m → dname d₁ = dname d → m₁.Valid → d₁.Valid →
      altLikelihood lifeAt m₁ d₁ F C ≤ altLikelihood lifeAt m d F C)
    (h' : ∀ m₁ d₁, mname m₁ = mname m' → dname d₁ = dname d' → m₁.Valid → d₁.Valid →
      altLikelihood lifeAt m₁ d₁ F C ≤ altLikelihood lifeAt m' d' F C) :
    d = d' ∧ ∀ i ∈ F, lifeAt m i.2 = lifeAt m' i.2 := by
  have hq := slopeD_pos hd
  have hq' := slopeD_pos hd'
  by_contra hcon
  obtain ⟨dn, dv, ds⟩ := mixD_law hdn hd hd' hno
  set w := slopeD d / (slopeD d + slopeD d') with hw
  set w' := slopeD d' / (slopeD d + slopeD d') with hw'
  have hs : slopeD d + slopeD d' ≠ 0 := by positivity
  have hww : w + w' = 1 := by rw [hw, hw']; field_simp
  obtain ⟨mn, mv, -⟩ := mix_law hww hmn hm hm'
  have hmm := hmix w w' m m' hww hmn hm hm'
  have hlt := predictor_lt (slc_stdPdf (famD d)) (lc_stdSf (famD d)) (F := F) (C := C) (k := fun i => 1 / i.1)
    (fun i hi => one_div_pos.2 (hF i hi).1) hq hq'
    (z := fun i => slopeD d * (Real.log i.1 - Real.log (lifeAt m i.2)))
    (z' := fun i => slopeD d' * (Real.log i.1 - Real.log (lifeAt m' i.2)))
    (w := fun i => slopeD d * (Real.log i.1 - Real.log (lifeAt m i.2)))
    (w' := fun i => slopeD d' * (Real.log i.1 - Real.log (lifeAt m' i.2))) hne (by
      by_cases he : slopeD d = slopeD d'
      · right
        have hdd : d = d' := by
          cases d <;> cases d' <;> first | rfl | (simp [dname] at hdn; done) | (exact absurd rfl hno) | skip
          · simp only [slopeD] at he; rw [he]
          · simp only [slopeD, one_div, inv_inj] at he; rw [he]
        by_contra hall
        push Not at hall
        refine hcon ⟨hdd, fun i hi => ?_⟩
        have := hall i hi
        rw [he] at this
        have := mul_left_cancel₀ hq'.ne' this
        exact Real.log_injOn_pos (hpos m hm _ (hF i hi).2) (hpos m' hm' _ (hF i hi).2) (by linarith)
      · exact .inl he)
  have hz : ∀ i : ℝ × σ, pos i.2 → (slopeD d * (Real.log i.1 - Real.log (lifeAt m i.2)) +
      slopeD d' * (Real.log i.1 - Real.log (lifeAt m' i.2))) / 2 =
        slopeD (mixD d d') * (Real.log i.1 - Real.log (lifeAt (mix w w' m m') i.2)) := by
    intro i hi
    rw [hmm i.2 hi, ds, hw, hw']
    field_simp
    ring
  have e1 := alt_std (lifeAt := lifeAt) (m := m) hd hno (F := F) (C := C) (fun i hi => ⟨(hF i hi).1, hpos m hm _ (hF i hi).2⟩)
    (fun i hi => ⟨(hC i hi).1, hpos m hm _ (hC i hi).2⟩)
  have e2 := alt_std (lifeAt := lifeAt) (m := m') hd' (by rwa [← hdn]) (F := F) (C := C)
    (fun i hi => ⟨(hF i hi).1, hpos m' hm' _ (hF i hi).2⟩) (fun i hi => ⟨(hC i hi).1, hpos m' hm' _ (hC i hi).2⟩)
  have e3 := alt_std (lifeAt := lifeAt) (m := mix w w' m m') dv (by rwa [dn]) (F := F) (C := C)
    (fun i hi => ⟨(hF i hi).1, hpos _ mv _ (hF i hi).2⟩) (fun i hi => ⟨(hC i hi).1, hpos _ mv _ (hC i hi).2⟩)
  rw [← famD_eq hdn] at e2
  rw [famD_eq dn] at e3
  have e3' : altLikelihood lifeAt (mix w w' m m') (mixD d d') F C =
      (F.map fun i => (slopeD d + slopeD d') / 2 * stdPdf (famD d) ((slopeD d * (Real.log i.1 - Real.log (lifeAt m i.2)) +
        slopeD d' * (Real.log i.1 - Real.log (lifeAt m' i.2))) / 2) * (1 / i.1)).prod *
      (C.map fun i => stdSf (famD d) ((slopeD d * (Real.log i.1 - Real.log (lifeAt m i.2)) +
        slopeD d' * (Real.log i.1 - Real.log (lifeAt m' i.2))) / 2)).prod := by
    rw [e3]
    congr 2
    · exact List.map_congr_left fun i hi => by rw [hz i (hF i hi).2, ds]
    · exact List.map_congr_left fun i hi => by rw [hz i (hC i hi).2]
  rw [← e1, ← e2, ← e3'] at hlt
  have h1 := h _ _ mn dn mv dv
  have h2 := h' _ _ (mn.trans hmn) (dn.trans hdn) mv dv
  have hp : 0 < altLikelihood lifeAt (mix w w' m m') (mixD d d') F C := by
    rw [e3]
    exact mul_pos (prod_map_pos fun i hi => mul_pos (mul_pos (slopeD_pos dv) ((slc_stdPdf _).pos _)) (one_div_pos.2 (hF i hi).1))
      (prod_map_pos fun i _ => (lc_stdSf _).pos _)
  have h3 := mul_le_mul h1 h2 hp.le (hp.le.trans h1)
  rw [sq] at hlt
  exact absurd hlt (not_lt.2 h3)

/-! ## Identification -/

/-- Two stresses identify a model with one stress. -/
theorem identify1 {m m' : LifeStress} (hm : m.Valid) (hm' : m'.Valid) (hmn : mname m = mname m')
    (hk : mname m ∈ ["Exponential", "Eyring", "Power"]) {s t : ℝ} (hs : 0 < s) (ht : 0 < t) (hst : s ≠ t)
    (h1 : m.life s 1 = m'.life s 1) (h2 : m.life t 1 = m'.life t 1) : m = m' := by
  have e1 := congrArg Real.log h1
  have e2 := congrArg Real.log h2
  rw [log_life m hm hs one_pos, log_life m' hm' hs one_pos] at e1
  rw [log_life m hm ht one_pos, log_life m' hm' ht one_pos] at e2
  have hinv : 1 / s - 1 / t ≠ 0 := sub_ne_zero.2 fun h => hst (by simpa using h)
  have hlog : Real.log s - Real.log t ≠ 0 := sub_ne_zero.2 fun h => hst (Real.log_injOn_pos hs ht h)
  cases m <;> cases m' <;> first | (simp [mname] at hmn; done) | (simp [mname] at hk; done) | skip
  · rename_i a b a' b'
    simp only at e1 e2
    have ea : a = a' := by
      have : (a - a') * (1 / s - 1 / t) = 0 := by
        linear_combination e1 - e2
      exact sub_eq_zero.1 ((mul_eq_zero.1 this).resolve_right hinv)
    subst ea
    have eb : Real.log b = Real.log b' := by linarith
    rw [Real.log_injOn_pos hm hm' eb]
  · rename_i a b a' b'
    simp only at e1 e2
    have ea : a = a' := by
      have : (a - a') * (1 / s - 1 / t) = 0 := by
        linear_combination e1 - e2
      exact sub_eq_zero.1 ((mul_eq_zero.1 this).resolve_right hinv)
    subst ea
    have eb : b = b' := by linarith
    rw [eb]
  · rename_i a b a' b'
    simp only at e1 e2
    have ea : b = b' := by
      have : (b - b') * (Real.log s - Real.log t) = 0 := by
        linear_combination e1 - e2
      exact sub_eq_zero.1 ((mul_eq_zero.1 this).resolve_right hlog)
    subst ea
    have eb : Real.log a = Real.log a' := by linarith
    rw [Real.log_injOn_pos hm hm' eb]

/-- Add a linear function of the scaled stresses to the logarithm of a dual-stress life. -/
noncomputable def shift (α β γ : ℝ) : LifeStress → LifeStress
  | .dualExponential a b c => .dualExponential (a + β) (b + γ) (c * Real.exp α)
  | .powerExponential a c n => .powerExponential (a + β) (c * Real.exp α) (n + γ)
  | .dualPower c m n => .dualPower (c * Real.exp α) (m + β) (n + γ)
  | m => m

theorem shift_law {m : LifeStress} (hm : m.Valid) (hk : mname m ∈ ["Dual_Exponential", "Power_Exponential", "Dual_Power"])
    (α β γ : ℝ) : mname (shift α β γ m) = mname m ∧ (shift α β γ m).Valid ∧ ∀ s : ℝ × ℝ, 0 < s.1 → 0 < s.2 →
      Real.log ((shift α β γ m).life s.1 s.2) = Real.log (m.life s.1 s.2) +
        (α + β * (stressScale (mname m) s).1 + γ * (stressScale (mname m) s).2) := by
  have hv : (shift α β γ m).Valid := by
    cases m <;> first | (simp [mname] at hk; done) | skip
    all_goals exact mul_pos hm (Real.exp_pos _)
  refine ⟨?_, hv, fun s h1 h2 => ?_⟩
  · cases m <;> rfl
  · rw [log_life _ hv h1 h2, log_life m hm h1 h2]
    cases m <;> first | (simp [mname] at hk; done) | skip
    all_goals
      first | rw [show ∀ s : ℝ × ℝ, stressScale (mname (.dualPower _ _ _)) s = (Real.log s.1, Real.log s.2) from fun _ => rfl] | skip
      simp only [shift, mname, stressScale]
      rw [Real.log_mul (ne_of_gt hm) (Real.exp_pos _).ne', Real.log_exp]
      ring

theorem shift_inj {m : LifeStress} (hm : m.Valid) (hk : mname m ∈ ["Dual_Exponential", "Power_Exponential", "Dual_Power"])
    {α β γ : ℝ} (h : shift α β γ m = m) : (α, β, γ) = (0, 0, 0) := by
  cases m <;> first | (simp [mname] at hk; done) | skip
  all_goals
    simp only [LifeStress.Valid] at hm
    simp only [shift, LifeStress.dualExponential.injEq, LifeStress.powerExponential.injEq, LifeStress.dualPower.injEq, add_eq_left,
      mul_eq_left₀ (ne_of_gt hm), Real.exp_eq_one_iff] at h
    obtain ⟨h1, h2, h3⟩ := h
    simp [h1, h2, h3]

theorem shift_surj {m m' : LifeStress} (hm : m.Valid) (hm' : m'.Valid) (hmn : mname m = mname m')
    (hk : mname m ∈ ["Dual_Exponential", "Power_Exponential", "Dual_Power"]) : ∃ α β γ, m' = shift α β γ m := by
  cases m <;> cases m' <;> first | (simp [mname] at hk; done) | (simp [mname] at hmn; done) | skip
  · rename_i a b c a' b' c'
    exact ⟨Real.log (c' / c), a' - a, b' - b, by
      simp only [shift, add_sub_cancel]; rw [Real.exp_log (div_pos hm' hm), mul_div_cancel₀ _ (ne_of_gt hm)]⟩
  · rename_i a b c a' b' c'
    exact ⟨Real.log (b' / b), a' - a, c' - c, by
      simp only [shift, add_sub_cancel]; rw [Real.exp_log (div_pos hm' hm), mul_div_cancel₀ _ (ne_of_gt hm)]⟩
  · rename_i a b c a' b' c'
    exact ⟨Real.log (a' / a), b' - b, c' - c, by
      simp only [shift, add_sub_cancel]; rw [Real.exp_log (div_pos hm' hm), mul_div_cancel₀ _ (ne_of_gt hm)]⟩

/-- Three stresses that are not on a line identify a model with two stresses. -/
theorem identify2 {m m' : LifeStress} (hm : m.Valid) (hm' : m'.Valid) (hmn : mname m = mname m')
    (hk : mname m ∈ ["Dual_Exponential", "Power_Exponential", "Dual_Power"]) {S : List (ℝ × ℝ)} (hS : ∀ s ∈ S, 0 < s.1 ∧ 0 < s.2)
    (hnc : ¬ Collinear2 (S.map (stressScale (mname m)))) (h : ∀ s ∈ S, m.life s.1 s.2 = m'.life s.1 s.2) : m = m' := by
  obtain ⟨α, β, γ, rfl⟩ := shift_surj hm hm' hmn hk
  have h0 : (α, β, γ) = (0, 0, 0) := by
    by_contra hne
    refine hnc ⟨α, β, γ, hne, fun p hp => ?_⟩
    obtain ⟨s, hs, rfl⟩ := List.mem_map.1 hp
    have e := congrArg Real.log (h s hs)
    rw [(shift_law hm hk α β γ).2.2 s (hS s hs).1 (hS s hs).2] at e
    linarith
  simp only [Prod.mk.injEq] at h0
  obtain ⟨rfl, rfl, rfl⟩ := h0
  cases m <;> simp [shift]

/-! ## Units -/

theorem convert_law {k k₁ k₂ : ℝ} (hk : 0 < k) (hk₁ : 0 < k₁) (hk₂ : 0 < k₂) {m : LifeStress} (hm : m.Valid) :
    mname (convert k k₁ k₂ m) = mname m ∧ (convert k k₁ k₂ m).Valid ∧ ∀ S1 S2, 0 < S1 → 0 < S2 →
      (convert k k₁ k₂ m).life (k₁ * S1) (k₂ * S2) = k * m.life S1 S2 := by
  refine ⟨by cases m <;> rfl, ?_, fun S1 S2 h1 h2 => ?_⟩
  · cases m <;> simp only [convert, LifeStress.Valid] at * <;> first | positivity | trivial
  · have r1 : ∀ n : ℝ, (k₁ * S1) ^ n = k₁ ^ n * S1 ^ n := fun n => Real.mul_rpow hk₁.le h1.le
    have r2 : ∀ n : ℝ, (k₂ * S2) ^ n = k₂ ^ n * S2 ^ n := fun n => Real.mul_rpow hk₂.le h2.le
    have q1 : ∀ n : ℝ, k₁ ^ n ≠ 0 := fun n => (Real.rpow_pos_of_pos hk₁ n).ne'
    have q2 : ∀ n : ℝ, k₂ ^ n ≠ 0 := fun n => (Real.rpow_pos_of_pos hk₂ n).ne'
    cases m <;> simp only [convert, LifeStress.life, r1, r2, mul_div_mul_left _ _ hk₁.ne', mul_div_mul_left _ _ hk₂.ne']
    · ring
    · rename_i a c
      rw [show a / S1 - (c - Real.log k - Real.log k₁) = (a / S1 - c) + Real.log k + Real.log k₁ by ring, Real.exp_add,
        Real.exp_add, Real.exp_log hk, Real.exp_log hk₁]
      field_simp
    · rename_i a n
      have := q1 n
      field_simp
    · ring
    · rename_i a c n
      have := q2 n
      field_simp
    · rename_i c m n
      have := q1 m
      have := q2 n
      field_simp

theorem convert_inv {k k₁ k₂ : ℝ} (hk : 0 < k) (hk₁ : 0 < k₁) (hk₂ : 0 < k₂) (m : LifeStress) :
    convert k k₁ k₂ (convert k⁻¹ k₁⁻¹ k₂⁻¹ m) = m := by
  have q1 : ∀ n : ℝ, k₁ ^ n ≠ 0 := fun n => (Real.rpow_pos_of_pos hk₁ n).ne'
  have q2 : ∀ n : ℝ, k₂ ^ n ≠ 0 := fun n => (Real.rpow_pos_of_pos hk₂ n).ne'
  cases m <;> simp only [convert, Real.log_inv, Real.inv_rpow hk₁.le, Real.inv_rpow hk₂.le]
  all_goals congr 1 <;> first | rfl | (field_simp; done) | (ring; done) | skip

theorem convert_one (m : LifeStress) : convert 1 1 1 m = m := by
  cases m <;> simp [convert]

/-! ## Permuted and converted data -/

theorem altLikelihood_perm {σ : Type} {lifeAt : LifeStress → σ → ℝ} {m : LifeStress} {d : LifeDist} {F F' C C' : List (ℝ × σ)}
    (hF : F'.Perm F) (hC : C'.Perm C) : altLikelihood lifeAt m d F' C' = altLikelihood lifeAt m d F C := by
  unfold altLikelihood
  rw [(hF.map _).prod_eq, (hC.map _).prod_eq]

/-- No admissible parameters are more likely. -/
def ALTMax {σ : Type} (lifeAt : LifeStress → σ → ℝ) (m : LifeStress) (d : LifeDist) (F C : List (ℝ × σ)) : Prop :=
  ∀ m₁ d₁, mname m₁ = mname m → dname d₁ = dname d → m₁.Valid → d₁.Valid →
    altLikelihood lifeAt m₁ d₁ F C ≤ altLikelihood lifeAt m d F C

theorem ALTMax.perm {σ : Type} {lifeAt : LifeStress → σ → ℝ} {m : LifeStress} {d : LifeDist} {F F' C C' : List (ℝ × σ)}
    (h : ALTMax lifeAt m d F C) (hF : F'.Perm F) (hC : C'.Perm C) : ALTMax lifeAt m d F' C' := fun m₁ d₁ h1 h2 h3 h4 => by
  rw [altLikelihood_perm hF hC, altLikelihood_perm hF hC]
  exact h m₁ d₁ h1 h2 h3 h4

theorem prod_scale {ι : Type} (k : ℝ) (f t : ι → ℝ) (l : List ι) :
    (l.map fun i => f i * (1 / (k * t i))).prod = (1 / k) ^ l.length * (l.map fun i => f i * (1 / t i)).prod := by
  induction l with
  | nil => simp
  | cons i l ih =>
    simp only [List.map_cons, List.prod_cons, List.length_cons, ih, pow_succ]
    rw [show 1 / (k * t i) = 1 / k * (1 / t i) by rw [one_div_mul_one_div_rev, mul_comm]]
    ring

section
variable {σ : Type} {lifeAt : LifeStress → σ → ℝ} {pos : σ → Prop} {k k₁ k₂ : ℝ} {g : σ → σ}

theorem lik_convert (hk : 0 < k) (hk₁ : 0 < k₁) (hk₂ : 0 < k₂) (hpos : ∀ m : LifeStress, m.Valid → ∀ s, pos s → 0 < lifeAt m s)
    (hg : ∀ m : LifeStress, m.Valid → ∀ s, pos s → lifeAt (convert k k₁ k₂ m) (g s) = k * lifeAt m s)
    {m : LifeStress} {d : LifeDist} (hm : m.Valid) (hd : d.Valid) (hno : dname d ≠ "Normal") {F C : List (ℝ × σ)}
    (hF : ∀ i ∈ F, 0 < i.1 ∧ pos i.2) (hC : ∀ i ∈ C, 0 < i.1 ∧ pos i.2) :
    altLikelihood lifeAt (convert k k₁ k₂ m) d (F.map fun i => (k * i.1, g i.2)) (C.map fun i => (k * i.1, g i.2)) =
      (1 / k) ^ F.length * altLikelihood lifeAt m d F C := by
  have key : ∀ l : List (ℝ × σ), (∀ i ∈ l, 0 < i.1 ∧ pos i.2) → ∀ i ∈ l.map fun i => (k * i.1, g i.2),
      0 < i.1 ∧ 0 < lifeAt (convert k k₁ k₂ m) i.2 := by
    intro l hl i hi
    obtain ⟨j, hj, rfl⟩ := List.mem_map.1 hi
    refine ⟨mul_pos hk (hl j hj).1, ?_⟩
    show 0 < lifeAt _ (g j.2)
    rw [hg m hm _ (hl j hj).2]
    exact mul_pos hk (hpos m hm _ (hl j hj).2)
  have hz : ∀ l : List (ℝ × σ), (∀ i ∈ l, 0 < i.1 ∧ pos i.2) → ∀ i ∈ l,
      Real.log (k * i.1) - Real.log (lifeAt (convert k k₁ k₂ m) (g i.2)) = Real.log i.1 - Real.log (lifeAt m i.2) := by
    intro l hl i hi
    rw [hg m hm _ (hl i hi).2, Real.log_mul hk.ne' (hl i hi).1.ne', Real.log_mul hk.ne' (hpos m hm _ (hl i hi).2).ne']
    ring
  rw [alt_std hd hno (key F hF) (key C hC), alt_std hd hno (fun i hi => ⟨(hF i hi).1, hpos m hm _ (hF i hi).2⟩)
    (fun i hi => ⟨(hC i hi).1, hpos m hm _ (hC i hi).2⟩), List.map_map, List.map_map, ← mul_assoc]
  rw [← prod_scale k (fun i : ℝ × σ => slopeD d * stdPdf (famD d) (slopeD d * (Real.log i.1 - Real.log (lifeAt m i.2)))) Prod.fst]
  congr 2
  · exact List.map_congr_left fun i hi => by simp only [Function.comp, hz F hF i hi]
  · exact List.map_congr_left fun i hi => by simp only [Function.comp, hz C hC i hi]

theorem ALTMax.convert (hk : 0 < k) (hk₁ : 0 < k₁) (hk₂ : 0 < k₂) (hpos : ∀ m : LifeStress, m.Valid → ∀ s, pos s → 0 < lifeAt m s)
    (hg : ∀ m : LifeStress, m.Valid → ∀ s, pos s → lifeAt (convert k k₁ k₂ m) (g s) = k * lifeAt m s)
    {m : LifeStress} {d : LifeDist} (hm : m.Valid) (hd : d.Valid) (hno : dname d ≠ "Normal") {F C : List (ℝ × σ)}
    (hF : ∀ i ∈ F, 0 < i.1 ∧ pos i.2) (hC : ∀ i ∈ C, 0 < i.1 ∧ pos i.2) (h : ALTMax lifeAt m d F C) :
    ALTMax lifeAt (convert k k₁ k₂ m) d (F.map fun i => (k * i.1, g i.2)) (C.map fun i => (k * i.1, g i.2)) := by
  intro m₁ d₁ e1 e2 hm₁ hd₁
  have hv := (convert_law (inv_pos.2 hk) (inv_pos.2 hk₁) (inv_pos.2 hk₂) hm₁)
  rw [← convert_inv hk hk₁ hk₂ m₁, lik_convert hk hk₁ hk₂ hpos hg hv.2.1 hd₁ (by rwa [e2]) hF hC,
    lik_convert hk hk₁ hk₂ hpos hg hm hd hno hF hC]
  refine mul_le_mul_of_nonneg_left (h _ _ ?_ e2 hv.2.1 hd₁) (by positivity)
  rw [hv.1, e1, (convert_law hk hk₁ hk₂ hm).1]

end

end Reliability.UniqueALT

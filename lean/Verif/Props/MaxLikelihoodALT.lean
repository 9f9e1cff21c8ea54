import Verif.Props.MaxLikelihoodSpecial
import Verif.Props.ALTGlue

/-! # C112 for the ALT fitters -/

namespace Reliability.Props.ALTGlue

open Reliability Reliability.ALT Reliability.InputCheck Reliability.FitGlue Reliability.ALTGlue Reliability.Spec.InputCheck
open Reliability.Fitters (OptResult mleOptimization Bound)
open Reliability.FunctionCI (Two Jac)
open Reliability.ALTLeastSquares (altLeastSquares altBounds)
open Reliability.Spec Reliability.Spec.FitGlue Reliability.Spec.ALTGlue

/-- Admissible parameters are inside the bounds. -/
theorem legal_inside {n : ℕ} {dist model : String} {b : List (Bound ℝ)} (hb : altBounds model dist = .ok b) {v : Fin n → ℝ}
    {m : LifeStress} {d : LifeDist} (h : altModel dist model (List.ofFn v) = some (m, d)) (hm : m.Valid) (hd : d.Valid) :
    Inside v b := by
  intro i c lo hi h1 h2
  change (List.ofFn v)[i]? = some c at h1
  generalize List.ofFn v = l at h h1
  unfold altModel at h
  cases hs : stressModel model (l.take (stressParameters model).length) with
  | none => rw [hs] at h; cases h
  | some m' =>
    cases hl : lifeDist dist (l.drop (stressParameters model).length) with
    | none => rw [hs, hl] at h; cases h
    | some d' =>
      rw [hs, hl] at h
      cases h
      have hl0 := List.take_append_drop (stressParameters model).length l
      generalize l.take (stressParameters model).length = u at hs hl0
      generalize l.drop (stressParameters model).length = w at hl hl0
      subst hl0
      unfold stressModel at hs
      unfold lifeDist at hl
      split at hs <;> cases hs <;> split at hl <;> cases hl <;> cases hb <;>
        (match i, h1, h2 with
         | 0, h1, h2 => cases h1 <;> cases h2 <;> exact ⟨fun l e => by cases e <;> assumption, fun l e => by cases e⟩
         | 1, h1, h2 => cases h1 <;> cases h2 <;> exact ⟨fun l e => by cases e <;> assumption, fun l e => by cases e⟩
         | 2, h1, h2 => cases h1 <;> cases h2 <;> exact ⟨fun l e => by cases e <;> assumption, fun l e => by cases e⟩
         | 3, h1, h2 => cases h1 <;> cases h2 <;> exact ⟨fun l e => by cases e <;> assumption, fun l e => by cases e⟩)

theorem altModel_length {dist model : String} {ps : List ℝ} {m : LifeStress} {d : LifeDist}
    (h : altModel dist model ps = some (m, d)) : ps.length = (parameters dist model).length := by
  unfold altModel at h
  cases hs : stressModel model (ps.take (stressParameters model).length) with
  | none => rw [hs] at h; cases h
  | some m' =>
    cases hl : lifeDist dist (ps.drop (stressParameters model).length) with
    | none => rw [hs, hl] at h; cases h
    | some d' =>
      have hl0 := List.take_append_drop (stressParameters model).length ps
      generalize ps.take (stressParameters model).length = u at hs hl0
      generalize ps.drop (stressParameters model).length = w at hl hl0
      subst hl0
      unfold stressModel at hs
      unfold lifeDist at hl
      split at hs <;> cases hs <;> split at hl <;> cases hl <;> rfl

theorem most_likely {σ κ : Type} [LinearOrder κ] [DecidableEq σ] {c : Cls σ} {k : Kind σ κ} {lifeAt : LifeStress → σ → ℝ}
    {pos : σ → Prop} (hc : Lawful c lifeAt pos) {dual : Bool} {tos : ℝ × Option ℝ → σ} (hk : KindLaw k dual tos)
    {argsort : List ℝ → List ℕ} {J : Jac} {num : ℕ → Option ℝ → Num2} {noise : Matrix (Fin 3) (Fin 3) ℝ}
    {minimize : Minimizer (Fin c.n → ℝ)} (hE : Exact minimize) {x : ALTArgs}
    (hdual : dual = true ↔ DualStress c.model x.failure_stress_2) {res : ALTRes σ}
    (h : fitALT c k argsort J num noise minimize x = .ok res) (hn : res.optimizer ≠ none) :
    ∃ F A B C D E m d, ALTRequirements c.dist c.model x.failures x.failure_stress_1 x.failure_stress_2 x.right_censored
        x.right_censored_stress_1 x.right_censored_stress_2 x.CI x.use_level_stress x.optimizer dual F A B C D E ∧
      altModel c.dist c.model (res.rows.map Row.point) = some (m, d) ∧
      (m.Valid → d.Valid → (∀ i ∈ F.zip (k.join A B), pos i.2) → (∀ i ∈ C.zip (k.join D E), pos i.2) →
        ∀ ps m' d', altModel c.dist c.model ps = some (m', d') → m'.Valid → d'.Valid →
          altLikelihood lifeAt m' d' (F.zip (k.join A B)) (C.zip (k.join D E)) ≤
            altLikelihood lifeAt m d (F.zip (k.join A B)) (C.zip (k.join D E))) := by
  unfold fitALT at h
  simp only [bind_ok] at h
  obtain ⟨inp, h1, ls, h2, gs, h3, bounds, h4, o, h5, SE, h6, h7⟩ := h
  have h7 := (Except.ok.inj h7).symm
  have hkey : ∀ dual, (dual = true ↔ DualStress c.model x.failure_stress_2) → KeyInj dual k.key := by
    intro d hd
    have : d = dual := by
      have := hd.trans hdual.symm
      cases d <;> cases dual <;> simp_all
    rw [this]; exact hk.keyInj
  obtain ⟨dual', q, hCI, hopt, huse, hgr⟩ := C74_groups k.key c.dist c.model _ _ _ _ _ _ hkey _ _ _ _ h1
  have hdd : dual' = dual := by
    have := q.is_dual.trans hdual.symm
    cases dual' <;> cases dual <;> simp_all
  subst hdd
  obtain ⟨m, d, hm1, -, hm3, hm4⟩ := hc.model o.params
  obtain ⟨hA, hD, hBE⟩ := q.one_stress_each
  have hjF := hk.join inp.failure_stress_1 inp.failure_stress_2 inp.failures hA fun hd => (hBE hd).1
  have hjC := hk.join inp.right_censored_stress_1 inp.right_censored_stress_2 inp.right_censored hD fun hd => (hBE hd).2
  set Fs := k.join inp.failure_stress_1 inp.failure_stress_2 with hFs
  set Cs := k.join inp.right_censored_stress_1 inp.right_censored_stress_2 with hCs
  have eF1 := zip_fst _ _ hjF.2
  have eF2 := zip_snd _ _ hjF.2
  have eC1 := zip_fst _ _ hjC.2
  have eC2 := zip_snd _ _ hjC.2
  refine ⟨_, _, _, _, _, _, m, d, q, ?_, ?_⟩
  · rw [← hm1]
    congr 1
    rw [h7]
    apply List.ext_getElem
    · simp [resultRows]
    · intro i _ _
      simp [resultRows]
  · intro hmv hdv hpF hpC ps m' d' hps hmv' hdv'
    have pF : ∀ i ∈ inp.failures.zip Fs, 0 < i.1 ∧ pos i.2 :=
      fun i hi => ⟨q.positive.1 _ (List.of_mem_zip hi).1, hpF i hi⟩
    have pC : ∀ i ∈ inp.right_censored.zip Cs, 0 < i.1 ∧ pos i.2 :=
      fun i hi => ⟨q.positive.2 _ (List.of_mem_zip hi).1, hpC i hi⟩
    -- the parameters compared with, as a vector
    have hlen : ps.length = c.n := by
      rw [hc.count]
      exact altModel_length hps
    obtain ⟨v, rfl⟩ : ∃ v : Fin c.n → ℝ, ps = List.ofFn v :=
      ⟨fun i => ps[(i : ℕ)]'(by rw [hlen]; exact i.2), by
        apply List.ext_getElem
        · simp [hlen]
        · intro i _ _; simp⟩
    have key : ∀ (v : Fin c.n → ℝ) m d, altModel c.dist c.model (List.ofFn v) = some (m, d) → m.Valid → d.Valid →
        Real.exp (Likelihood.loglik (c.LL v inp.failures inp.right_censored Fs Cs)) =
          altLikelihood lifeAt m d (inp.failures.zip Fs) (inp.right_censored.zip Cs) := by
      intro v m' d' e1 e2 e3
      obtain ⟨m'', d'', e4, -, e5, e6⟩ := hc.model v
      rw [e1] at e4
      cases e4
      have l1 := (e6 e2 e3 none 0 _ _ none [] pF pC (by simp)).loglik
      rw [(e5 _ _ _ _ _ _ _ _).1, eF1, eF2, eC1, eC2] at l1
      rw [← show _ = altLikelihood lifeAt m' d' (inp.failures.zip Fs) (inp.right_censored.zip Cs) from l1]
      congr 1
    refine lik_le (key v _ _ hps hmv' hdv') (key o.params _ _ hm1 hmv hdv) ?_
    have hn' : o.optimizer ≠ none := by rw [h7] at hn; exact hn
    exact mle_exact hE h5 hn' (y := v) (legal_inside h4 hps hmv' hdv')

/-- **C112, ALT with one stress.** No admissible parameters of the life-stress model and the life distribution make the caller's
data more likely than the reported estimates. -/
theorem C112_alt_single (c : Cls ℝ) (hc : c ∈ singleClasses) (argsort : List ℝ → List ℕ) (J : Jac)
    (num : ℕ → Option ℝ → Num2) (noise : Matrix (Fin 3) (Fin 3) ℝ) (minimize : Minimizer (Fin c.n → ℝ)) (hE : Exact minimize)
    (x : ALTArgs) (res : ALTRes ℝ) (h : fitALT c singleKind argsort J num noise minimize x = .ok res)
    (hn : res.optimizer ≠ none) :
    ∃ F C m d, UsedSingle x F C ∧ altModel c.dist c.model (res.rows.map Row.point) = some (m, d) ∧
      (m.Valid → d.Valid → (∀ i ∈ F, 0 < i.2) → (∀ i ∈ C, 0 < i.2) →
        ∀ ps m' d', altModel c.dist c.model ps = some (m', d') → m'.Valid → d'.Valid →
          altLikelihood lifeAt1 m' d' F C ≤ altLikelihood lifeAt1 m d F C) := by
  obtain ⟨F, A, B, C, D, E, m, d, q, h1, h2⟩ := most_likely (lawful_single c hc) singleLaw hE (single_not_dual hc _) h hn
  exact ⟨_, _, m, d, used_single q, h1, h2⟩

/-- **C112, ALT with two stresses.** -/
theorem C112_alt_dual {κ : Type} [LinearOrder κ] (key : ℝ → Option ℝ → κ) (stress : κ → ℝ × ℝ)
    (hkey : ∀ a b, stress (key a (some b)) = (a, b)) (c : Cls (ℝ × ℝ)) (hc : c ∈ dualClasses)
    (argsort : List ℝ → List ℕ) (J : Jac) (num : ℕ → Option ℝ → Num2) (noise : Matrix (Fin 3) (Fin 3) ℝ)
    (minimize : Minimizer (Fin c.n → ℝ)) (hE : Exact minimize) (x : ALTArgs) (res : ALTRes (ℝ × ℝ))
    (h : fitALT c (dualKind key stress) argsort J num noise minimize x = .ok res) (hn : res.optimizer ≠ none) :
    ∃ F C m d, UsedDual x F C ∧ altModel c.dist c.model (res.rows.map Row.point) = some (m, d) ∧
      (m.Valid → d.Valid → (∀ i ∈ F, 0 < i.2.1 ∧ 0 < i.2.2) → (∀ i ∈ C, 0 < i.2.1 ∧ 0 < i.2.2) →
        ∀ ps m' d', altModel c.dist c.model ps = some (m', d') → m'.Valid → d'.Valid →
          altLikelihood lifeAt2 m' d' F C ≤ altLikelihood lifeAt2 m d F C) := by
  obtain ⟨F, A, B, C, D, E, m, d, q, h1, h2⟩ := most_likely (lawful_dual c hc) (dualLaw hkey) hE (dual_dual hc _) h hn
  exact ⟨_, _, m, d, used_dual hkey q, h1, h2⟩

end Reliability.Props.ALTGlue

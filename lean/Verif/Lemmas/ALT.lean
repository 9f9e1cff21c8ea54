import Verif.Spec.ALT
import Verif.Props.Likelihood
import Verif.Props.MLE

/-! # Lemmas for C59 and C76 -/

namespace Reliability.Props.ALT

open Reliability ALT Spec Likelihood Distributions Reliability.Props.Likelihood

/-- The two ways of writing the Eyring relationship. -/
theorem eyring_life_eq (a c s : ℝ) : 1 / s * Real.exp (-(c - a / s)) = Real.exp (a / s - c) / s := by
  rw [show -(c - a / s) = a / s - c by ring]; ring

/-- The base log-density and log-survival function with a given life. -/
noncomputable def baseLogf : LifeDist → ℝ → ℝ → ℝ
  | .weibull beta, life, t => weibull2P_logf life beta t
  | .lognormal sigma, life, t => lognormal_logf (Real.log life) sigma 0 t
  | .normal sigma, life, t => normal2P_logf life sigma t
  | .exponential, life, t => exponential1P_logf (1 / life) t

noncomputable def baseLogR : LifeDist → ℝ → ℝ → ℝ
  | .weibull beta, life, t => weibull2P_logR life beta t
  | .lognormal sigma, life, t => lognormal_logR (Real.log life) sigma 0 t
  | .normal sigma, life, t => normal2P_logR life sigma t
  | .exponential, life, t => exponential1P_logR (1 / life) t

theorem of_isLogLik_f {f S logf logR : ℝ → ℝ} {t : ℝ} (h : IsLogLik f S [t] [] (loglik (LL logf logR [t] []))) :
    Real.exp (logf t) = f t := by
  simpa [IsLogLik, loglik_LL] using h

theorem of_isLogLik_R {f S logf logR : ℝ → ℝ} {t : ℝ} (h : IsLogLik f S [] [t] (loglik (LL logf logR [] [t]))) :
    Real.exp (logR t) = S t := by
  simpa [IsLogLik, loglik_LL] using h

theorem baseLogf_exp {ld : LifeDist} (h : ld.Valid) {life t : ℝ} (hl : 0 < life) (ht : 0 < t) :
    Real.exp (baseLogf ld life t) = (ld.dist life).sp.pdf t := by
  cases ld with
  | weibull b => exact of_isLogLik_f (C41_weibull_2P life b hl h [t] [] (by simpa using ht) (by simp))
  | lognormal s => exact of_isLogLik_f (C41_lognormal (Real.log life) s 0 h [t] [] (by simpa using ht) (by simp))
  | normal s => exact of_isLogLik_f (C41_normal_2P life s h [t] [])
  | exponential =>
    exact of_isLogLik_f (C41_exponential_1P (1 / life) (by positivity) [t] [] (by simpa using ht.le) (by simp))

theorem baseLogR_exp {ld : LifeDist} (h : ld.Valid) {life t : ℝ} (hl : 0 < life) (ht : 0 < t) :
    Real.exp (baseLogR ld life t) = (ld.dist life).sp.sf t := by
  cases ld with
  | weibull b => exact of_isLogLik_R (C41_weibull_2P life b hl h [] [t] (by simp) (by simpa using ht.le))
  | lognormal s => exact of_isLogLik_R (C41_lognormal (Real.log life) s 0 h [] [t] (by simp) (by simpa using ht))
  | normal s => exact of_isLogLik_R (C41_normal_2P life s h [] [t])
  | exponential =>
    exact of_isLogLik_R (C41_exponential_1P (1 / life) (by positivity) [] [t] (by simp) (by simpa using ht.le))

theorem exp_sum {α : Type} (g : α → ℝ) (l : List α) :
    Real.exp (l.map g).sum = (l.map fun i => Real.exp (g i)).prod := by
  induction l with
  | nil => simp
  | cons a l ih => simp [Real.exp_add, ih]

/-- The generic argument: agreement item by item gives the whole specification. -/
theorem isALTFit_of {σ : Type} {ld : LifeDist} (hd : ld.Valid) {k : ℕ} {life : σ → ℝ} (logf logR : ℝ → σ → ℝ)
    (life_func : σ → ℝ) (F C : List (ℝ × σ)) (use : Option σ) (groups : List σ)
    (hF : ∀ i ∈ F, 0 < i.1 ∧ 0 < life i.2) (hC : ∀ i ∈ C, 0 < i.1 ∧ 0 < life i.2) (hG : ∀ g ∈ groups, 0 < life g)
    (hf : ∀ t s, logf t s = baseLogf ld (life s) t) (hR : ∀ t s, logR t s = baseLogR ld (life s) t)
    (hl : ∀ s, life_func s = life s) (fit : Fit) (LLv : ℝ)
    (hLL : LLv = -((F.map fun i => logf i.1 i.2).sum + (C.map fun i => logR i.1 i.2).sum))
    (h1 : fit.loglik = 2 * LLv * (-0.5)) (h2 : fit.AICc = AICc (F.length + C.length) k (2 * LLv))
    (h3 : fit.BIC = BIC (F.length + C.length) k (2 * LLv))
    (h4 : fit.useDist = use.map fun u => ld.dist (life_func u))
    (h5 : fit.newScale = groups.map fun g => ld.scale (life_func g))
    (h6 : ∀ u, use = some u → fit.AF = groups.map fun g => life_func u / life_func g) :
    IsALTFit ld k life F C use groups fit := by
  have hlf : life_func = life := funext hl
  subst hlf
  have e : fit.loglik = (F.map fun i => logf i.1 i.2).sum + (C.map fun i => logR i.1 i.2).sum := by
    rw [h1, hLL]; ring
  have e2 : 2 * LLv = 2 * -fit.loglik := by rw [h1]; ring
  have hv := C43_values (F.length + C.length) k fit.loglik
  refine ⟨?_, ?_, ?_, h4, h5, ?_⟩
  · rw [e, Real.exp_add, exp_sum, exp_sum]
    congr 2
    · refine List.map_congr_left fun i hi => ?_
      rw [hf, baseLogf_exp hd (hF i hi).2 (hF i hi).1]
    · refine List.map_congr_left fun i hi => ?_
      rw [hR, baseLogR_exp hd (hC i hi).2 (hC i hi).1]
  · rw [h2, e2]
    split
    · rename_i h; rw [hv.1 h]
    · rename_i h; rw [hv.2.1 (by omega)]
  · rw [h3, e2, hv.2.2]
  · intro u hu
    rw [h6 u hu]
    rw [List.forall₂_map_right_iff]
    refine List.forall₂_same.2 fun g hg => ?_
    rw [div_mul_cancel₀ _ (hG g hg).ne']

theorem sum1_map (g : ℝ → ℝ → ℝ) (F : List (ℝ × ℝ)) :
    sum1 g (F.map Prod.fst) (F.map Prod.snd) = (F.map fun i => g i.1 i.2).sum := by
  unfold sum1
  induction F with
  | nil => rfl
  | cons a l ih => simp at ih ⊢; try rw [ih]

theorem sum2_map (g : ℝ → ℝ → ℝ → ℝ) (F : List (ℝ × ℝ × ℝ)) :
    sum2 g (F.map Prod.fst) (F.map fun i => i.2.1) (F.map fun i => i.2.2) =
      (F.map fun i => g i.1 i.2.1 i.2.2).sum := by
  unfold sum2
  induction F with
  | nil => rfl
  | cons a l ih => simp at ih ⊢; rw [ih]

theorem isALTFit_single {ls : LifeStress} {ld : LifeDist} (hv : ls.Valid) (hd : ld.Valid) {k : ℕ}
    (logf logR : ℝ → ℝ → ℝ) (life_func : ℝ → ℝ) (F C : List (ℝ × ℝ)) (use : Option ℝ) (groups : List ℝ)
    (hF : ∀ i ∈ F, 0 < i.1 ∧ 0 < i.2) (hC : ∀ i ∈ C, 0 < i.1 ∧ 0 < i.2) (hG : ∀ g ∈ groups, 0 < g)
    (hf : ∀ t s, logf t s = baseLogf ld (ls.life s 1) t) (hR : ∀ t s, logR t s = baseLogR ld (ls.life s 1) t)
    (hl : ∀ s, life_func s = ls.life s 1) (fit : Fit)
    (h1 : fit.loglik = 2 * -(sum1 logf (F.map Prod.fst) (F.map Prod.snd) +
      sum1 logR (C.map Prod.fst) (C.map Prod.snd)) * (-0.5))
    (h2 : fit.AICc = AICc (F.length + C.length) k (2 * -(sum1 logf (F.map Prod.fst) (F.map Prod.snd) +
      sum1 logR (C.map Prod.fst) (C.map Prod.snd))))
    (h3 : fit.BIC = BIC (F.length + C.length) k (2 * -(sum1 logf (F.map Prod.fst) (F.map Prod.snd) +
      sum1 logR (C.map Prod.fst) (C.map Prod.snd))))
    (h4 : fit.useDist = use.map fun u => ld.dist (life_func u))
    (h5 : fit.newScale = groups.map fun g => ld.scale (life_func g))
    (h6 : ∀ u, use = some u → fit.AF = groups.map fun g => life_func u / life_func g) :
    IsALTFit ld k (fun s => ls.life s 1) F C use groups fit :=
  isALTFit_of (life := fun s => ls.life s 1) hd logf logR life_func F C use groups
    (fun i hi => ⟨(hF i hi).1, ls.life_pos hv (hF i hi).2 one_pos⟩)
    (fun i hi => ⟨(hC i hi).1, ls.life_pos hv (hC i hi).2 one_pos⟩)
    (fun g hg => ls.life_pos hv (hG g hg) one_pos) hf hR hl fit _ (by rw [sum1_map, sum1_map]) h1 h2 h3 h4 h5 h6

theorem isALTFit_dual {ls : LifeStress} {ld : LifeDist} (hv : ls.Valid) (hd : ld.Valid) {k : ℕ}
    (logf logR : ℝ → ℝ → ℝ → ℝ) (life_func : ℝ → ℝ → ℝ) (F C : List (ℝ × ℝ × ℝ)) (use : Option (ℝ × ℝ))
    (groups : List (ℝ × ℝ))
    (hF : ∀ i ∈ F, 0 < i.1 ∧ 0 < i.2.1 ∧ 0 < i.2.2) (hC : ∀ i ∈ C, 0 < i.1 ∧ 0 < i.2.1 ∧ 0 < i.2.2)
    (hG : ∀ g ∈ groups, 0 < g.1 ∧ 0 < g.2)
    (hf : ∀ t s1 s2, logf t s1 s2 = baseLogf ld (ls.life s1 s2) t)
    (hR : ∀ t s1 s2, logR t s1 s2 = baseLogR ld (ls.life s1 s2) t)
    (hl : ∀ s1 s2, life_func s1 s2 = ls.life s1 s2) (fit : Fit)
    (h1 : fit.loglik = 2 * -(sum2 logf (F.map Prod.fst) (F.map fun i => i.2.1) (F.map fun i => i.2.2) +
      sum2 logR (C.map Prod.fst) (C.map fun i => i.2.1) (C.map fun i => i.2.2)) * (-0.5))
    (h2 : fit.AICc = AICc (F.length + C.length) k
      (2 * -(sum2 logf (F.map Prod.fst) (F.map fun i => i.2.1) (F.map fun i => i.2.2) +
      sum2 logR (C.map Prod.fst) (C.map fun i => i.2.1) (C.map fun i => i.2.2))))
    (h3 : fit.BIC = BIC (F.length + C.length) k
      (2 * -(sum2 logf (F.map Prod.fst) (F.map fun i => i.2.1) (F.map fun i => i.2.2) +
      sum2 logR (C.map Prod.fst) (C.map fun i => i.2.1) (C.map fun i => i.2.2))))
    (h4 : fit.useDist = use.map fun u => ld.dist (life_func u.1 u.2))
    (h5 : fit.newScale = groups.map fun g => ld.scale (life_func g.1 g.2))
    (h6 : ∀ u, use = some u → fit.AF = groups.map fun g => life_func u.1 u.2 / life_func g.1 g.2) :
    IsALTFit ld k (fun s => ls.life s.1 s.2) F C use groups fit :=
  isALTFit_of (life := fun s => ls.life s.1 s.2) hd (fun t s => logf t s.1 s.2) (fun t s => logR t s.1 s.2) (fun s => life_func s.1 s.2) F C use groups
    (fun i hi => ⟨(hF i hi).1, ls.life_pos hv (hF i hi).2.1 (hF i hi).2.2⟩)
    (fun i hi => ⟨(hC i hi).1, ls.life_pos hv (hC i hi).2.1 (hC i hi).2.2⟩)
    (fun g hg => ls.life_pos hv (hG g hg).1 (hG g hg).2) (fun t s => hf t s.1 s.2) (fun t s => hR t s.1 s.2)
    (fun s => hl s.1 s.2) fit _ (by rw [sum2_map, sum2_map]) h1 h2 h3 h4 h5 h6

/-- Flags of the model's `ciBounds` for parameter kinds. -/
def flag : ParamKind → Bool
  | .real => false
  | .positive => true

theorem ciBounds_enclosed (xs : List (ParamKind × ℝ)) (hx : ∀ x ∈ xs, x.1.Ok x.2) (SE : Option (List ℝ))
    (hSE : ∀ se, SE = some se → se.length = xs.length ∧ ∀ s ∈ se, 0 ≤ s) (Z : ℝ) (hZ : 0 ≤ Z) :
    EnclosedBy xs (ciBounds (xs.map fun x => flag x.1) (xs.map Prod.snd) SE Z) := by
  unfold EnclosedBy ciBounds
  cases SE with
  | none =>
    simp only [List.map_map]
    rw [List.forall₂_map_right_iff]
    refine List.forall₂_same.2 fun x hxm => ?_
    have h := hx x hxm
    rcases x with ⟨k, v⟩
    cases k
    · simp only [ParamKind.Encloses, Function.comp]
      exact ⟨le_rfl, le_rfl, by ring⟩
    · simp only [ParamKind.Encloses, Function.comp]
      exact ⟨h, le_rfl, le_rfl, by ring⟩
  | some se =>
    obtain ⟨hlen, hpos⟩ := hSE se rfl
    clear hSE
    simp only
    induction xs generalizing se with
    | nil => simp
    | cons x xs ih =>
      cases se with
      | nil => simp at hlen
      | cons s se =>
        simp only [List.map_cons, List.zip_cons_cons]
        refine List.Forall₂.cons ?_ (ih (fun y hy => hx y (List.mem_cons_of_mem _ hy)) se (by simpa using hlen)
          (fun y hy => hpos y (List.mem_cons_of_mem _ hy)))
        have h := hx x (List.mem_cons_self ..)
        have hs := hpos s (List.mem_cons_self ..)
        rcases x with ⟨k, v⟩
        cases k
        · simp only [flag]
          have := C71_location_parameter v s Z hs hZ
          refine ⟨this.1, this.2.1, ?_⟩
          have h3 := this.2.2.1
          simp only [Bool.false_eq_true, if_false]
          linarith
        · simp only [flag]
          have := C71_positive_parameter v s Z h hs hZ
          exact ⟨this.1, this.2.1, this.2.2.1, this.2.2.2.1⟩

end Reliability.Props.ALT

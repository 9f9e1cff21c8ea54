import Verif.Lemmas.FitSpecial

/-!
# C106, C107: what Fit_Weibull_Mixture, Fit_Weibull_CR, Fit_Weibull_DSZI, Fit_Weibull_DS and Fit_Weibull_ZI report

Nothing is assumed about scipy's `minimize` or the kernel density estimate; `v` are the reported estimates.
-/

namespace Reliability.Props

open Reliability Reliability.Distributions Reliability.Combined Reliability.Likelihood Reliability.InputCheck
open Reliability.Fitters (MLEOut OptResult mleOptimization)
open Reliability.FitGlue Reliability.FitSpecial Reliability.Spec Reliability.Spec.InputCheck Reliability.Spec.FitGlue
open Reliability.Spec.FitSpecial
open Reliability.FunctionCI (Jac zOf zOf_spec)

/-! ## The input -/

theorem usable_iff {dist : String} (h1 : ¬ RealLine dist) (h2 : dist ≠ "Beta_2P") (t : ℝ) : Usable dist t ↔ 0 < t := by
  unfold Usable; simp [h1, h2]

theorem usedData_of_accepts {dist : String} (h1 : ¬ RealLine dist) (h2 : dist ≠ "Beta_2P") {failures rc : DataArg ℝ}
    {fb fs : Option ℝ} {m o ct : StrArg} {ci : CIArg ℝ} {q : QArg ℝ} {inp : Checked ℝ}
    (h : Accepts dist failures rc m o ci q fb fs ct inp) :
    UsedData failures rc inp.failures inp.right_censored ∧ (∀ t ∈ inp.failures, 0 < t) ∧ (∀ t ∈ inp.right_censored, 0 < t) ∧
      inp.failures ≠ [] := by
  obtain ⟨F, C, a, b, -, -, e, e'⟩ := h.data
  simp only [usable_iff h1 h2] at e e'
  refine ⟨⟨F, C, a, b, e, e'⟩, ?_, ?_, failures_ne (x := { failures := failures, right_censored := rc }) h⟩
  · rw [e]; intro t ht; simpa using (List.mem_filter.1 ht).2
  · rw [e']; intro t ht; simpa using (List.mem_filter.1 ht).2

theorem zeroData_of_accepts {dist : String} (h1 : ¬ RealLine dist) (h2 : dist ≠ "Beta_2P") {failures : List ℝ} {rc : DataArg ℝ}
    {fb fs : Option ℝ} {m o ct : StrArg} {ci : CIArg ℝ} {q : QArg ℝ} {inp : Checked ℝ}
    (h : Accepts dist (.array (failures.filter fun t => decide (t ≠ 0))) rc m o ci q fb fs ct inp) :
    ZeroData failures rc (failures.filter fun t => decide (t = 0)).length inp.failures inp.right_censored ∧
      (∀ t ∈ inp.failures, 0 < t) ∧ (∀ t ∈ inp.right_censored, 0 < t) ∧ inp.failures ≠ [] ∧ failures ≠ [] := by
  obtain ⟨u, p1, p2, ne⟩ := usedData_of_accepts h1 h2 h
  obtain ⟨F, C, a, b, al, -, e, e'⟩ := h.data
  cases a
  simp only [usable_iff h1 h2] at e e'
  have hz : ∀ t ∈ failures, 0 ≤ t := by
    intro t ht
    by_cases h0 : t = 0
    · rw [h0]
    · have := al t (by simp [ht, h0])
      rcases this with h | h
      · exact absurd h h1
      · exact h.1
  refine ⟨⟨hz, ?_, ?_, C, b, e'⟩, p1, p2, ne, ?_⟩
  · rw [List.count, ← List.countP_eq_length_filter]
    apply List.countP_congr
    intro t _
    simp
  · rw [e, List.filter_filter]
    apply List.filter_congr
    intro t _
    by_cases h0 : 0 < t
    · simp [h0, ne_of_gt h0]
    · simp [h0]
  · rintro rfl
    rw [e] at ne
    exact ne rfl

/-! ## One run of each fitter -/

theorem mixture_run {argsort : List ℝ → List ℕ} (harg : IsArgsort argsort) {J : Jac} {kde : List ℝ → ℝ} {num2 : List ℝ → List ℝ → Option ℝ → Num2}
    {minimize : Minimizer (Fin 5 → ℝ)} {failures : DataArg ℝ} {x : SArgs} {r : SRes (List Dist × List ℝ)}
    (h : fitMixture argsort J kde num2 minimize failures x = .ok r) :
    ∃ T C CI v, UsedData failures x.right_censored T C ∧ x.CI = .float CI ∧
      r.dist = ([weibull (v 0) (v 1) 0, weibull (v 2) (v 3) 0], [v 4, 1 - v 4]) ∧
      (0 < v 0 → 0 < v 1 → 0 < v 2 → 0 < v 3 → 0 ≤ v 4 → v 4 ≤ 1 →
        ReportOf argsort (fun t => v 4 * F (v 0) (v 1) t + (1 - v 4) * F (v 2) (v 3) t) (fun _ p => p)
          (likMixture T C v) T C 5 r.gof) ∧
      SRows ![ "Alpha 1", "Beta 1", "Alpha 2", "Beta 2", "Proportion 1"] ![none, none, none, none, some none]
        (fun v => 0 < v 0 ∧ 0 < v 1 ∧ 0 < v 2 ∧ 0 < v 3 ∧ 0 < v 4 ∧ v 4 < 1) (likMixture T C) CI v r.rows := by
  simp only [fitMixture, bind_ok] at h
  obtain ⟨inp, h1, line, -, r1, -, r2, -, o, h5, props, h6, V, h7, g, h8, h9⟩ := h
  cases h9
  rw [C51_ok_iff] at h1
  obtain ⟨u, p1, p2, ne⟩ := usedData_of_accepts (by decide) (by decide) h1
  have hz := zOf_spec h1.ci.2.1 h1.ci.2.2
  have hp : props = [o.params 4, 1 - o.params 4] := by
    unfold mixtureInit at h6
    dsimp only at h6
    rw [if_neg (by simp), if_neg (by simp)] at h6
    cases h6; rfl
  subst hp
  have hV := orWarn_ok h7
  refine ⟨_, _, _, o.params, u, h1.ci.1, rfl, ?_, ?_, ⟨zOf inp.CI, hz, ?_⟩, V, ?_, ?_⟩
  · intro a b c d e e'
    exact gof_report harg (fun X Y hX hY => mixture_cdf a b c d hX hY) h8 ne (likMixture_eq a b c d e e' p1 p2)
  · simp [ciRow, List.ofFn_succ, Matrix.vecHead, Matrix.vecTail]
  · have hS := diagSE_nonneg V
    exact .cons (interval_log _ hz.1.le (hS _)) (.cons (interval_log _ hz.1.le (hS _)) (.cons (interval_log _ hz.1.le (hS _))
      (.cons (interval_log _ hz.1.le (hS _)) (.cons (interval_odds _ hz.1.le (hS _)) .nil))))
  · intro hl
    rw [hV]
    exact npInv_informationOf isOpen_mixture hl
      (fun v hv => likMixture_eq hv.1 hv.2.1 hv.2.2.1 hv.2.2.2.1 hv.2.2.2.2.1.le hv.2.2.2.2.2.le p1 p2)
  · rw [diagSE_eq]; rfl

theorem CR_run {argsort : List ℝ → List ℕ} (harg : IsArgsort argsort) {J : Jac} {kde : List ℝ → ℝ} {num2 : List ℝ → List ℝ → Option ℝ → Num2}
    {minimize : Minimizer (Fin 4 → ℝ)} {failures : DataArg ℝ} {x : SArgs} {r : SRes (List Dist)}
    (h : fitCR argsort J kde num2 minimize failures x = .ok r) :
    ∃ T C CI v, UsedData failures x.right_censored T C ∧ x.CI = .float CI ∧
      r.dist = [weibull (v 0) (v 1) 0, weibull (v 2) (v 3) 0] ∧
      (0 < v 0 → 0 < v 1 → 0 < v 2 → 0 < v 3 →
        ReportOf argsort (fun t => 1 - S (v 0) (v 1) t * S (v 2) (v 3) t) (fun _ p => p) (likCR T C v) T C 4 r.gof) ∧
      SRows ![ "Alpha 1", "Beta 1", "Alpha 2", "Beta 2"] ![none, none, none, none]
        (fun v => 0 < v 0 ∧ 0 < v 1 ∧ 0 < v 2 ∧ 0 < v 3) (likCR T C) CI v r.rows := by
  simp only [fitCR, bind_ok] at h
  obtain ⟨inp, h1, line, -, r1, -, r2, -, o, h5, V, h7, g, h8, h9⟩ := h
  cases h9
  rw [C51_ok_iff] at h1
  obtain ⟨u, p1, p2, ne⟩ := usedData_of_accepts (by decide) (by decide) h1
  have hz := zOf_spec h1.ci.2.1 h1.ci.2.2
  have hV := orWarn_ok h7
  refine ⟨_, _, _, o.params, u, h1.ci.1, rfl, ?_, ?_, ⟨zOf inp.CI, hz, ?_⟩, V, ?_, ?_⟩
  · intro a b c d
    exact gof_report harg (fun X Y hX hY => competing_cdf a b c d hX hY) h8 ne (likCR_eq a b c d p1 p2)
  · simp [ciRow, List.ofFn_succ, Matrix.vecHead, Matrix.vecTail]
  · have hS := diagSE_nonneg V
    exact .cons (interval_log _ hz.1.le (hS _)) (.cons (interval_log _ hz.1.le (hS _)) (.cons (interval_log _ hz.1.le (hS _))
      (.cons (interval_log _ hz.1.le (hS _)) .nil)))
  · intro hl
    rw [hV]
    exact npInv_informationOf isOpen_CR hl (fun v hv => likCR_eq hv.1 hv.2.1 hv.2.2.1 hv.2.2.2 p1 p2)
  · rw [diagSE_eq]; rfl

theorem dsziInit_ok {d : Dist} {DS ZI : Option ℝ} {m : DSZI} (h : dsziInit d DS ZI = .ok m) :
    m = ⟨d, DS.getD 1, ZI.getD 0⟩ ∧ ZI.getD 0 ≤ DS.getD 1 ∧ 0 ≤ ZI.getD 0 ∧ ZI.getD 0 < 1 ∧ 0 < DS.getD 1 ∧ DS.getD 1 ≤ 1 := by
  unfold dsziInit at h
  dsimp only at h
  split_ifs at h with h0 h1 h2 h3
  · cases h
    rw [not_or] at h2 h3
    push Not at h1 h2 h3
    exact ⟨rfl, h1, h2.2, h2.1, h3.2, h3.1⟩

theorem cdfAt_eq (a b ds zi : ℝ) : (⟨weibull a b 0, ds, zi⟩ : DSZI).cdfAt = cdfDSZI a b ds zi := by
  funext t; simp only [DSZI.cdfAt, cdfDSZI, F]; ring

/-- Probabilities and positive scale and shape are legal parameters. -/
theorem legal_of_probabilities {zeros : ℕ} {C : List ℝ} (hC : ∀ t ∈ C, 0 < t) {a b ds zi : ℝ} (ha : 0 < a) (hb : 0 < b)
    (hzd : zi < ds) (hd : ds ≤ 1) (h0 : 0 < zi ∨ zeros = 0) : LegalDSZI zeros C a b ds zi := by
  refine ⟨ha, hb, hzd, h0, fun t ht => ?_⟩
  rw [cdfDSZI, F_eq ha hb (hC t ht)]
  have := Real.exp_pos (-((t / a) ^ b))
  nlinarith

theorem DSZI_run {argsort : List ℝ → List ℕ} (harg : IsArgsort argsort) {J : Jac} {num2 : List ℝ → List ℝ → Option ℝ → Num2}
    {minimize : Minimizer (Fin 4 → ℝ)} {failures : List ℝ} {x : SArgs} {r : SRes DSZI}
    (h : fitDSZI argsort J num2 minimize failures x = .ok r) :
    ∃ zeros T C CI v, ZeroData failures x.right_censored zeros T C ∧ x.CI = .float CI ∧
      r.dist = ⟨weibull (v 0) (v 1) 0, v 2, v 3⟩ ∧ 0 ≤ v 3 ∧ v 3 ≤ v 2 ∧ v 3 < 1 ∧ 0 < v 2 ∧ v 2 ≤ 1 ∧
      (0 < v 0 → 0 < v 1 → v 3 < v 2 → (0 < v 3 ∨ zeros = 0) →
        ReportOf argsort (cdfDSZI (v 0) (v 1) (v 2) (v 3)) (fun x p => if x = 0 then v 3 else p)
          (likDSZI zeros T C v) failures C 4 r.gof) ∧
      SRows ![ "Alpha", "Beta", "DS", "ZI"] ![none, none, some (some 1), some (some 0)]
        (fun v => LegalDSZI zeros C (v 0) (v 1) (v 2) (v 3)) (likDSZI zeros T C) CI v r.rows := by
  simp only [fitDSZI, bind_ok] at h
  obtain ⟨inp, h1, xy, -, DS0, -, r1, -, o, h5, V, h7, m, h6, g, h8, h9⟩ := h
  cases h9
  rw [C51_ok_iff] at h1
  obtain ⟨u, p1, p2, ne, ne'⟩ := zeroData_of_accepts (by decide) (by decide) h1
  have hz := zOf_spec h1.ci.2.1 h1.ci.2.2
  have hV := orWarn_ok h7
  obtain ⟨rfl, b1, b2, b3, b4, b5⟩ := dsziInit_ok h6
  simp only [Option.getD_some] at b1 b2 b3 b4 b5 h8 ⊢
  refine ⟨_, _, _, _, o.params, u, h1.ci.1, rfl, b2, b1, b3, b4, b5, ?_, ?_, ⟨zOf inp.CI, hz, ?_⟩, V, ?_, ?_⟩
  · intro a b c d
    have := gofZI_report harg h8 ne' (likDSZI_eq (v := o.params) (legal_of_probabilities p2 a b c b5 d) p1 p2)
    rw [cdfAt_eq] at this
    exact this
  · simp [ciRow, List.ofFn_succ, Matrix.vecHead, Matrix.vecTail]
  · have hS := diagSE_nonneg V
    exact .cons (interval_log _ hz.1.le (hS _)) (.cons (interval_log _ hz.1.le (hS _)) (.cons (interval_DS _ hz.1.le (hS _))
      (.cons (interval_ZI _ hz.1.le (hS _)) .nil)))
  · intro hl
    rw [hV]
    have ho := (isOpen_DSZI (zeros := (failures.filter fun t => decide (t = 0)).length) p2).preimage
      (f := fun v : Fin 4 → ℝ => (v 0, v 1, v 2, v 3)) (by fun_prop)
    exact npInv_informationOf ho hl (fun v hv => likDSZI_eq hv p1 p2)
  · rw [diagSE_eq]; rfl

theorem DS_run {argsort : List ℝ → List ℕ} (harg : IsArgsort argsort) {J : Jac} {num2 : List ℝ → List ℝ → Option ℝ → Num2}
    {minimize : Minimizer (Fin 3 → ℝ)} {failures : DataArg ℝ} {x : SArgs} {r : SRes DSZI}
    (h : fitDS argsort J num2 minimize failures x = .ok r) :
    ∃ T C CI v, UsedData failures x.right_censored T C ∧ x.CI = .float CI ∧
      r.dist = ⟨weibull (v 0) (v 1) 0, v 2, 0⟩ ∧ 0 < v 2 ∧ v 2 ≤ 1 ∧
      (0 < v 0 → 0 < v 1 →
        ReportOf argsort (cdfDSZI (v 0) (v 1) (v 2) 0) (fun _ p => p) (likDSZI 0 T C ![v 0, v 1, v 2, 0]) T C 3 r.gof) ∧
      SRows ![ "Alpha", "Beta", "DS"] ![none, none, some (some 1)]
        (fun v => LegalDSZI 0 C (v 0) (v 1) (v 2) 0) (fun v => likDSZI 0 T C ![v 0, v 1, v 2, 0]) CI v r.rows := by
  simp only [fitDS, bind_ok] at h
  obtain ⟨inp, h1, xy, -, DS0, -, r1, -, o, h5, V, h7, m, h6, g, h8, h9⟩ := h
  cases h9
  rw [C51_ok_iff] at h1
  obtain ⟨u, p1, p2, ne⟩ := usedData_of_accepts (by decide) (by decide) h1
  have hz := zOf_spec h1.ci.2.1 h1.ci.2.2
  have hV := orWarn_ok h7
  obtain ⟨rfl, b1, b2, b3, b4, b5⟩ := dsziInit_ok h6
  simp only [Option.getD_some, Option.getD_none] at b1 b2 b3 b4 b5 h8 ⊢
  have hlik : ∀ v : Fin 3 → ℝ, LegalDSZI 0 inp.right_censored (v 0) (v 1) (v 2) 0 →
      Real.exp (loglik (DS_LL (v 0) (v 1) (v 2) inp.failures inp.right_censored)) =
        likDSZI 0 inp.failures inp.right_censored ![v 0, v 1, v 2, 0] := by
    intro v hv
    rw [DS_LL_eq]
    exact likDSZI_eq (v := ![v 0, v 1, v 2, 0]) (Z := []) hv p1 p2
  refine ⟨_, _, _, o.params, u, h1.ci.1, rfl, b4, b5, ?_, ?_, ⟨zOf inp.CI, hz, ?_⟩, V, ?_, ?_⟩
  · intro a b
    refine gof_report harg (fun X Y hX hY => ?_) h8 ne (hlik o.params (legal_of_probabilities p2 a b b4 b5 (Or.inr rfl)))
    rw [dsziCDF_map hY, cdfAt_eq]
  · simp [ciRow, List.ofFn_succ, Matrix.vecHead, Matrix.vecTail]
  · have hS := diagSE_nonneg V
    exact .cons (interval_log _ hz.1.le (hS _)) (.cons (interval_log _ hz.1.le (hS _)) (.cons (interval_DS _ hz.1.le (hS _)) .nil))
  · intro hl
    rw [hV]
    have ho := (isOpen_DSZI (zeros := 0) p2).preimage
      (f := fun v : Fin 3 → ℝ => (v 0, v 1, v 2, (0 : ℝ))) (by fun_prop)
    exact npInv_informationOf ho hl hlik
  · rw [diagSE_eq]; rfl

theorem ZI_LL_eq (a b zi : ℝ) (Z T C : List ℝ) : ZI_LL a b zi Z T C = DSZI_LL a b 1 zi Z T C := rfl

theorem ZI_run {argsort : List ℝ → List ℕ} (harg : IsArgsort argsort) {J : Jac} {num2 : List ℝ → List ℝ → Option ℝ → Num2}
    {minimize : Minimizer (Fin 3 → ℝ)} {failures : List ℝ} {x : SArgs} {r : SRes DSZI}
    (h : fitZI argsort J num2 minimize failures x = .ok r) :
    ∃ zeros T C CI v, ZeroData failures x.right_censored zeros T C ∧ x.CI = .float CI ∧
      r.dist = ⟨weibull (v 0) (v 1) 0, 1, v 2⟩ ∧ 0 ≤ v 2 ∧ v 2 < 1 ∧
      (0 < v 0 → 0 < v 1 → (0 < v 2 ∨ zeros = 0) →
        ReportOf argsort (cdfDSZI (v 0) (v 1) 1 (v 2)) (fun x p => if x = 0 then v 2 else p)
          (likDSZI zeros T C ![v 0, v 1, 1, v 2]) failures C 3 r.gof) ∧
      SRows ![ "Alpha", "Beta", "ZI"] ![none, none, some (some 0)]
        (fun v => LegalDSZI zeros C (v 0) (v 1) 1 (v 2)) (fun v => likDSZI zeros T C ![v 0, v 1, 1, v 2]) CI v r.rows := by
  simp only [fitZI, bind_ok] at h
  obtain ⟨inp, h1, r1, -, o, h5, V, h7, m, h6, g, h8, h9⟩ := h
  cases h9
  rw [C51_ok_iff] at h1
  obtain ⟨u, p1, p2, ne, ne'⟩ := zeroData_of_accepts (by decide) (by decide) h1
  have hz := zOf_spec h1.ci.2.1 h1.ci.2.2
  have hV := orWarn_ok h7
  obtain ⟨rfl, b1, b2, b3, b4, b5⟩ := dsziInit_ok h6
  simp only [Option.getD_some, Option.getD_none] at b1 b2 b3 b4 b5 h8 ⊢
  have hlik : ∀ v : Fin 3 → ℝ,
      LegalDSZI (failures.filter fun t => decide (t = 0)).length inp.right_censored (v 0) (v 1) 1 (v 2) →
      Real.exp (loglik (ZI_LL (v 0) (v 1) (v 2) (failures.filter fun t => decide (t = 0)) inp.failures inp.right_censored)) =
        likDSZI (failures.filter fun t => decide (t = 0)).length inp.failures inp.right_censored ![v 0, v 1, 1, v 2] := by
    intro v hv
    rw [ZI_LL_eq]
    exact likDSZI_eq (v := ![v 0, v 1, 1, v 2]) hv p1 p2
  refine ⟨_, _, _, _, o.params, u, h1.ci.1, rfl, b2, b3, ?_, ?_, ⟨zOf inp.CI, hz, ?_⟩, V, ?_, ?_⟩
  · intro a b d
    have := gofZI_report harg h8 ne' (hlik o.params (legal_of_probabilities p2 a b b3 le_rfl d))
    rw [cdfAt_eq] at this
    exact this
  · simp [ciRow, List.ofFn_succ, Matrix.vecHead, Matrix.vecTail]
  · have hS := diagSE_nonneg V
    exact .cons (interval_log _ hz.1.le (hS _)) (.cons (interval_log _ hz.1.le (hS _)) (.cons (interval_ZI _ hz.1.le (hS _)) .nil))
  · intro hl
    rw [hV]
    have ho := (isOpen_DSZI (zeros := (failures.filter fun t => decide (t = 0)).length) p2).preimage
      (f := fun v : Fin 3 → ℝ => (v 0, v 1, (1 : ℝ), v 2)) (by fun_prop)
    exact npInv_informationOf ho hl hlik
  · rw [diagSE_eq]; rfl

end Reliability.Props

import Verif.Props.MaxLikelihood
import Verif.Props.FitSpecialReturns

/-! # C112 for the special Weibull models -/

namespace Reliability.Props

open Reliability Reliability.Distributions Reliability.Combined Reliability.Likelihood Reliability.InputCheck
open Reliability.Fitters (MLEOut OptResult Bound mleOptimization)
open Reliability.FitGlue Reliability.FitSpecial Reliability.Spec Reliability.Spec.InputCheck Reliability.Spec.FitGlue
open Reliability.Spec.FitSpecial
open Reliability.FunctionCI (Jac zOf)

theorem lik_le {L L' : ℝ} {x y : ℝ} (h : Real.exp (loglik L) = x) (h' : Real.exp (loglik L') = y) (hle : L' ≤ L) : x ≤ y := by
  rw [← h, ← h']
  apply Real.exp_le_exp.2
  unfold loglik
  linarith

/-- A vector is inside its bounds if all its numbers are. -/
theorem inside_fin {k : ℕ} {v : Fin k → ℝ} {b : List (Bound ℝ)}
    (h : ∀ (i : Fin k) lo hi, b[(i : ℕ)]? = some (lo, hi) → (∀ l, lo = some l → l < v i) ∧ ∀ u, hi = some u → v i < u) :
    Inside v b := by
  intro i c lo hi h1 h2
  change (List.ofFn v)[i]? = some c at h1
  obtain ⟨hi', hc⟩ := List.getElem?_eq_some_iff.1 h1
  rw [List.length_ofFn] at hi'
  rw [List.getElem_ofFn] at hc
  subst hc
  exact h ⟨i, hi'⟩ lo hi h2

theorem special_bounds' {f rc : List ℝ} (h : f ++ rc ≠ []) :
    boundsOf "Weibull_mixture" f rc = [(some (1 / 10000), none), (some (1 / 10000), none), (some (1 / 10000), none),
      (some (1 / 10000), none), (some (1 / 10000), some (9999 / 10000))] ∧
    boundsOf "Weibull_CR" f rc = [(some (1 / 10000), none), (some (1 / 10000), none), (some (1 / 10000), none),
      (some (1 / 10000), none)] := by
  have hg : ∃ g, Fitters.gamma0 f rc = .ok g := by
    unfold Fitters.gamma0
    cases hm : (f ++ rc).min? with
    | none => rw [List.min?_eq_none_iff] at hm; exact absurd hm h
    | some m => exact ⟨_, rfl⟩
  obtain ⟨g, hg⟩ := hg
  simp [boundsOf, Fitters.mleBounds, hg]

theorem gt_some {l x : ℝ} (h : l < x) : ∀ l', some l = some l' → l' < x := fun l' e => by cases e; exact h

theorem lt_some {l x : ℝ} (h : x < l) : ∀ l', some l = some l' → x < l' := fun l' e => by cases e; exact h

/-- **C112 (Fit_Weibull_Mixture).** Parameters are compared inside the bounds the program sets. -/
theorem C112_mixture (argsort : List ℝ → List ℕ) (J : Jac) (kde : List ℝ → ℝ) (num2 : List ℝ → List ℝ → Option ℝ → Num2)
    (minimize : Minimizer (Fin 5 → ℝ)) (hE : Exact minimize) (failures : DataArg ℝ) (x : SArgs)
    (r : SRes (List Dist × List ℝ)) (h : fitMixture argsort J kde num2 minimize failures x = .ok r) (hn : r.optimizer ≠ none) :
    ∃ T C v, UsedData failures x.right_censored T C ∧
      r.dist = ([weibull (v 0) (v 1) 0, weibull (v 2) (v 3) 0], [v 4, 1 - v 4]) ∧
      (0 < v 0 → 0 < v 1 → 0 < v 2 → 0 < v 3 → 0 ≤ v 4 → v 4 ≤ 1 →
        ∀ w : Fin 5 → ℝ, 0.0001 < w 0 → 0.0001 < w 1 → 0.0001 < w 2 → 0.0001 < w 3 → 0.0001 < w 4 → w 4 < 0.9999 →
          likMixture T C w ≤ likMixture T C v) := by
  simp only [fitMixture, bind_ok] at h
  obtain ⟨inp, h1, line, -, r1, -, r2, -, o, h5, props, h6, V, h7, g, h8, h9⟩ := h
  cases h9
  rw [C51_ok_iff] at h1
  obtain ⟨u, p1, p2, ne⟩ := usedData_of_accepts (by decide) (by decide) h1
  have hp : props = [o.params 4, 1 - o.params 4] := by
    unfold mixtureInit at h6
    dsimp only at h6
    rw [if_neg (by simp), if_neg (by simp)] at h6
    cases h6; rfl
  subst hp
  refine ⟨_, _, o.params, u, rfl, fun a b c d e e' w w0 w1 w2 w3 w4 w4' => ?_⟩
  norm_num at w0 w1 w2 w3 w4 w4'
  refine lik_le (likMixture_eq (by linarith) (by linarith) (by linarith) (by linarith) (by linarith) (by linarith) p1 p2)
    (likMixture_eq a b c d e e' p1 p2) ?_
  refine mle_exact hE h5 hn (y := w) ?_
  rw [(special_bounds' (List.append_ne_nil_of_left_ne_nil ne _)).1]
  apply inside_fin
  intro i lo hi hb
  fin_cases i <;> cases hb <;> refine ⟨?_, ?_⟩ <;> intro l e <;> cases e <;> assumption

/-- **C112 (Fit_Weibull_CR).** -/
theorem C112_CR (argsort : List ℝ → List ℕ) (J : Jac) (kde : List ℝ → ℝ) (num2 : List ℝ → List ℝ → Option ℝ → Num2)
    (minimize : Minimizer (Fin 4 → ℝ)) (hE : Exact minimize) (failures : DataArg ℝ) (x : SArgs)
    (r : SRes (List Dist)) (h : fitCR argsort J kde num2 minimize failures x = .ok r) (hn : r.optimizer ≠ none) :
    ∃ T C v, UsedData failures x.right_censored T C ∧ r.dist = [weibull (v 0) (v 1) 0, weibull (v 2) (v 3) 0] ∧
      (0 < v 0 → 0 < v 1 → 0 < v 2 → 0 < v 3 →
        ∀ w : Fin 4 → ℝ, 0.0001 < w 0 → 0.0001 < w 1 → 0.0001 < w 2 → 0.0001 < w 3 → likCR T C w ≤ likCR T C v) := by
  simp only [fitCR, bind_ok] at h
  obtain ⟨inp, h1, line, -, r1, -, r2, -, o, h5, V, h7, g, h8, h9⟩ := h
  cases h9
  rw [C51_ok_iff] at h1
  obtain ⟨u, p1, p2, ne⟩ := usedData_of_accepts (by decide) (by decide) h1
  refine ⟨_, _, o.params, u, rfl, fun a b c d w w0 w1 w2 w3 => ?_⟩
  norm_num at w0 w1 w2 w3
  refine lik_le (likCR_eq (by linarith) (by linarith) (by linarith) (by linarith) p1 p2) (likCR_eq a b c d p1 p2) ?_
  refine mle_exact hE h5 hn (y := w) ?_
  rw [(special_bounds' (List.append_ne_nil_of_left_ne_nil ne _)).2]
  apply inside_fin
  intro i lo hi hb
  fin_cases i <;> cases hb <;> refine ⟨?_, ?_⟩ <;> intro l e <;> cases e <;> assumption

/-- **C112 (Fit_Weibull_DSZI).** -/
theorem C112_DSZI (argsort : List ℝ → List ℕ) (J : Jac) (num2 : List ℝ → List ℝ → Option ℝ → Num2)
    (minimize : Minimizer (Fin 4 → ℝ)) (hE : Exact minimize) (failures : List ℝ) (x : SArgs) (r : SRes DSZI)
    (h : fitDSZI argsort J num2 minimize failures x = .ok r) (hn : r.optimizer ≠ none) :
    ∃ zeros T C v, ZeroData failures x.right_censored zeros T C ∧ r.dist = ⟨weibull (v 0) (v 1) 0, v 2, v 3⟩ ∧
      (0 < v 0 → 0 < v 1 → v 3 < v 2 → (0 < v 3 ∨ zeros = 0) →
        ∀ w : Fin 4 → ℝ, 0.0001 < w 0 → 0.0001 < w 1 → 0 < w 3 → w 3 < w 2 → w 3 < 0.99999 → 0.00001 < w 2 → w 2 < 1 →
          likDSZI zeros T C w ≤ likDSZI zeros T C v) := by
  simp only [fitDSZI, bind_ok] at h
  obtain ⟨inp, h1, xy, -, DS0, -, r1, -, o, h5, V, h7, m, h6, g, h8, h9⟩ := h
  cases h9
  rw [C51_ok_iff] at h1
  obtain ⟨u, p1, p2, ne, ne'⟩ := zeroData_of_accepts (by decide) (by decide) h1
  obtain ⟨rfl, b1, b2, b3, b4, b5⟩ := dsziInit_ok h6
  simp only [Option.getD_some] at b1 b2 b3 b4 b5 h8 ⊢
  refine ⟨_, _, _, o.params, u, rfl, fun a b c d w w0 w1 w3 w32 w3' w2 w2' => ?_⟩
  norm_num at w0 w1 w2 w3'
  refine lik_le (likDSZI_eq (legal_of_probabilities p2 (by linarith) (by linarith) w32 w2'.le (.inl w3)) p1 p2)
    (likDSZI_eq (legal_of_probabilities p2 a b c b5 d) p1 p2) ?_
  refine mle_exact hE h5 hn (y := w) ?_
  rw [(special_bounds (List.append_ne_nil_of_left_ne_nil ne' _)).2.2]
  apply inside_fin
  intro i lo hi hb
  fin_cases i <;> cases hb <;> refine ⟨?_, ?_⟩ <;> intro l e <;> cases e <;> assumption

/-- **C112 (Fit_Weibull_DS).** -/
theorem C112_DS (argsort : List ℝ → List ℕ) (J : Jac) (num2 : List ℝ → List ℝ → Option ℝ → Num2)
    (minimize : Minimizer (Fin 3 → ℝ)) (hE : Exact minimize) (failures : DataArg ℝ) (x : SArgs) (r : SRes DSZI)
    (h : fitDS argsort J num2 minimize failures x = .ok r) (hn : r.optimizer ≠ none) :
    ∃ T C, ∃ v : Fin 3 → ℝ, UsedData failures x.right_censored T C ∧ r.dist = ⟨weibull (v 0) (v 1) 0, v 2, 0⟩ ∧
      (0 < v 0 → 0 < v 1 → ∀ a b ds, 0.0001 < a → 0.0001 < b → 0.00001 < ds → ds < 1 →
        likDSZI 0 T C ![a, b, ds, 0] ≤ likDSZI 0 T C ![v 0, v 1, v 2, 0]) := by
  simp only [fitDS, bind_ok] at h
  obtain ⟨inp, h1, xy, -, DS0, -, r1, -, o, h5, V, h7, m, h6, g, h8, h9⟩ := h
  cases h9
  rw [C51_ok_iff] at h1
  obtain ⟨u, p1, p2, ne⟩ := usedData_of_accepts (by decide) (by decide) h1
  obtain ⟨rfl, b1, b2, b3, b4, b5⟩ := dsziInit_ok h6
  simp only [Option.getD_some, Option.getD_none] at b1 b2 b3 b4 b5 h8 ⊢
  have hlik : ∀ v : Fin 3 → ℝ, LegalDSZI 0 inp.right_censored (v 0) (v 1) (v 2) 0 →
      Real.exp (loglik (DS_LL (v 0) (v 1) (v 2) inp.failures inp.right_censored)) =
        likDSZI 0 inp.failures inp.right_censored ![v 0, v 1, v 2, 0] := by
    intro v hv
    rw [DS_LL_eq]
    exact likDSZI_eq (v := ![v 0, v 1, v 2, 0]) (Z := []) hv p1 p2
  refine ⟨_, _, o.params, u, rfl, fun a b a' b' ds w0 w1 w2 w2' => ?_⟩
  norm_num at w0 w1 w2
  refine lik_le (hlik ![a', b', ds] (legal_of_probabilities p2 (show 0 < a' by linarith) (show 0 < b' by linarith)
    (show 0 < ds by linarith) (show ds ≤ 1 from w2'.le) (.inr rfl)))
    (hlik o.params (legal_of_probabilities p2 a b b4 b5 (.inr rfl))) ?_
  refine mle_exact hE h5 hn (y := ![a', b', ds]) ?_
  rw [(special_bounds (List.append_ne_nil_of_left_ne_nil ne _)).1]
  apply inside_fin
  intro i lo hi hb
  fin_cases i <;> cases hb <;> refine ⟨?_, ?_⟩ <;> intro l e <;> cases e <;> assumption

/-- **C112 (Fit_Weibull_ZI).** -/
theorem C112_ZI (argsort : List ℝ → List ℕ) (J : Jac) (num2 : List ℝ → List ℝ → Option ℝ → Num2)
    (minimize : Minimizer (Fin 3 → ℝ)) (hE : Exact minimize) (failures : List ℝ) (x : SArgs) (r : SRes DSZI)
    (h : fitZI argsort J num2 minimize failures x = .ok r) (hn : r.optimizer ≠ none) :
    ∃ zeros T C, ∃ v : Fin 3 → ℝ, ZeroData failures x.right_censored zeros T C ∧ r.dist = ⟨weibull (v 0) (v 1) 0, 1, v 2⟩ ∧
      (0 < v 0 → 0 < v 1 → (0 < v 2 ∨ zeros = 0) → ∀ a b zi, 0.0001 < a → 0.0001 < b → 0 < zi → zi < 0.99999 →
        likDSZI zeros T C ![a, b, 1, zi] ≤ likDSZI zeros T C ![v 0, v 1, 1, v 2]) := by
  simp only [fitZI, bind_ok] at h
  obtain ⟨inp, h1, r1, -, o, h5, V, h7, m, h6, g, h8, h9⟩ := h
  cases h9
  rw [C51_ok_iff] at h1
  obtain ⟨u, p1, p2, ne, ne'⟩ := zeroData_of_accepts (by decide) (by decide) h1
  obtain ⟨rfl, b1, b2, b3, b4, b5⟩ := dsziInit_ok h6
  simp only [Option.getD_some, Option.getD_none] at b1 b2 b3 b4 b5 h8 ⊢
  have hlik : ∀ v : Fin 3 → ℝ, LegalDSZI (failures.filter fun t => decide (t = 0)).length inp.right_censored (v 0) (v 1) 1 (v 2) →
      Real.exp (loglik (ZI_LL (v 0) (v 1) (v 2) (failures.filter fun t => decide (t = 0)) inp.failures inp.right_censored)) =
        likDSZI (failures.filter fun t => decide (t = 0)).length inp.failures inp.right_censored ![v 0, v 1, 1, v 2] := by
    intro v hv
    rw [ZI_LL_eq]
    exact likDSZI_eq (v := ![v 0, v 1, 1, v 2]) hv p1 p2
  refine ⟨_, _, _, o.params, u, rfl, fun a b d a' b' zi w0 w1 w2 w2' => ?_⟩
  norm_num at w0 w1 w2'
  refine lik_le (hlik ![a', b', zi] (legal_of_probabilities p2 (show 0 < a' by linarith) (show 0 < b' by linarith)
    (show zi < 1 by linarith) le_rfl (.inl w2)))
    (hlik o.params (legal_of_probabilities p2 a b b3 le_rfl d)) ?_
  refine mle_exact hE h5 hn (y := ![a', b', zi]) ?_
  rw [(special_bounds (List.append_ne_nil_of_left_ne_nil ne' _)).2.1]
  apply inside_fin
  intro i lo hi hb
  fin_cases i <;> cases hb <;> refine ⟨?_, ?_⟩ <;> intro l e <;> cases e <;> assumption

end Reliability.Props

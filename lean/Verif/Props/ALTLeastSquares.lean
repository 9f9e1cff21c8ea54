import Mathlib.Tactic.LinearCombination
import Mathlib.Algebra.Order.BigOperators.Group.List
import Mathlib.LinearAlgebra.Matrix.ToLinearEquiv
import Mathlib.Algebra.BigOperators.Fin
import Verif.Model.ALTLeastSquares
import Verif.Spec.ALTLeastSquares
import Verif.Props.LinReg
import Verif.Props.MLE

/-! # C97: the initial guess of the ALT fitters -/

namespace Reliability.Props

open Reliability Reliability.ALTLeastSquares Reliability.LinReg Reliability.Spec List

section plane

variable {α : Type _} (pts : List α) (x y z : α → ℝ)

/-- sum of squared residuals of the plane `z = w0 + w1 x + w2 y` -/
noncomputable def planeSSE (w : Fin 3 → ℝ) : ℝ := (pts.map fun p => (z p - (w 0 + w 1 * x p + w 2 * y p)) ^ 2).sum

theorem gram_apply (w : Fin 3 → ℝ) :
    Matrix.mulVec (gram (pts.map x) (pts.map y)) w =
      ![(pts.map fun p => w 0 + w 1 * x p + w 2 * y p).sum, (pts.map fun p => x p * (w 0 + w 1 * x p + w 2 * y p)).sum,
        (pts.map fun p => y p * (w 0 + w 1 * x p + w 2 * y p)).sum] := by
  ext i
  unfold gram
  simp only [zipWith_map, zipWith_self, map_map]
  fin_cases i <;> simp [Matrix.mulVec, dotProduct, Fin.sum_univ_three] <;>
  · induction pts with
    | nil => simp
    | cons p pts ih =>
      simp only [map_cons, sum_cons, length_cons, Nat.cast_add, Nat.cast_one, Function.comp] at ih ⊢
      linarith

theorem rhs_apply : rhs (pts.map x) (pts.map y) (pts.map z) =
    ![(pts.map z).sum, (pts.map fun p => x p * z p).sum, (pts.map fun p => y p * z p).sum] := by
  unfold rhs
  simp only [zipWith_map, zipWith_self]

theorem plane_expand (w u : Fin 3 → ℝ) :
    planeSSE pts x y z u = planeSSE pts x y z w +
      (pts.map fun p => ((u 0 - w 0) + (u 1 - w 1) * x p + (u 2 - w 2) * y p) ^ 2).sum
      - 2 * ((u 0 - w 0) * ((pts.map z).sum - (pts.map fun p => w 0 + w 1 * x p + w 2 * y p).sum) +
        (u 1 - w 1) * ((pts.map fun p => x p * z p).sum - (pts.map fun p => x p * (w 0 + w 1 * x p + w 2 * y p)).sum) +
        (u 2 - w 2) * ((pts.map fun p => y p * z p).sum - (pts.map fun p => y p * (w 0 + w 1 * x p + w 2 * y p)).sum)) := by
  unfold planeSSE
  induction pts with
  | nil => simp
  | cons p pts ih =>
    simp only [map_cons, sum_cons] at ih ⊢
    linear_combination ih

theorem sumsq_eq_zero {β : Type _} (l : List β) (f : β → ℝ) (h : (l.map fun p => f p ^ 2).sum ≤ 0) : ∀ p ∈ l, f p = 0 := by
  induction l with
  | nil => simp
  | cons q l ih =>
    have h0 : 0 ≤ (l.map fun p => f p ^ 2).sum := by
      apply List.sum_nonneg
      intro a ha
      obtain ⟨b, -, rfl⟩ := mem_map.1 ha
      positivity
    simp only [map_cons, sum_cons] at h
    have hq : f q ^ 2 = 0 := by nlinarith [sq_nonneg (f q)]
    intro p hp
    rcases mem_cons.1 hp with rfl | hp
    · exact pow_eq_zero_iff two_ne_zero |>.1 hq
    · exact ih (by nlinarith [sq_nonneg (f q)]) p hp

/-- The Gram matrix is singular exactly if the points are on one line. -/
theorem gram_singular : (gram (pts.map x) (pts.map y)).det = 0 ↔ Collinear2 (pts.map fun p => (x p, y p)) := by
  rw [← Matrix.exists_mulVec_eq_zero_iff]
  unfold Collinear2
  constructor
  · rintro ⟨w, hw, h⟩
    rw [gram_apply] at h
    refine ⟨w 0, w 1, w 2, ?_, ?_⟩
    · intro hc
      simp only [Prod.mk.injEq] at hc
      apply hw
      ext i
      fin_cases i
      · exact hc.1
      · exact hc.2.1
      · exact hc.2.2
    · have h0 : (pts.map fun p => w 0 + w 1 * x p + w 2 * y p).sum = 0 := congrFun h 0
      have h1 : (pts.map fun p => x p * (w 0 + w 1 * x p + w 2 * y p)).sum = 0 := congrFun h 1
      have h2 : (pts.map fun p => y p * (w 0 + w 1 * x p + w 2 * y p)).sum = 0 := congrFun h 2
      have key : (pts.map fun p => (w 0 + w 1 * x p + w 2 * y p) ^ 2).sum =
          w 0 * (pts.map fun p => w 0 + w 1 * x p + w 2 * y p).sum +
          w 1 * (pts.map fun p => x p * (w 0 + w 1 * x p + w 2 * y p)).sum +
          w 2 * (pts.map fun p => y p * (w 0 + w 1 * x p + w 2 * y p)).sum := by
        clear h0 h1 h2 h
        induction pts with
        | nil => simp
        | cons p pts ih =>
          simp only [map_cons, sum_cons] at ih ⊢
          linear_combination ih
      have := sumsq_eq_zero pts (fun p => w 0 + w 1 * x p + w 2 * y p) (by rw [key, h0, h1, h2]; simp)
      intro q hq
      obtain ⟨p, hp, rfl⟩ := mem_map.1 hq
      exact this p hp
  · rintro ⟨a, b, c, hne, h⟩
    refine ⟨![a, b, c], ?_, ?_⟩
    · intro hc
      apply hne
      have h0 := congrFun hc 0
      have h1 := congrFun hc 1
      have h2 := congrFun hc 2
      simp at h0 h1 h2
      simp [h0, h1, h2]
    · rw [gram_apply]
      have hz : ∀ p ∈ pts, a + b * x p + c * y p = 0 := fun p hp => h _ (mem_map.2 ⟨p, hp, rfl⟩)
      ext i
      fin_cases i <;> simp [-List.sum_map_add]
      · apply List.sum_eq_zero
        intro q hq
        obtain ⟨p, hp, rfl⟩ := mem_map.1 hq
        exact hz p hp
      · apply List.sum_eq_zero
        intro q hq
        obtain ⟨p, hp, rfl⟩ := mem_map.1 hq
        rw [hz p hp, mul_zero]
      · apply List.sum_eq_zero
        intro q hq
        obtain ⟨p, hp, rfl⟩ := mem_map.1 hq
        rw [hz p hp, mul_zero]

/-- The plane found is the unique least-squares plane. -/
theorem plane_min (noise : Matrix (Fin 3) (Fin 3) ℝ) (h : ¬ Collinear2 (pts.map fun p => (x p, y p))) (u : Fin 3 → ℝ) :
    planeSSE pts x y z (nonInvertableHandler noise (pts.map x) (pts.map y) (pts.map z)) ≤ planeSSE pts x y z u ∧
    (u ≠ nonInvertableHandler noise (pts.map x) (pts.map y) (pts.map z) →
      planeSSE pts x y z (nonInvertableHandler noise (pts.map x) (pts.map y) (pts.map z)) < planeSSE pts x y z u) := by
  have hd : (gram (pts.map x) (pts.map y)).det ≠ 0 := fun hc => h ((gram_singular pts x y).1 hc)
  set w := nonInvertableHandler noise (pts.map x) (pts.map y) (pts.map z) with hw
  have hw' : w = Matrix.mulVec (gram (pts.map x) (pts.map y))⁻¹ (rhs (pts.map x) (pts.map y) (pts.map z)) := by
    rw [hw]; unfold nonInvertableHandler; rw [if_pos hd]
  have heq : Matrix.mulVec (gram (pts.map x) (pts.map y)) w = rhs (pts.map x) (pts.map y) (pts.map z) := by
    rw [hw', Matrix.mulVec_mulVec, Matrix.mul_nonsing_inv _ (isUnit_iff_ne_zero.2 hd), Matrix.one_mulVec]
  rw [gram_apply, rhs_apply] at heq
  have h0 : (pts.map fun p => w 0 + w 1 * x p + w 2 * y p).sum = (pts.map z).sum := congrFun heq 0
  have h1 : (pts.map fun p => x p * (w 0 + w 1 * x p + w 2 * y p)).sum = (pts.map fun p => x p * z p).sum := congrFun heq 1
  have h2 : (pts.map fun p => y p * (w 0 + w 1 * x p + w 2 * y p)).sum = (pts.map fun p => y p * z p).sum := congrFun heq 2
  have he := plane_expand pts x y z w u
  rw [← h0, ← h1, ← h2] at he
  simp only [sub_self, mul_zero, add_zero, sub_zero] at he
  have hnn : 0 ≤ (pts.map fun p => ((u 0 - w 0) + (u 1 - w 1) * x p + (u 2 - w 2) * y p) ^ 2).sum := by
    apply List.sum_nonneg
    intro a ha
    obtain ⟨b, -, rfl⟩ := mem_map.1 ha
    positivity
  refine ⟨by linarith, fun hne => ?_⟩
  by_contra hc
  have hz := sumsq_eq_zero pts (fun p => (u 0 - w 0) + (u 1 - w 1) * x p + (u 2 - w 2) * y p) (by linarith)
  apply h
  refine ⟨u 0 - w 0, u 1 - w 1, u 2 - w 2, ?_, ?_⟩
  · intro hd
    simp only [Prod.mk.injEq] at hd
    apply hne
    ext i
    fin_cases i
    · exact sub_eq_zero.1 hd.1
    · exact sub_eq_zero.1 hd.2.1
    · exact sub_eq_zero.1 hd.2.2
  · intro q hq
    obtain ⟨p, hp, rfl⟩ := mem_map.1 hq
    exact hz p hp

end plane

/-- six models -/
def altModels : List String := ["Exponential", "Eyring", "Power", "Dual_Exponential", "Power_Exponential", "Dual_Power"]

/-- The stresses determine the line or plane: two different first stresses for the single-stress models, scaled stress
pairs not all on one line for the dual-stress models. -/
def Determined (model : String) (pts : List (ℝ × ℝ × ℝ)) : Prop :=
  if model ∈ ["Exponential", "Eyring", "Power"] then ∃ p ∈ pts, ∃ q ∈ pts, p.2.1 ≠ q.2.1
  else ¬ Collinear2 (pts.map fun p => stressScale model p.2)

/-- the single-stress models are straight lines -/
theorem line_min (pts : List (ℝ × ℝ × ℝ)) (x y : ℝ × ℝ × ℝ → ℝ) (hd : ∃ p ∈ pts, ∃ q ∈ pts, x p ≠ x q) :
    ∃ m c, linearRegression (pts.map x) (pts.map y) none none none .RRY = .ok (.fin m, .fin c) ∧
      ∀ m' c', (pts.map fun p => (y p - (m * x p + c)) ^ 2).sum ≤ (pts.map fun p => (y p - (m' * x p + c')) ^ 2).sum ∧
        ((m', c') ≠ (m, c) →
          (pts.map fun p => (y p - (m * x p + c)) ^ 2).sum < (pts.map fun p => (y p - (m' * x p + c')) ^ 2).sum) := by
  obtain ⟨p, hp, q, hq, hpq⟩ := hd
  obtain ⟨⟨m, c⟩, hr⟩ := (C49_succeeds (pts.map x) (pts.map y) (by simp) (by
    intro hc; rw [map_eq_nil_iff] at hc; rw [hc] at hp; cases hp)).1
      ⟨x p, mem_map.2 ⟨p, hp, rfl⟩, x q, mem_map.2 ⟨q, hq, rfl⟩, hpq⟩
  obtain ⟨m₀, c₀, rfl, rfl, hmin⟩ := C49_RRY _ _ _ _ hr
  refine ⟨m₀, c₀, hr, fun m' c' => ?_⟩
  have := hmin m' c'
  unfold LinReg.Spec.sseY at this
  simpa only [zipWith_map, zipWith_self] using this

theorem log_ne {a b : ℝ} (ha : 0 < a) (hb : 0 < b) (h : a ≠ b) : Real.log a ≠ Real.log b :=
  fun hc => h (Real.log_injOn_pos (Set.mem_Ioi.2 ha) (Set.mem_Ioi.2 hb) hc)

theorem inv_ne {a b : ℝ} (h : a ≠ b) : 1 / a ≠ 1 / b := by
  simpa using h

theorem sm_exponential {ps : List ℝ} {m : LifeStress} (h : stressModel "Exponential" ps = some m) :
    ∃ a b, ps = [a, b] ∧ m = .exponential a b := by
  match ps, h with
  | [a, b], h => exact ⟨a, b, rfl, (Option.some.inj h).symm⟩

theorem sm_eyring {ps : List ℝ} {m : LifeStress} (h : stressModel "Eyring" ps = some m) :
    ∃ a c, ps = [a, c] ∧ m = .eyring a c := by
  match ps, h with
  | [a, b], h => exact ⟨a, b, rfl, (Option.some.inj h).symm⟩

theorem sm_power {ps : List ℝ} {m : LifeStress} (h : stressModel "Power" ps = some m) :
    ∃ a n, ps = [a, n] ∧ m = .power a n := by
  match ps, h with
  | [a, b], h => exact ⟨a, b, rfl, (Option.some.inj h).symm⟩

theorem sm_dualExponential {ps : List ℝ} {m : LifeStress} (h : stressModel "Dual_Exponential" ps = some m) :
    ∃ a b c, ps = [a, b, c] ∧ m = .dualExponential a b c := by
  match ps, h with
  | [a, b, c], h => exact ⟨a, b, c, rfl, (Option.some.inj h).symm⟩

theorem sm_powerExponential {ps : List ℝ} {m : LifeStress} (h : stressModel "Power_Exponential" ps = some m) :
    ∃ a c n, ps = [a, c, n] ∧ m = .powerExponential a c n := by
  match ps, h with
  | [a, b, c], h => exact ⟨a, b, c, rfl, (Option.some.inj h).symm⟩

theorem sm_dualPower {ps : List ℝ} {m : LifeStress} (h : stressModel "Dual_Power" ps = some m) :
    ∃ c k n, ps = [c, k, n] ∧ m = .dualPower c k n := by
  match ps, h with
  | [a, b, c], h => exact ⟨a, b, c, rfl, (Option.some.inj h).symm⟩

/-- **C97.** With positive times and stresses that determine the fit, the guess is the unique legal parameter list of the
chosen life-stress model with the least sum of squared log residuals. -/
theorem C97_least_squares (noise : Matrix (Fin 3) (Fin 3) ℝ) (model : String) (hmodel : model ∈ altModels)
    (pts : List (ℝ × ℝ × ℝ)) (hpos : ∀ p ∈ pts, 0 < p.1 ∧ 0 < p.2.1 ∧ 0 < p.2.2) (hd : Determined model pts) :
    ∃ out m, altLeastSquares noise model (pts.map (·.1)) (pts.map (·.2.1)) (pts.map (·.2.2)) = .ok out ∧
      stressModel model out = some m ∧ m.Valid ∧
      ∀ ps m', stressModel model ps = some m' → m'.Valid →
        logSSE pts m ≤ logSSE pts m' ∧ (ps ≠ out → logSSE pts m < logSSE pts m') := by
  have cong : ∀ f g : ℝ × ℝ × ℝ → ℝ, (∀ p ∈ pts, f p = g p) → (pts.map f).sum = (pts.map g).sum := by
    intro f g h; rw [map_congr_left h]
  simp only [altModels, mem_cons, not_mem_nil, or_false] at hmodel
  rcases hmodel with rfl | rfl | rfl | rfl | rfl | rfl
  · -- Exponential
    unfold Determined at hd
    rw [if_pos (by decide)] at hd
    obtain ⟨p, hp, q, hq, hpq⟩ := hd
    obtain ⟨m, c, hr, hmin⟩ := line_min pts (fun p => 1 / p.2.1) (fun p => Real.log p.1) ⟨p, hp, q, hq, inv_ne hpq⟩
    have hlin : ∀ a b, 0 < b → logSSE pts (.exponential a b) =
        (pts.map fun p => (Real.log p.1 - (a * (1 / p.2.1) + Real.log b)) ^ 2).sum := by
      intro a b hb 
      apply cong
      intro p hp
      obtain ⟨ht, hs, -⟩ := hpos p hp
      simp only [LifeStress.life]
      rw [Real.log_mul hb.ne' (Real.exp_pos _).ne', Real.log_exp]
      ring
    refine ⟨[m, Real.exp c], .exponential m (Real.exp c), ?_, rfl, Real.exp_pos _, ?_⟩
    · unfold altLeastSquares
      simp only [String.reduceEq, if_false, if_true, map_map, zipWith_map, zipWith_self, Function.comp_def]
      rw [hr]
      rfl
    · intro ps m' hm' hv
      obtain ⟨a, b, rfl, rfl⟩ := sm_exponential hm'
      have hv' : 0 < b := hv
      rw [hlin _ _ (Real.exp_pos _), hlin _ _ hv', Real.log_exp]
      refine ⟨(hmin _ _).1, fun hne => (hmin _ _).2 ?_⟩
      rintro he
      apply hne
      simp only [Prod.mk.injEq] at he
      rw [← he.1, ← he.2, Real.exp_log hv']
  · -- Eyring
    unfold Determined at hd
    rw [if_pos (by decide)] at hd
    obtain ⟨p, hp, q, hq, hpq⟩ := hd
    obtain ⟨m, c, hr, hmin⟩ := line_min pts (fun p => 1 / p.2.1) (fun p => Real.log p.1 + Real.log p.2.1) ⟨p, hp, q, hq, inv_ne hpq⟩
    have hlin : ∀ a k, logSSE pts (.eyring a k) =
        (pts.map fun p => (Real.log p.1 + Real.log p.2.1 - (a * (1 / p.2.1) + -k)) ^ 2).sum := by
      intro a k 
      apply cong
      intro p hp
      obtain ⟨ht, hs, -⟩ := hpos p hp
      simp only [LifeStress.life]
      rw [Real.log_div (Real.exp_pos _).ne' hs.ne', Real.log_exp]
      ring
    refine ⟨[m, -c], .eyring m (-c), ?_, rfl, trivial, ?_⟩
    · unfold altLeastSquares
      simp only [String.reduceEq, if_false, if_true, map_map, zipWith_map, zipWith_self, Function.comp_def]
      rw [hr]
      rfl
    · intro ps m' hm' hv
      obtain ⟨a, k, rfl, rfl⟩ := sm_eyring hm'
      rw [hlin, hlin, neg_neg]
      refine ⟨(hmin _ _).1, fun hne => (hmin _ _).2 ?_⟩
      rintro he
      apply hne
      simp only [Prod.mk.injEq] at he
      rw [← he.1, ← he.2, neg_neg]
  · -- Power
    unfold Determined at hd
    rw [if_pos (by decide)] at hd
    obtain ⟨p, hp, q, hq, hpq⟩ := hd
    obtain ⟨m, c, hr, hmin⟩ := line_min pts (fun p => Real.log p.2.1) (fun p => Real.log p.1) ⟨p, hp, q, hq, log_ne (hpos p hp).2.1 (hpos q hq).2.1 hpq⟩
    have hlin : ∀ a n, 0 < a → logSSE pts (.power a n) =
        (pts.map fun p => (Real.log p.1 - (n * (Real.log p.2.1) + Real.log a)) ^ 2).sum := by
      intro a n hb 
      apply cong
      intro p hp
      obtain ⟨ht, hs, -⟩ := hpos p hp
      simp only [LifeStress.life]
      rw [Real.log_mul hb.ne' (Real.rpow_pos_of_pos hs _).ne', Real.log_rpow hs]
      ring
    refine ⟨[Real.exp c, m], .power (Real.exp c) m, ?_, rfl, Real.exp_pos _, ?_⟩
    · unfold altLeastSquares
      simp only [String.reduceEq, if_false, if_true, map_map, zipWith_map, zipWith_self, Function.comp_def]
      rw [hr]
      rfl
    · intro ps m' hm' hv
      obtain ⟨a, n, rfl, rfl⟩ := sm_power hm'
      have hv' : 0 < a := hv
      rw [hlin _ _ (Real.exp_pos _), hlin _ _ hv', Real.log_exp]
      refine ⟨(hmin _ _).1, fun hne => (hmin _ _).2 ?_⟩
      rintro he
      apply hne
      simp only [Prod.mk.injEq] at he
      rw [← he.1, ← he.2, Real.exp_log hv']
  · -- Dual_Exponential
    unfold Determined at hd
    rw [if_neg (by decide)] at hd
    obtain ⟨w, hw⟩ : ∃ w, w = nonInvertableHandler noise (pts.map fun p => 1 / p.2.1) (pts.map fun p => 1 / p.2.2)
      (pts.map fun p => Real.log p.1) := ⟨_, rfl⟩
    have hmin := plane_min pts (fun p => 1 / p.2.1) (fun p => 1 / p.2.2) (fun p => Real.log p.1) noise hd
    rw [← hw] at hmin
    have hlin : ∀ a b c, 0 < c → logSSE pts (.dualExponential a b c) =
        planeSSE pts (fun p => 1 / p.2.1) (fun p => 1 / p.2.2) (fun p => Real.log p.1) ![Real.log c, a, b] := by
      intro a b c hb
      apply cong
      intro p hp
      obtain ⟨ht, hs, hs2⟩ := hpos p hp
      simp only [LifeStress.life, Matrix.cons_val_zero, Matrix.cons_val_one, Matrix.cons_val]
      rw [Real.log_mul hb.ne' (Real.exp_pos _).ne', Real.log_exp]
      ring
    refine ⟨[w 1, w 2, Real.exp (w 0)], .dualExponential (w 1) (w 2) (Real.exp (w 0)), ?_, rfl, Real.exp_pos _, ?_⟩
    · unfold altLeastSquares
      simp only [String.reduceEq, if_false, if_true, map_map, Function.comp_def]
      rw [← hw]
    · intro ps m' hm' hv
      obtain ⟨a, b, c, rfl, rfl⟩ := sm_dualExponential hm'
      have hv' : 0 < c := hv
      have ew : (![Real.log (Real.exp (w 0)), w 1, w 2] : Fin 3 → ℝ) = w := by
        ext i
        fin_cases i <;> simp [Real.log_exp]
      rw [hlin _ _ _ (Real.exp_pos _), hlin _ _ _ hv', ew]
      refine ⟨(hmin _).1, fun hne => (hmin _).2 ?_⟩
      rintro he
      apply hne
      have e0 := congrFun he 0
      have e1 := congrFun he 1
      have e2 := congrFun he 2
      simp only [Matrix.cons_val_zero, Matrix.cons_val_one, Matrix.cons_val] at e0 e1 e2
      rw [← e0, ← e1, ← e2, Real.exp_log hv']
  · -- Power_Exponential
    unfold Determined at hd
    rw [if_neg (by decide)] at hd
    obtain ⟨w, hw⟩ : ∃ w, w = nonInvertableHandler noise (pts.map fun p => 1 / p.2.1) (pts.map fun p => Real.log p.2.2)
      (pts.map fun p => Real.log p.1) := ⟨_, rfl⟩
    have hmin := plane_min pts (fun p => 1 / p.2.1) (fun p => Real.log p.2.2) (fun p => Real.log p.1) noise hd
    rw [← hw] at hmin
    have hlin : ∀ a c n, 0 < c → logSSE pts (.powerExponential a c n) =
        planeSSE pts (fun p => 1 / p.2.1) (fun p => Real.log p.2.2) (fun p => Real.log p.1) ![Real.log c, a, n] := by
      intro a c n hb
      apply cong
      intro p hp
      obtain ⟨ht, hs, hs2⟩ := hpos p hp
      simp only [LifeStress.life, Matrix.cons_val_zero, Matrix.cons_val_one, Matrix.cons_val]
      rw [Real.log_mul (mul_pos hb (Real.rpow_pos_of_pos hs2 _)).ne' (Real.exp_pos _).ne', Real.log_exp,
        Real.log_mul hb.ne' (Real.rpow_pos_of_pos hs2 _).ne', Real.log_rpow hs2]
      ring
    refine ⟨[w 1, Real.exp (w 0), w 2], .powerExponential (w 1) (Real.exp (w 0)) (w 2), ?_, rfl, Real.exp_pos _, ?_⟩
    · unfold altLeastSquares
      simp only [String.reduceEq, if_false, if_true, map_map, Function.comp_def]
      rw [← hw]
    · intro ps m' hm' hv
      obtain ⟨a, c, n, rfl, rfl⟩ := sm_powerExponential hm'
      have hv' : 0 < c := hv
      have ew : (![Real.log (Real.exp (w 0)), w 1, w 2] : Fin 3 → ℝ) = w := by
        ext i
        fin_cases i <;> simp [Real.log_exp]
      rw [hlin _ _ _ (Real.exp_pos _), hlin _ _ _ hv', ew]
      refine ⟨(hmin _).1, fun hne => (hmin _).2 ?_⟩
      rintro he
      apply hne
      have e0 := congrFun he 0
      have e1 := congrFun he 1
      have e2 := congrFun he 2
      simp only [Matrix.cons_val_zero, Matrix.cons_val_one, Matrix.cons_val] at e0 e1 e2
      rw [← e0, ← e1, ← e2, Real.exp_log hv']
  · -- Dual_Power
    unfold Determined at hd
    rw [if_neg (by decide)] at hd
    obtain ⟨w, hw⟩ : ∃ w, w = nonInvertableHandler noise (pts.map fun p => Real.log p.2.1) (pts.map fun p => Real.log p.2.2)
      (pts.map fun p => Real.log p.1) := ⟨_, rfl⟩
    have hmin := plane_min pts (fun p => Real.log p.2.1) (fun p => Real.log p.2.2) (fun p => Real.log p.1) noise hd
    rw [← hw] at hmin
    have hlin : ∀ c k n, 0 < c → logSSE pts (.dualPower c k n) =
        planeSSE pts (fun p => Real.log p.2.1) (fun p => Real.log p.2.2) (fun p => Real.log p.1) ![Real.log c, k, n] := by
      intro c k n hb
      apply cong
      intro p hp
      obtain ⟨ht, hs, hs2⟩ := hpos p hp
      simp only [LifeStress.life, Matrix.cons_val_zero, Matrix.cons_val_one, Matrix.cons_val]
      rw [Real.log_mul (mul_pos hb (Real.rpow_pos_of_pos hs _)).ne' (Real.rpow_pos_of_pos hs2 _).ne',
        Real.log_mul hb.ne' (Real.rpow_pos_of_pos hs _).ne', Real.log_rpow hs, Real.log_rpow hs2]
    refine ⟨[Real.exp (w 0), w 1, w 2], .dualPower (Real.exp (w 0)) (w 1) (w 2), ?_, rfl, Real.exp_pos _, ?_⟩
    · unfold altLeastSquares
      simp only [String.reduceEq, if_false, if_true, map_map, Function.comp_def]
      rw [← hw]
    · intro ps m' hm' hv
      obtain ⟨c, k, n, rfl, rfl⟩ := sm_dualPower hm'
      have hv' : 0 < c := hv
      have ew : (![Real.log (Real.exp (w 0)), w 1, w 2] : Fin 3 → ℝ) = w := by
        ext i
        fin_cases i <;> simp [Real.log_exp]
      rw [hlin _ _ _ (Real.exp_pos _), hlin _ _ _ hv', ew]
      refine ⟨(hmin _).1, fun hne => (hmin _).2 ?_⟩
      rintro he
      apply hne
      have e0 := congrFun he 0
      have e1 := congrFun he 1
      have e2 := congrFun he 2
      simp only [Matrix.cons_val_zero, Matrix.cons_val_one, Matrix.cons_val] at e0 e1 e2
      rw [← e0, ← e1, ← e2, Real.exp_log hv']

theorem logSSE_zero {pts : List (ℝ × ℝ × ℝ)} {m : LifeStress} (h : ∀ p ∈ pts, p.1 = m.life p.2.1 p.2.2) : logSSE pts m = 0 := by
  apply List.sum_eq_zero
  intro z hz
  obtain ⟨p, hp, rfl⟩ := mem_map.1 hz
  simp [← h p hp]

theorem logSSE_nonneg (pts : List (ℝ × ℝ × ℝ)) (m : LifeStress) : 0 ≤ logSSE pts m := by
  apply List.sum_nonneg
  intro z hz
  obtain ⟨p, hp, rfl⟩ := mem_map.1 hz
  positivity

/-- **C97 (exact data).** Failures that lie exactly on a legal life-stress curve give back its parameters. -/
theorem C97_exact (noise : Matrix (Fin 3) (Fin 3) ℝ) (model : String) (hmodel : model ∈ altModels)
    (pts : List (ℝ × ℝ × ℝ)) (hpos : ∀ p ∈ pts, 0 < p.2.1 ∧ 0 < p.2.2) (hd : Determined model pts)
    (ps : List ℝ) (m : LifeStress) (hm : stressModel model ps = some m) (hv : m.Valid)
    (hlife : ∀ p ∈ pts, p.1 = m.life p.2.1 p.2.2) :
    altLeastSquares noise model (pts.map (·.1)) (pts.map (·.2.1)) (pts.map (·.2.2)) = .ok ps := by
  obtain ⟨out, m', h1, -, -, h4⟩ := C97_least_squares noise model hmodel pts
    (fun p hp => ⟨by rw [hlife p hp]; exact m.life_pos hv (hpos p hp).1 (hpos p hp).2, hpos p hp⟩) hd
  have := (h4 ps m hm hv).2
  rw [logSSE_zero hlife] at this
  by_cases hne : ps = out
  · rw [hne]; exact h1
  · exact absurd (this hne) (not_lt.2 (logSSE_nonneg _ _))

/-- **C97 (bounds).** The bounds given to the optimiser are the legal parameters of the life-stress model (their closure)
with a non-negative shape; without the shape for the Exponential distribution. -/
theorem C97_bounds (model : String) (hmodel : model ∈ altModels) :
    (∀ dist ∈ ["Weibull", "Lognormal", "Normal"], ∃ b, altBounds model dist = .ok b ∧
      ∀ ps m shape, stressModel model ps = some m → (m.Valid → 0 ≤ shape → Within (ps ++ [shape]) b) ∧
        (Within (ps ++ [shape]) b → 0 ≤ shape ∧ (m.Valid ∨ 0 ∈ ps))) ∧
    (∃ b, altBounds model "Exponential" = .ok b ∧
      ∀ ps m, stressModel model ps = some m → (m.Valid → Within ps b) ∧ (Within ps b → m.Valid ∨ 0 ∈ ps)) := by
  simp only [altModels, mem_cons, not_mem_nil, or_false] at hmodel
  have w2 : ∀ (a b : ℝ) (p q : Fitters.Bound ℝ), Within [a, b] [p, q] ↔
      ((∀ l, p.1 = some l → l ≤ a) ∧ (∀ u, p.2 = some u → a ≤ u)) ∧
      ((∀ l, q.1 = some l → l ≤ b) ∧ (∀ u, q.2 = some u → b ≤ u)) := by
    intro a b p q
    simp [Within]
  have w3 : ∀ (a b c : ℝ) (p q r : Fitters.Bound ℝ), Within [a, b, c] [p, q, r] ↔
      ((∀ l, p.1 = some l → l ≤ a) ∧ (∀ u, p.2 = some u → a ≤ u)) ∧
      ((∀ l, q.1 = some l → l ≤ b) ∧ (∀ u, q.2 = some u → b ≤ u)) ∧
      ((∀ l, r.1 = some l → l ≤ c) ∧ (∀ u, r.2 = some u → c ≤ u)) := by
    intro a b c p q r
    simp [Within]
  have w4 : ∀ (a b c d : ℝ) (p q r s : Fitters.Bound ℝ), Within [a, b, c, d] [p, q, r, s] ↔
      ((∀ l, p.1 = some l → l ≤ a) ∧ (∀ u, p.2 = some u → a ≤ u)) ∧
      ((∀ l, q.1 = some l → l ≤ b) ∧ (∀ u, q.2 = some u → b ≤ u)) ∧
      ((∀ l, r.1 = some l → l ≤ c) ∧ (∀ u, r.2 = some u → c ≤ u)) ∧
      ((∀ l, s.1 = some l → l ≤ d) ∧ (∀ u, s.2 = some u → d ≤ u)) := by
    intro a b c d p q r s
    simp [Within]
  have pz : ∀ a : ℝ, 0 ≤ a → 0 < a ∨ 0 = a := fun a h => lt_or_eq_of_le h
  constructor
  · intro dist hdist
    simp only [mem_cons, not_mem_nil, or_false] at hdist
    have hd1 : dist ∈ ["Weibull", "Exponential", "Lognormal", "Normal"] := by
      rcases hdist with rfl | rfl | rfl <;> decide
    have hd2 : dist ≠ "Exponential" := by rcases hdist with rfl | rfl | rfl <;> decide
    rcases hmodel with rfl | rfl | rfl | rfl | rfl | rfl
    all_goals
      refine ⟨_, by unfold altBounds; simp only [String.reduceEq, if_true, if_false]; rw [if_neg (not_not.2 hd1), if_neg hd2], ?_⟩
      intro ps m shape hm
    · obtain ⟨a, b, rfl, rfl⟩ := sm_exponential hm
      simp only [cons_append, nil_append, w3, LifeStress.Valid]
      simp
      exact ⟨fun h h' => ⟨h.le, h'⟩, fun h h' => ⟨h', by rcases pz b h with h | h <;> simp [h]⟩⟩
    · obtain ⟨a, b, rfl, rfl⟩ := sm_eyring hm
      simp only [cons_append, nil_append, w3, LifeStress.Valid]
      simp
    · obtain ⟨a, b, rfl, rfl⟩ := sm_power hm
      simp only [cons_append, nil_append, w3, LifeStress.Valid]
      simp
      exact ⟨fun h h' => ⟨h.le, h'⟩, fun h h' => ⟨h', by rcases pz a h with h | h <;> simp [h]⟩⟩
    · obtain ⟨a, b, c, rfl, rfl⟩ := sm_dualExponential hm
      simp only [cons_append, nil_append, w4, LifeStress.Valid]
      simp
      exact ⟨fun h h' => ⟨h.le, h'⟩, fun h h' => ⟨h', by rcases pz c h with h | h <;> simp [h]⟩⟩
    · obtain ⟨a, b, c, rfl, rfl⟩ := sm_powerExponential hm
      simp only [cons_append, nil_append, w4, LifeStress.Valid]
      simp
      exact ⟨fun h h' => ⟨h.le, h'⟩, fun h h' => ⟨h', by rcases pz b h with h | h <;> simp [h]⟩⟩
    · obtain ⟨a, b, c, rfl, rfl⟩ := sm_dualPower hm
      simp only [cons_append, nil_append, w4, LifeStress.Valid]
      simp
      exact ⟨fun h h' => ⟨h.le, h'⟩, fun h h' => ⟨h', by rcases pz a h with h | h <;> simp [h]⟩⟩
  · rcases hmodel with rfl | rfl | rfl | rfl | rfl | rfl
    all_goals
      refine ⟨_, by unfold altBounds; simp only [String.reduceEq, if_true, if_false]; rw [if_neg (not_not.2 (by decide))], ?_⟩
      intro ps m hm
    · obtain ⟨a, b, rfl, rfl⟩ := sm_exponential hm
      simp only [dropLast_cons_cons, dropLast_singleton, w2, LifeStress.Valid]
      simp
      exact ⟨fun h => h.le, fun h => by rcases pz b h with h | h <;> simp [h]⟩
    · obtain ⟨a, b, rfl, rfl⟩ := sm_eyring hm
      simp only [dropLast_cons_cons, dropLast_singleton, w2, LifeStress.Valid]
      simp
    · obtain ⟨a, b, rfl, rfl⟩ := sm_power hm
      simp only [dropLast_cons_cons, dropLast_singleton, w2, LifeStress.Valid]
      simp
      exact ⟨fun h => h.le, fun h => by rcases pz a h with h | h <;> simp [h]⟩
    · obtain ⟨a, b, c, rfl, rfl⟩ := sm_dualExponential hm
      simp only [dropLast_cons_cons, dropLast_singleton, w3, LifeStress.Valid]
      simp
      exact ⟨fun h => h.le, fun h => by rcases pz c h with h | h <;> simp [h]⟩
    · obtain ⟨a, b, c, rfl, rfl⟩ := sm_powerExponential hm
      simp only [dropLast_cons_cons, dropLast_singleton, w3, LifeStress.Valid]
      simp
      exact ⟨fun h => h.le, fun h => by rcases pz b h with h | h <;> simp [h]⟩
    · obtain ⟨a, b, c, rfl, rfl⟩ := sm_dualPower hm
      simp only [dropLast_cons_cons, dropLast_singleton, w3, LifeStress.Valid]
      simp
      exact ⟨fun h => h.le, fun h => by rcases pz a h with h | h <;> simp [h]⟩

/-- **C97 (feasible guess).** For any data of a dual-stress model the guess is a legal parameter list, singular or not,
unless the dummy solution is returned (then too), hence within the optimiser's bounds. -/
theorem C97_dual_legal (noise : Matrix (Fin 3) (Fin 3) ℝ) (model : String)
    (hmodel : model ∈ ["Dual_Exponential", "Power_Exponential", "Dual_Power"]) (L S1 S2 : List ℝ) :
    ∃ out m, altLeastSquares noise model L S1 S2 = .ok out ∧ stressModel model out = some m ∧ m.Valid := by
  simp only [mem_cons, not_mem_nil, or_false] at hmodel
  rcases hmodel with rfl | rfl | rfl
  all_goals
    unfold altLeastSquares
    simp only [String.reduceEq, if_false, if_true]
    exact ⟨_, _, rfl, rfl, Real.exp_pos _⟩

/-- the normal equations, in terms of the design matrix -/
theorem gram_design (model : String) (pts : List (ℝ × ℝ × ℝ)) :
    gram (pts.map fun p => (stressScale model p.2).1) (pts.map fun p => (stressScale model p.2).2) =
      (design model pts).transpose * design model pts := by
  have key : ∀ f : ℝ × ℝ × ℝ → ℝ, (pts.map f).sum = ∑ i : Fin pts.length, f pts[i] := fun f =>
    (Fin.sum_univ_fun_getElem pts f).symm
  unfold gram
  ext i j
  simp only [zipWith_map, zipWith_self, map_map, key, Function.comp_def]
  fin_cases i <;> fin_cases j <;> simp [Matrix.mul_apply, design, mul_comm]

theorem rhs_design (model : String) (pts : List (ℝ × ℝ × ℝ)) :
    rhs (pts.map fun p => (stressScale model p.2).1) (pts.map fun p => (stressScale model p.2).2)
      (pts.map fun p => Real.log p.1) = (design model pts).transpose.mulVec (logTimes pts) := by
  have key : ∀ f : ℝ × ℝ × ℝ → ℝ, (pts.map f).sum = ∑ i : Fin pts.length, f pts[i] := fun f =>
    (Fin.sum_univ_fun_getElem pts f).symm
  unfold rhs
  ext i
  simp only [zipWith_map, zipWith_self, map_map, key, Function.comp_def]
  fin_cases i <;> simp [Matrix.mulVec, dotProduct, design, logTimes]

/-- **C97 (undetermined planes).** Scaled stress pairs all on one line: the guess is the model whose log-life is the plane
`w0 + w1 x + w2 y` solving the normal equations with the random noise added to their matrix; if that matrix is singular too,
the plane `1 + 2 x + 3 y`, whatever the data. -/
theorem C97_degenerate (noise : Matrix (Fin 3) (Fin 3) ℝ) (model : String)
    (hmodel : model ∈ ["Dual_Exponential", "Power_Exponential", "Dual_Power"]) (pts : List (ℝ × ℝ × ℝ))
    (hd : Collinear2 (pts.map fun p => stressScale model p.2)) :
    ∃ out m w, altLeastSquares noise model (pts.map Prod.fst) (pts.map fun p => p.2.1) (pts.map fun p => p.2.2) = .ok out ∧
      stressModel model out = some m ∧
      (∀ s : ℝ × ℝ, 0 < s.1 → 0 < s.2 →
        Real.log (m.life s.1 s.2) = w 0 + w 1 * (stressScale model s).1 + w 2 * (stressScale model s).2) ∧
      (if ((design model pts).transpose * design model pts + noise).det = 0 then w = ![1, 2, 3]
        else ((design model pts).transpose * design model pts + noise).mulVec w =
          (design model pts).transpose.mulVec (logTimes pts)) := by
  obtain ⟨w, hw⟩ : ∃ w, w = nonInvertableHandler noise (pts.map fun p => (stressScale model p.2).1)
    (pts.map fun p => (stressScale model p.2).2) (pts.map fun p => Real.log p.1) := ⟨_, rfl⟩
  have hN : if ((design model pts).transpose * design model pts + noise).det = 0 then w = ![1, 2, 3]
        else ((design model pts).transpose * design model pts + noise).mulVec w =
          (design model pts).transpose.mulVec (logTimes pts) := by
    have h0 : (gram (pts.map fun p => (stressScale model p.2).1) (pts.map fun p => (stressScale model p.2).2)).det = 0 :=
      (gram_singular pts (fun p => (stressScale model p.2).1) fun p => (stressScale model p.2).2).2 hd
    unfold nonInvertableHandler at hw
    rw [if_neg (by simpa using h0), gram_design, rhs_design] at hw
    by_cases hz : ((design model pts).transpose * design model pts + noise).det = 0
    · rw [if_pos hz]
      rwa [if_neg (by simpa using hz)] at hw
    · rw [if_neg hz]
      rw [if_pos hz] at hw
      rw [hw, Matrix.mulVec_mulVec, Matrix.mul_nonsing_inv _ (isUnit_iff_ne_zero.2 hz), Matrix.one_mulVec]
  simp only [mem_cons, not_mem_nil, or_false] at hmodel
  rcases hmodel with rfl | rfl | rfl
  · refine ⟨[w 1, w 2, Real.exp (w 0)], _, w, ?_, rfl, ?_, hN⟩
    · rw [hw]
      unfold altLeastSquares
      simp only [String.reduceEq, if_false, if_true, map_map, Function.comp_def, stressScale]
    · intro s _ _
      simp only [LifeStress.life, stressScale]
      rw [Real.log_mul (Real.exp_pos _).ne' (Real.exp_pos _).ne', Real.log_exp, Real.log_exp]
      ring
  · refine ⟨[w 1, Real.exp (w 0), w 2], _, w, ?_, rfl, ?_, hN⟩
    · rw [hw]
      unfold altLeastSquares
      simp only [String.reduceEq, if_false, if_true, map_map, Function.comp_def, stressScale]
    · intro s _ h2
      simp only [LifeStress.life, stressScale]
      have hp : (s.2 ^ w 2) ≠ 0 := (Real.rpow_pos_of_pos h2 _).ne'
      rw [Real.log_mul (by positivity) (Real.exp_pos _).ne', Real.log_mul (Real.exp_pos _).ne' hp, Real.log_exp,
        Real.log_exp, Real.log_rpow h2]
      ring
  · refine ⟨[Real.exp (w 0), w 1, w 2], _, w, ?_, rfl, ?_, hN⟩
    · rw [hw]
      unfold altLeastSquares
      simp only [String.reduceEq, if_false, if_true, map_map, Function.comp_def]
      rfl
    · intro s h1 h2
      simp only [LifeStress.life, stressScale]
      rw [Real.log_mul (mul_pos (Real.exp_pos _) (Real.rpow_pos_of_pos h1 _)).ne' (Real.rpow_pos_of_pos h2 _).ne',
        Real.log_mul (Real.exp_pos _).ne' (Real.rpow_pos_of_pos h1 _).ne', Real.log_rpow h1, Real.log_rpow h2, Real.log_exp]
      rfl

/-- One pair of stresses only and noise that cancels the singular matrix: the dummy solution. -/
example : ∃ noise, altLeastSquares noise "Dual_Power" [3, 5] [1, 1] [1, 1] = .ok [Real.exp 1, 2, 3] := by
  have hd : Collinear2 (([(3, 1, 1), (5, 1, 1)] : List (ℝ × ℝ × ℝ)).map fun p => stressScale "Dual_Power" p.2) :=
    ⟨0, 1, 0, by simp, by simp [stressScale]⟩
  refine ⟨-((design "Dual_Power" [(3, 1, 1), (5, 1, 1)]).transpose * design "Dual_Power" [(3, 1, 1), (5, 1, 1)]), ?_⟩
  unfold altLeastSquares nonInvertableHandler
  have h0 := (gram_singular ([(3, 1, 1), (5, 1, 1)] : List (ℝ × ℝ × ℝ)) (fun p => (stressScale "Dual_Power" p.2).1)
    fun p => (stressScale "Dual_Power" p.2).2).2 hd
  have h1 := gram_design "Dual_Power" [(3, 1, 1), (5, 1, 1)]
  rw [h1] at h0
  simp only [map_cons, map_nil] at h1
  simp only [String.reduceEq, if_false, if_true, map_cons, map_nil]
  rw [show gram [Real.log 1, Real.log 1] [Real.log 1, Real.log 1] = _ from h1, if_neg (by simpa using h0), if_neg (by simp [Matrix.det_zero])]
  simp

/-- **C97 (errors).** Unknown model or distribution names raise ValueError; a single-stress model whose stresses are all
equal raises. -/
theorem C97_errors (noise : Matrix (Fin 3) (Fin 3) ℝ) (L S1 S2 : List ℝ) (model dist : String) :
    (model ∉ altModels → altLeastSquares noise model L S1 S2 = .error .valueError ∧
      altBounds model dist = .error .valueError) ∧
    (model ∈ altModels → dist ∉ ["Weibull", "Exponential", "Lognormal", "Normal"] →
      altBounds model dist = .error .valueError) ∧
    (model ∈ ["Exponential", "Eyring", "Power"] → L.length = S1.length → 2 ≤ S1.length → (∃ s, ∀ a ∈ S1, a = s) →
      altLeastSquares noise model L S1 S2 = .error .runtimeError) := by
  refine ⟨?_, ?_, ?_⟩
  · intro h
    simp only [altModels, mem_cons, not_mem_nil, or_false, not_or] at h
    obtain ⟨h1, h2, h3, h4, h5, h6⟩ := h
    constructor
    · unfold altLeastSquares
      rw [if_neg h1, if_neg h2, if_neg h3, if_neg h4, if_neg h5, if_neg h6]
    · unfold altBounds
      simp only [h1, h2, h3, h4, h5, h6, if_false]
  · intro hm hd
    simp only [altModels, mem_cons, not_mem_nil, or_false] at hm
    rcases hm with rfl | rfl | rfl | rfl | rfl | rfl
    all_goals
      unfold altBounds
      simp only [String.reduceEq, if_true, if_false]
      rw [if_pos hd]
  · rintro hm hl h2 ⟨s, hs⟩
    have sing : ∀ (f : ℝ → ℝ) (y : List ℝ), y.length = S1.length →
        linearRegression (S1.map f) y none none none .RRY = .error .runtimeError := by
      intro f y hy
      rw [C49_singular_iff]
      refine ⟨by simp [hy], by simpa using h2, f s, ?_⟩
      intro b hb
      obtain ⟨a, ha, rfl⟩ := mem_map.1 hb
      rw [hs a ha]
    simp only [mem_cons, not_mem_nil, or_false] at hm
    rcases hm with rfl | rfl | rfl
    all_goals
      unfold altLeastSquares
      simp only [String.reduceEq, if_true, if_false]
      rw [sing _ _ (by simp [hl])]

/-- Three temperatures and humidities not on one line, failures on a dual-exponential curve. -/
example (noise : Matrix (Fin 3) (Fin 3) ℝ) :
    let life := fun S1 S2 : ℝ => 5 * Real.exp (100 / S1 + 20 / S2)
    altLeastSquares noise "Dual_Exponential" [life 1 1, life 2 1, life 1 2] [1, 2, 1] [1, 1, 2] = .ok [100, 20, 5] := by
  intro life
  have := C97_exact noise "Dual_Exponential" (by decide) [(life 1 1, 1, 1), (life 2 1, 2, 1), (life 1 2, 1, 2)]
    (by simp) (by
      unfold Determined
      rw [if_neg (by decide)]
      rintro ⟨a, b, c, hne, h⟩
      simp [stressScale] at h
      apply hne
      obtain ⟨h1, h2, h3⟩ := h
      have hb : b = 0 := by linarith
      have hc : c = 0 := by linarith
      have ha : a = 0 := by linarith
      simp [ha, hb, hc]) [100, 20, 5] _ rfl (by simp [LifeStress.Valid]) (by simp [LifeStress.life, life])
  simpa using this

end Reliability.Props

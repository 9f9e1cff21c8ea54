import Mathlib.Analysis.Convex.SpecificFunctions.Basic
import Mathlib.Tactic.NormNum
import Mathlib.Tactic.LinearCombination
import Mathlib.Algebra.Order.BigOperators.Group.List
import Verif.Model.Repairable
import Verif.Lemmas.NumPy
import Verif.Props.LinReg

/-! # C23, C65: reliability growth -/

set_option linter.unusedSectionVars false

namespace Reliability.Repairable

open Reliability List

/-- `T` is the last failure time. -/
def IsLast (times : List ℝ) (T : ℝ) : Prop := T ∈ times ∧ ∀ t ∈ times, t ≤ T

theorem isLast_perm {a b : List ℝ} (h : a ~ b) {T : ℝ} (hT : IsLast a T) : IsLast b T :=
  ⟨h.mem_iff.1 hT.1, fun t ht => hT.2 t (h.mem_iff.2 ht)⟩

/-- `n ln T - ∑ ln t` is positive when the times are positive and not all equal. -/
theorem sum_log_pos {times : List ℝ} {T : ℝ} (hT : IsLast times T) (hpos : ∀ t ∈ times, 0 < t)
    (hne : ∃ t ∈ times, t ≠ T) :
    0 < (times.length : ℝ) * Real.log T - (times.map Real.log).sum := by
  have hTpos := hpos T hT.1
  have key : ∀ l : List ℝ, (∀ t ∈ l, 0 < t ∧ t ≤ T) →
      (l.length : ℝ) * Real.log T - (l.map Real.log).sum = (l.map fun t => Real.log T - Real.log t).sum := by
    intro l _
    induction l with
    | nil => simp
    | cons a l ih =>
      have := ih (fun t ht => by rename_i h; exact h t (by simp [ht]))
      simp only [length_cons, map_cons, sum_cons]
      push_cast
      linear_combination this
  rw [key times (fun t ht => ⟨hpos t ht, hT.2 t ht⟩)]
  obtain ⟨t, ht, htne⟩ := hne
  have h0 : ∀ x ∈ times.map (fun t => Real.log T - Real.log t), 0 ≤ x := by
    intro x hx
    rw [mem_map] at hx
    obtain ⟨s, hs, rfl⟩ := hx
    have := Real.log_le_log (hpos s hs) (hT.2 s hs)
    linarith
  have h1 : Real.log T - Real.log t ≤ (times.map fun t => Real.log T - Real.log t).sum :=
    single_le_sum h0 _ (mem_map.2 ⟨t, ht, rfl⟩)
  have h2 := Real.log_lt_log (hpos t ht) (lt_of_le_of_ne (hT.2 t ht) htne)
  linarith

theorem crow_facts (times : List ℝ) (T : ℝ) (target : Option ℝ) (hT : IsLast times T)
    (hpos : ∀ t ∈ times, 0 < t) (hne : ∃ t ∈ times, t ≠ T) :
    let r := crow times T target
    let n : ℝ := times.length
    0 < r.Beta ∧ 0 < r.Lambda ∧ r.Lambda * T ^ r.Beta = n ∧ r.growth_rate = 1 - r.Beta ∧
    r.DMTBF_C = T / n ∧ r.DMTBF_I = r.DMTBF_C / r.Beta ∧ r.DFI_C = 1 / r.DMTBF_C ∧
    r.DFI_I = 1 / r.DMTBF_I := by
  intro r n
  have hTpos := hpos T hT.1
  have hn : 0 < n := by
    have : 0 < times.length := length_pos_of_mem hT.1
    simp only [n]
    exact_mod_cast this
  have hS := sum_log_pos hT hpos hne
  have hB : 0 < r.Beta := div_pos hn hS
  have hTB : 0 < T ^ r.Beta := Real.rpow_pos_of_pos hTpos _
  have hL : 0 < r.Lambda := div_pos hn hTB
  have hLT : r.Lambda * T ^ r.Beta = n := by
    show n / T ^ r.Beta * T ^ r.Beta = n
    field_simp
  have hC : r.DMTBF_C = T / n := by
    show (1 / r.Lambda) * T ^ (1 - r.Beta) = T / n
    rw [Real.rpow_sub hTpos, Real.rpow_one, ← hLT]
    field_simp
  refine ⟨hB, hL, hLT, rfl, hC, ?_, rfl, rfl⟩
  rw [hC]
  show 1 / (r.Lambda * r.Beta * T ^ (r.Beta - 1)) = T / n / r.Beta
  rw [Real.rpow_sub hTpos, Real.rpow_one, ← hLT]
  field_simp

/-- Unfolding of an accepted Crow-AMSAA call. -/
theorem growth_crow_inv {times : List ℝ} {target : Option ℝ} {name : String} {r : Crow}
    (h : reliabilityGrowth times target name = .ok (.inl r)) :
    ∃ T, IsLast times T ∧ (∀ t ∈ times, 0 < t) ∧ r = crow (Np.sort times) T target := by
  unfold reliabilityGrowth at h
  simp only at h
  cases hmn : (Np.sort times).min? with
  | none => rw [hmn] at h; simp at h
  | some mn =>
    cases hmx : (Np.sort times).max? with
    | none => rw [hmn, hmx] at h; simp at h
    | some mx =>
      rw [hmn, hmx] at h
      simp only at h
      split at h
      · cases h
      · next hp =>
        split at h
        · cases h
        · cases h
          have h1 := (Np.max?_iff _ _).1 hmx
          have h2 := (Np.min?_iff _ _).1 hmn
          refine ⟨mx, isLast_perm (Np.sort_perm times) h1, ?_, rfl⟩
          intro t ht
          exact lt_of_lt_of_le (not_le.1 hp) (h2.2 t ((Np.sort_perm times).mem_iff.2 ht))
        · cases h

theorem growth_duane_inv {times : List ℝ} {target : Option ℝ} {name : String} {r : Option Duane}
    (h : reliabilityGrowth times target name = .ok (.inr r)) :
    ∃ T, IsLast times T ∧ (∀ t ∈ times, 0 < t) ∧ r = duane (Np.sort times) T target := by
  unfold reliabilityGrowth at h
  simp only at h
  cases hmn : (Np.sort times).min? with
  | none => rw [hmn] at h; simp at h
  | some mn =>
    cases hmx : (Np.sort times).max? with
    | none => rw [hmn, hmx] at h; simp at h
    | some mx =>
      rw [hmn, hmx] at h
      simp only at h
      split at h
      · cases h
      · next hp =>
        split at h
        · cases h
        · cases h
        · cases h
          have h1 := (Np.max?_iff _ _).1 hmx
          have h2 := (Np.min?_iff _ _).1 hmn
          refine ⟨mx, isLast_perm (Np.sort_perm times) h1, ?_, rfl⟩
          intro t ht
          exact lt_of_lt_of_le (not_le.1 hp) (h2.2 t ((Np.sort_perm times).mem_iff.2 ht))

/-- C23, Crow-AMSAA: for failure times that are not all equal, the fitted power law passes through the
observed number of failures at the last failure time `T`, the demonstrated cumulative MTBF is `T/n`,
the instantaneous one is that over Beta, and it exceeds the cumulative one exactly when Beta < 1. -/
theorem C23_crow_demonstrated (times : List ℝ) (target : Option ℝ) (name : String) (r : Crow)
    (h : reliabilityGrowth times target name = .ok (.inl r)) (hne : ∃ s ∈ times, ∃ t ∈ times, s ≠ t) :
    ∃ T, IsLast times T ∧ 0 < r.Beta ∧ 0 < r.Lambda ∧
      r.Lambda * T ^ r.Beta = times.length ∧
      r.DMTBF_C = T / times.length ∧ r.DMTBF_I = r.DMTBF_C / r.Beta ∧
      r.DFI_C = 1 / r.DMTBF_C ∧ r.DFI_I = 1 / r.DMTBF_I ∧ r.growth_rate = 1 - r.Beta ∧
      (r.Beta < 1 ↔ r.DMTBF_C < r.DMTBF_I) := by
  obtain ⟨T, hT, hpos, rfl⟩ := growth_crow_inv h
  have hp := Np.sort_perm times
  have hne' : ∃ t ∈ Np.sort times, t ≠ T := by
    obtain ⟨s, hs, t, ht, hst⟩ := hne
    by_cases hsT : s = T
    · exact ⟨t, hp.mem_iff.2 ht, fun h => hst (hsT.trans h.symm)⟩
    · exact ⟨s, hp.mem_iff.2 hs, hsT⟩
  have hT' := isLast_perm hp.symm hT
  have hpos' : ∀ t ∈ Np.sort times, 0 < t := fun t ht => hpos t (hp.mem_iff.1 ht)
  have f := crow_facts (Np.sort times) T target hT' hpos' hne'
  simp only at f
  rw [hp.length_eq] at f
  obtain ⟨h1, h2, h3, h4, h5, h6, h7, h8⟩ := f
  refine ⟨T, hT, h1, h2, h3, h5, h6, h7, h8, h4, ?_⟩
  have hTpos := hpos T hT.1
  have hn : (0 : ℝ) < times.length := by exact_mod_cast length_pos_of_mem hT.1
  have hC : 0 < (crow (Np.sort times) T target).DMTBF_C := by rw [h5]; positivity
  rw [h6, lt_div_iff₀ h1]
  constructor
  · intro hb; nlinarith
  · intro hb; by_contra hc; push Not at hc; nlinarith

/-- C23, Crow-AMSAA: `time_to_target` is the time at which the fitted cumulative MTBF
`(1/Lambda) t^(1-Beta)` equals the target, whenever Beta ≠ 1. -/
theorem C23_crow_time_to_target (times : List ℝ) (M t : ℝ) (hM : 0 < M) (name : String) (r : Crow)
    (h : reliabilityGrowth times (some M) name = .ok (.inl r)) (hne : ∃ s ∈ times, ∃ t ∈ times, s ≠ t)
    (hB : r.Beta ≠ 1) (ht : r.time_to_target = some t) :
    0 < t ∧ (1 / r.Lambda) * t ^ (1 - r.Beta) = M ∧
      ∀ s, 0 < s → (1 / r.Lambda) * s ^ (1 - r.Beta) = M → s = t := by
  obtain ⟨T, hT, h1, h2, h3, -⟩ := C23_crow_demonstrated times (some M) name r h hne
  obtain ⟨T', -, -, hr⟩ := growth_crow_inv h
  have htt : t = (1 / (r.Lambda * M)) ^ (1 / (r.Beta - 1)) := by
    rw [hr] at ht ⊢
    simp only [crow, Option.map_some, Option.some.injEq] at ht
    exact ht.symm
  have hx : 0 < 1 / (r.Lambda * M) := by positivity
  have htpos : 0 < t := by rw [htt]; exact Real.rpow_pos_of_pos hx _
  have hb1 : r.Beta - 1 ≠ 0 := sub_ne_zero.2 hB
  have hval : (1 / r.Lambda) * t ^ (1 - r.Beta) = M := by
    rw [htt, ← Real.rpow_mul hx.le]
    have : 1 / (r.Beta - 1) * (1 - r.Beta) = -1 := by
      rw [show 1 - r.Beta = -(r.Beta - 1) by ring]
      field_simp
    rw [this, Real.rpow_neg_one]
    field_simp
  refine ⟨htpos, hval, ?_⟩
  intro s hs hsM
  have : s ^ (1 - r.Beta) = t ^ (1 - r.Beta) := by
    have h0 : (1 / r.Lambda) ≠ 0 := by positivity
    exact mul_left_cancel₀ h0 (hsM.trans hval.symm)
  exact (Real.rpow_left_inj hs.le htpos.le (by intro h; apply hB; linarith)).1 this

/-- C23, Duane: the reported quantities are those of the fitted law `b t^Alpha`, and `time_to_target`
is the time at which it equals the target. -/
theorem C23_duane (times : List ℝ) (target : Option ℝ) (name : String) (r : Duane)
    (h : reliabilityGrowth times target name = .ok (.inr (some r))) :
    ∃ T, IsLast times T ∧ 0 < r.b ∧ r.A = 1 / r.b ∧ r.DMTBF_C = r.b * T ^ r.Alpha ∧
      r.DFI_C = 1 / r.DMTBF_C ∧ r.DFI_I = (1 - r.Alpha) * r.DFI_C ∧
      (r.Alpha < 1 → r.DMTBF_I = r.DMTBF_C / (1 - r.Alpha)) ∧
      (∀ M t, target = some M → 0 < M → r.Alpha ≠ 0 → r.time_to_target = some t →
        0 < t ∧ r.b * t ^ r.Alpha = M) := by
  obtain ⟨T, hT, hpos, hr⟩ := growth_duane_inv h
  refine ⟨T, hT, ?_⟩
  unfold duane at hr
  simp only at hr
  split at hr
  · simp at hr
  · next z0 z1 hz =>
    rw [Option.some.injEq] at hr
    subst hr
    have hTpos := hpos T hT.1
    have hb : 0 < Real.exp z1 := Real.exp_pos _
    have hTz : 0 < T ^ z0 := Real.rpow_pos_of_pos hTpos _
    refine ⟨hb, rfl, rfl, rfl, rfl, ?_, ?_⟩
    · intro ha
      simp only at ha ⊢
      have : 0 < 1 - z0 := by linarith
      field_simp
    · rintro M t rfl hM ha ht
      simp only [Option.map_some, Option.some.injEq] at ht ha ⊢
      have hx : 0 < M / Real.exp z1 := by positivity
      subst ht
      refine ⟨Real.rpow_pos_of_pos hx _, ?_⟩
      rw [← Real.rpow_mul hx.le, show 1 / z0 * z0 = 1 by field_simp, Real.rpow_one]
      field_simp

/-- C23, Duane: on data that follow a Duane law exactly (`t_i / i = b₀ t_i^α₀` for the `i`-th failure)
the fit recovers it. -/
theorem C23_duane_exact (times : List ℝ) (hs : times.Pairwise (· ≤ ·)) (target : Option ℝ) (name : String)
    (r : Duane) (h : reliabilityGrowth times target name = .ok (.inr (some r)))
    (α₀ b₀ : ℝ) (hb₀ : 0 < b₀)
    (hlaw : ∀ (i : Nat) t, times[i]? = some t → t / ((i : ℝ) + 1) = b₀ * t ^ α₀) :
    r.Alpha = α₀ ∧ r.b = b₀ := by
  obtain ⟨T, hT, hpos, hr⟩ := growth_duane_inv h
  rw [Np.sort_eq_self hs] at hr
  unfold duane at hr
  simp only at hr
  split at hr
  · simp at hr
  · next z0 z1 hz =>
    rw [Option.some.injEq] at hr
    subst hr
    have hy : (mtbfC times).map Real.log = times.map fun t => α₀ * Real.log t + Real.log b₀ := by
      apply ext_getElem?
      intro i
      rw [getElem?_map, getElem?_map]
      unfold mtbfC
      rw [getElem?_zipWith, getElem?_map]
      cases hti : times[i]? with
      | none => simp
      | some t =>
        have hlt : i < times.length := by
          by_contra hc
          rw [getElem?_eq_none (by omega)] at hti
          simp at hti
        have htp : 0 < t := hpos t (mem_of_getElem? hti)
        rw [getElem?_range hlt]
        simp only [Option.map_some, Option.some.injEq]
        rw [hlaw i t hti, Real.log_mul hb₀.ne' (Real.rpow_pos_of_pos htp _).ne', Real.log_rpow htp]
        ring
    have hl : (times.map Real.log).length = ((mtbfC times).map Real.log).length := by
      rw [hy]; simp
    have hmin := LinReg.solve2_min hl hz α₀ (Real.log b₀)
    have hzero : LinReg.Spec.sseY (times.map Real.log) ((mtbfC times).map Real.log) α₀ (Real.log b₀) = 0 := by
      rw [hy]
      unfold LinReg.Spec.sseY
      rw [zipWith_map, zipWith_self]
      simp
    have hge : 0 ≤ LinReg.Spec.sseY (times.map Real.log) ((mtbfC times).map Real.log) z0 z1 := by
      unfold LinReg.Spec.sseY
      apply sum_nonneg
      intro x hx
      rw [mem_iff_getElem?] at hx
      obtain ⟨i, hi⟩ := hx
      rw [getElem?_zipWith] at hi
      split at hi
      · simp only [Option.some.injEq] at hi
        rw [← hi]; positivity
      · simp at hi
    have heq : (α₀, Real.log b₀) = (z0, z1) := by
      by_contra hc
      have := hmin.2 hc
      rw [hzero] at this
      linarith
    simp only [Prod.mk.injEq] at heq
    refine ⟨heq.1.symm, ?_⟩
    show Real.exp z1 = b₀
    rw [← heq.2, Real.exp_log hb₀]

/-- C23: the order in which the failure times are listed does not matter. -/
theorem C23_order_irrelevant (a b : List ℝ) (h : a ~ b) (target : Option ℝ) (name : String) :
    reliabilityGrowth a target name = reliabilityGrowth b target name := by
  unfold reliabilityGrowth
  rw [Np.sort_congr h]

/-- Upper-cased names documented for the Duane model. -/
def duaneNames : List String := ["DUANE", "D"]

/-- Upper-cased names documented for the Crow-AMSAA model. -/
def crowNames : List String := ["CROW AMSAA", "CROW-AMSAA", "CROWAMSAA", "CROW", "AMSAA", "CA", "C"]

/-- C23: the model fitted is the one named (in any case of letters). -/
theorem C23_model_choice (times : List ℝ) (target : Option ℝ) (name : String) :
    (name ∈ duaneNames → ∀ r, reliabilityGrowth times target name = .ok r → ∃ d, r = .inr d) ∧
    (name ∈ crowNames → ∀ r, reliabilityGrowth times target name = .ok r → ∃ c, r = .inl c) := by
  constructor
  · intro hn r h
    have hg : growthModel name = some .duane := if_pos hn
    unfold reliabilityGrowth at h
    rw [hg] at h
    simp only at h
    split at h
    · split at h
      · cases h
      · exact ⟨_, (Except.ok.inj h).symm⟩
    · cases h
  · intro hn r h
    have hd : name ∉ (["DUANE", "D"] : List String) := by
      simp only [crowNames, mem_cons, not_mem_nil, or_false] at hn
      rcases hn with rfl | rfl | rfl | rfl | rfl | rfl | rfl <;> decide
    have hg : growthModel name = some .crowAMSAA := by
      unfold growthModel
      rw [if_neg hd]
      exact if_pos hn
    unfold reliabilityGrowth at h
    rw [hg] at h
    simp only at h
    split at h
    · split at h
      · cases h
      · exact ⟨_, (Except.ok.inj h).symm⟩
    · cases h

/-- C23: rejected (ValueError) exactly when there are no times, some time is not positive, or the model
name is unknown. -/
theorem C23_rejects_iff (times : List ℝ) (target : Option ℝ) (name : String) :
    reliabilityGrowth times target name = valueErr ↔
      (times = [] ∨ (∃ t ∈ times, t ≤ 0) ∨ (name ∉ duaneNames ∧ name ∉ crowNames)) := by
  have hgm : (name ∉ duaneNames ∧ name ∉ crowNames) ↔ growthModel name = none := by
    unfold growthModel duaneNames crowNames
    constructor
    · rintro ⟨h1, h2⟩
      rw [if_neg h1, if_neg h2]
    · intro h
      by_cases h1 : name ∈ (["DUANE", "D"] : List String)
      · rw [if_pos h1] at h; simp at h
      · rw [if_neg h1] at h
        refine ⟨h1, fun h2 => ?_⟩
        rw [if_pos h2] at h
        simp at h
  rw [hgm]
  have hp := Np.sort_perm times
  unfold reliabilityGrowth
  simp only
  cases hmn : (Np.sort times).min? with
  | none =>
    have : Np.sort times = [] := by simpa using hmn
    rw [this] at hp
    simp [(Perm.nil_eq hp).symm]
  | some mn =>
    have hne : times ≠ [] := by
      rintro rfl
      simp [Np.sort] at hmn
    obtain ⟨mx, hmx⟩ : ∃ mx, (Np.sort times).max? = some mx := by
      cases h : (Np.sort times).max? with
      | none =>
        have : Np.sort times = [] := by simpa using h
        rw [this] at hmn; simp at hmn
      | some m => exact ⟨m, rfl⟩
    rw [hmx]
    have h2 := (Np.min?_iff _ _).1 hmn
    have hiff : mn ≤ 0 ↔ ∃ t ∈ times, t ≤ 0 := by
      constructor
      · intro h; exact ⟨mn, hp.mem_iff.1 h2.1, h⟩
      · rintro ⟨t, ht, h0⟩
        exact (h2.2 t (hp.mem_iff.2 ht)).trans h0
    simp only [hne, false_or]
    by_cases h0 : mn ≤ 0
    · simp [h0, hiff.1 h0]
    · rw [if_neg h0]
      have : ¬ ∃ t ∈ times, t ≤ 0 := fun h => h0 (hiff.2 h)
      simp only [this, false_or]
      cases growthModel name with
      | none => simp
      | some m => cases m <;> simp

/-! ### C65: the Crow-AMSAA estimates are maximum-likelihood estimates -/

/-- Log-likelihood of failures at `times` up to `T` for the power-law process with expected number of
failures `λ t^β` (intensity `λ β t^(β-1)`). -/
noncomputable def powerLawLogLik (times : List ℝ) (T lam β : ℝ) : ℝ :=
  (times.map fun t => Real.log (lam * β * t ^ (β - 1))).sum - lam * T ^ β

theorem powerLawLogLik_expand (times : List ℝ) (hpos : ∀ t ∈ times, 0 < t) (T lam β : ℝ)
    (hl : 0 < lam) (hb : 0 < β) :
    powerLawLogLik times T lam β = (times.length : ℝ) * Real.log lam + (times.length : ℝ) * Real.log β +
      (β - 1) * (times.map Real.log).sum - lam * T ^ β := by
  unfold powerLawLogLik
  congr 1
  induction times with
  | nil => simp
  | cons a l ih =>
    have ha := hpos a (by simp)
    have := ih (fun t ht => hpos t (by simp [ht]))
    simp only [map_cons, sum_cons, length_cons]
    rw [this, Real.log_mul (by positivity) (Real.rpow_pos_of_pos ha _).ne', Real.log_mul hl.ne' hb.ne',
      Real.log_rpow ha]
    push_cast
    ring

theorem log_max {n S x : ℝ} (hn : 0 < n) (hS : 0 < S) (hx : 0 < x) :
    n * Real.log x - x * S ≤ n * Real.log (n / S) - n := by
  have h := Real.log_le_sub_one_of_pos (show 0 < x * S / n by positivity)
  rw [Real.log_div (by positivity) hn.ne', Real.log_mul hx.ne' hS.ne'] at h
  rw [Real.log_div hn.ne' hS.ne']
  have : n * (x * S / n - 1) = x * S - n := by field_simp
  nlinarith

/-- C65: among all positive `(lam, β)` none has a higher power-law log-likelihood, observed to the last
failure, than the reported Lambda and Beta. -/
theorem C65_crow_is_mle (times : List ℝ) (target : Option ℝ) (name : String) (r : Crow)
    (h : reliabilityGrowth times target name = .ok (.inl r)) (hne : ∃ s ∈ times, ∃ t ∈ times, s ≠ t) :
    ∃ T, IsLast times T ∧ ∀ lam β, 0 < lam → 0 < β →
      powerLawLogLik times T lam β ≤ powerLawLogLik times T r.Lambda r.Beta := by
  obtain ⟨T, hT, h1, h2, h3, -⟩ := C23_crow_demonstrated times target name r h hne
  obtain ⟨T', hT', hpos, hr⟩ := growth_crow_inv h
  have hTT : T' = T := le_antisymm (hT.2 T' hT'.1) (hT'.2 T hT.1)
  rw [hTT] at hr
  refine ⟨T, hT, ?_⟩
  intro lam β hl hb
  have hp := Np.sort_perm times
  have hTpos := hpos T hT.1
  set n : ℝ := (times.length : ℝ) with hn
  have hnpos : 0 < n := by rw [hn]; exact_mod_cast length_pos_of_mem hT.1
  set S := n * Real.log T - (times.map Real.log).sum with hS
  have hne' : ∃ t ∈ times, t ≠ T := by
    obtain ⟨s, hs, t, ht, hst⟩ := hne
    by_cases hsT : s = T
    · exact ⟨t, ht, fun h => hst (hsT.trans h.symm)⟩
    · exact ⟨s, hs, hsT⟩
  have hSpos : 0 < S := sum_log_pos hT hpos hne'
  have hBeta : r.Beta = n / S := by
    rw [hr]
    simp only [crow]
    rw [hp.length_eq, (hp.map Real.log).sum_eq]
  have hLam : Real.log r.Lambda = Real.log n - r.Beta * Real.log T := by
    have hTB : 0 < T ^ r.Beta := Real.rpow_pos_of_pos hTpos _
    have : r.Lambda = n / T ^ r.Beta := by rw [← h3]; field_simp
    rw [this, Real.log_div hnpos.ne' hTB.ne', Real.log_rpow hTpos]
  rw [powerLawLogLik_expand times hpos T lam β hl hb, powerLawLogLik_expand times hpos T _ _ h2 h1, h3, hLam,
    ← hn]
  have hTb : 0 < T ^ β := Real.rpow_pos_of_pos hTpos _
  have hA := log_max hnpos hTb hl
  rw [Real.log_div hnpos.ne' hTb.ne', Real.log_rpow hTpos] at hA
  have hBm := log_max hnpos hSpos hb
  rw [← hBeta] at hBm
  have hBS : r.Beta * S = n := by rw [hBeta]; field_simp
  have e1 : β * S = β * n * Real.log T - β * (times.map Real.log).sum := by rw [hS]; ring
  have e2 : r.Beta * S = r.Beta * n * Real.log T - r.Beta * (times.map Real.log).sum := by rw [hS]; ring
  nlinarith

/-- A case meeting the hypotheses. -/
example : ∃ r, reliabilityGrowth [10, 40, 90] (some 50) "CA" = .ok (.inl r) := by
  have h : Np.sort [(10 : ℝ), 40, 90] = [10, 40, 90] := by
    apply Np.sort_eq_self
    norm_num
  have hmin : [(10 : ℝ), 40, 90].min? = some 10 := by
    rw [Np.min?_iff]; norm_num
  have hmax : [(10 : ℝ), 40, 90].max? = some 90 := by
    rw [Np.max?_iff]; norm_num
  refine ⟨crow [10, 40, 90] 90 (some 50), ?_⟩
  unfold reliabilityGrowth
  simp only [h, hmin, hmax]
  rw [if_neg (by norm_num)]
  rfl

end Reliability.Repairable

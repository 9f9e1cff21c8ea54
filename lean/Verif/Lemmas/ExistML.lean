import Mathlib.Analysis.SpecialFunctions.Exp
import Mathlib.Topology.Algebra.Monoid
import Verif.Lemmas.UniqueML

/-! # The likelihood of a location-scale family has a maximum -/

namespace Reliability.UniqueML

open Reliability Reliability.Distributions Reliability.Props.Likelihood Reliability.Spec Reliability.LogConcave
open Reliability.FunctionCI (CFam distOf)
open Reliability.Props Reliability.RankReg

theorem sev_le (z : ℝ) : Real.exp (z - Real.exp z) ≤ Real.exp (1 - |z|) := by
  rw [Real.exp_le_exp]
  rcases le_total 0 z with h | h
  · rw [abs_of_nonneg h]
    have := Real.quadratic_le_exp_of_nonneg h
    nlinarith [sq_nonneg (z - 1)]
  · rw [abs_of_nonpos h]
    have := Real.exp_pos z
    linarith

theorem norm_le (z : ℝ) : normStdPdf z ≤ Real.exp (1 - |z|) := by
  unfold normStdPdf
  have h1 : 1 ≤ Real.sqrt (2 * Real.pi) := by
    rw [Real.one_le_sqrt]
    have := Real.two_le_pi
    linarith
  calc _ ≤ Real.exp (-(z ^ 2) / 2) / 1 := by gcongr
    _ ≤ _ := by
      rw [div_one, Real.exp_le_exp]
      nlinarith [sq_nonneg (|z| - 1), sq_abs z]

theorem logis_le (z : ℝ) : Real.exp z / (1 + Real.exp z) ^ 2 ≤ Real.exp (1 - |z|) := by
  have hz := Real.exp_pos z
  have hn := Real.exp_pos (-z)
  have e : Real.exp z * Real.exp (-z) = 1 := by rw [← Real.exp_add]; simp
  rw [div_le_iff₀ (by positivity)]
  rcases le_total 0 z with h | h
  · rw [abs_of_nonneg h]
    have h1 : Real.exp (-z) ≤ Real.exp (1 - z) := Real.exp_le_exp.2 (by linarith)
    calc Real.exp z = Real.exp (-z) * Real.exp z ^ 2 := by rw [sq, ← mul_assoc, mul_comm (Real.exp (-z)), e, one_mul]
      _ ≤ Real.exp (1 - z) * (1 + Real.exp z) ^ 2 := by gcongr; linarith
  · rw [abs_of_nonpos h]
    have h1 : Real.exp z ≤ Real.exp (1 - -z) := Real.exp_le_exp.2 (by linarith)
    calc Real.exp z = Real.exp z * 1 := by ring
      _ ≤ Real.exp (1 - -z) * (1 + Real.exp z) ^ 2 := by gcongr; nlinarith

theorem stdPdf_le (f : CFam) (z : ℝ) : stdPdf f z ≤ Real.exp (1 - |z|) := by
  cases f
  exacts [sev_le z, sev_le z, norm_le z, norm_le z, logis_le z, sev_le z]

theorem stdSf_le (f : CFam) (z : ℝ) : stdSf f z ≤ 1 := by
  have h1 : Real.exp (-Real.exp z) ≤ 1 := Real.exp_le_one_iff.2 (by have := Real.exp_pos z; linarith)
  have h2 : normStd.sf z ≤ 1 := by
    have := normStd_density.compl z
    have h3 : 0 ≤ (ofDensity normStdPdf).cdf z := by
      simp only [ofDensity]
      exact MeasureTheory.integral_nonneg fun t => normStd_density.nonneg t
    simp only [normStd]
    linarith
  have h3 : 1 / (1 + Real.exp z) ≤ 1 := by
    rw [div_le_one (by positivity)]
    have := Real.exp_pos z
    linarith
  cases f
  exacts [h1, h1, h2, h2, h3, h1]

theorem stdPdf_cont (f : CFam) : Continuous (stdPdf f) := by
  have h1 : Continuous fun z : ℝ => Real.exp (z - Real.exp z) := by fun_prop
  have h2 : Continuous normStdPdf := by unfold normStdPdf; fun_prop
  have h3 : Continuous fun z : ℝ => Real.exp z / (1 + Real.exp z) ^ 2 := by
    refine Continuous.div (by fun_prop) (by fun_prop) fun z => ?_
    positivity
  cases f
  exacts [h1, h1, h2, h2, h3, h1]

theorem stdSf_cont (f : CFam) : Continuous (stdSf f) := by
  have h1 : Continuous fun z : ℝ => Real.exp (-Real.exp z) := by fun_prop
  have h2 : Continuous normStd.sf := continuous_iff_continuousAt.2 fun z => (normSf_deriv z).continuousAt
  have h3 : Continuous fun z : ℝ => 1 / (1 + Real.exp z) := by
    refine Continuous.div (by fun_prop) (by fun_prop) fun z => ?_
    positivity
  cases f
  exacts [h1, h1, h2, h2, h3, h1]

theorem lineLik_cont (f : CFam) (F C : List ℝ) : Continuous fun v : ℝ × ℝ => lineLik f F C v.1 v.2 := by
  unfold lineLik
  refine Continuous.mul ?_ ?_
  · refine continuous_list_prod (f := fun t (v : ℝ × ℝ) => v.1 * stdPdf f (v.1 * timeScale f 0 t + v.2) * jac f t) F fun t _ => ?_
    exact (continuous_fst.mul ((stdPdf_cont f).comp (by fun_prop))).mul continuous_const
  · exact continuous_list_prod (f := fun t (v : ℝ × ℝ) => stdSf f (v.1 * timeScale f 0 t + v.2)) C fun t _ =>
      (stdSf_cont f).comp (by fun_prop)

theorem prod_le_one {ι : Type} {l : List ι} {a : ι → ℝ} (h0 : ∀ i ∈ l, 0 ≤ a i) (h : ∀ i ∈ l, a i ≤ 1) :
    0 ≤ (l.map a).prod ∧ (l.map a).prod ≤ 1 := by
  induction l with
  | nil => simp
  | cons i l ih =>
    simp only [List.map_cons, List.prod_cons]
    obtain ⟨i1, i2⟩ := ih (fun j hj => h0 j (by simp [hj])) (fun j hj => h j (by simp [hj]))
    have a1 := h0 i (by simp)
    have a2 := h i (by simp)
    exact ⟨mul_nonneg a1 i1, by nlinarith⟩

/-- One of the failures gives a bound. -/
theorem lineLik_le {f : CFam} {F C : List ℝ} (hF : ∀ t ∈ F, InSupport f 0 t) {q p : ℝ} (hq : 0 < q) {t : ℝ} (ht : t ∈ F) :
    lineLik f F C q p ≤ (F.map (jac f)).prod * Real.exp 1 ^ F.length * q ^ F.length * Real.exp (-|q * timeScale f 0 t + p|) := by
  have hC := prod_le_one (l := C) (a := fun t => stdSf f (q * timeScale f 0 t + p)) (fun i _ => ((lc_stdSf f).pos _).le)
    (fun i _ => stdSf_le f _)
  have hK : 0 ≤ (F.map (jac f)).prod := (prod_map_pos fun t ht => jac_pos (hF t ht)).le
  have key : ∀ l : List ℝ, (∀ t ∈ l, InSupport f 0 t) → 0 ≤ (l.map fun t => q * stdPdf f (q * timeScale f 0 t + p) * jac f t).prod ∧
      (l.map fun t => q * stdPdf f (q * timeScale f 0 t + p) * jac f t).prod ≤
        (l.map (jac f)).prod * Real.exp 1 ^ l.length * q ^ l.length ∧ (t ∈ l →
      (l.map fun t => q * stdPdf f (q * timeScale f 0 t + p) * jac f t).prod ≤
        (l.map (jac f)).prod * Real.exp 1 ^ l.length * q ^ l.length * Real.exp (-|q * timeScale f 0 t + p|)) := by
    intro l
    induction l with
    | nil => intro; simp
    | cons u l ih =>
      intro hl
      obtain ⟨i0, i1, i2⟩ := ih fun t ht => hl t (by simp [ht])
      have ju := jac_pos (hl u (by simp))
      have b1 := stdPdf_le f (q * timeScale f 0 u + p)
      have b0 := (slc_stdPdf f).pos (q * timeScale f 0 u + p)
      have e1 : Real.exp (1 - |q * timeScale f 0 u + p|) = Real.exp 1 * Real.exp (-|q * timeScale f 0 u + p|) := by
        rw [← Real.exp_add, sub_eq_add_neg]
      have e2 : Real.exp (-|q * timeScale f 0 u + p|) ≤ 1 := Real.exp_le_one_iff.2 (by simp)
      have e3 := Real.exp_pos 1
      have jl : 0 < (l.map (jac f)).prod := prod_map_pos fun t ht => jac_pos (hl t (by simp [ht]))
      have c1 : q * stdPdf f (q * timeScale f 0 u + p) * jac f u ≤
          q * (Real.exp 1 * Real.exp (-|q * timeScale f 0 u + p|)) * jac f u := by
        rw [e1] at b1; gcongr
      have c2 : q * (Real.exp 1 * Real.exp (-|q * timeScale f 0 u + p|)) * jac f u ≤ q * (Real.exp 1 * 1) * jac f u := by
        gcongr
      simp only [List.map_cons, List.prod_cons, List.length_cons]
      refine ⟨by positivity, ?_, ?_⟩
      · calc _ ≤ q * (Real.exp 1 * 1) * jac f u * ((l.map (jac f)).prod * Real.exp 1 ^ l.length * q ^ l.length) :=
            mul_le_mul (c1.trans c2) i1 i0 (by positivity)
          _ = _ := by ring
      · intro hmem
        rcases List.mem_cons.1 hmem with rfl | hmem
        · calc _ ≤ q * (Real.exp 1 * Real.exp (-|q * timeScale f 0 t + p|)) * jac f t *
              ((l.map (jac f)).prod * Real.exp 1 ^ l.length * q ^ l.length) := mul_le_mul c1 i1 i0 (by positivity)
            _ = _ := by ring
        · calc _ ≤ q * (Real.exp 1 * 1) * jac f u *
              ((l.map (jac f)).prod * Real.exp 1 ^ l.length * q ^ l.length * Real.exp (-|q * timeScale f 0 t + p|)) :=
              mul_le_mul (c1.trans c2) (i2 hmem) i0 (by positivity)
            _ = _ := by ring
  obtain ⟨k0, -, k2⟩ := key F hF
  unfold lineLik
  calc _ ≤ (F.map fun t => q * stdPdf f (q * timeScale f 0 t + p) * jac f t).prod * 1 := mul_le_mul_of_nonneg_left hC.2 k0
    _ = _ := mul_one _
    _ ≤ _ := k2 ht

/-- If the good slopes are in an interval there is a most likely line. -/
theorem exists_max {f : CFam} {F C : List ℝ} (hF : ∀ t ∈ F, InSupport f 0 t) (hC : ∀ t ∈ C, InSupport f 0 t) (hne : F ≠ [])
    {fo : Option ℝ} {q0 ε M : ℝ} (h0 : 0 < q0) (h0f : ∀ s, fo = some s → q0 = s) (hε : 0 < ε)
    (h1 : ∀ q p, 0 < q → (∀ s, fo = some s → q = s) → lineLik f F C q0 0 ≤ lineLik f F C q p → ε ≤ q ∧ q ≤ M)
    (h2 : ∀ q, ε ≤ q → q ≤ M → ∀ s, fo = some s → q = s) : ∃ q p, LineMax f fo F C q p := by
  obtain ⟨t, ht⟩ := List.exists_mem_of_ne_nil F hne
  have hL0 : 0 < lineLik f F C q0 0 := lineLik_pos hF h0
  have hq0 := h1 q0 0 h0 h0f le_rfl
  have hM : 0 < M := by linarith [hq0.1, hq0.2]
  have hK : 0 < (F.map (jac f)).prod := prod_map_pos fun t ht => jac_pos (hF t ht)
  set A := (F.map (jac f)).prod * Real.exp 1 ^ F.length * M ^ F.length with hA
  have hA0 : 0 < A := by positivity
  set P := M * |timeScale f 0 t| + Real.log (A / lineLik f F C q0 0) with hP
  have h3 : ∀ q p, 0 < q → (∀ s, fo = some s → q = s) → lineLik f F C q0 0 ≤ lineLik f F C q p → |p| ≤ P := by
    intro q p hq hs hle
    obtain ⟨-, b⟩ := h1 q p hq hs hle
    have u := lineLik_le (C := C) hF (p := p) hq ht
    have hA' : (F.map (jac f)).prod * Real.exp 1 ^ F.length * q ^ F.length ≤ A := by
      rw [hA]; gcongr
    have u2 : lineLik f F C q0 0 ≤ A * Real.exp (-|q * timeScale f 0 t + p|) :=
      hle.trans (u.trans (mul_le_mul_of_nonneg_right hA' (Real.exp_pos _).le))
    have u3 := Real.log_le_log hL0 u2
    rw [Real.log_mul hA0.ne' (Real.exp_pos _).ne', Real.log_exp] at u3
    rw [hP, Real.log_div hA0.ne' hL0.ne']
    have e : |p| ≤ |q * timeScale f 0 t + p| + |q * timeScale f 0 t| := by
      have := abs_sub (q * timeScale f 0 t + p) (q * timeScale f 0 t)
      rwa [add_sub_cancel_left] at this
    have e2 : |q * timeScale f 0 t| ≤ M * |timeScale f 0 t| := by
      rw [abs_mul, abs_of_pos hq]; gcongr
    linarith
  obtain ⟨v, hv, hmax⟩ := (isCompact_Icc.prod isCompact_Icc : IsCompact (Set.Icc ε M ×ˢ Set.Icc (-P) P)).exists_isMaxOn
    ⟨(q0, 0), ⟨hq0, abs_le.1 (h3 q0 0 h0 h0f le_rfl)⟩⟩ (lineLik_cont f F C).continuousOn
  have hm0 : lineLik f F C q0 0 ≤ lineLik f F C v.1 v.2 := hmax (a := (q0, 0)) ⟨hq0, abs_le.1 (h3 q0 0 h0 h0f le_rfl)⟩
  refine ⟨v.1, v.2, lt_of_lt_of_le hε hv.1.1, hne, hF, hC, h2 _ hv.1.1 hv.1.2, fun q p hq hs => ?_⟩
  rcases le_total (lineLik f F C q0 0) (lineLik f F C q p) with hle | hle
  · exact hmax (a := (q, p)) ⟨h1 q p hq hs hle, abs_le.1 (h3 q p hq hs hle)⟩
  · exact hle.trans hm0

theorem exists_forced {f : CFam} {F C : List ℝ} (hF : ∀ t ∈ F, InSupport f 0 t) (hC : ∀ t ∈ C, InSupport f 0 t) (hne : F ≠ [])
    {s : ℝ} (hs : 0 < s) : ∃ q p, LineMax f (some s) F C q p := by
  refine exists_max hF hC hne hs (fun s' e => by cases e; rfl) hs (M := s) (fun q p _ h _ => ?_) (fun q h1 h2 s' e => ?_)
  · rw [h s rfl]
    exact ⟨le_rfl, le_rfl⟩
  · cases e; linarith

theorem exists_free {f : CFam} {F C : List ℝ} (hF : ∀ t ∈ F, InSupport f 0 t) (hC : ∀ t ∈ C, InSupport f 0 t) {t u : ℝ}
    (ht : t ∈ F) (hu : u ∈ F) (hd : timeScale f 0 t ≠ timeScale f 0 u) : ∃ q p, LineMax f none F C q p := by
  have hne : F ≠ [] := by rintro rfl; cases ht
  have hlen : 1 ≤ F.length := List.length_pos_iff.2 hne
  have hL0 : 0 < lineLik f F C 1 0 := lineLik_pos hF one_pos
  have hK : 0 < (F.map (jac f)).prod := prod_map_pos fun t ht => jac_pos (hF t ht)
  set B := (F.map (jac f)).prod * Real.exp 1 ^ F.length with hB
  have hB0 : 0 < B := by positivity
  set Δ := |timeScale f 0 t - timeScale f 0 u| / 2 with hΔ
  have hΔ0 : 0 < Δ := by have := abs_pos.2 (sub_ne_zero.2 hd); positivity
  -- far out
  have hlim := (Real.tendsto_pow_mul_exp_neg_atTop_nhds_zero F.length)
  have hpos : 0 < lineLik f F C 1 0 * Δ ^ F.length / B := by positivity
  obtain ⟨X, hX⟩ := Filter.eventually_atTop.1 (hlim.eventually (gt_mem_nhds hpos))
  refine exists_max (M := max (X / Δ) 1) (ε := min 1 (lineLik f F C 1 0 / B)) hF hC hne one_pos (fun s e => by cases e)
    (lt_min one_pos (by positivity)) (fun q p hq _ hle => ?_) (fun q _ _ s e => by cases e)
  have hm : ∃ w, lineLik f F C q p ≤ B * q ^ F.length * Real.exp (-w) ∧ q * Δ ≤ w ∧ 0 ≤ w := by
    have b1 := lineLik_le (C := C) hF (p := p) hq ht
    have b2 := lineLik_le (C := C) hF (p := p) hq hu
    have e : 2 * (q * Δ) ≤ |q * timeScale f 0 t + p| + |q * timeScale f 0 u + p| := by
      have := abs_sub (q * timeScale f 0 t + p) (q * timeScale f 0 u + p)
      rw [add_sub_add_right_eq_sub, ← mul_sub, abs_mul, abs_of_pos hq] at this
      rw [hΔ]; linarith
    rcases le_total |q * timeScale f 0 t + p| |q * timeScale f 0 u + p| with h | h
    · exact ⟨_, b2, by linarith, abs_nonneg _⟩
    · exact ⟨_, b1, by linarith, abs_nonneg _⟩
  obtain ⟨w, hw1, hw2, hw3⟩ := hm
  constructor
  · by_contra hlt
    rw [not_le, lt_min_iff] at hlt
    have : q ^ F.length ≤ q := by
      calc q ^ F.length ≤ q ^ 1 := pow_le_pow_of_le_one hq.le hlt.1.le hlen
        _ = q := pow_one q
    have e1 : Real.exp (-w) ≤ 1 := Real.exp_le_one_iff.2 (by linarith)
    have : lineLik f F C q p ≤ B * q := by
      calc _ ≤ B * q ^ F.length * Real.exp (-w) := hw1
        _ ≤ B * q * 1 := by gcongr
        _ = _ := mul_one _
    have h2 := hlt.2
    rw [lt_div_iff₀ hB0] at h2
    linarith
  · by_contra hgt
    rw [not_le, max_lt_iff] at hgt
    have hx : X ≤ q * Δ := by
      have := hgt.1
      rw [div_lt_iff₀ hΔ0] at this
      exact this.le
    have h3 := hX _ hx
    rw [lt_div_iff₀ hB0] at h3
    have h4 : lineLik f F C q p ≤ B * q ^ F.length * Real.exp (-(q * Δ)) :=
      hw1.trans (by gcongr)
    have hD : 0 < Δ ^ F.length := by positivity
    have h5 : (q * Δ) ^ F.length * Real.exp (-(q * Δ)) * B = (B * q ^ F.length * Real.exp (-(q * Δ))) * Δ ^ F.length := by
      rw [mul_pow]; ring
    rw [h5] at h3
    have := (mul_lt_mul_iff_of_pos_right hD).1 h3
    linarith

end Reliability.UniqueML

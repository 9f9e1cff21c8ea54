import Mathlib.Topology.Algebra.Module.FiniteDimension
import Mathlib.Analysis.Normed.Module.FiniteDimension
import Verif.Lemmas.ExistML
import Verif.Lemmas.UniqueALT

/-! # The likelihood of a log-linear life-stress model has a maximum -/

namespace Reliability.UniqueALT

open Reliability Reliability.Distributions Reliability.Spec Reliability.LogConcave Reliability.UniqueML Reliability.Spec.ALTGlue
open Reliability.FunctionCI (CFam distOf)
open Reliability.Props Reliability.RankReg
open Filter Topology

section
variable {W ι : Type} [NormedAddCommGroup W] [NormedSpace ℝ W] [FiniteDimensional ℝ W]

/-- The likelihood with slope `q v` and residuals `z i v`. -/
noncomputable def linLik (f : CFam) (q : W →ₗ[ℝ] ℝ) (z : ι → W →ₗ[ℝ] ℝ) (k : ι → ℝ) (F C : List ι) (v : W) : ℝ :=
  (F.map fun i => q v * stdPdf f (z i v) * k i).prod * (C.map fun i => stdSf f (z i v)).prod

theorem linLik_cont (f : CFam) (q : W →ₗ[ℝ] ℝ) (z : ι → W →ₗ[ℝ] ℝ) (k : ι → ℝ) (F C : List ι) : Continuous (linLik f q z k F C) := by
  have hq := q.continuous_of_finiteDimensional
  have hz := fun i => (z i).continuous_of_finiteDimensional
  unfold linLik
  refine Continuous.mul ?_ ?_
  · exact continuous_list_prod (f := fun i v => q v * stdPdf f (z i v) * k i) F fun i _ =>
      (hq.mul ((stdPdf_cont f).comp (hz i))).mul continuous_const
  · exact continuous_list_prod (f := fun i v => stdSf f (z i v)) C fun i _ => (stdSf_cont f).comp (hz i)

theorem linLik_le {f : CFam} {q : W →ₗ[ℝ] ℝ} {z : ι → W →ₗ[ℝ] ℝ} {k : ι → ℝ} {F C : List ι} (hk : ∀ i ∈ F, 0 < k i) {v : W}
    (hq : 0 ≤ q v) : linLik f q z k F C v ≤
      (F.map k).prod * Real.exp 1 ^ F.length * q v ^ F.length * Real.exp (-(F.map fun i => |z i v|).sum) := by
  have hC := prod_le_one (l := C) (a := fun i => stdSf f (z i v)) (fun i _ => ((lc_stdSf f).pos _).le) (fun i _ => stdSf_le f _)
  have key : ∀ l : List ι, (∀ i ∈ l, 0 < k i) → 0 ≤ (l.map fun i => q v * stdPdf f (z i v) * k i).prod ∧
      (l.map fun i => q v * stdPdf f (z i v) * k i).prod ≤
        (l.map k).prod * Real.exp 1 ^ l.length * q v ^ l.length * Real.exp (-(l.map fun i => |z i v|).sum) := by
    intro l
    induction l with
    | nil => intro; simp
    | cons u l ih =>
      intro hl
      obtain ⟨i0, i1⟩ := ih fun i hi => hl i (by simp [hi])
      have ku := hl u (by simp)
      have b1 := stdPdf_le f (z u v)
      have b0 := (slc_stdPdf f).pos (z u v)
      have e1 : Real.exp (1 - |z u v|) = Real.exp 1 * Real.exp (-|z u v|) := by rw [← Real.exp_add, sub_eq_add_neg]
      rw [e1] at b1
      have jl : 0 < (l.map k).prod := prod_map_pos fun i hi => hl i (by simp [hi])
      simp only [List.map_cons, List.prod_cons, List.length_cons, List.sum_cons, neg_add, Real.exp_add]
      refine ⟨by positivity, ?_⟩
      calc _ ≤ q v * (Real.exp 1 * Real.exp (-|z u v|)) * k u *
            ((l.map k).prod * Real.exp 1 ^ l.length * q v ^ l.length * Real.exp (-(l.map fun i => |z i v|).sum)) :=
          mul_le_mul (by gcongr) i1 i0 (by positivity)
        _ = _ := by ring
  obtain ⟨k0, k1⟩ := key F hk
  calc linLik f q z k F C v ≤ (F.map fun i => q v * stdPdf f (z i v) * k i).prod * 1 := mul_le_mul_of_nonneg_left hC.2 k0
    _ ≤ _ := by rw [mul_one]; exact k1

/-- Residuals that are not all zero grow with the coefficients. -/
theorem residuals_grow {z : ι → W →ₗ[ℝ] ℝ} {F : List ι} (hinj : ∀ v, (∀ i ∈ F, z i v = 0) → v = 0) :
    ∃ δ > 0, ∀ v, δ * ‖v‖ ≤ (F.map fun i => |z i v|).sum := by
  let g : W →ₗ[ℝ] (Fin F.length → ℝ) := LinearMap.pi fun j => z F[j]
  have hker : LinearMap.ker g = ⊥ := by
    rw [LinearMap.ker_eq_bot']
    intro v hv
    refine hinj v fun i hi => ?_
    obtain ⟨j, hj, rfl⟩ := List.getElem_of_mem hi
    exact congrFun hv ⟨j, hj⟩
  obtain ⟨K, hK, ha⟩ := LinearMap.exists_antilipschitzWith g hker
  refine ⟨1 / K, by positivity, fun v => ?_⟩
  have h1 : ‖v‖ ≤ K * ‖g v‖ := by
    have := ha.le_mul_dist v 0
    simpa using this
  have h2 : ‖g v‖ ≤ (F.map fun i => |z i v|).sum := by
    have hs : ∀ x ∈ F.map fun i => |z i v|, 0 ≤ x := by
      intro x hx
      obtain ⟨i, -, rfl⟩ := List.mem_map.1 hx
      exact abs_nonneg _
    refine (pi_norm_le_iff_of_nonneg (List.sum_nonneg hs)).2 fun j => ?_
    exact List.single_le_sum hs _ (List.mem_map.2 ⟨F[j], List.getElem_mem _, rfl⟩)
  have hK' : (0 : ℝ) < K := hK
  rw [one_div, inv_mul_le_iff₀ hK']
  exact h1.trans (by gcongr)

/-- The likelihood has a maximum on every closed set of coefficients. -/
theorem exists_linMax (f : CFam) (q : W →ₗ[ℝ] ℝ) (z : ι → W →ₗ[ℝ] ℝ) {k : ι → ℝ} {F C : List ι} (hk : ∀ i ∈ F, 0 < k i) (hne : F ≠ [])
    {K : Set W} {δ M : ℝ} (hδ : 0 < δ) (hgrow : ∀ v ∈ K, δ * ‖v‖ - M ≤ (F.map fun i => |z i v|).sum) (hK : IsClosed K) {v₀ : W}
    (h0 : v₀ ∈ K) (hq0 : 0 < q v₀) :
    ∃ v ∈ K, 0 < q v ∧ ∀ u ∈ K, 0 < q u → linLik f q z k F C u ≤ linLik f q z k F C v := by
  have hqc := q.continuous_of_finiteDimensional
  have hL := linLik_cont f q z k F C
  have hpos : ∀ v, 0 < q v → 0 < linLik f q z k F C v := fun v hv =>
    mul_pos (prod_map_pos fun i hi => mul_pos (mul_pos hv ((slc_stdPdf f).pos _)) (hk i hi)) (prod_map_pos fun i _ => (lc_stdSf f).pos _)
  obtain ⟨A, hA⟩ : ∃ A : ℝ, 0 ≤ A ∧ ∀ v, q v ≤ A * ‖v‖ := by
    refine ⟨‖LinearMap.toContinuousLinearMap q‖, norm_nonneg _, fun v => ?_⟩
    exact (le_abs_self _).trans ((LinearMap.toContinuousLinearMap q).le_opNorm v)
  -- far away the likelihood is small
  have hfar : ∃ R, ∀ v ∈ K, 0 ≤ q v → R < ‖v‖ → linLik f q z k F C v < linLik f q z k F C v₀ := by
    have ht : Tendsto (fun r : ℝ => (F.map k).prod * Real.exp 1 ^ F.length * A ^ F.length * δ⁻¹ ^ F.length * Real.exp M *
        ((δ * r) ^ F.length * Real.exp (-(δ * r)))) atTop (𝓝 0) := by
      have h1 := (Real.tendsto_pow_mul_exp_neg_atTop_nhds_zero F.length).comp (tendsto_id.const_mul_atTop hδ)
      have := h1.const_mul ((F.map k).prod * Real.exp 1 ^ F.length * A ^ F.length * δ⁻¹ ^ F.length * Real.exp M)
      rw [mul_zero] at this
      exact this
    obtain ⟨R, hR⟩ := (ht.eventually (gt_mem_nhds (hpos v₀ hq0))).exists_forall_of_atTop
    refine ⟨R, fun v hvK hv hRv => lt_of_le_of_lt (linLik_le hk hv) (lt_of_le_of_lt ?_ (hR ‖v‖ hRv.le))⟩
    have hkp : 0 < (F.map k).prod := prod_map_pos hk
    have e : (F.map k).prod * Real.exp 1 ^ F.length * A ^ F.length * δ⁻¹ ^ F.length * Real.exp M * ((δ * ‖v‖) ^ F.length * Real.exp (-(δ * ‖v‖))) =
        (F.map k).prod * Real.exp 1 ^ F.length * (A * ‖v‖) ^ F.length * Real.exp (-(δ * ‖v‖ - M)) := by
      rw [mul_pow, mul_pow, inv_pow, neg_sub, sub_eq_add_neg, Real.exp_add]
      field_simp
    rw [e]
    have := hA.2 v
    have := hgrow v hvK
    have hA0 := hA.1
    gcongr
  obtain ⟨R, hR⟩ := hfar
  have hcomp : IsCompact (K ∩ {v | 0 ≤ q v} ∩ Metric.closedBall 0 R) :=
    (ProperSpace.of_locallyCompactSpace ℝ (E := W) |>.isCompact_closedBall 0 R).inter_left
      (hK.inter (isClosed_le continuous_const hqc))
  have hv₀ : v₀ ∈ K ∩ {v | 0 ≤ q v} ∩ Metric.closedBall 0 R := by
    refine ⟨⟨h0, hq0.le⟩, ?_⟩
    rw [mem_closedBall_zero_iff]
    by_contra hc
    exact lt_irrefl _ (hR v₀ h0 hq0.le (not_le.1 hc))
  obtain ⟨v, ⟨⟨hvK, hvq⟩, -⟩, hmax⟩ := hcomp.exists_isMaxOn ⟨v₀, hv₀⟩ hL.continuousOn
  have hv0 := hmax hv₀
  refine ⟨v, hvK, lt_of_le_of_ne hvq fun e => ?_, fun u hu hqu => ?_⟩
  · have : linLik f q z k F C v = 0 := by
      obtain ⟨i, F', rfl⟩ := List.exists_cons_of_ne_nil hne
      simp [linLik, ← e]
    have h3 : linLik f q z k F C v₀ ≤ linLik f q z k F C v := hv0
    rw [this] at h3
    exact absurd (hpos v₀ hq0) (not_lt.2 h3)
  · by_cases hb : ‖u‖ ≤ R
    · exact hmax ⟨⟨hu, hqu.le⟩, mem_closedBall_zero_iff.2 hb⟩
    · exact (hR u hu hqu.le (not_le.1 hb)).le.trans hv0

end

/-! ## Log-linear families of models -/

/-- The models of one name: the logarithm of the life is linear in the coefficients, up to a known function of the stress. -/
structure Lin {σ : Type} (lifeAt : LifeStress → σ → ℝ) (pos : σ → Prop) (name : String) (E : Type) [AddCommGroup E] [Module ℝ E] where
  model : E → LifeStress
  coef : LifeStress → E
  ell : σ → E →ₗ[ℝ] ℝ
  off : σ → ℝ
  named : ∀ e, mname (model e) = name
  valid : ∀ e, (model e).Valid
  life : ∀ e s, pos s → Real.log (lifeAt (model e) s) = ell s e - off s
  surj : ∀ m, mname m = name → m.Valid → model (coef m) = m

noncomputable def mkD : String → ℝ → LifeDist
  | "Weibull", q => .weibull q
  | "Lognormal", q => .lognormal (1 / q)
  | _, _ => .exponential

theorem mkD_law {dist : String} (hd : dist ∈ ["Weibull", "Lognormal", "Exponential"]) {q : ℝ} (hq : 0 < q) (h1 : dist = "Exponential" → q = 1) :
    dname (mkD dist q) = dist ∧ (mkD dist q).Valid ∧ slopeD (mkD dist q) = q := by
  simp only [List.mem_cons, List.not_mem_nil, or_false] at hd
  rcases hd with rfl | rfl | rfl
  · exact ⟨rfl, hq, rfl⟩
  · exact ⟨rfl, one_div_pos.2 hq, one_div_one_div q⟩
  · exact ⟨rfl, trivial, (h1 rfl).symm⟩

theorem mkD_famD {dist : String} (q q' : ℝ) : famD (mkD dist q) = famD (mkD dist q') := by
  unfold mkD
  split <;> rfl

section
variable {σ E : Type} [NormedAddCommGroup E] [NormedSpace ℝ E] [FiniteDimensional ℝ E] {lifeAt : LifeStress → σ → ℝ} {pos : σ → Prop}
  {name : String}

/-- The residual of a unit. -/
noncomputable def resid (L : Lin lifeAt pos name E) (i : ℝ × σ) : ℝ × E →ₗ[ℝ] ℝ :=
  (Real.log i.1 + L.off i.2) • LinearMap.fst ℝ ℝ E - (L.ell i.2).comp (LinearMap.snd ℝ ℝ E)

theorem resid_apply (L : Lin lifeAt pos name E) (i : ℝ × σ) (q : ℝ) (e : E) :
    resid L i (q, e) = q * (Real.log i.1 + L.off i.2) - L.ell i.2 e := by
  simp [resid, mul_comm]

theorem alt_lin (L : Lin lifeAt pos name E) (hpos : ∀ m : LifeStress, m.Valid → ∀ s, pos s → 0 < lifeAt m s) {d : LifeDist} (hd : d.Valid)
    (hno : dname d ≠ "Normal") {F C : List (ℝ × σ)} (hF : ∀ i ∈ F, 0 < i.1 ∧ pos i.2) (hC : ∀ i ∈ C, 0 < i.1 ∧ pos i.2) (e : E) :
    altLikelihood lifeAt (L.model e) d F C =
      linLik (famD d) (LinearMap.fst ℝ ℝ E) (resid L) (fun i => 1 / i.1) F C (slopeD d, slopeD d • e) := by
  have hz : ∀ i : ℝ × σ, pos i.2 → resid L i (slopeD d, slopeD d • e) = slopeD d * (Real.log i.1 - Real.log (lifeAt (L.model e) i.2)) := by
    intro i hi
    rw [resid_apply, L.life e _ hi, map_smul, smul_eq_mul]
    ring
  rw [alt_std hd hno (fun i hi => ⟨(hF i hi).1, hpos _ (L.valid e) _ (hF i hi).2⟩) (fun i hi => ⟨(hC i hi).1, hpos _ (L.valid e) _ (hC i hi).2⟩)]
  unfold linLik
  congr 2
  · exact List.map_congr_left fun i hi => by rw [hz i (hF i hi).2]; rfl
  · exact List.map_congr_left fun i hi => by rw [hz i (hC i hi).2]

theorem sum_abs_sub {ι : Type} (l : List ι) (a b : ι → ℝ) :
    (l.map fun i => |b i|).sum - (l.map fun i => |a i|).sum ≤ (l.map fun i => |a i - b i|).sum := by
  induction l with
  | nil => simp
  | cons i l ih =>
    simp only [List.map_cons, List.sum_cons]
    have := abs_sub_abs_le_abs_sub (b i) (a i)
    rw [abs_sub_comm] at this
    linarith

/-- The likelihood of an identified model that does not go through all the failures has a maximum. -/
theorem exists_ALTMax (L : Lin lifeAt pos name E) (hpos : ∀ m : LifeStress, m.Valid → ∀ s, pos s → 0 < lifeAt m s) {dist : String}
    (hd : dist ∈ ["Weibull", "Lognormal", "Exponential"]) {F C : List (ℝ × σ)} (hF : ∀ i ∈ F, 0 < i.1 ∧ pos i.2)
    (hC : ∀ i ∈ C, 0 < i.1 ∧ pos i.2) (hne : F ≠ []) (hid : ∀ e, (∀ i ∈ F, L.ell i.2 e = 0) → e = 0)
    (hex : dist ≠ "Exponential" → ∀ m, mname m = name → m.Valid → ∃ i ∈ F, i.1 ≠ lifeAt m i.2) :
    ∃ m d, mname m = name ∧ dname d = dist ∧ m.Valid ∧ d.Valid ∧ ALTMax lifeAt m d F C := by
  have hno : dist ≠ "Normal" := by rintro rfl; simp at hd
  -- the set of coefficients
  obtain ⟨K, hK, h1, hKe, hKu, δ, M, hδ, hg⟩ : ∃ K : Set (ℝ × E), IsClosed K ∧ ((1, 0) : ℝ × E) ∈ K ∧ (dist = "Exponential" → ∀ v ∈ K, v.1 = 1) ∧
      (∀ d : LifeDist, dname d = dist → ∀ e, (slopeD d, e) ∈ K) ∧ ∃ δ M : ℝ, 0 < δ ∧ ∀ v ∈ K, δ * ‖v‖ - M ≤ (F.map fun i => |resid L i v|).sum := by
    by_cases he : dist = "Exponential"
    · subst he
      obtain ⟨δ, hδ, hg⟩ := residuals_grow (z := fun i : ℝ × σ => L.ell i.2) (F := F) hid
      refine ⟨{v | v.1 = 1}, isClosed_eq continuous_fst continuous_const, rfl, fun _ v hv => hv, fun d hd e => ?_, δ,
        δ + (F.map fun i => |Real.log i.1 + L.off i.2|).sum, hδ, ?_⟩
      · cases d <;> first | (simp [dname] at hd; done) | rfl
      · rintro ⟨q, e⟩ (rfl : q = 1)
        have h2 := sum_abs_sub F (fun i => Real.log i.1 + L.off i.2) (fun i => L.ell i.2 e)
        have h3 := hg e
        have h4 : ‖((1 : ℝ), e)‖ ≤ 1 + ‖e‖ := by
          rw [Prod.norm_mk]
          refine max_le ?_ ?_
          · simp
          · linarith
        simp only [resid_apply, one_mul]
        have h5 := mul_le_mul_of_nonneg_left h4 hδ.le
        linarith
    · obtain ⟨δ, hδ, hg⟩ := residuals_grow (z := resid L) (F := F) (by
        rintro ⟨q, e⟩ hz
        have hq : q = 0 := by
          by_contra hq
          obtain ⟨i, hi, hne⟩ := hex he (L.model (q⁻¹ • e)) (L.named _) (L.valid _)
          refine hne (Real.log_injOn_pos (hF i hi).1 (hpos _ (L.valid _) _ (hF i hi).2) ?_)
          have := hz i hi
          rw [resid_apply] at this
          rw [L.life _ _ (hF i hi).2, map_smul, smul_eq_mul]
          field_simp
          linarith
        subst hq
        rw [hid e fun i hi => by have := hz i hi; rw [resid_apply] at this; linarith]
        rfl)
      exact ⟨Set.univ, isClosed_univ, trivial, fun h => absurd h he, fun _ _ _ => trivial, δ, 0, hδ, fun v _ => by rw [sub_zero]; exact hg v⟩
  obtain ⟨v, hvK, hq, hmax⟩ := exists_linMax (famD (mkD dist 1)) (LinearMap.fst ℝ ℝ E) (resid L) (k := fun i => 1 / i.1) (F := F) (C := C)
    (fun i hi => one_div_pos.2 (hF i hi).1) hne hδ hg hK h1 (show (0 : ℝ) < 1 from one_pos)
  obtain ⟨q, e⟩ := v
  replace hq : 0 < q := hq
  obtain ⟨d1, d2, d3⟩ := mkD_law hd hq (fun he => hKe he _ hvK)
  refine ⟨L.model (q⁻¹ • e), mkD dist q, L.named _, d1, L.valid _, d2, fun m₁ d₁ e1 e2 hm₁ hd₁ => ?_⟩
  rw [← L.surj m₁ (by rw [e1, L.named]) hm₁, alt_lin L hpos hd₁ (by rw [e2, d1]; exact hno) hF hC,
    alt_lin L hpos d2 (by rw [d1]; exact hno) hF hC, famD_eq e2, mkD_famD q 1, d3, smul_inv_smul₀ hq.ne']
  exact hmax _ (hKu d₁ (by rw [e2, d1]) _) (slopeD_pos hd₁)

end

end Reliability.UniqueALT

namespace Reliability.UniqueALT

open Reliability Reliability.Spec Reliability.Spec.ALTGlue Reliability.UniqueML Reliability.LogConcave

/-! ## The six models -/

noncomputable def lin1 (x : ℝ) : ℝ × ℝ →ₗ[ℝ] ℝ := LinearMap.fst ℝ ℝ ℝ + x • LinearMap.snd ℝ ℝ ℝ
noncomputable def lin2 (x y : ℝ) : ℝ × ℝ × ℝ →ₗ[ℝ] ℝ :=
  LinearMap.fst ℝ ℝ (ℝ × ℝ) + x • (LinearMap.fst ℝ ℝ ℝ).comp (LinearMap.snd ℝ ℝ (ℝ × ℝ)) +
    y • (LinearMap.snd ℝ ℝ ℝ).comp (LinearMap.snd ℝ ℝ (ℝ × ℝ))

theorem lin1_apply (x : ℝ) (e : ℝ × ℝ) : lin1 x e = e.1 + x * e.2 := by simp [lin1]
theorem lin2_apply (x y : ℝ) (e : ℝ × ℝ × ℝ) : lin2 x y e = e.1 + x * e.2.1 + y * e.2.2 := by simp [lin2]

noncomputable def linExponential : Lin lifeAt1 (fun s : ℝ => 0 < s) "Exponential" (ℝ × ℝ) where
  model e := .exponential e.2 (Real.exp e.1)
  coef m := match m with
    | .exponential a b => (Real.log b, a)
    | _ => 0
  ell s := lin1 (1 / s)
  off _ := 0
  named _ := rfl
  valid _ := Real.exp_pos _
  life e s hs := by
    rw [lifeAt1, log_life _ (show (_ : LifeStress).Valid by first | exact Real.exp_pos _ | trivial) hs one_pos]
    simp only [Real.log_exp, lin1_apply]
    ring
  surj m hn hv := by
    cases m <;> first | (simp [mname] at hn; done) | skip
    simp only [LifeStress.exponential.injEq, true_and]
    exact Real.exp_log hv

noncomputable def linEyring : Lin lifeAt1 (fun s : ℝ => 0 < s) "Eyring" (ℝ × ℝ) where
  model e := .eyring e.2 (-e.1)
  coef m := match m with
    | .eyring a c => (-c, a)
    | _ => 0
  ell s := lin1 (1 / s)
  off s := Real.log s
  named _ := rfl
  valid _ := trivial
  life e s hs := by
    rw [lifeAt1, log_life _ (show (_ : LifeStress).Valid by first | exact Real.exp_pos _ | trivial) hs one_pos]
    simp only [lin1_apply]
    ring
  surj m hn hv := by
    cases m <;> first | (simp [mname] at hn; done) | skip
    simp

noncomputable def linPower : Lin lifeAt1 (fun s : ℝ => 0 < s) "Power" (ℝ × ℝ) where
  model e := .power (Real.exp e.1) e.2
  coef m := match m with
    | .power a n => (Real.log a, n)
    | _ => 0
  ell s := lin1 (Real.log s)
  off _ := 0
  named _ := rfl
  valid _ := Real.exp_pos _
  life e s hs := by
    rw [lifeAt1, log_life _ (show (_ : LifeStress).Valid by first | exact Real.exp_pos _ | trivial) hs one_pos]
    simp only [Real.log_exp, lin1_apply]
    ring
  surj m hn hv := by
    cases m <;> first | (simp [mname] at hn; done) | skip
    simp only [LifeStress.power.injEq, and_true]
    exact Real.exp_log hv

noncomputable def linDualExponential : Lin lifeAt2 (fun s : ℝ × ℝ => 0 < s.1 ∧ 0 < s.2) "Dual_Exponential" (ℝ × ℝ × ℝ) where
  model e := .dualExponential e.2.1 e.2.2 (Real.exp e.1)
  coef m := match m with
    | .dualExponential a b c => (Real.log c, a, b)
    | _ => 0
  ell s := lin2 (1 / s.1) (1 / s.2)
  off _ := 0
  named _ := rfl
  valid _ := Real.exp_pos _
  life e s hs := by
    rw [lifeAt2, log_life _ (show (_ : LifeStress).Valid by first | exact Real.exp_pos _ | trivial) hs.1 hs.2]
    simp only [Real.log_exp, lin2_apply]
    ring
  surj m hn hv := by
    cases m <;> first | (simp [mname] at hn; done) | skip
    simp only [LifeStress.dualExponential.injEq, true_and]
    exact Real.exp_log hv

noncomputable def linPowerExponential : Lin lifeAt2 (fun s : ℝ × ℝ => 0 < s.1 ∧ 0 < s.2) "Power_Exponential" (ℝ × ℝ × ℝ) where
  model e := .powerExponential e.2.1 (Real.exp e.1) e.2.2
  coef m := match m with
    | .powerExponential a c n => (Real.log c, a, n)
    | _ => 0
  ell s := lin2 (1 / s.1) (Real.log s.2)
  off _ := 0
  named _ := rfl
  valid _ := Real.exp_pos _
  life e s hs := by
    rw [lifeAt2, log_life _ (show (_ : LifeStress).Valid by first | exact Real.exp_pos _ | trivial) hs.1 hs.2]
    simp only [Real.log_exp, lin2_apply]
    ring
  surj m hn hv := by
    cases m <;> first | (simp [mname] at hn; done) | skip
    simp only [LifeStress.powerExponential.injEq, true_and, and_true]
    exact Real.exp_log hv

noncomputable def linDualPower : Lin lifeAt2 (fun s : ℝ × ℝ => 0 < s.1 ∧ 0 < s.2) "Dual_Power" (ℝ × ℝ × ℝ) where
  model e := .dualPower (Real.exp e.1) e.2.1 e.2.2
  coef m := match m with
    | .dualPower c m n => (Real.log c, m, n)
    | _ => 0
  ell s := lin2 (Real.log s.1) (Real.log s.2)
  off _ := 0
  named _ := rfl
  valid _ := Real.exp_pos _
  life e s hs := by
    rw [lifeAt2, log_life _ (show (_ : LifeStress).Valid by first | exact Real.exp_pos _ | trivial) hs.1 hs.2]
    simp only [Real.log_exp, lin2_apply]
    ring
  surj m hn hv := by
    cases m <;> first | (simp [mname] at hn; done) | skip
    simp only [LifeStress.dualPower.injEq, and_true]
    exact Real.exp_log hv

theorem lin1_zero {x y : ℝ} (hxy : x ≠ y) {e : ℝ × ℝ} (h1 : lin1 x e = 0) (h2 : lin1 y e = 0) : e = 0 := by
  rw [lin1_apply] at h1 h2
  have h3 : (x - y) * e.2 = 0 := by linarith
  have h4 := (mul_eq_zero.1 h3).resolve_left (sub_ne_zero.2 hxy)
  rw [h4] at h1
  ext
  · simpa using h1
  · exact h4

theorem life_pos {m : LifeStress} (h : m.Valid) {S1 S2 : ℝ} (h1 : 0 < S1) (h2 : 0 < S2) : 0 < m.life S1 S2 := by
  have p1 : ∀ n : ℝ, 0 < S1 ^ n := fun n => Real.rpow_pos_of_pos h1 n
  have p2 : ∀ n : ℝ, 0 < S2 ^ n := fun n => Real.rpow_pos_of_pos h2 n
  cases m <;> simp only [LifeStress.life, LifeStress.Valid] at *
  · positivity
  · positivity
  · rename_i a n; have := p1 n; positivity
  · positivity
  · rename_i a c n; have := p2 n; positivity
  · rename_i c m n; have := p1 m; have := p2 n; positivity

/-- One stress. -/
theorem exists_single {name dist : String} (hn : name ∈ ["Exponential", "Eyring", "Power"])
    (hd : dist ∈ ["Weibull", "Lognormal", "Exponential"]) {F C : List (ℝ × ℝ)} (hF : ∀ i ∈ F, 0 < i.1 ∧ 0 < i.2)
    (hC : ∀ i ∈ C, 0 < i.1 ∧ 0 < i.2) (h2 : ∃ i ∈ F, ∃ j ∈ F, i.2 ≠ j.2)
    (hex : dist ≠ "Exponential" → ∀ m, mname m = name → m.Valid → ∃ i ∈ F, i.1 ≠ lifeAt1 m i.2) :
    ∃ m d, mname m = name ∧ dname d = dist ∧ m.Valid ∧ d.Valid ∧ ALTMax lifeAt1 m d F C := by
  obtain ⟨i, hi, j, hj, hij⟩ := h2
  have hne : F ≠ [] := List.ne_nil_of_mem hi
  have hpos : ∀ m : LifeStress, m.Valid → ∀ s : ℝ, 0 < s → 0 < lifeAt1 m s := fun m hm s hs => life_pos hm hs one_pos
  have hinv : 1 / i.2 ≠ 1 / j.2 := fun h => hij (by simpa using h)
  have hlog : Real.log i.2 ≠ Real.log j.2 := fun h => hij (Real.log_injOn_pos (hF i hi).2 (hF j hj).2 h)
  simp only [List.mem_cons, List.not_mem_nil, or_false] at hn
  rcases hn with rfl | rfl | rfl
  · exact exists_ALTMax linExponential hpos hd hF hC hne (fun e he => lin1_zero hinv (he i hi) (he j hj)) hex
  · exact exists_ALTMax linEyring hpos hd hF hC hne (fun e he => lin1_zero hinv (he i hi) (he j hj)) hex
  · exact exists_ALTMax linPower hpos hd hF hC hne (fun e he => lin1_zero hlog (he i hi) (he j hj)) hex

/-- Two stresses. -/
theorem exists_dual {name dist : String} (hn : name ∈ ["Dual_Exponential", "Power_Exponential", "Dual_Power"])
    (hd : dist ∈ ["Weibull", "Lognormal", "Exponential"]) {F C : List (ℝ × ℝ × ℝ)} (hF : ∀ i ∈ F, 0 < i.1 ∧ 0 < i.2.1 ∧ 0 < i.2.2)
    (hC : ∀ i ∈ C, 0 < i.1 ∧ 0 < i.2.1 ∧ 0 < i.2.2) (hnc : ¬ Collinear2 (F.map fun i => stressScale name i.2))
    (hex : dist ≠ "Exponential" → ∀ m, mname m = name → m.Valid → ∃ i ∈ F, i.1 ≠ lifeAt2 m i.2) :
    ∃ m d, mname m = name ∧ dname d = dist ∧ m.Valid ∧ d.Valid ∧ ALTMax lifeAt2 m d F C := by
  have hne : F ≠ [] := by
    rintro rfl
    exact hnc ⟨1, 0, 0, by simp, by simp⟩
  have hpos : ∀ m : LifeStress, m.Valid → ∀ s : ℝ × ℝ, 0 < s.1 ∧ 0 < s.2 → 0 < lifeAt2 m s := fun m hm s hs => life_pos hm hs.1 hs.2
  have key : ∀ e : ℝ × ℝ × ℝ, (∀ i ∈ F, lin2 (stressScale name i.2).1 (stressScale name i.2).2 e = 0) → e = 0 := by
    intro e he
    by_contra h0
    refine hnc ⟨e.1, e.2.1, e.2.2, h0, fun p hp => ?_⟩
    obtain ⟨i, hi, rfl⟩ := List.mem_map.1 hp
    have := he i hi
    rw [lin2_apply] at this
    linarith
  simp only [List.mem_cons, List.not_mem_nil, or_false] at hn
  rcases hn with rfl | rfl | rfl
  · exact exists_ALTMax linDualExponential hpos hd hF hC hne key hex
  · exact exists_ALTMax linPowerExponential hpos hd hF hC hne key hex
  · exact exists_ALTMax linDualPower hpos hd hF hC hne key hex

/-- Without censored units, a model through all the failures makes the likelihood unbounded. -/
theorem unbounded {σ : Type} {lifeAt : LifeStress → σ → ℝ} {pos : σ → Prop}
    (hpos : ∀ m : LifeStress, m.Valid → ∀ s, pos s → 0 < lifeAt m s) {dist : String} (hd : dist ∈ ["Weibull", "Lognormal"])
    {F : List (ℝ × σ)} (hF : ∀ i ∈ F, 0 < i.1 ∧ pos i.2) (hne : F ≠ []) {m : LifeStress} (hm : m.Valid)
    (hthrough : ∀ i ∈ F, i.1 = lifeAt m i.2) (x : ℝ) : ∃ d, dname d = dist ∧ d.Valid ∧ x < altLikelihood lifeAt m d F [] := by
  have hd' : dist ∈ ["Weibull", "Lognormal", "Exponential"] := by
    simp only [List.mem_cons, List.not_mem_nil, or_false] at hd ⊢; tauto
  have hne' : dist ≠ "Exponential" := by rintro rfl; simp at hd
  set p := stdPdf (famD (mkD dist 1)) 0 with hp
  have hpp : 0 < p := (slc_stdPdf _).pos _
  set A := (F.map fun i => p * (1 / i.1)).prod with hA
  have hA0 : 0 < A := prod_map_pos fun i hi => mul_pos hpp (one_div_pos.2 (hF i hi).1)
  have hlik : ∀ q : ℝ, 0 < q → altLikelihood lifeAt m (mkD dist q) F [] = q ^ F.length * A := by
    intro q hq
    obtain ⟨d1, d2, d3⟩ := mkD_law hd' hq (fun h => absurd h hne')
    rw [alt_std d2 (by rw [d1]; rintro rfl; simp at hd) (fun i hi => ⟨(hF i hi).1, hpos m hm _ (hF i hi).2⟩) (by simp), d3, mkD_famD q 1]
    have e : (F.map fun i => q * stdPdf (famD (mkD dist 1)) (q * (Real.log i.1 - Real.log (lifeAt m i.2))) * (1 / i.1)) =
        F.map fun i => q * (p * (1 / i.1)) := List.map_congr_left fun i hi => by
      rw [← hthrough i hi, sub_self, mul_zero, mul_assoc]
    rw [e, List.prod_map_mul]
    simp [hA]
  have ht : Filter.Tendsto (fun q : ℝ => q ^ F.length * A) Filter.atTop Filter.atTop :=
    (Filter.tendsto_pow_atTop (by simpa using hne)).atTop_mul_const hA0
  obtain ⟨q, h1, h2⟩ := ((ht.eventually_gt_atTop x).and (Filter.eventually_gt_atTop 0)).exists
  obtain ⟨d1, d2, -⟩ := mkD_law hd' h2 (fun h => absurd h hne')
  exact ⟨_, d1, d2, by rw [hlik q h2]; exact h1⟩

end Reliability.UniqueALT

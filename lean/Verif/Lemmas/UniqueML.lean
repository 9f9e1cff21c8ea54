import Verif.Lemmas.LogConcave
import Verif.Spec.Optimizer

/-! # The likelihood of a location-scale family has at most one maximum -/

namespace Reliability.UniqueML

open Reliability Reliability.Distributions Reliability.Props.Likelihood Reliability.Spec Reliability.LogConcave
open Reliability.FunctionCI (CFam distOf)
open Reliability.Props Reliability.RankReg

/-! ## Products -/

theorem prod_map_pos {ι : Type} {l : List ι} {a : ι → ℝ} (h : ∀ i ∈ l, 0 < a i) : 0 < (l.map a).prod := by
  induction l with
  | nil => simp
  | cons i l ih =>
    simp only [List.map_cons, List.prod_cons]
    exact mul_pos (h i (by simp)) (ih fun j hj => h j (by simp [hj]))

theorem prod_mid_le {ι : Type} {l : List ι} {a b m : ι → ℝ} (ha : ∀ i ∈ l, 0 < a i) (hb : ∀ i ∈ l, 0 < b i)
    (h : ∀ i ∈ l, a i * b i ≤ m i ^ 2) : (l.map a).prod * (l.map b).prod ≤ (l.map m).prod ^ 2 := by
  induction l with
  | nil => simp
  | cons i l ih =>
    simp only [List.map_cons, List.prod_cons]
    have h1 := ih (fun j hj => ha j (by simp [hj])) (fun j hj => hb j (by simp [hj])) (fun j hj => h j (by simp [hj]))
    have h2 := h i (by simp)
    have p1 := mul_pos (ha i (by simp)) (hb i (by simp))
    have p2 := mul_pos (prod_map_pos (a := a) fun j hj => ha j (List.mem_cons_of_mem i hj))
      (prod_map_pos (a := b) fun j hj => hb j (List.mem_cons_of_mem i hj))
    calc a i * (l.map a).prod * (b i * (l.map b).prod) = (a i * b i) * ((l.map a).prod * (l.map b).prod) := by ring
      _ ≤ m i ^ 2 * (l.map m).prod ^ 2 := mul_le_mul h2 h1 p2.le (by positivity)
      _ = _ := by ring

theorem prod_mid_lt {ι : Type} {l : List ι} {a b m : ι → ℝ} (ha : ∀ i ∈ l, 0 < a i) (hb : ∀ i ∈ l, 0 < b i)
    (h : ∀ i ∈ l, a i * b i ≤ m i ^ 2) (hs : ∃ i ∈ l, a i * b i < m i ^ 2) :
    (l.map a).prod * (l.map b).prod < (l.map m).prod ^ 2 := by
  induction l with
  | nil => obtain ⟨i, hi, -⟩ := hs; cases hi
  | cons i l ih =>
    simp only [List.map_cons, List.prod_cons]
    have ha' : ∀ j ∈ l, 0 < a j := fun j hj => ha j (by simp [hj])
    have hb' : ∀ j ∈ l, 0 < b j := fun j hj => hb j (by simp [hj])
    have hm' : ∀ j ∈ l, a j * b j ≤ m j ^ 2 := fun j hj => h j (by simp [hj])
    have h2 := h i (by simp)
    have p1 := mul_pos (ha i (by simp)) (hb i (by simp))
    have p2 := mul_pos (prod_map_pos ha') (prod_map_pos hb')
    have e1 : a i * (l.map a).prod * (b i * (l.map b).prod) = (a i * b i) * ((l.map a).prod * (l.map b).prod) := by ring
    rw [e1, mul_pow]
    obtain ⟨j, hj, hlt⟩ := hs
    rcases List.mem_cons.1 hj with rfl | hj
    · have h3 := prod_mid_le ha' hb' hm'
      exact mul_lt_mul hlt h3 p2 (by positivity)
    · have h3 := ih ha' hb' hm' ⟨j, hj, hlt⟩
      exact mul_lt_mul' h2 h3 p2.le (lt_of_lt_of_le p1 h2)

/-- The likelihood of a shape `q` and linear predictors (`z` of the failures, `w` of the censored units); `k` are factors that
do not depend on the parameters. -/
theorem predictor_lt {ι κ : Type} {g G : ℝ → ℝ} (hg : SLC g) (hG : LC G) {F : List ι} {C : List κ} {k : ι → ℝ}
    (hk : ∀ i ∈ F, 0 < k i) {q q' : ℝ} (hq : 0 < q) (hq' : 0 < q') {z z' : ι → ℝ} {w w' : κ → ℝ} (hF : F ≠ [])
    (hne : q ≠ q' ∨ ∃ i ∈ F, z i ≠ z' i) :
    ((F.map fun i => q * g (z i) * k i).prod * (C.map fun j => G (w j)).prod) *
        ((F.map fun i => q' * g (z' i) * k i).prod * (C.map fun j => G (w' j)).prod) <
      ((F.map fun i => (q + q') / 2 * g ((z i + z' i) / 2) * k i).prod * (C.map fun j => G ((w j + w' j) / 2)).prod) ^ 2 := by
  have hqq : q * q' ≤ ((q + q') / 2) ^ 2 := by nlinarith [sq_nonneg (q - q')]
  have hm : ∀ i ∈ F, (q * g (z i) * k i) * (q' * g (z' i) * k i) ≤ ((q + q') / 2 * g ((z i + z' i) / 2) * k i) ^ 2 := by
    intro i hi
    have h1 := hg.mid (z i) (z' i)
    have p := mul_pos (hg.pos (z i)) (hg.pos (z' i))
    have h2 := mul_le_mul hqq h1 p.le (by positivity)
    have h3 := mul_le_mul_of_nonneg_right h2 (sq_nonneg (k i))
    calc _ = q * q' * (g (z i) * g (z' i)) * k i ^ 2 := by ring
      _ ≤ _ := h3
      _ = _ := by ring
  have hs : ∃ i ∈ F, (q * g (z i) * k i) * (q' * g (z' i) * k i) < ((q + q') / 2 * g ((z i + z' i) / 2) * k i) ^ 2 := by
    by_cases hqe : q = q'
    · obtain ⟨i, hi, hz⟩ := hne.resolve_left (fun h => h hqe)
      refine ⟨i, hi, ?_⟩
      have h1 := hg.strict _ _ hz
      have p := mul_pos (hg.pos (z i)) (hg.pos (z' i))
      have h2 := mul_lt_mul' hqq h1 p.le (lt_of_lt_of_le (mul_pos hq hq') hqq)
      have h3 := mul_lt_mul_of_pos_right h2 (pow_pos (hk i hi) 2)
      calc _ = q * q' * (g (z i) * g (z' i)) * k i ^ 2 := by ring
        _ < _ := h3
        _ = _ := by ring
    · obtain ⟨i, hi⟩ := List.exists_mem_of_ne_nil F hF
      refine ⟨i, hi, ?_⟩
      have hlt : q * q' < ((q + q') / 2) ^ 2 := by nlinarith [sq_pos_of_ne_zero (sub_ne_zero.2 hqe)]
      have h1 := hg.mid (z i) (z' i)
      have p := mul_pos (hg.pos (z i)) (hg.pos (z' i))
      have h2 := mul_lt_mul hlt h1 p (by positivity)
      have h3 := mul_lt_mul_of_pos_right h2 (pow_pos (hk i hi) 2)
      calc _ = q * q' * (g (z i) * g (z' i)) * k i ^ 2 := by ring
        _ < _ := h3
        _ = _ := by ring
  have pa : ∀ i ∈ F, 0 < q * g (z i) * k i := fun i hi => mul_pos (mul_pos hq (hg.pos _)) (hk i hi)
  have pb : ∀ i ∈ F, 0 < q' * g (z' i) * k i := fun i hi => mul_pos (mul_pos hq' (hg.pos _)) (hk i hi)
  have h1 := prod_mid_lt pa pb hm hs
  have h2 := prod_mid_le (l := C) (a := fun j => G (w j)) (b := fun j => G (w' j)) (m := fun j => G ((w j + w' j) / 2))
    (fun j _ => hG.pos _) (fun j _ => hG.pos _) (fun j _ => hG.mid _ _)
  have p3 := prod_map_pos (l := C) (a := fun j => G (w j)) (fun j _ => hG.pos _)
  have p4 := prod_map_pos (l := C) (a := fun j => G (w' j)) (fun j _ => hG.pos _)
  rw [mul_mul_mul_comm, mul_pow]
  exact mul_lt_mul h1 h2 (mul_pos p3 p4) (by positivity)

/-! ## Standard form of the distributions -/

/-- The standard density. -/
noncomputable def stdPdf : CFam → ℝ → ℝ
  | .normal => normStdPdf
  | .lognormal => normStdPdf
  | .loglogistic => fun z => Real.exp z / (1 + Real.exp z) ^ 2
  | _ => fun z => Real.exp (z - Real.exp z)

/-- The standard survival function. -/
noncomputable def stdSf : CFam → ℝ → ℝ
  | .normal => normStd.sf
  | .lognormal => normStd.sf
  | .loglogistic => fun z => 1 / (1 + Real.exp z)
  | _ => fun z => Real.exp (-Real.exp z)

/-- The derivative of the time scale. -/
noncomputable def jac : CFam → ℝ → ℝ
  | .normal => fun _ => 1
  | .gumbel => fun _ => 1
  | _ => fun t => 1 / t

theorem slc_stdPdf (f : CFam) : SLC (stdPdf f) := by
  cases f
  exacts [slc_sev, slc_sev, slc_norm, slc_norm, slc_logis, slc_sev]

theorem lc_stdSf (f : CFam) : LC (stdSf f) := by
  cases f
  exacts [slc_sev_sf.toLC, slc_sev_sf.toLC, lc_norm_sf, lc_norm_sf, slc_logis_sf.toLC, slc_sev_sf.toLC]

theorem jac_pos {f : CFam} {t : ℝ} (h : InSupport f 0 t) : 0 < jac f t := by
  cases f <;> simp only [jac, InSupport, one_div, inv_pos] at * <;> first | assumption | norm_num

theorem rpow_exp {a b t : ℝ} (ha : 0 < a) (ht : 0 < t) : (t / a) ^ b = Real.exp (b * Real.log t + -(b * Real.log a)) := by
  rw [Real.rpow_def_of_pos (by positivity), Real.log_div ht.ne' ha.ne']
  congr 1; ring

theorem pdf_std {f : CFam} (hf : f ≠ .gamma) {a b t : ℝ} (hp : ParamsOK f a b) (ht : InSupport f 0 t) :
    (distOf f a b 0).sp.pdf t = slopeOf f b * stdPdf f (slopeOf f b * timeScale f 0 t + icptOf f a b) * jac f t := by
  obtain ⟨hb, ha⟩ := hp
  cases f
  case weibull =>
    have ha := ha (.inl rfl)
    have ht : 0 < t := ht
    have e := rpow_exp (b := b) ha ht
    simp only [distOf, Distributions.weibull, locScale, weibullStd, slopeOf, icptOf, timeScale, stdPdf, jac, sub_zero]
    rw [if_neg (by have := div_pos ht ha; linarith), Real.rpow_sub_one (by positivity), Real.exp_sub, ← e, Real.exp_neg]
    field_simp
  case gamma => exact absurd rfl hf
  case normal =>
    simp only [distOf, Distributions.normal, ofScipy, locScale, normStd, ofDensity, slopeOf, icptOf, timeScale, stdPdf, jac]
    rw [show 1 / b * t + -(a / b) = (t - a) / b by ring]
    ring
  case lognormal =>
    have ht : 0 < t := ht
    simp only [distOf, Distributions.lognormal, ofScipy, locScale, lognormStd, slopeOf, icptOf, timeScale, stdPdf, jac, sub_zero]
    rw [if_neg (by have := div_pos ht (Real.exp_pos a); linarith), Real.log_div ht.ne' (Real.exp_pos a).ne', Real.log_exp,
      show 1 / b * Real.log t + -(a / b) = (Real.log t - a) / b by ring]
    have := Real.exp_pos a
    field_simp
  case loglogistic =>
    have ha := ha (.inr rfl)
    have ht : 0 < t := ht
    have e := rpow_exp (b := b) ha ht
    simp only [distOf, Distributions.loglogistic, locScale, fiskStd, slopeOf, icptOf, timeScale, stdPdf, jac, sub_zero]
    rw [if_neg (by have := div_pos ht ha; linarith), Real.rpow_sub_one (by positivity), ← e]
    field_simp
  case gumbel =>
    simp only [distOf, Distributions.gumbel, locScale, gumbelStd, slopeOf, icptOf, timeScale, stdPdf, jac]
    rw [show 1 / b * t + -(a / b) = (t - a) / b by ring]
    ring

theorem sf_std {f : CFam} (hf : f ≠ .gamma) {a b t : ℝ} (hp : ParamsOK f a b) (ht : InSupport f 0 t) :
    (distOf f a b 0).sp.sf t = stdSf f (slopeOf f b * timeScale f 0 t + icptOf f a b) := by
  obtain ⟨hb, ha⟩ := hp
  cases f
  case weibull =>
    have ha := ha (.inl rfl)
    have ht : 0 < t := ht
    have e := rpow_exp (b := b) ha ht
    simp only [distOf, Distributions.weibull, locScale, weibullStd, slopeOf, icptOf, timeScale, stdSf, sub_zero]
    rw [if_neg (by have := div_pos ht ha; linarith), ← e]
  case gamma => exact absurd rfl hf
  case normal =>
    simp only [distOf, Distributions.normal, ofScipy, locScale, slopeOf, icptOf, timeScale, stdSf]
    rw [show 1 / b * t + -(a / b) = (t - a) / b by ring]
  case lognormal =>
    have ht : 0 < t := ht
    simp only [distOf, Distributions.lognormal, ofScipy, locScale, lognormStd, slopeOf, icptOf, timeScale, stdSf, sub_zero]
    rw [if_neg (by have := div_pos ht (Real.exp_pos a); linarith), Real.log_div ht.ne' (Real.exp_pos a).ne', Real.log_exp,
      show 1 / b * Real.log t + -(a / b) = (Real.log t - a) / b by ring]
  case loglogistic =>
    have ha := ha (.inr rfl)
    have ht : 0 < t := ht
    have e := rpow_exp (b := b) ha ht
    simp only [distOf, Distributions.loglogistic, locScale, fiskStd, slopeOf, icptOf, timeScale, stdSf, sub_zero]
    rw [if_neg (by have := div_pos ht ha; linarith), ← e]
  case gumbel =>
    simp only [distOf, Distributions.gumbel, locScale, gumbelStd, slopeOf, icptOf, timeScale, stdSf]
    rw [show 1 / b * t + -(a / b) = (t - a) / b by ring]

theorem likelihood_std {f : CFam} (hf : f ≠ .gamma) {a b : ℝ} (hp : ParamsOK f a b) {F C : List ℝ}
    (hF : ∀ t ∈ F, InSupport f 0 t) (hC : ∀ t ∈ C, InSupport f 0 t) :
    likelihoodOf (distOf f a b 0) F C =
      (F.map fun t => slopeOf f b * stdPdf f (slopeOf f b * timeScale f 0 t + icptOf f a b) * jac f t).prod *
        (C.map fun t => stdSf f (slopeOf f b * timeScale f 0 t + icptOf f a b)).prod := by
  unfold likelihoodOf likelihood
  congr 2
  · exact List.map_congr_left fun t ht => pdf_std hf hp (hF t ht)
  · exact List.map_congr_left fun t ht => sf_std hf hp (hC t ht)

/-! ## Lines -/

/-- The likelihood of the line with slope `q` and intercept `p`. -/
noncomputable def lineLik (f : CFam) (F C : List ℝ) (q p : ℝ) : ℝ :=
  (F.map fun t => q * stdPdf f (q * timeScale f 0 t + p) * jac f t).prod *
    (C.map fun t => stdSf f (q * timeScale f 0 t + p)).prod

/-- The most likely line (with slope `fo`, if that is given). -/
structure LineMax (f : CFam) (fo : Option ℝ) (F C : List ℝ) (q p : ℝ) : Prop where
  pos : 0 < q
  ne : F ≠ []
  F_in : ∀ t ∈ F, InSupport f 0 t
  C_in : ∀ t ∈ C, InSupport f 0 t
  forced : ∀ s, fo = some s → q = s
  max : ∀ q' p', 0 < q' → (∀ s, fo = some s → q' = s) → lineLik f F C q' p' ≤ lineLik f F C q p

theorem lineLik_pos {f : CFam} {F C : List ℝ} (hF : ∀ t ∈ F, InSupport f 0 t) {q p : ℝ} (hq : 0 < q) : 0 < lineLik f F C q p :=
  mul_pos (prod_map_pos fun t ht => mul_pos (mul_pos hq ((slc_stdPdf f).pos _)) (jac_pos (hF t ht)))
    (prod_map_pos fun t _ => (lc_stdSf f).pos _)

theorem LineMax.unique {f : CFam} {fo : Option ℝ} {F C : List ℝ} {q p q' p' : ℝ} (h : LineMax f fo F C q p)
    (h' : LineMax f fo F C q' p') : q = q' ∧ p = p' := by
  by_contra hcon
  have hlt := predictor_lt (slc_stdPdf f) (lc_stdSf f) (F := F) (C := C) (k := jac f) (fun t ht => jac_pos (h.F_in t ht)) h.pos h'.pos
    (z := fun t => q * timeScale f 0 t + p) (z' := fun t => q' * timeScale f 0 t + p')
    (w := fun t => q * timeScale f 0 t + p) (w' := fun t => q' * timeScale f 0 t + p') h.ne (by
      by_cases hs : q = q'
      · right
        obtain ⟨t, ht⟩ := List.exists_mem_of_ne_nil F h.ne
        refine ⟨t, ht, fun e => hcon ⟨hs, ?_⟩⟩
        simp only [hs] at e
        linarith
      · exact .inl hs)
  have hz : ∀ t, ((q * timeScale f 0 t + p) + (q' * timeScale f 0 t + p')) / 2 =
      (q + q') / 2 * timeScale f 0 t + (p + p') / 2 := fun t => by ring
  simp only [hz] at hlt
  have hm : 0 < (q + q') / 2 := by have := h.pos; have := h'.pos; linarith
  have hfo : ∀ s, fo = some s → (q + q') / 2 = s := fun s hs => by rw [h.forced s hs, h'.forced s hs]; ring
  have h1 := h.max _ ((p + p') / 2) hm hfo
  have h2 := h'.max _ ((p + p') / 2) hm hfo
  have hpos := lineLik_pos (C := C) h.F_in (p := (p + p') / 2) hm
  have h3 := mul_le_mul h1 h2 hpos.le (hpos.le.trans h1)
  unfold lineLik at h3
  rw [sq] at hlt
  exact absurd hlt (not_lt.2 h3)

theorem prod_map_mul_left {ι : Type} {l : List ι} {a b k : ι → ℝ} (h : ∀ i ∈ l, a i = k i * b i) :
    (l.map a).prod = (l.map k).prod * (l.map b).prod := by
  rw [← List.prod_map_mul]
  congr 1
  exact List.map_congr_left h

/-- Data whose time scale is that of other data, stretched by `c` and moved by `d`. -/
theorem LineMax.transport {f f' : CFam} (h1 : stdPdf f = stdPdf f') (h2 : stdSf f = stdSf f') {F C F' C' : List ℝ} {τ : ℝ → ℝ}
    (hF : F'.Perm (F.map τ)) (hC : C'.Perm (C.map τ)) {c d : ℝ} (hc : 0 < c)
    (hτF : ∀ t ∈ F, InSupport f' 0 (τ t) ∧ timeScale f' 0 (τ t) = c * timeScale f 0 t + d)
    (hτC : ∀ t ∈ C, InSupport f' 0 (τ t) ∧ timeScale f' 0 (τ t) = c * timeScale f 0 t + d) {fo fo' : Option ℝ}
    (hfo : fo' = fo.map fun s => s / c) {q p : ℝ} (h : LineMax f fo F C q p) : LineMax f' fo' F' C' (q / c) (p - q * d / c) := by
  have hpos : ∀ t ∈ F, 0 < 1 / c * jac f' (τ t) / jac f t := fun t ht => by
    have := jac_pos (h.F_in t ht)
    have := jac_pos (hτF t ht).1
    positivity
  have key : ∀ q p, lineLik f' F' C' q p =
      (F.map fun t => 1 / c * jac f' (τ t) / jac f t).prod * lineLik f F C (c * q) (p + q * d) := by
    intro q p
    have e1 : ∀ t ∈ F, q * stdPdf f' (q * timeScale f' 0 (τ t) + p) * jac f' (τ t) =
        (1 / c * jac f' (τ t) / jac f t) * (c * q * stdPdf f (c * q * timeScale f 0 t + (p + q * d)) * jac f t) := by
      intro t ht
      have := (jac_pos (h.F_in t ht)).ne'
      rw [(hτF t ht).2, h1, show q * (c * timeScale f 0 t + d) + p = c * q * timeScale f 0 t + (p + q * d) by ring]
      field_simp
    have e2 : ∀ t ∈ C, stdSf f' (q * timeScale f' 0 (τ t) + p) = stdSf f (c * q * timeScale f 0 t + (p + q * d)) := by
      intro t ht
      rw [(hτC t ht).2, h2, show q * (c * timeScale f 0 t + d) + p = c * q * timeScale f 0 t + (p + q * d) by ring]
    unfold lineLik
    rw [(hF.map _).prod_eq, (hC.map _).prod_eq, List.map_map, List.map_map, ← mul_assoc]
    congr 1
    · exact prod_map_mul_left e1
    · congr 1
      exact List.map_congr_left e2
  have hK := prod_map_pos hpos
  refine ⟨div_pos h.pos hc, ?_, ?_, ?_, ?_, ?_⟩
  · intro e
    rw [e] at hF
    have := hF.symm.eq_nil
    exact h.ne (by simpa using this)
  · intro t ht
    obtain ⟨u, hu, rfl⟩ := List.mem_map.1 (hF.mem_iff.1 ht)
    exact (hτF u hu).1
  · intro t ht
    obtain ⟨u, hu, rfl⟩ := List.mem_map.1 (hC.mem_iff.1 ht)
    exact (hτC u hu).1
  · intro s hs
    rw [hfo] at hs
    cases fo with
    | none => cases hs
    | some s' => cases hs; rw [h.forced s' rfl]
  · intro q' p' hq' hs
    rw [key, key, show c * (q / c) = q by field_simp, show p - q * d / c + q / c * d = p by ring]
    refine mul_le_mul_of_nonneg_left (h.max _ _ (by positivity) fun s hs' => ?_) hK.le
    rw [hs (s / c) (by rw [hfo, hs']; rfl)]
    field_simp

/-- The most likely parameters are the most likely line. -/
theorem LineMax.of_params {f : CFam} (hf : f ≠ .gamma) {a b : ℝ} (hp : ParamsOK f a b) {F C : List ℝ}
    (hF : ∀ t ∈ F, InSupport f 0 t) (hC : ∀ t ∈ C, InSupport f 0 t) (hne : F ≠ []) {force : Option ℝ}
    (hb : ∀ s, force = some s → b = s)
    (h : ∀ α β, ParamsOK f α β → (∀ s, force = some s → β = s) →
      likelihoodOf (distOf f α β 0) F C ≤ likelihoodOf (distOf f a b 0) F C) :
    LineMax f (force.map (slopeOf f)) F C (slopeOf f b) (icptOf f a b) := by
  refine ⟨slopeOf_pos hp, hne, hF, hC, ?_, ?_⟩
  · intro s hs
    cases force with
    | none => cases hs
    | some s' => cases hs; rw [hb s' rfl]
  · intro q p hq hs
    have hok := paramsOf_ok f p hq
    obtain ⟨l1, l2⟩ := line_params f p hq
    have := h _ _ hok fun s hs' => by
      have := hs (slopeOf f s) (by rw [hs']; rfl)
      rw [this]
      cases f <;> simp [paramsOf, slopeOf]
    rw [likelihood_std hf hok hF hC, likelihood_std hf hp hF hC, l1, l2] at this
    exact this

end Reliability.UniqueML

import Verif.Spec.UnitsReport
import Verif.Props.UniqueFit
import Verif.Props.UnitsMLE
import Verif.Props.FitGlue3
import Verif.Props.UniqueFit2

/-! # C168: the criteria of a maximum likelihood fit do not depend on the run, and depend on the unit of time in a known way -/

namespace Reliability.Props.UnitsReport

open Reliability Reliability.Distributions Reliability.Likelihood Reliability.InputCheck Reliability.Props.Likelihood Reliability.FunctionCI
open Reliability.FitGlue Reliability.Spec Reliability.Spec.InputCheck Reliability.Spec.FitGlue Reliability.Props
open Reliability.Props.UniqueFit

theorem likelihood_perm {d : Dist} {f rc f' rc' : List ℝ} (hf : f'.Perm f) (hc : rc'.Perm rc) :
    likelihoodOf d f' rc' = likelihoodOf d f rc := by
  unfold likelihoodOf likelihood
  rw [(hf.map _).prod_eq, (hc.map _).prod_eq]

/-- From the likelihoods to the criteria. -/
theorem shifted_of {as as' : List ℝ → List ℕ} {d d' : Dist} {f rc f' rc' : List ℝ} {m : ℕ} {g g' : GoF} {k : ℝ} (hk : 0 < k)
    (D : Describes as d f rc m g) (D' : Describes as' d' f' rc' m g') (pf : f'.length = f.length) (pc : rc'.length = rc.length)
    (h : likelihoodOf d' f' rc' * k ^ f.length = likelihoodOf d f rc) : Shifted f.length k g g' := by
  have hl : g'.loglik = g.loglik - f.length * Real.log k := by
    have h1 := D.loglik
    have h2 := D'.loglik
    unfold IsLogLik at h1 h2
    unfold likelihoodOf likelihood at h
    rw [← h1, ← h2] at h
    have := congrArg Real.log h
    rw [Real.log_mul (Real.exp_pos _).ne' (by positivity), Real.log_exp, Real.log_exp, Real.log_pow] at this
    linarith
  refine ⟨hl, by rw [D.loglik2, D'.loglik2, hl]; ring, ?_, ?_⟩
  · by_cases hm : m + 1 < f.length + rc.length
    · rw [D.AICc hm, D'.AICc (by rw [pf, pc]; exact hm), hl, pf, pc, Option.map_some]
      congr 1
      ring
    · rw [D.AICc_none (not_lt.1 hm), D'.AICc_none (by rw [pf, pc]; exact not_lt.1 hm)]
      rfl
  · rw [D.BIC, D'.BIC, hl, pf, pc]
    ring

/-- The likelihood of the same distribution in the other unit. -/
theorem lik_scale {F : LLFamily} (hF : F ∈ llFamilies []) {D : F.P → Dist}
    (hD : ∀ p f rc, F.legal p f rc → IsLogLik (D p).sp.pdf (D p).sp.sf f rc (loglik (F.LL p f rc))) {k : ℝ} (hk : 0 < k) {p : F.P}
    {f rc : List ℝ} (hp : F.legal p f rc) :
    likelihoodOf (D (F.rescale k p)) (f.map (k * ·)) (rc.map (k * ·)) * k ^ f.length = likelihoodOf (D p) f rc := by
  have law := scaleLaw [] F hF
  have h1 := hD _ _ _ hp
  have h2 := hD _ _ _ (law.ok k hk p f rc hp)
  rw [law.ll k hk p f rc hp] at h2
  unfold IsLogLik at h1 h2
  unfold likelihoodOf likelihood
  rw [← h1, ← h2]
  have : k ^ f.length = Real.exp (f.length * Real.log k) := by
    rw [← Real.log_pow, Real.exp_log (by positivity)]
  rw [this, ← Real.exp_add]
  congr 1
  unfold loglik
  ring

theorem map_inv {k : ℝ} (hk : 0 < k) (l : List ℝ) : (l.map (k * ·)).map (k⁻¹ * ·) = l := by
  rw [List.map_map]
  refine (List.map_congr_left fun t _ => ?_).trans (List.map_id l)
  simp only [Function.comp_apply, id]
  field_simp

/-- Two maxima over corresponding parameters correspond. -/
theorem lik_max {F : LLFamily} (hF : F ∈ llFamilies []) {D : F.P → Dist}
    (hD : ∀ p f rc, F.legal p f rc → IsLogLik (D p).sp.pdf (D p).sp.sf f rc (loglik (F.LL p f rc))) {k : ℝ} (hk : 0 < k) {p p' : F.P}
    {f rc f' rc' : List ℝ} (pf : f'.Perm (f.map (k * ·))) (pc : rc'.Perm (rc.map (k * ·))) (hp : F.legal p f rc)
    (hp' : F.legal p' (f.map (k * ·)) (rc.map (k * ·)))
    (hmax : likelihoodOf (D (F.rescale k⁻¹ p')) f rc ≤ likelihoodOf (D p) f rc)
    (hmax' : likelihoodOf (D (F.rescale k p)) f' rc' ≤ likelihoodOf (D p') f' rc') :
    likelihoodOf (D p') f' rc' * k ^ f.length = likelihoodOf (D p) f rc := by
  have law := scaleLaw [] F hF
  have hq : F.legal (F.rescale k⁻¹ p') f rc := by
    have := law.ok k⁻¹ (by positivity) p' _ _ hp'
    rwa [map_inv hk, map_inv hk] at this
  have s1 := lik_scale hF hD hk hp
  have s2 := lik_scale hF hD hk hq
  rw [law.inv k hk p'] at s2
  rw [likelihood_perm pf pc] at hmax' ⊢
  rw [likelihood_perm pf pc] at hmax'
  have hk' : 0 < k ^ f.length := by positivity
  refine le_antisymm ?_ ?_
  · rw [s2]; exact hmax
  · rw [← s1]; exact mul_le_mul_of_nonneg_right hmax' hk'.le

/-! ## The data the fits use -/

theorem keep_scale {d : String} (hd : d ≠ "Beta_2P") {k : ℝ} (hk : 0 < k) {l l' : List ℝ} (h : l'.Perm (l.map (k * ·))) :
    (keep d l').Perm ((keep d l).map (k * ·)) := keep_perm h fun t _ => usable_mul hd hk t

theorem keep_length {d : String} (hd : ¬ RealLine d) (hd' : d ≠ "Beta_2P") (l : List ℝ) :
    (keep d l).length = l.countP fun t => decide (0 < t) := by
  unfold keep
  rw [← List.countP_eq_length_filter]
  refine List.countP_congr fun t _ => ?_
  simp only [decide_eq_true_eq]
  exact ⟨fun h => usable_pos hd h, fun h => usable_of_pos hd' h⟩

theorem keep_line {d : String} (hd : RealLine d) (l : List ℝ) : keep d l = l := by
  unfold keep
  exact List.filter_eq_self.2 fun t _ => by simpa using usable_line hd t

theorem keep_above {d : String} (hd : ¬ RealLine d) (F C : List ℝ) : Spec.Above 0 (keep d F) (keep d C) :=
  ⟨fun t ht => usable_pos hd (mem_keep.1 ht).2, fun t ht => usable_pos hd (mem_keep.1 ht).2⟩

theorem nn {g : ℝ} {l : List ℝ} (h : ∀ t ∈ l, g < t) : ∀ t ∈ l, g ≤ t := fun t ht => (h t ht).le

/-! ## The families -/

noncomputable abbrev fW : LLFamily :=
  { P := ℝ × ℝ, LL := fun p => weibull2P_LL p.1 p.2,
    legal := fun p Tf Trc => 0 < p.1 ∧ 0 < p.2 ∧ Spec.Above 0 Tf Trc, rescale := fun k p => (k * p.1, p.2) }

noncomputable abbrev fE : LLFamily :=
  { P := ℝ, LL := fun L => exponential1P_LL L,
    legal := fun L Tf Trc => 0 < L ∧ Spec.Above 0 Tf Trc, rescale := fun k L => L / k }

noncomputable abbrev fN : LLFamily :=
  { P := ℝ × ℝ, LL := fun p => normal2P_LL p.1 p.2,
    legal := fun p _ _ => 0 < p.2, rescale := fun k p => (k * p.1, k * p.2) }

noncomputable abbrev fG : LLFamily :=
  { P := ℝ × ℝ, LL := fun p => gumbel2P_LL p.1 p.2,
    legal := fun p _ _ => 0 < p.2, rescale := fun k p => (k * p.1, k * p.2) }

noncomputable abbrev fL : LLFamily :=
  { P := ℝ × ℝ, LL := fun p => lognormal_LL p.1 p.2 0,
    legal := fun p Tf Trc => 0 < p.2 ∧ Spec.Above 0 Tf Trc, rescale := fun k p => (p.1 + Real.log k, p.2) }

noncomputable abbrev fGa : LLFamily :=
  { P := ℝ × ℝ, LL := fun p => gamma_LL_ab p.1 p.2 0,
    legal := fun p Tf Trc => 0 < p.1 ∧ 0 < p.2 ∧ Spec.Above 0 Tf Trc, rescale := fun k p => (k * p.1, p.2) }

noncomputable abbrev fLL : LLFamily :=
  { P := ℝ × ℝ, LL := fun p => loglogistic_LL p.1 p.2 0,
    legal := fun p Tf Trc => 0 < p.1 ∧ 0 < p.2 ∧ Spec.Above 0 Tf Trc, rescale := fun k p => (k * p.1, p.2) }

theorem fam_mem (i : Nat) (h : i < 17) : (llFamilies []).get ⟨i, h⟩ ∈ llFamilies [] := List.get_mem ..

/-! ## C168 -/

/-- **C168 (Fit_Weibull_2P).** Two exact maximum likelihood runs, the second on the times of the first multiplied by `k`, in any
order: the log-likelihood falls by `ln k` for every failure used, AICc and BIC rise by twice that.  For `k = 1` the criteria
are the same. -/
theorem C168_weibull_2P {x x' : Args} {r r' : FitRes Two} (h : ExactRun fitWeibull2P x r) (h' : ExactRun fitWeibull2P x' r')
    (ha : 0 < r.dist.a) (hb : 0 < r.dist.b) (ha' : 0 < r'.dist.a) (hb' : 0 < r'.dist.b) {F C F' C' : List ℝ} (hu : Units x F C)
    (hu' : Units x' F' C') {k : ℝ} (hk : 0 < k) (hF : F'.Perm (F.map (k * ·))) (hC : C'.Perm (C.map (k * ·)))
    (hfo : x.force = x'.force) : Shifted (F.countP fun t => 0 < t) k r.gof r'.gof := by
  obtain ⟨hn, as, J, num, harg, hnum, hE, hE1, h⟩ := h
  obtain ⟨hn', as', J', num', harg', hnum', hE', hE1', h'⟩ := h'
  obtain ⟨f, rc, u1, -, -, D⟩ := C99_weibull_2P harg J num hnum x r h
  obtain ⟨f', rc', u1', -, -, D'⟩ := C99_weibull_2P harg' J' num' hnum' x' r' h'
  obtain ⟨g, gc, u2, M⟩ := C112_weibull_2P as J num hE hE1 x r h hn ha hb
  obtain ⟨g', gc', u2', M'⟩ := C112_weibull_2P as' J' num' hE' hE1' x' r' h' hn' ha' hb'
  obtain ⟨rfl, rfl⟩ := used_units u1 hu
  obtain ⟨rfl, rfl⟩ := used_units u1' hu'
  obtain ⟨rfl, rfl⟩ := used_units u2 hu
  obtain ⟨rfl, rfl⟩ := used_units u2' hu'
  have pf := keep_scale (d := "Weibull_2P") (by decide) hk hF
  have pc := keep_scale (d := "Weibull_2P") (by decide) hk hC
  rw [← keep_length (d := "Weibull_2P") (by decide) (by decide)]
  have A := keep_above (d := "Weibull_2P") (by decide) F C
  have fo : ∀ s, x.force = some s → r.dist.b = s ∧ r'.dist.b = s := by
    intro s hs
    simp only [fitWeibull2P, bind_ok] at h h'
    obtain ⟨inp, h1, h2⟩ := h
    obtain ⟨inp', h1', h2'⟩ := h'
    rw [((C51_ok_iff ..).1 h1).beta_ok.1] at h2
    rw [((C51_ok_iff ..).1 h1').beta_ok.1] at h2'
    exact ⟨fit2_forced h2 hn s hs, fit2_forced h2' hn' s (by rw [← hfo]; exact hs)⟩
  refine shifted_of hk (D ha hb) (by rw [hfo]; exact D' ha' hb') (by simpa using pf.length_eq) (by simpa using pc.length_eq) ?_
  refine lik_max (F := fW) (fam_mem 0 (by decide)) (D := fun p => Distributions.weibull p.1 p.2 0)
    (fun p f rc hp => C41_weibull_2P _ _ hp.1 hp.2.1 _ _ hp.2.2.1 (nn hp.2.2.2)) hk (p := (r.dist.a, r.dist.b))
    (p' := (r'.dist.a, r'.dist.b)) pf pc ⟨ha, hb, A⟩ ⟨ha', hb', above_scale0 hk A⟩ ?_ ?_
  · exact M (k⁻¹ * r'.dist.a) _ (by positivity) hb' fun s hs => (fo s hs).2
  · exact M' (k * r.dist.a) _ (by positivity) hb fun s hs => (fo s (by rw [hfo]; exact hs)).1

/-- **C168 (Fit_Lognormal_2P).** -/
theorem C168_lognormal_2P {x x' : Args} {r r' : FitRes Two} (h : ExactRun fitLognormal2P x r) (h' : ExactRun fitLognormal2P x' r')
    (hb : 0 < r.dist.b) (hb' : 0 < r'.dist.b) {F C F' C' : List ℝ} (hu : Units x F C)
    (hu' : Units x' F' C') {k : ℝ} (hk : 0 < k) (hF : F'.Perm (F.map (k * ·))) (hC : C'.Perm (C.map (k * ·))) (hfo : x.force = x'.force) :
    Shifted (F.countP fun t => 0 < t) k r.gof r'.gof := by
  obtain ⟨hn, as, J, num, harg, hnum, hE, hE1, h⟩ := h
  obtain ⟨hn', as', J', num', harg', hnum', hE', hE1', h'⟩ := h'
  obtain ⟨f, rc, u1, -, -, D⟩ := C99_lognormal_2P harg J num hnum x r h
  obtain ⟨f', rc', u1', -, -, D'⟩ := C99_lognormal_2P harg' J' num' hnum' x' r' h'
  obtain ⟨g, gc, u2, M⟩ := C112_lognormal_2P as J num hE hE1 x r h hn hb
  obtain ⟨g', gc', u2', M'⟩ := C112_lognormal_2P as' J' num' hE' hE1' x' r' h' hn' hb'
  obtain ⟨rfl, rfl⟩ := used_units u1 hu
  obtain ⟨rfl, rfl⟩ := used_units u1' hu'
  obtain ⟨rfl, rfl⟩ := used_units u2 hu
  obtain ⟨rfl, rfl⟩ := used_units u2' hu'
  have pf := keep_scale (d := "Lognormal_2P") (by decide) hk hF
  have pc := keep_scale (d := "Lognormal_2P") (by decide) hk hC
  rw [← keep_length (d := "Lognormal_2P") (by decide) (by decide)]
  have A := keep_above (d := "Lognormal_2P") (by decide) F C
  have fo : ∀ s, x.force = some s → r.dist.b = s ∧ r'.dist.b = s := by
    intro s hs
    simp only [fitLognormal2P, bind_ok] at h h'
    obtain ⟨inp, h1, h2⟩ := h
    obtain ⟨inp', h1', h2'⟩ := h'
    rw [((C51_ok_iff ..).1 h1).sigma_ok.1] at h2
    rw [((C51_ok_iff ..).1 h1').sigma_ok.1] at h2'
    exact ⟨fit2_forced h2 hn s hs, fit2_forced h2' hn' s (by rw [← hfo]; exact hs)⟩
  refine shifted_of hk (D hb) (by rw [hfo]; exact D' hb') (by simpa using pf.length_eq) (by simpa using pc.length_eq) ?_
  refine lik_max (F := fL) (fam_mem 11 (by decide)) (D := fun p => Distributions.lognormal p.1 p.2 0)
    (fun p f rc hp => C41_lognormal _ _ _ hp.1 _ _ hp.2.1 hp.2.2) hk (p := (r.dist.a, r.dist.b))
    (p' := (r'.dist.a, r'.dist.b)) pf pc ⟨hb, A⟩ ⟨hb', above_scale0 hk A⟩ ?_ ?_
  · exact M (r'.dist.a + Real.log k⁻¹) _ hb' fun s hs => (fo s hs).2
  · exact M' (r.dist.a + Real.log k) _ hb fun s hs => (fo s (by rw [hfo]; exact hs)).1

/-- **C168 (Fit_Loglogistic_2P).** -/
theorem C168_loglogistic_2P {x x' : Args} {r r' : FitRes Two} (h : ExactRun fitLoglogistic2P x r) (h' : ExactRun fitLoglogistic2P x' r')
    (ha : 0 < r.dist.a) (hb : 0 < r.dist.b) (ha' : 0 < r'.dist.a) (hb' : 0 < r'.dist.b) {F C F' C' : List ℝ} (hu : Units x F C)
    (hu' : Units x' F' C') {k : ℝ} (hk : 0 < k) (hF : F'.Perm (F.map (k * ·))) (hC : C'.Perm (C.map (k * ·))) :
    Shifted (F.countP fun t => 0 < t) k r.gof r'.gof := by
  obtain ⟨hn, as, J, num, harg, hnum, hE, hE1, h⟩ := h
  obtain ⟨hn', as', J', num', harg', hnum', hE', hE1', h'⟩ := h'
  obtain ⟨f, rc, u1, -, -, D⟩ := C99_loglogistic_2P harg J num x r h
  obtain ⟨f', rc', u1', -, -, D'⟩ := C99_loglogistic_2P harg' J' num' x' r' h'
  obtain ⟨g, gc, u2, M⟩ := C112_loglogistic_2P as J num hE hE1 x r h hn ha hb
  obtain ⟨g', gc', u2', M'⟩ := C112_loglogistic_2P as' J' num' hE' hE1' x' r' h' hn' ha' hb'
  obtain ⟨rfl, rfl⟩ := used_units u1 hu
  obtain ⟨rfl, rfl⟩ := used_units u1' hu'
  obtain ⟨rfl, rfl⟩ := used_units u2 hu
  obtain ⟨rfl, rfl⟩ := used_units u2' hu'
  have pf := keep_scale (d := "Loglogistic_2P") (by decide) hk hF
  have pc := keep_scale (d := "Loglogistic_2P") (by decide) hk hC
  rw [← keep_length (d := "Loglogistic_2P") (by decide) (by decide)]
  have A := keep_above (d := "Loglogistic_2P") (by decide) F C
  refine shifted_of hk (D ha hb) (D' ha' hb') (by simpa using pf.length_eq) (by simpa using pc.length_eq) ?_
  refine lik_max (F := fLL) (fam_mem 15 (by decide)) (D := fun p => Distributions.loglogistic p.1 p.2 0)
    (fun p f rc hp => C41_loglogistic _ _ _ hp.1 hp.2.1 _ _ hp.2.2.1 (nn hp.2.2.2)) hk (p := (r.dist.a, r.dist.b))
    (p' := (r'.dist.a, r'.dist.b)) pf pc ⟨ha, hb, A⟩ ⟨ha', hb', above_scale0 hk A⟩ ?_ ?_
  · exact M (k⁻¹ * r'.dist.a) _ (by positivity) hb'
  · exact M' (k * r.dist.a) _ (by positivity) hb

/-- **C168 (Fit_Gumbel_2P).** -/
theorem C168_gumbel_2P {x x' : Args} {r r' : FitRes Two} (h : ExactRun fitGumbel2P x r) (h' : ExactRun fitGumbel2P x' r')
    (hb : 0 < r.dist.b) (hb' : 0 < r'.dist.b) {F C F' C' : List ℝ} (hu : Units x F C)
    (hu' : Units x' F' C') {k : ℝ} (hk : 0 < k) (hF : F'.Perm (F.map (k * ·))) (hC : C'.Perm (C.map (k * ·))) :
    Shifted F.length k r.gof r'.gof := by
  obtain ⟨hn, as, J, num, harg, hnum, hE, hE1, h⟩ := h
  obtain ⟨hn', as', J', num', harg', hnum', hE', hE1', h'⟩ := h'
  obtain ⟨f, rc, u1, -, D⟩ := C99_gumbel_2P harg J num x r h
  obtain ⟨f', rc', u1', -, D'⟩ := C99_gumbel_2P harg' J' num' x' r' h'
  obtain ⟨g, gc, u2, M⟩ := C112_gumbel_2P as J num hE hE1 x r h hn hb
  obtain ⟨g', gc', u2', M'⟩ := C112_gumbel_2P as' J' num' hE' hE1' x' r' h' hn' hb'
  obtain ⟨rfl, rfl⟩ := used_units u1 hu
  obtain ⟨rfl, rfl⟩ := used_units u1' hu'
  obtain ⟨rfl, rfl⟩ := used_units u2 hu
  obtain ⟨rfl, rfl⟩ := used_units u2' hu'
  have pf := keep_scale (d := "Gumbel_2P") (by decide) hk hF
  have pc := keep_scale (d := "Gumbel_2P") (by decide) hk hC
  have hlen : F.length = (keep "Gumbel_2P" F).length := by rw [keep_line (by decide)]
  rw [hlen]
  refine shifted_of hk (D hb) (D' hb') (by simpa using pf.length_eq) (by simpa using pc.length_eq) ?_
  refine lik_max (F := fG) (fam_mem 10 (by decide)) (D := fun p => Distributions.gumbel p.1 p.2)
    (fun p f rc hp => C41_gumbel_2P _ _ hp _ _) hk (p := (r.dist.a, r.dist.b))
    (p' := (r'.dist.a, r'.dist.b)) pf pc hb hb' ?_ ?_
  · exact M (k⁻¹ * r'.dist.a) (k⁻¹ * r'.dist.b) (by positivity)
  · exact M' (k * r.dist.a) (k * r.dist.b) (by positivity)

/-- **C168 (Fit_Normal_2P).** A forced sigma is in the unit of time too. -/
theorem C168_normal_2P {x x' : Args} {r r' : FitRes Two} (h : ExactRun fitNormal2P x r) (h' : ExactRun fitNormal2P x' r')
    (hb : 0 < r.dist.b) (hb' : 0 < r'.dist.b) {F C F' C' : List ℝ} (hu : Units x F C)
    (hu' : Units x' F' C') {k : ℝ} (hk : 0 < k) (hF : F'.Perm (F.map (k * ·))) (hC : C'.Perm (C.map (k * ·))) (hfo : x'.force = x.force.map (k * ·)) :
    Shifted F.length k r.gof r'.gof := by
  obtain ⟨hn, as, J, num, harg, hnum, hE, hE1, h⟩ := h
  obtain ⟨hn', as', J', num', harg', hnum', hE', hE1', h'⟩ := h'
  obtain ⟨f, rc, u1, -, D⟩ := C99_normal_2P harg J num hnum x r h
  obtain ⟨f', rc', u1', -, D'⟩ := C99_normal_2P harg' J' num' hnum' x' r' h'
  obtain ⟨g, gc, u2, M⟩ := C112_normal_2P as J num hE hE1 x r h hn hb
  obtain ⟨g', gc', u2', M'⟩ := C112_normal_2P as' J' num' hE' hE1' x' r' h' hn' hb'
  obtain ⟨rfl, rfl⟩ := used_units u1 hu
  obtain ⟨rfl, rfl⟩ := used_units u1' hu'
  obtain ⟨rfl, rfl⟩ := used_units u2 hu
  obtain ⟨rfl, rfl⟩ := used_units u2' hu'
  have pf := keep_scale (d := "Normal_2P") (by decide) hk hF
  have pc := keep_scale (d := "Normal_2P") (by decide) hk hC
  have hlen : F.length = (keep "Normal_2P" F).length := by rw [keep_line (by decide)]
  rw [hlen]
  simp only [fitNormal2P, bind_ok] at h h'
  obtain ⟨inp, h1, h2⟩ := h
  obtain ⟨inp', h1', h2'⟩ := h'
  rw [((C51_ok_iff ..).1 h1).sigma_ok.1] at h2
  rw [((C51_ok_iff ..).1 h1').sigma_ok.1] at h2'
  have fo : ∀ s, x.force = some s → r.dist.b = s ∧ r'.dist.b = k * s := fun s hs =>
    ⟨fit2_forced h2 hn s hs, fit2_forced h2' hn' _ (by rw [hfo, hs]; rfl)⟩
  have fo' : ∀ s, x'.force = some s → ∃ u, r.dist.b = u ∧ k * u = s := by
    intro s hs
    rw [hfo, Option.map_eq_some_iff] at hs
    obtain ⟨u, hu, rfl⟩ := hs
    exact ⟨u, (fo u hu).1, rfl⟩
  have hsome : x'.force.isSome = x.force.isSome := by rw [hfo, Option.isSome_map]
  refine shifted_of hk (D hb) (by rw [← hsome]; exact D' hb') (by simpa using pf.length_eq) (by simpa using pc.length_eq) ?_
  refine lik_max (F := fN) (fam_mem 9 (by decide)) (D := fun p => Distributions.normal p.1 p.2)
    (fun p f rc hp => C41_normal_2P _ _ hp _ _) hk (p := (r.dist.a, r.dist.b))
    (p' := (r'.dist.a, r'.dist.b)) pf pc hb hb' ?_ ?_
  · exact M (k⁻¹ * r'.dist.a) (k⁻¹ * r'.dist.b) (by positivity) fun s hs => by rw [(fo s hs).2]; field_simp
  · exact M' (k * r.dist.a) (k * r.dist.b) (by positivity) fun s hs => by obtain ⟨u, hu, rfl⟩ := fo' s hs; rw [hu]

/-- **C168 (Fit_Exponential_1P).** -/
theorem C168_exponential_1P {x x' : Args} {r r' : FitRes Expo} {argsort argsort' : List ℝ → List ℕ} (harg : IsArgsort argsort)
    (harg' : IsArgsort argsort') (J J' : Jac) (num num' : Num ℝ)
    (hE : Exact num.minimize) (hE' : Exact num'.minimize) (h : fitExponential1P argsort J num x = .ok r)
    (h' : fitExponential1P argsort' J' num' x' = .ok r') (hn : r.optimizer ≠ none) (hn' : r'.optimizer ≠ none)
    (hL : 0 < r.dist.Lambda) (hL' : 0 < r'.dist.Lambda) {F C F' C' : List ℝ} (hu : Units x F C) (hu' : Units x' F' C') {k : ℝ}
    (hk : 0 < k) (hF : F'.Perm (F.map (k * ·))) (hC : C'.Perm (C.map (k * ·))) :
    Shifted (F.countP fun t => 0 < t) k r.gof r'.gof := by
  obtain ⟨f, rc, u1, -, D⟩ := C99_exponential_1P harg J num x r h
  obtain ⟨f', rc', u1', -, D'⟩ := C99_exponential_1P harg' J' num' x' r' h'
  obtain ⟨g, gc, u2, M⟩ := C112_exponential_1P argsort J num hE x r h hn hL
  obtain ⟨g', gc', u2', M'⟩ := C112_exponential_1P argsort' J' num' hE' x' r' h' hn' hL'
  obtain ⟨rfl, rfl⟩ := used_units u1 hu
  obtain ⟨rfl, rfl⟩ := used_units u1' hu'
  obtain ⟨rfl, rfl⟩ := used_units u2 hu
  obtain ⟨rfl, rfl⟩ := used_units u2' hu'
  have pf := keep_scale (d := "Exponential_1P") (by decide) hk hF
  have pc := keep_scale (d := "Exponential_1P") (by decide) hk hC
  rw [← keep_length (d := "Exponential_1P") (by decide) (by decide)]
  have A := keep_above (d := "Exponential_1P") (by decide) F C
  refine shifted_of hk (D hL) (D' hL') (by simpa using pf.length_eq) (by simpa using pc.length_eq) ?_
  refine lik_max (F := fE) (fam_mem 7 (by decide)) (D := fun L => Distributions.exponential L 0)
    (fun p f rc hp => C41_exponential_1P _ hp.1 _ _ (nn hp.2.1) (nn hp.2.2)) hk (p := r.dist.Lambda)
    (p' := r'.dist.Lambda) pf pc ⟨hL, A⟩ ⟨hL', above_scale0 hk A⟩ ?_ ?_
  · exact M (r'.dist.Lambda / k⁻¹) (by positivity)
  · exact M' (r.dist.Lambda / k) (by positivity)

/-- A run of Fit_Gamma_2P with the reported alpha. -/
theorem gamma_full {argsort : List ℝ → List ℕ} (harg : IsArgsort argsort) {J : Jac} {num : Num (ℝ × ℝ)} (hE : Exact num.minimize)
    {x : Args} {r : FitRes Two} (h : fitGamma2P argsort J num x = .ok r) (hn : r.optimizer ≠ none) :
    ∃ f rc α, Used "Gamma_2P" x f rc ∧ r.rows.map Row.point = [α, r.dist.b] ∧
      (0 < α → 0 < r.dist.b → Describes argsort (gammaDist α r.dist.b 0) f rc 2 r.gof ∧
        ∀ a b, 0 < a → 0 < b → likelihoodOf (gammaDist a b 0) f rc ≤ likelihoodOf (gammaDist α r.dist.b 0) f rc) := by
  obtain ⟨f, rc, CI, α, u, -, -, -, -, D, rows, -⟩ := gamma_run harg h
  have hrows := congrArg (List.map Prod.snd) rows.1
  rw [List.map_map] at hrows
  refine ⟨f, rc, α, u, hrows, fun ha hb => ⟨D ha hb, fun a b ha' hb' => ?_⟩⟩
  clear D rows
  simp only [fitGamma2P, bind_ok] at h
  obtain ⟨inp, h1, e, he, s, -, q, -, g, -, h⟩ := h
  have hacc := (C51_ok_iff ..).1 h1
  obtain ⟨u1, u2⟩ := usable_failures hacc
  obtain ⟨rfl, rfl⟩ := used_unique u (used_of_accepts hacc)
  cases h
  have hα : α = e.1.1 := by
    cases s <;> simp [fixedRow, ciRow] at hrows <;> exact hrows.1.symm
  subst hα
  have hf : ∀ t ∈ inp.failures, 0 < t := fun t ht => usable_pos (by decide) (u1 t ht)
  have hr : ∀ t ∈ inp.right_censored, 0 ≤ t := fun t ht => (usable_pos (by decide) (u2 t ht)).le
  refine likelihood_le (C41_gamma _ _ 0 ha' hb' _ _ hf hr) (C41_gamma _ _ 0 ha hb _ _ hf hr) ?_
  obtain ⟨m, r', -, -, ⟨-, rfl⟩ | ⟨-, o, h3, rfl⟩⟩ := estimate_ok he
  · exact absurd rfl hn
  · have := mle_exact hE h3 hn (y := (a, b)) (by
      rw [(bounds2 (failures_ne hacc)).1 _ (by decide)]
      exact inside2 (fun _ e => by cases e; exact ha') hb' (fun _ e => by cases e))
    exact this

/-- **C168 (Fit_Gamma_2P).** -/
theorem C168_gamma_2P {x x' : Args} {r r' : FitRes Two} {argsort argsort' : List ℝ → List ℕ} (harg : IsArgsort argsort)
    (harg' : IsArgsort argsort') (J J' : Jac) (num num' : Num (ℝ × ℝ))
    (hE : Exact num.minimize) (hE' : Exact num'.minimize) (h : fitGamma2P argsort J num x = .ok r)
    (h' : fitGamma2P argsort' J' num' x' = .ok r') (hn : r.optimizer ≠ none) (hn' : r'.optimizer ≠ none)
    (hp : ∀ w ∈ r.rows, 0 < w.point) (hp' : ∀ w ∈ r'.rows, 0 < w.point) {F C F' C' : List ℝ} (hu : Units x F C)
    (hu' : Units x' F' C') {k : ℝ} (hk : 0 < k) (hF : F'.Perm (F.map (k * ·))) (hC : C'.Perm (C.map (k * ·))) :
    Shifted (F.countP fun t => 0 < t) k r.gof r'.gof := by
  obtain ⟨f, rc, α, u1, er, D⟩ := gamma_full harg hE h hn
  obtain ⟨f', rc', α', u1', er', D'⟩ := gamma_full harg' hE' h' hn'
  have hpt : ∀ p ∈ r.rows.map Row.point, 0 < p := fun p hm => by
    obtain ⟨w, hw, rfl⟩ := List.mem_map.1 hm
    exact hp w hw
  have hpt' : ∀ p ∈ r'.rows.map Row.point, 0 < p := fun p hm => by
    obtain ⟨w, hw, rfl⟩ := List.mem_map.1 hm
    exact hp' w hw
  rw [er] at hpt
  rw [er'] at hpt'
  have ha : 0 < α := hpt _ (by simp)
  have hb : 0 < r.dist.b := hpt _ (by simp)
  have ha' : 0 < α' := hpt' _ (by simp)
  have hb' : 0 < r'.dist.b := hpt' _ (by simp)
  obtain ⟨D, M⟩ := D ha hb
  obtain ⟨D', M'⟩ := D' ha' hb'
  obtain ⟨rfl, rfl⟩ := used_units u1 hu
  obtain ⟨rfl, rfl⟩ := used_units u1' hu'
  have pf := keep_scale (d := "Gamma_2P") (by decide) hk hF
  have pc := keep_scale (d := "Gamma_2P") (by decide) hk hC
  rw [← keep_length (d := "Gamma_2P") (by decide) (by decide)]
  have A := keep_above (d := "Gamma_2P") (by decide) F C
  refine shifted_of hk D D' (by simpa using pf.length_eq) (by simpa using pc.length_eq) ?_
  refine lik_max (F := fGa) (fam_mem 13 (by decide)) (D := fun p => gammaDist p.1 p.2 0)
    (fun p f rc hp => C41_gamma _ _ _ hp.1 hp.2.1 _ _ hp.2.2.1 (nn hp.2.2.2)) hk (p := (α, r.dist.b))
    (p' := (α', r'.dist.b)) pf pc ⟨ha, hb, A⟩ ⟨ha', hb', above_scale0 hk A⟩ ?_ ?_
  · exact M (k⁻¹ * α') _ (by positivity) hb'
  · exact M' (k * α) _ (by positivity) hb

/-! ## The fitters with a location -/

theorem keep_all {d : String} (hd' : d ≠ "Beta_2P") {l : List ℝ} (h : ∀ t ∈ l, 0 < t) : keep d l = l := by
  unfold keep
  exact List.filter_eq_self.2 fun t ht => by simpa using usable_of_pos hd' (h t ht)

/-- A positive location `g`, which times `k` is more than 0.0001 below the data in the new unit, is below the data. -/
theorem above_of {k g : ℝ} (hk : 0 < k) {F C F' C' : List ℝ} (hF : F'.Perm (F.map (k * ·))) (hC : C'.Perm (C.map (k * ·)))
    (h : FitGlue.Above F' C' (k * g + 0.0001)) : FitGlue.Above F C g := by
  constructor <;> intro t ht
  · have := h.1 (k * t) (hF.mem_iff.2 (List.mem_map_of_mem ht))
    exact lt_of_mul_lt_mul_left (by norm_num at this ⊢; linarith) hk.le
  · have := h.2 (k * t) (hC.mem_iff.2 (List.mem_map_of_mem ht))
    exact lt_of_mul_lt_mul_left (by norm_num at this ⊢; linarith) hk.le

theorem above_map {k g : ℝ} (hk : 0 < k) {F C : List ℝ} (h : FitGlue.Above F C (g / k + 0.0001)) :
    Spec.Above g (F.map (k * ·)) (C.map (k * ·)) := by
  have key : ∀ t, g / k + 0.0001 < t → g < k * t := fun t ht => by
    have h1 : g / k < t := by norm_num at ht ⊢; linarith
    have := (div_lt_iff₀ hk).1 h1
    linarith
  constructor <;> intro t ht <;> obtain ⟨u, hu, rfl⟩ := List.mem_map.1 ht
  · exact key u (h.1 u hu)
  · exact key u (h.2 u hu)

theorem above_perm {g : ℝ} {F C F' C' : List ℝ} (hF : F'.Perm F) (hC : C'.Perm C) (h : Spec.Above g F C) : FitGlue.Above F' C' g :=
  ⟨fun t ht => h.1 t (hF.mem_iff.1 ht), fun t ht => h.2 t (hC.mem_iff.1 ht)⟩

theorem above_div {k g : ℝ} {F C : List ℝ} (h : FitGlue.Above F C (g / k + 0.0001)) : FitGlue.Above F C (k⁻¹ * g + 0.0001) := by
  rwa [inv_mul_eq_div]

noncomputable abbrev fW3 : LLFamily :=
  { P := ℝ × ℝ × ℝ, LL := fun p => weibull3P_LL p.1 p.2.1 p.2.2,
    legal := fun p Tf Trc => 0 < p.1 ∧ 0 < p.2.1 ∧ Spec.Above p.2.2 Tf Trc, rescale := fun k p => (k * p.1, p.2.1, k * p.2.2) }

noncomputable abbrev fE2 : LLFamily :=
  { P := ℝ × ℝ, LL := fun p => exponential2P_LL p.1 p.2,
    legal := fun p Tf Trc => 0 < p.1 ∧ Spec.Above p.2 Tf Trc, rescale := fun k p => (p.1 / k, k * p.2) }

noncomputable abbrev fL3 : LLFamily :=
  { P := ℝ × ℝ × ℝ, LL := fun p => lognormal_LL p.1 p.2.1 p.2.2,
    legal := fun p Tf Trc => 0 < p.2.1 ∧ Spec.Above p.2.2 Tf Trc, rescale := fun k p => (p.1 + Real.log k, p.2.1, k * p.2.2) }

noncomputable abbrev fGa3 : LLFamily :=
  { P := ℝ × ℝ × ℝ, LL := fun p => gamma_LL_ab p.1 p.2.1 p.2.2,
    legal := fun p Tf Trc => 0 < p.1 ∧ 0 < p.2.1 ∧ Spec.Above p.2.2 Tf Trc, rescale := fun k p => (k * p.1, p.2.1, k * p.2.2) }

noncomputable abbrev fLL3 : LLFamily :=
  { P := ℝ × ℝ × ℝ, LL := fun p => loglogistic_LL p.1 p.2.1 p.2.2,
    legal := fun p Tf Trc => 0 < p.1 ∧ 0 < p.2.1 ∧ Spec.Above p.2.2 Tf Trc, rescale := fun k p => (k * p.1, p.2.1, k * p.2.2) }

/-- **C168 (Fit_Weibull_3P).** Both locations are positive and, in the unit of the other run, more than 0.0001
below all its data (where the other run looked for it). -/
theorem C168_weibull_3P {x x' : Args} {r r' : FitRes Two} {argsort argsort' : List ℝ → List ℕ} (harg : IsArgsort argsort)
    (harg' : IsArgsort argsort') (J J' : Jac) (num num' : Num (ℝ × ℝ × ℝ)) (num2 num2' : Option ℝ → Num2)
    (hE : Exact num.minimize) (hE' : Exact num'.minimize) (h : fitWeibull3P argsort J num num2 x = .ok r)
    (h' : fitWeibull3P argsort' J' num' num2' x' = .ok r') (hn : r.optimizer ≠ none) (hn' : r'.optimizer ≠ none)
    (ha : 0 < r.dist.a) (hb : 0 < r.dist.b) (ha' : 0 < r'.dist.a) (hb' : 0 < r'.dist.b) (hg : 0 < r.dist.gamma)
    (hg' : 0 < r'.dist.gamma) {F C F' C' : List ℝ} (hu : Units x F C)
    (hu' : Units x' F' C') {k : ℝ} (hk : 0 < k) (hF : F'.Perm (F.map (k * ·))) (hC : C'.Perm (C.map (k * ·)))
    (hA : FitGlue.Above F' C' (k * r.dist.gamma + 0.0001)) (hA' : FitGlue.Above F C (r'.dist.gamma / k + 0.0001)) :
    Shifted F.length k r.gof r'.gof := by
  obtain ⟨f, rc, u1, -, D⟩ := C99_weibull_3P harg J num num2 x r h
  obtain ⟨f', rc', u1', -, D'⟩ := C99_weibull_3P harg' J' num' num2' x' r' h'
  obtain ⟨g, gc, u2, M⟩ := C112_weibull_3P argsort J num num2 hE x r h hn hg.ne' ha hb
  obtain ⟨g', gc', u2', M'⟩ := C112_weibull_3P argsort' J' num' num2' hE' x' r' h' hn' hg'.ne' ha' hb'
  obtain ⟨rfl, rfl⟩ := used_units u2 hu
  obtain ⟨rfl, rfl⟩ := used_units u2' hu'
  obtain ⟨rfl, rfl⟩ := used_units u1 hu
  obtain ⟨rfl, rfl⟩ := used_units u1' hu'
  have A := above_of hk hF hC hA
  have A2 := above_map hk hA'
  have A' := above_perm hF hC A2
  have eF : keep "Weibull_3P" F = F := keep_all (by decide) fun t ht => hg.trans (A.1 t ht)
  have eC : keep "Weibull_3P" C = C := keep_all (by decide) fun t ht => hg.trans (A.2 t ht)
  have eF' : keep "Weibull_3P" F' = F' := keep_all (by decide) fun t ht => hg'.trans (A'.1 t ht)
  have eC' : keep "Weibull_3P" C' = C' := keep_all (by decide) fun t ht => hg'.trans (A'.2 t ht)
  rw [eF, eC] at D M
  rw [eF', eC'] at D' M'
  refine shifted_of hk (D ha hb A) (D' ha' hb' A') (by simpa using hF.length_eq) (by simpa using hC.length_eq) ?_
  refine lik_max (F := fW3) (fam_mem 1 (by decide)) (D := fun p => Distributions.weibull p.1 p.2.1 p.2.2)
    (fun p f rc hp => C41_weibull_3P _ _ _ hp.1 hp.2.1 _ _ hp.2.2.1 (nn hp.2.2.2)) hk (p := (r.dist.a, r.dist.b, r.dist.gamma))
    (p' := (r'.dist.a, r'.dist.b, r'.dist.gamma)) hF hC ⟨ha, hb, A⟩ ⟨ha', hb', A2⟩ ?_ ?_
  · exact M A (k⁻¹ * r'.dist.a) r'.dist.b (k⁻¹ * r'.dist.gamma) (by positivity) hb' (by positivity) (above_div hA')
  · exact M' A' (k * r.dist.a) r.dist.b (k * r.dist.gamma) (by positivity) hb (by positivity) hA

/-- **C168 (Fit_Lognormal_3P).** -/
theorem C168_lognormal_3P {x x' : Args} {r r' : FitRes Two} {argsort argsort' : List ℝ → List ℕ} (harg : IsArgsort argsort)
    (harg' : IsArgsort argsort') (J J' : Jac) (num num' : Num (ℝ × ℝ × ℝ)) (num2 num2' : Option ℝ → Num2)
    (hE : Exact num.minimize) (hE' : Exact num'.minimize) (h : fitLognormal3P argsort J num num2 x = .ok r)
    (h' : fitLognormal3P argsort' J' num' num2' x' = .ok r') (hn : r.optimizer ≠ none) (hn' : r'.optimizer ≠ none)
    (hb : 0 < r.dist.b) (hb' : 0 < r'.dist.b) (hg : 0 < r.dist.gamma)
    (hg' : 0 < r'.dist.gamma) {F C F' C' : List ℝ} (hu : Units x F C)
    (hu' : Units x' F' C') {k : ℝ} (hk : 0 < k) (hF : F'.Perm (F.map (k * ·))) (hC : C'.Perm (C.map (k * ·)))
    (hA : FitGlue.Above F' C' (k * r.dist.gamma + 0.0001)) (hA' : FitGlue.Above F C (r'.dist.gamma / k + 0.0001)) :
    Shifted F.length k r.gof r'.gof := by
  obtain ⟨f, rc, u1, -, D⟩ := C99_lognormal_3P harg J num num2 x r h
  obtain ⟨f', rc', u1', -, D'⟩ := C99_lognormal_3P harg' J' num' num2' x' r' h'
  obtain ⟨g, gc, u2, M⟩ := C112_lognormal_3P argsort J num num2 hE x r h hn hg.ne' hb
  obtain ⟨g', gc', u2', M'⟩ := C112_lognormal_3P argsort' J' num' num2' hE' x' r' h' hn' hg'.ne' hb'
  obtain ⟨rfl, rfl⟩ := used_units u2 hu
  obtain ⟨rfl, rfl⟩ := used_units u2' hu'
  obtain ⟨rfl, rfl⟩ := used_units u1 hu
  obtain ⟨rfl, rfl⟩ := used_units u1' hu'
  have A := above_of hk hF hC hA
  have A2 := above_map hk hA'
  have A' := above_perm hF hC A2
  have eF : keep "Lognormal_3P" F = F := keep_all (by decide) fun t ht => hg.trans (A.1 t ht)
  have eC : keep "Lognormal_3P" C = C := keep_all (by decide) fun t ht => hg.trans (A.2 t ht)
  have eF' : keep "Lognormal_3P" F' = F' := keep_all (by decide) fun t ht => hg'.trans (A'.1 t ht)
  have eC' : keep "Lognormal_3P" C' = C' := keep_all (by decide) fun t ht => hg'.trans (A'.2 t ht)
  rw [eF, eC] at D M
  rw [eF', eC'] at D' M'
  refine shifted_of hk (D hb A) (D' hb' A') (by simpa using hF.length_eq) (by simpa using hC.length_eq) ?_
  refine lik_max (F := fL3) (fam_mem 12 (by decide)) (D := fun p => Distributions.lognormal p.1 p.2.1 p.2.2)
    (fun p f rc hp => C41_lognormal _ _ _ hp.1 _ _ hp.2.1 hp.2.2) hk (p := (r.dist.a, r.dist.b, r.dist.gamma))
    (p' := (r'.dist.a, r'.dist.b, r'.dist.gamma)) hF hC ⟨hb, A⟩ ⟨hb', A2⟩ ?_ ?_
  · exact M A (r'.dist.a + Real.log k⁻¹) r'.dist.b (k⁻¹ * r'.dist.gamma) hb' (by positivity) (above_div hA')
  · exact M' A' (r.dist.a + Real.log k) r.dist.b (k * r.dist.gamma) hb (by positivity) hA

/-- **C168 (Fit_Loglogistic_3P).** -/
theorem C168_loglogistic_3P {x x' : Args} {r r' : FitRes Two} {argsort argsort' : List ℝ → List ℕ} (harg : IsArgsort argsort)
    (harg' : IsArgsort argsort') (J J' : Jac) (num num' : Num (ℝ × ℝ × ℝ)) (num2 num2' : Option ℝ → Num2)
    (hE : Exact num.minimize) (hE' : Exact num'.minimize) (h : fitLoglogistic3P argsort J num num2 x = .ok r)
    (h' : fitLoglogistic3P argsort' J' num' num2' x' = .ok r') (hn : r.optimizer ≠ none) (hn' : r'.optimizer ≠ none)
    (ha : 0 < r.dist.a) (hb : 0 < r.dist.b) (ha' : 0 < r'.dist.a) (hb' : 0 < r'.dist.b) (hg : 0 < r.dist.gamma)
    (hg' : 0 < r'.dist.gamma) {F C F' C' : List ℝ} (hu : Units x F C)
    (hu' : Units x' F' C') {k : ℝ} (hk : 0 < k) (hF : F'.Perm (F.map (k * ·))) (hC : C'.Perm (C.map (k * ·)))
    (hA : FitGlue.Above F' C' (k * r.dist.gamma + 0.0001)) (hA' : FitGlue.Above F C (r'.dist.gamma / k + 0.0001)) :
    Shifted F.length k r.gof r'.gof := by
  obtain ⟨f, rc, u1, -, D⟩ := C99_loglogistic_3P harg J num num2 x r h
  obtain ⟨f', rc', u1', -, D'⟩ := C99_loglogistic_3P harg' J' num' num2' x' r' h'
  obtain ⟨g, gc, u2, M⟩ := C112_loglogistic_3P argsort J num num2 hE x r h hn hg.ne' ha hb
  obtain ⟨g', gc', u2', M'⟩ := C112_loglogistic_3P argsort' J' num' num2' hE' x' r' h' hn' hg'.ne' ha' hb'
  obtain ⟨rfl, rfl⟩ := used_units u2 hu
  obtain ⟨rfl, rfl⟩ := used_units u2' hu'
  obtain ⟨rfl, rfl⟩ := used_units u1 hu
  obtain ⟨rfl, rfl⟩ := used_units u1' hu'
  have A := above_of hk hF hC hA
  have A2 := above_map hk hA'
  have A' := above_perm hF hC A2
  have eF : keep "Loglogistic_3P" F = F := keep_all (by decide) fun t ht => hg.trans (A.1 t ht)
  have eC : keep "Loglogistic_3P" C = C := keep_all (by decide) fun t ht => hg.trans (A.2 t ht)
  have eF' : keep "Loglogistic_3P" F' = F' := keep_all (by decide) fun t ht => hg'.trans (A'.1 t ht)
  have eC' : keep "Loglogistic_3P" C' = C' := keep_all (by decide) fun t ht => hg'.trans (A'.2 t ht)
  rw [eF, eC] at D M
  rw [eF', eC'] at D' M'
  refine shifted_of hk (D ha hb A) (D' ha' hb' A') (by simpa using hF.length_eq) (by simpa using hC.length_eq) ?_
  refine lik_max (F := fLL3) (fam_mem 16 (by decide)) (D := fun p => Distributions.loglogistic p.1 p.2.1 p.2.2)
    (fun p f rc hp => C41_loglogistic _ _ _ hp.1 hp.2.1 _ _ hp.2.2.1 (nn hp.2.2.2)) hk (p := (r.dist.a, r.dist.b, r.dist.gamma))
    (p' := (r'.dist.a, r'.dist.b, r'.dist.gamma)) hF hC ⟨ha, hb, A⟩ ⟨ha', hb', A2⟩ ?_ ?_
  · exact M A (k⁻¹ * r'.dist.a) r'.dist.b (k⁻¹ * r'.dist.gamma) (by positivity) hb' (by positivity) (above_div hA')
  · exact M' A' (k * r.dist.a) r.dist.b (k * r.dist.gamma) (by positivity) hb (by positivity) hA

/-- **C168 (Fit_Exponential_2P).** -/
theorem C168_exponential_2P {x x' : Args} {r r' : FitRes Expo} {argsort argsort' : List ℝ → List ℕ} (harg : IsArgsort argsort)
    (harg' : IsArgsort argsort') (J J' : Jac) (num num' : Num (ℝ × ℝ))
    (hE : Exact num.minimize) (hE' : Exact num'.minimize) (h : fitExponential2P argsort J num x = .ok r)
    (h' : fitExponential2P argsort' J' num' x' = .ok r') (hn : r.optimizer ≠ none) (hn' : r'.optimizer ≠ none)
    (ha : 0 < r.dist.Lambda) (ha' : 0 < r'.dist.Lambda) (hg : 0 < r.dist.gamma)
    (hg' : 0 < r'.dist.gamma) {F C F' C' : List ℝ} (hu : Units x F C)
    (hu' : Units x' F' C') {k : ℝ} (hk : 0 < k) (hF : F'.Perm (F.map (k * ·))) (hC : C'.Perm (C.map (k * ·)))
    (hA : FitGlue.Above F' C' (k * r.dist.gamma + 0.0001)) (hA' : FitGlue.Above F C (r'.dist.gamma / k + 0.0001)) :
    Shifted F.length k r.gof r'.gof := by
  obtain ⟨f, rc, u1, D⟩ := C99_exponential_2P harg J num x r h
  obtain ⟨f', rc', u1', D'⟩ := C99_exponential_2P harg' J' num' x' r' h'
  obtain ⟨g, gc, u2, M⟩ := C112_exponential_2P argsort J num hE x r h hn ha
  obtain ⟨g', gc', u2', M'⟩ := C112_exponential_2P argsort' J' num' hE' x' r' h' hn' ha'
  obtain ⟨rfl, rfl⟩ := used_units u2 hu
  obtain ⟨rfl, rfl⟩ := used_units u2' hu'
  obtain ⟨rfl, rfl⟩ := used_units u1 hu
  obtain ⟨rfl, rfl⟩ := used_units u1' hu'
  have A := above_of hk hF hC hA
  have A2 := above_map hk hA'
  have A' := above_perm hF hC A2
  have eF : keep "Exponential_2P" F = F := keep_all (by decide) fun t ht => hg.trans (A.1 t ht)
  have eC : keep "Exponential_2P" C = C := keep_all (by decide) fun t ht => hg.trans (A.2 t ht)
  have eF' : keep "Exponential_2P" F' = F' := keep_all (by decide) fun t ht => hg'.trans (A'.1 t ht)
  have eC' : keep "Exponential_2P" C' = C' := keep_all (by decide) fun t ht => hg'.trans (A'.2 t ht)
  rw [eF, eC] at D M
  rw [eF', eC'] at D' M'
  refine shifted_of hk (D ha (nn A.1) (nn A.2)) (D' ha' (nn A'.1) (nn A'.2)) (by simpa using hF.length_eq)
    (by simpa using hC.length_eq) ?_
  refine lik_max (F := fE2) (fam_mem 8 (by decide)) (D := fun p => Distributions.exponential p.1 p.2)
    (fun p f rc hp => C41_exponential_2P _ _ hp.1 _ _ (nn hp.2.1) (nn hp.2.2)) hk (p := (r.dist.Lambda, r.dist.gamma))
    (p' := (r'.dist.Lambda, r'.dist.gamma)) hF hC ⟨ha, A⟩ ⟨ha', A2⟩ ?_ ?_
  · exact M A (r'.dist.Lambda / k⁻¹) (k⁻¹ * r'.dist.gamma) (by positivity) (by positivity) (above_div hA')
  · exact M' A' (r.dist.Lambda / k) (k * r.dist.gamma) (by positivity) (by positivity) hA

/-- A run of Fit_Gamma_3P that keeps its location, with the reported alpha. -/
theorem gamma3_full {argsort : List ℝ → List ℕ} (harg : IsArgsort argsort) {J : Jac} {num : Num (ℝ × ℝ × ℝ)} {num2 : Num (ℝ × ℝ)}
    (hE : Exact num.minimize) {x : Args} {r : FitRes Two} (h : fitGamma3P argsort J num num2 x = .ok r) (hn : r.optimizer ≠ none)
    (h0 : r.dist.gamma ≠ 0) :
    ∃ f rc α, Used "Gamma_3P" x f rc ∧ r.rows.map Row.point = [α, r.dist.b, r.dist.gamma] ∧
      (0 < α → 0 < r.dist.b → FitGlue.Above f rc r.dist.gamma →
        Describes argsort (gammaDist α r.dist.b r.dist.gamma) f rc 3 r.gof ∧
        ∀ a b g, 0 < a → 0 < b → 0 < g → FitGlue.Above f rc (g + 0.0001) →
          likelihoodOf (gammaDist a b g) f rc ≤ likelihoodOf (gammaDist α r.dist.b r.dist.gamma) f rc) := by
  obtain ⟨f, rc, CI, α, u, -, -, -, D, hrow, -⟩ := gamma3_run harg h
  rcases hrow with ⟨-, rows⟩ | ⟨e0, -⟩
  swap
  · exact absurd e0 h0
  have hrows := congrArg (List.map Prod.snd) rows.1
  rw [List.map_map] at hrows
  refine ⟨f, rc, α, u, hrows, fun hα hβ hab => ⟨D hα hβ hab, fun a b g ha hb hg hab' => ?_⟩⟩
  clear D rows
  simp only [fitGamma3P, bind_ok] at h
  obtain ⟨inp, h1, e, he, h⟩ := h
  have hacc := (C51_ok_iff ..).1 h1
  obtain ⟨rfl, rfl⟩ := used_unique u (used_of_accepts hacc)
  split_ifs at h with hγ
  · simp only [bind_ok] at h
    obtain ⟨r2, hr2, q, -, g, -, h⟩ := h
    cases h
    simp only [fitGamma2P, bind_ok] at hr2
    obtain ⟨inp, h1, e, he, s, -, q, -, g, -, hr2⟩ := hr2
    cases hr2
    exact absurd rfl h0
  · simp only [bind_ok] at h
    obtain ⟨s, -, q, -, g', -, h⟩ := h
    cases h
    have hα' : α = e.1.1 := by
      cases s <;> simp [fixedRow, ciRow] at hrows <;> exact hrows.1.symm
    subst hα'
    have hab0 : FitGlue.Above inp.failures inp.right_censored g :=
      ⟨fun t ht => by linarith [hab'.1 t ht], fun t ht => by linarith [hab'.2 t ht]⟩
    refine likelihood_le (C41_gamma a b g ha hb _ _ hab0.1 (fun t ht => (hab0.2 t ht).le))
      (C41_gamma _ _ _ hα hβ _ _ hab.1 (fun t ht => (hab.2 t ht).le)) ?_
    obtain ⟨g0, hg0, hb1, -, -⟩ := bounds3 (rc := inp.right_censored) (failures_ne hacc)
    have hγ0 : g < g0 := hg0 g hg (fun t ht => by
      rcases List.mem_append.1 ht with ht | ht
      · have := hab'.1 t ht; norm_num at this ⊢; linarith
      · have := hab'.2 t ht; norm_num at this ⊢; linarith)
    obtain ⟨m, r', -, -, ⟨-, rfl⟩ | ⟨-, o, h3, rfl⟩⟩ := estimate_ok he
    · exact absurd rfl hn
    · have := mle_exact hE h3 hn (y := (a, b, g)) (by
        rw [hb1 _ (by decide)]
        exact inside3 (fun _ e => by cases e; exact ha) hb hg hγ0)
      exact this

/-- **C168 (Fit_Gamma_3P).** -/
theorem C168_gamma_3P {x x' : Args} {r r' : FitRes Two} {argsort argsort' : List ℝ → List ℕ} (harg : IsArgsort argsort)
    (harg' : IsArgsort argsort') (J J' : Jac) (num num' : Num (ℝ × ℝ × ℝ)) (num2 num2' : Num (ℝ × ℝ))
    (hE : Exact num.minimize) (hE' : Exact num'.minimize) (h : fitGamma3P argsort J num num2 x = .ok r)
    (h' : fitGamma3P argsort' J' num' num2' x' = .ok r') (hn : r.optimizer ≠ none) (hn' : r'.optimizer ≠ none)
    (hp : ∀ w ∈ r.rows, 0 < w.point) (hp' : ∀ w ∈ r'.rows, 0 < w.point) (hg : 0 < r.dist.gamma)
    (hg' : 0 < r'.dist.gamma) {F C F' C' : List ℝ} (hu : Units x F C)
    (hu' : Units x' F' C') {k : ℝ} (hk : 0 < k) (hF : F'.Perm (F.map (k * ·))) (hC : C'.Perm (C.map (k * ·)))
    (hA : FitGlue.Above F' C' (k * r.dist.gamma + 0.0001)) (hA' : FitGlue.Above F C (r'.dist.gamma / k + 0.0001)) :
    Shifted F.length k r.gof r'.gof := by
  obtain ⟨f, rc, α, u1, er, D⟩ := gamma3_full harg hE h hn hg.ne'
  obtain ⟨f', rc', α', u1', er', D'⟩ := gamma3_full harg' hE' h' hn' hg'.ne'
  have hpt : ∀ p ∈ r.rows.map Row.point, 0 < p := fun p hm => by
    obtain ⟨w, hw, rfl⟩ := List.mem_map.1 hm
    exact hp w hw
  have hpt' : ∀ p ∈ r'.rows.map Row.point, 0 < p := fun p hm => by
    obtain ⟨w, hw, rfl⟩ := List.mem_map.1 hm
    exact hp' w hw
  rw [er] at hpt
  rw [er'] at hpt'
  have ha : 0 < α := hpt _ (by simp)
  have hb : 0 < r.dist.b := hpt _ (by simp)
  have ha' : 0 < α' := hpt' _ (by simp)
  have hb' : 0 < r'.dist.b := hpt' _ (by simp)
  replace D := D ha hb
  replace D' := D' ha' hb'
  obtain ⟨rfl, rfl⟩ := used_units u1 hu
  obtain ⟨rfl, rfl⟩ := used_units u1' hu'
  have A := above_of hk hF hC hA
  have A2 := above_map hk hA'
  have A' := above_perm hF hC A2
  have eF : keep "Gamma_3P" F = F := keep_all (by decide) fun t ht => hg.trans (A.1 t ht)
  have eC : keep "Gamma_3P" C = C := keep_all (by decide) fun t ht => hg.trans (A.2 t ht)
  have eF' : keep "Gamma_3P" F' = F' := keep_all (by decide) fun t ht => hg'.trans (A'.1 t ht)
  have eC' : keep "Gamma_3P" C' = C' := keep_all (by decide) fun t ht => hg'.trans (A'.2 t ht)
  rw [eF, eC] at D
  rw [eF', eC'] at D'
  obtain ⟨D, M⟩ := D A
  obtain ⟨D', M'⟩ := D' A'
  refine shifted_of hk D D' (by simpa using hF.length_eq) (by simpa using hC.length_eq) ?_
  refine lik_max (F := fGa3) (fam_mem 14 (by decide)) (D := fun p => gammaDist p.1 p.2.1 p.2.2)
    (fun p f rc hp => C41_gamma _ _ _ hp.1 hp.2.1 _ _ hp.2.2.1 (nn hp.2.2.2)) hk (p := (α, r.dist.b, r.dist.gamma))
    (p' := (α', r'.dist.b, r'.dist.gamma)) hF hC ⟨ha, hb, A⟩ ⟨ha', hb', A2⟩ ?_ ?_
  · exact M (k⁻¹ * α') r'.dist.b (k⁻¹ * r'.dist.gamma) (by positivity) hb' (by positivity) (above_div hA')
  · exact M' (k * α) r.dist.b (k * r.dist.gamma) (by positivity) hb (by positivity) hA

/-- A run of Fit_Beta_2P with the reported parameters. -/
theorem beta_full {argsort : List ℝ → List ℕ} (harg : IsArgsort argsort) {num : Num (ℝ × ℝ)} (hE : Exact num.minimize)
    {x : Args} {r : FitRes Distributions.Dist} (h : fitBeta2P argsort num x = .ok r) (hn : r.optimizer ≠ none) :
    ∃ f rc α β, Used "Beta_2P" x f rc ∧ r.rows.map Row.point = [α, β] ∧
      (0 < α → 0 < β → Describes argsort (betaDist α β) f rc 2 r.gof ∧
        ∀ a b, 0 < a → 0 < b → likelihoodOf (betaDist a b) f rc ≤ likelihoodOf (betaDist α β) f rc) := by
  obtain ⟨f, rc, CI, α, β, u, -, -, D, rows, -⟩ := beta_run harg h
  have hrows := congrArg (List.map Prod.snd) rows
  rw [List.map_map] at hrows
  refine ⟨f, rc, α, β, u, hrows, fun ha hb => ⟨D ha hb, fun a b ha' hb' => ?_⟩⟩
  clear D rows
  simp only [fitBeta2P, bind_ok] at h
  obtain ⟨inp, h1, e, he, s, -, q, -, g, -, h⟩ := h
  have hacc := (C51_ok_iff ..).1 h1
  obtain ⟨u1, u2⟩ := usable_failures hacc
  obtain ⟨rfl, rfl⟩ := used_unique u (used_of_accepts hacc)
  cases h
  have hα : α = e.1.1 ∧ β = e.1.2 := by
    cases s <;> simp [fixedRow, ciRow] at hrows <;> exact ⟨hrows.1.symm, hrows.2.symm⟩
  obtain ⟨rfl, rfl⟩ := hα
  have hu : ∀ t : ℝ, Usable "Beta_2P" t → 0 < t ∧ t < 1 := by
    rintro t (h | h)
    · exact absurd h (by decide)
    · exact ⟨h.1, h.2 rfl⟩
  have hf : ∀ t ∈ inp.failures, 0 < t ∧ t < 1 := fun t ht => hu t (u1 t ht)
  have hr : ∀ t ∈ inp.right_censored, 0 < t ∧ t < 1 := fun t ht => hu t (u2 t ht)
  refine likelihood_le (C41_beta_2P _ _ ha' hb' _ _ hf hr) (C41_beta_2P _ _ ha hb _ _ hf hr) ?_
  obtain ⟨m, r', -, -, ⟨-, rfl⟩ | ⟨-, o, h3, rfl⟩⟩ := estimate_ok he
  · exact absurd rfl hn
  · have := mle_exact hE h3 hn (y := (a, b)) (by
      rw [(bounds2 (failures_ne hacc)).1 _ (by decide)]
      exact inside2 (fun _ e => by cases e; exact ha') hb' (fun _ e => by cases e))
    exact this

/-- **C168 (Fit_Beta_2P).** Here the times are fractions, there is no unit to choose: the criteria of two exact runs on the same
units, in any order, are the same. -/
theorem C168_beta_2P {x x' : Args} {r r' : FitRes Distributions.Dist} {argsort argsort' : List ℝ → List ℕ} (harg : IsArgsort argsort)
    (harg' : IsArgsort argsort') (num num' : Num (ℝ × ℝ))
    (hE : Exact num.minimize) (hE' : Exact num'.minimize) (h : fitBeta2P argsort num x = .ok r)
    (h' : fitBeta2P argsort' num' x' = .ok r') (hn : r.optimizer ≠ none) (hn' : r'.optimizer ≠ none)
    (hp : ∀ w ∈ r.rows, 0 < w.point) (hp' : ∀ w ∈ r'.rows, 0 < w.point) {F C F' C' : List ℝ} (hu : Units x F C)
    (hu' : Units x' F' C') (hF : F'.Perm F) (hC : C'.Perm C) :
    r'.gof.loglik = r.gof.loglik ∧ r'.gof.loglik2 = r.gof.loglik2 ∧ r'.gof.AICc = r.gof.AICc ∧ r'.gof.BIC = r.gof.BIC := by
  obtain ⟨f, rc, α, β, u1, er, D⟩ := beta_full harg hE h hn
  obtain ⟨f', rc', α', β', u1', er', D'⟩ := beta_full harg' hE' h' hn'
  have hpt : ∀ p ∈ r.rows.map Row.point, 0 < p := fun p hm => by
    obtain ⟨w, hw, rfl⟩ := List.mem_map.1 hm
    exact hp w hw
  have hpt' : ∀ p ∈ r'.rows.map Row.point, 0 < p := fun p hm => by
    obtain ⟨w, hw, rfl⟩ := List.mem_map.1 hm
    exact hp' w hw
  rw [er] at hpt
  rw [er'] at hpt'
  have ha : 0 < α := hpt _ (by simp)
  have hb : 0 < β := hpt _ (by simp)
  have ha' : 0 < α' := hpt' _ (by simp)
  have hb' : 0 < β' := hpt' _ (by simp)
  obtain ⟨D, M⟩ := D ha hb
  obtain ⟨D', M'⟩ := D' ha' hb'
  obtain ⟨rfl, rfl⟩ := used_units u1 hu
  obtain ⟨rfl, rfl⟩ := used_units u1' hu'
  have pf : (keep "Beta_2P" F').Perm (keep "Beta_2P" F) := hF.filter _
  have pc : (keep "Beta_2P" C').Perm (keep "Beta_2P" C) := hC.filter _
  have hl : likelihoodOf (betaDist α' β') (keep "Beta_2P" F') (keep "Beta_2P" C') * 1 ^ (keep "Beta_2P" F).length =
      likelihoodOf (betaDist α β) (keep "Beta_2P" F) (keep "Beta_2P" C) := by
    have m1 := M α' β' ha' hb'
    have m2 := M' α β ha hb
    rw [likelihood_perm pf pc, likelihood_perm pf pc] at m2
    rw [one_pow, mul_one, likelihood_perm pf pc]
    exact le_antisymm m1 m2
  obtain ⟨h1, h2, h3, h4⟩ := shifted_of one_pos D D' pf.length_eq pc.length_eq hl
  rw [Real.log_one] at h1 h2 h3 h4
  refine ⟨by simpa using h1, by simpa using h2, ?_, by simpa using h4⟩
  rw [h3]
  cases r.gof.AICc <;> simp

/-! ## The choice of a distribution -/

/-- **C168.** So the unit of time does not matter for choosing between two fits by any of these criteria, nor for how far apart
they are. -/
theorem C168_same_choice {n : ℕ} {k : ℝ} {g₁ g₁' g₂ g₂' : GoF} (h₁ : Shifted n k g₁ g₁') (h₂ : Shifted n k g₂ g₂') :
    g₁'.loglik - g₂'.loglik = g₁.loglik - g₂.loglik ∧ g₁'.BIC - g₂'.BIC = g₁.BIC - g₂.BIC ∧
      (g₁'.loglik ≤ g₂'.loglik ↔ g₁.loglik ≤ g₂.loglik) ∧ (g₁'.BIC ≤ g₂'.BIC ↔ g₁.BIC ≤ g₂.BIC) ∧
      ((∃ a b, g₁'.AICc = some a ∧ g₂'.AICc = some b ∧ a ≤ b) ↔ ∃ a b, g₁.AICc = some a ∧ g₂.AICc = some b ∧ a ≤ b) := by
  refine ⟨by rw [h₁.loglik, h₂.loglik]; ring, by rw [h₁.BIC, h₂.BIC]; ring, by rw [h₁.loglik, h₂.loglik]; simp,
    by rw [h₁.BIC, h₂.BIC]; simp, ?_⟩
  rw [h₁.AICc, h₂.AICc]
  cases g₁.AICc <;> cases g₂.AICc <;> simp

/-! ## Examples -/

/-- Exact optimizers, with a `least_squares` that keeps a forced shape. -/
noncomputable def keepNum (fo : Option ℝ) : Num2 := ⟨⟨fun _ => (1, fo.getD 1), (1, 1), exactMin⟩, exactMin⟩

/-- Failures at 1, 2, 3 and an item censored at 4, and the same times in a unit a tenth as long in another order: exact runs of
Fit_Weibull_2P and Fit_Lognormal_2P exist on both, the log-likelihoods are `3 ln 10` lower in the small unit, and the difference
of the BICs is the same. -/
example {argsort : List ℝ → List ℕ} (harg : IsArgsort argsort) (J : Jac) :
    ∃ w w' l l', ExactRun fitWeibull2P (dataArgs [1, 2, 3] [4]) w ∧ ExactRun fitWeibull2P (dataArgs [30, 10, 20] [40]) w' ∧
      ExactRun fitLognormal2P (dataArgs [1, 2, 3] [4]) l ∧ ExactRun fitLognormal2P (dataArgs [30, 10, 20] [40]) l' ∧
      w'.gof.loglik = w.gof.loglik - 3 * Real.log 10 ∧ w'.gof.BIC - l'.gof.BIC = w.gof.BIC - l.gof.BIC := by
  have h3 : 2 ≤ ([1, 2, 3] : List ℝ).toFinset.card := by
    rw [List.toFinset_card_of_nodup (by norm_num)]; simp
  have h3' : 2 ≤ ([30, 10, 20] : List ℝ).toFinset.card := by
    rw [List.toFinset_card_of_nodup (by norm_num)]; simp
  have W : ∀ F C : List ℝ, (∀ t ∈ F, 0 < t) → (∀ t ∈ C, 0 < t) → 2 ≤ F.toFinset.card →
      ∃ r, ExactRun fitWeibull2P (dataArgs F C) r ∧ 0 < r.dist.a ∧ 0 < r.dist.b := by
    intro F C hF hC hc
    obtain ⟨r, h, he, hp⟩ := C164_weibull_2P harg J keepNum (fun _ => exactMin_exact) (fun _ => exactMin_exact) (fun _ => exactMin_finds)
      (fun _ => exactMin_finds) (dataArgs F C) _ (accepts_default (by decide) (fun t ht => usable_of_pos (by decide) (hF t ht))
        (fun t ht => usable_of_pos (by decide) (hC t ht)) hc) rfl rfl
    exact ⟨r, ⟨he.1, argsort, J, keepNum, harg, fun s m => rfl, fun _ => exactMin_exact, fun _ => exactMin_exact, h⟩, hp⟩
  have L : ∀ F C : List ℝ, (∀ t ∈ F, 0 < t) → (∀ t ∈ C, 0 < t) → 2 ≤ F.toFinset.card →
      ∃ r, ExactRun fitLognormal2P (dataArgs F C) r ∧ 0 < r.dist.b := by
    intro F C hF hC hc
    obtain ⟨r, h, he, hp⟩ := C164_lognormal_2P harg J keepNum (fun _ => exactMin_exact) (fun _ => exactMin_exact) (fun _ => exactMin_finds)
      (fun _ => exactMin_finds) (dataArgs F C) _ (accepts_default (by decide) (fun t ht => usable_of_pos (by decide) (hF t ht))
        (fun t ht => usable_of_pos (by decide) (hC t ht)) hc) rfl rfl
    exact ⟨r, ⟨he.1, argsort, J, keepNum, harg, fun s m => rfl, fun _ => exactMin_exact, fun _ => exactMin_exact, h⟩, hp⟩
  obtain ⟨w, hw, ha, hb⟩ := W [1, 2, 3] [4] (by simp) (by simp) h3
  obtain ⟨w', hw', ha', hb'⟩ := W [30, 10, 20] [40] (by simp) (by simp) h3'
  obtain ⟨l, hl, lb⟩ := L [1, 2, 3] [4] (by simp) (by simp) h3
  obtain ⟨l', hl', lb'⟩ := L [30, 10, 20] [40] (by simp) (by simp) h3'
  have u : Units (dataArgs [1, 2, 3] [4]) [1, 2, 3] [4] := ⟨rfl, .inr rfl⟩
  have u' : Units (dataArgs [30, 10, 20] [40]) [30, 10, 20] [40] := ⟨rfl, .inr rfl⟩
  have pF : ([30, 10, 20] : List ℝ).Perm ([1, 2, 3].map ((10 : ℝ) * ·)) := by
    have e : ([1, 2, 3].map ((10 : ℝ) * ·)) = [10, 20, 30] := by norm_num
    rw [e]
    exact List.perm_append_comm (l₁ := [30]) (l₂ := [10, 20])
  have pC : ([40] : List ℝ).Perm ([4].map ((10 : ℝ) * ·)) := by norm_num
  have s1 := C168_weibull_2P hw hw' ha hb ha' hb' u u' (by norm_num) pF pC rfl
  have s2 := C168_lognormal_2P hl hl' lb lb' u u' (by norm_num) pF pC rfl
  refine ⟨w, w', l, l', hw, hw', hl, hl', ?_, (C168_same_choice s1 s2).2.1⟩
  have := s1.loglik
  norm_num [List.countP_cons] at this
  exact this

end Reliability.Props.UnitsReport

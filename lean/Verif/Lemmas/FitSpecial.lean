import Verif.Lemmas.FitGlue
import Verif.Spec.FitSpecial
import Verif.Props.Combined
import Verif.Props.FitGlue3
import Verif.Props.FitGlueReturns

/-! # Lemmas for C106-C109 -/

namespace Reliability.Props

open Reliability Reliability.Distributions Reliability.Combined Reliability.Likelihood Reliability.InputCheck
open Reliability.Fitters (MLEOut OptResult mleOptimization)
open Reliability.FitGlue Reliability.FitSpecial Reliability.Spec Reliability.Spec.InputCheck Reliability.Spec.FitGlue
open Reliability.Spec.FitSpecial
open Reliability.FunctionCI (Jac zOf)
open Reliability.Props.Combined (mixture_sorted competing_sorted proper_weibull)

/-! ### Goodness of fit -/

/-- The numbers of the report besides the Anderson-Darling statistic. -/
theorem report_numbers {argsort : List ℝ → List ℕ} {cdf : ℝ → ℝ} {pos : ℝ → ℝ → ℝ} {T C : List ℝ} {k n : ℕ} {LL L ad : ℝ}
    (hn : n = T.length + C.length) (hL : Real.exp (loglik LL) = L)
    (hAD : ∃ xs ps, PP.plottingPositions argsort T (some C) none true = .ok (xs, ps) ∧ xs.Perm T ∧
      ((∀ t ∈ T, 0 < cdf t ∧ cdf t ≤ 1 - 1e-12) → ad = adIntegral (xs.map cdf) (List.zipWith pos xs ps) (1 - 1e-12))) :
    ReportOf argsort cdf pos L T C k ⟨2 * LL, loglik LL, AICc n k (2 * LL), BIC n k (2 * LL), ad⟩ := by
  subst hn
  refine ⟨hL, ?_, ?_, ?_, ?_, hAD⟩
  · simp only [loglik_eq]; ring
  · intro hk
    simp only [AICc, loglik_eq]
    rw [if_pos (by push_cast; omega)]
    push_cast
    congr 1
    ring
  · intro hk
    simp only [AICc]
    rw [if_neg (by push_cast; omega)]
  · simp only [BIC, loglik_eq]; push_cast; ring

theorem zipWith_snd {x y : List ℝ} (h : x.length = y.length) : List.zipWith (fun _ p : ℝ => p) x y = y := by
  induction x generalizing y with
  | nil => cases y <;> simp_all
  | cons a x ih =>
    cases y with
    | nil => simp at h
    | cons b y => simp only [List.zipWith_cons_cons]; rw [ih (by simpa using h)]

theorem gof_report {argsort : List ℝ → List ℕ} (harg : IsArgsort argsort) {G : List ℝ → Except Err (List ℝ)} {cdf : ℝ → ℝ}
    {T C : List ℝ} {k : ℕ} {LL L : ℝ} {g : GoF} (hG : ∀ X Y, X.Pairwise (· ≤ ·) → G X = .ok Y → Y = X.map cdf)
    (h : gof argsort G T C (T.length + C.length) k LL = .ok g) (hne : T ≠ []) (hL : Real.exp (loglik LL) = L) :
    ReportOf argsort cdf (fun _ p => p) L T C k g := by
  simp only [gof, bind_ok] at h
  obtain ⟨xy, h1, Y, h2, ad, h3, h4⟩ := h
  cases h4
  obtain ⟨x, y, e1, e2, e3, e4, -, -⟩ := ls_points harg T C hne
  rw [h1] at e1
  cases e1
  have hY := hG _ _ e3 h2
  subst hY
  rw [ad_single] at h3
  refine report_numbers rfl hL ⟨x, y, h1, e2, fun hz => ?_⟩
  rw [zipWith_snd e4]
  rw [C90_integral (x.map cdf) y] at h3
  · cases h3; rfl
  · intro z hzz
    obtain ⟨t, ht, rfl⟩ := List.mem_map.1 hzz
    exact hz t (e2.mem_iff.1 ht)
  · simp [e4]

theorem dsziCDF_map {m : DSZI} {X Y : List ℝ} (h : dsziCDF m X = .ok Y) : Y = X.map m.cdfAt := by
  unfold dsziCDF at h
  cases hc : CDF m.base X with
  | error e => simp [hc] at h
  | ok Z =>
    simp only [hc, Except.ok.injEq] at h
    rw [← h, CDF_ok_map hc, List.map_map]
    rfl

theorem gofZI_report {argsort : List ℝ → List ℕ} (harg : IsArgsort argsort) {m : DSZI}
    {T C : List ℝ} {k : ℕ} {LL L : ℝ} {g : GoF}
    (h : gofZI argsort m T C k LL = .ok g) (hne : T ≠ []) (hL : Real.exp (loglik LL) = L) :
    ReportOf argsort m.cdfAt (fun x p => if x = 0 then m.ZI else p) L T C k g := by
  simp only [gofZI, bind_ok] at h
  obtain ⟨xy, h1, Y, h2, ad, h3, h4⟩ := h
  cases h4
  obtain ⟨x, y, e1, e2, e3, e4, -, -⟩ := ls_points harg T C hne
  rw [h1] at e1
  cases e1
  have hY := dsziCDF_map h2
  subst hY
  rw [ad_single] at h3
  refine report_numbers rfl hL ⟨x, y, h1, e2, fun hz => ?_⟩
  rw [C90_integral (x.map m.cdfAt)] at h3
  · cases h3; rfl
  · intro z hzz
    obtain ⟨t, ht, rfl⟩ := List.mem_map.1 hzz
    exact hz t (e2.mem_iff.1 ht)
  · simp [e4]

theorem mixture_cdf {a b c d p : ℝ} (ha : 0 < a) (hb : 0 < b) (hc : 0 < c) (hd : 0 < d) {X Y : List ℝ}
    (hX : X.Pairwise (· ≤ ·)) (h : (mixture [weibull a b 0, weibull c d 0] [p, 1 - p] X).map Arrays.cdf = .ok Y) :
    Y = X.map (fun t => p * F a b t + (1 - p) * F c d t) := by
  cases hm : mixture [weibull a b 0, weibull c d 0] [p, 1 - p] X with
  | error e => rw [hm] at h; cases h
  | ok A =>
    rw [hm] at h
    cases h
    rw [(mixture_sorted hX hm).1]
    apply List.map_congr_left
    intro t _
    simp only [Combined.wsum, List.zip_cons_cons, List.zip_nil_right, List.map_cons, List.map_nil, List.sum_cons, List.sum_nil,
      (proper_weibull a b 0 ha hb le_rfl).cdfValue, (proper_weibull c d 0 hc hd le_rfl).cdfValue, F]
    ring

theorem competing_cdf {a b c d : ℝ} (ha : 0 < a) (hb : 0 < b) (hc : 0 < c) (hd : 0 < d) {X Y : List ℝ}
    (hX : X.Pairwise (· ≤ ·)) (h : (competing [weibull a b 0, weibull c d 0] X).map Arrays.cdf = .ok Y) :
    Y = X.map (fun t => 1 - S a b t * S c d t) := by
  cases hm : competing [weibull a b 0, weibull c d 0] X with
  | error e => rw [hm] at h; cases h
  | ok A =>
    rw [hm] at h
    cases h
    rw [(competing_sorted hX hm).2.2.2.1]
    apply List.map_congr_left
    intro t _
    simp only [List.map_cons, List.map_nil, List.prod_cons, List.prod_nil,
      (proper_weibull a b 0 ha hb le_rfl).sfValue, (proper_weibull c d 0 hc hd le_rfl).sfValue, S]
    ring

/-! ### Rows -/

theorem npInv_informationOf {n : ℕ} {legal : (Fin n → ℝ) → Prop} {L : (Fin n → ℝ) → ℝ} {p : Fin n → ℝ}
    {NL : (Fin n → ℝ) → ℝ} (hopen : IsOpen {v | legal v}) (hp : legal p)
    (hNL : ∀ v, legal v → Real.exp (loglik (NL v)) = L v) : InverseInformationOf legal L p (npInv (hessian NL p)) := by
  intro ℓ hℓ
  have e : hessian NL p = secondPartials (fun v => -ℓ v) p := by
    apply hessian_congr hopen hp
    intro v hv
    have := Real.exp_injective ((hNL v hv).trans (hℓ v hv).symm)
    rw [loglik_eq] at this
    linarith
  cases h : npInv (hessian NL p) with
  | none => simpa only [e] using npInv_none h
  | some V => simpa only [e] using npInv_some h

theorem orWarn_ok {α : Type} {s s' : Option α} {o : Option String} (h : orWarn s o = .ok s') : s' = s := by
  cases s with
  | none => exact orWarn_none h
  | some a => cases h; rfl

theorem diagSE_eq {n : ℕ} (V : Option (Matrix (Fin n) (Fin n) ℝ)) : diagSE V = stdErr V := by
  funext i
  cases V <;> rfl

theorem diagSE_nonneg {n : ℕ} (V : Option (Matrix (Fin n) (Fin n) ℝ)) (i : Fin n) : 0 ≤ diagSE V i := by
  rw [diagSE_eq]; exact stdErr_nonneg V i

theorem odds_interval {Z x SE : ℝ} (hZ : 0 ≤ Z) (hS : 0 ≤ SE) (h0 : 0 < x) (h1 : x < 1) :
    (ciProportion x SE Z).1 / (1 - (ciProportion x SE Z).1) = x / (1 - x) * Real.exp (-(Z * SE / (x * (1 - x)))) ∧
    (ciProportion x SE Z).2 / (1 - (ciProportion x SE Z).2) = x / (1 - x) * Real.exp (Z * SE / (x * (1 - x))) ∧
    0 < (ciProportion x SE Z).1 ∧ (ciProportion x SE Z).1 ≤ x ∧ x ≤ (ciProportion x SE Z).2 ∧ (ciProportion x SE Z).2 < 1 := by
  obtain ⟨c1, c2, c3, c4, -⟩ := C71_proportion x SE Z h0 h1 hS hZ
  have key : ∀ u : ℝ, x / (x + (1 - x) * Real.exp u) / (1 - x / (x + (1 - x) * Real.exp u)) = x / (1 - x) * Real.exp (-u) := by
    intro u
    have h2 : 0 < 1 - x := by linarith
    have hu := Real.exp_pos u
    have hd : 0 < x + (1 - x) * Real.exp u := by positivity
    have e : 1 - x / (x + (1 - x) * Real.exp u) = (1 - x) * Real.exp u / (x + (1 - x) * Real.exp u) := by
      field_simp; ring
    rw [e, Real.exp_neg]
    field_simp
  refine ⟨?_, ?_, c1, c2, c3, c4⟩
  · simp only [ciProportion]; exact key _
  · simp only [ciProportion]
    rw [key]
    congr 2
    ring

theorem interval_odds {Z x SE : ℝ} (name : String) (hZ : 0 ≤ Z) (hS : 0 ≤ SE) :
    SInterval Z (ciRow ciProportion name x SE Z) (some none) :=
  ⟨fun h0 h1 => odds_interval hZ hS h0 h1, fun h => by cases h⟩

theorem interval_DS {Z x SE : ℝ} (name : String) (hZ : 0 ≤ Z) (hS : 0 ≤ SE) :
    SInterval Z (ciRow ciDS name x SE Z) (some (some 1)) := by
  constructor
  · intro h0 h1
    simp only [ciRow, ciDS] at h0 h1 ⊢
    rw [if_neg (by linarith)]
    exact odds_interval hZ hS h0 h1
  · intro h
    simp only [ciRow, Option.some.injEq] at h
    subst h
    simp [ciRow, ciDS]

theorem interval_ZI {Z x SE : ℝ} (name : String) (hZ : 0 ≤ Z) (hS : 0 ≤ SE) :
    SInterval Z (ciRow ciZI name x SE Z) (some (some 0)) := by
  constructor
  · intro h0 h1
    simp only [ciRow, ciZI] at h0 h1 ⊢
    rw [if_neg (by linarith)]
    exact odds_interval hZ hS h0 h1
  · intro h
    simp only [ciRow, Option.some.injEq] at h
    subst h
    simp [ciRow, ciZI]

/-! ### Likelihoods -/

theorem likMixture_eq {v : Fin 5 → ℝ} {T C : List ℝ} (h0 : 0 < v 0) (h1 : 0 < v 1) (h2 : 0 < v 2) (h3 : 0 < v 3) (h4 : 0 ≤ v 4)
    (h5 : v 4 ≤ 1) (hT : ∀ t ∈ T, 0 < t) (hC : ∀ t ∈ C, 0 < t) :
    Real.exp (loglik (mixture_LL (v 0) (v 1) (v 2) (v 3) (v 4) T C)) = likMixture T C v := by
  have := Likelihood.C41_weibull_mixture (v 0) (v 1) (v 2) (v 3) (v 4) h0 h1 h2 h3 h4 h5 T C hT (fun t ht => (hC t ht).le)
  unfold IsLogLik at this
  rw [this, likMixture, lik]
  congr 2 <;> · apply List.map_congr_left; intro t _; simp only [f, S]; ring

theorem weibull_sf_pos {a b t : ℝ} (ha : 0 < a) (hb : 0 < b) (ht : 0 ≤ t) : 0 < S a b t := by
  rw [S, Likelihood.weibull_sf ha hb ht]; exact Real.exp_pos _

theorem likCR_eq {v : Fin 4 → ℝ} {T C : List ℝ} (h0 : 0 < v 0) (h1 : 0 < v 1) (h2 : 0 < v 2) (h3 : 0 < v 3)
    (hT : ∀ t ∈ T, 0 < t) (hC : ∀ t ∈ C, 0 < t) :
    Real.exp (loglik (CR_LL (v 0) (v 1) (v 2) (v 3) T C)) = likCR T C v := by
  have := Likelihood.C41_weibull_CR (v 0) (v 1) (v 2) (v 3) h0 h1 h2 h3 T C hT (fun t ht => (hC t ht).le)
  unfold IsLogLik at this
  rw [this, likCR, lik]
  congr 2
  apply List.map_congr_left
  intro t ht
  have p1 := weibull_sf_pos h0 h1 (hT t ht).le
  have p2 := weibull_sf_pos h2 h3 (hT t ht).le
  simp only [f, S] at p1 p2 ⊢
  field_simp

theorem likDSZI_eq {v : Fin 4 → ℝ} {Z T C : List ℝ} (hl : LegalDSZI Z.length C (v 0) (v 1) (v 2) (v 3))
    (hT : ∀ t ∈ T, 0 < t) (hC : ∀ t ∈ C, 0 < t) :
    Real.exp (loglik (DSZI_LL (v 0) (v 1) (v 2) (v 3) Z T C)) = likDSZI Z.length T C v := by
  obtain ⟨ha, hb, hzd, h0, hS⟩ := hl
  have hlaw := Distributions.C33_weibull (v 0) (v 1) 0 ha hb
  have e : loglik (DSZI_LL (v 0) (v 1) (v 2) (v 3) Z T C) = (if v 3 > 0 then Real.log (v 3) * (Z.length : ℝ) else 0) +
      (T.map (DSZI_logf (v 0) (v 1) (v 2) (v 3))).sum + (C.map (DSZI_logR (v 0) (v 1) (v 2) (v 3))).sum := by
    simp only [loglik, DSZI_LL]; ring
  rw [e, Real.exp_add, Real.exp_add, Likelihood.exp_sum_map, Likelihood.exp_sum_map, likDSZI, lik, mul_assoc]
  congr 1
  · by_cases hz : v 3 > 0
    · rw [if_pos hz, Real.exp_mul, Real.exp_log hz, Real.rpow_natCast]
    · rw [if_neg hz, h0.resolve_left hz]; simp
  · congr 2
    · refine List.map_congr_left fun t ht => ?_
      have hp : DSZI_logf (v 0) (v 1) (v 2) (v 3) t = weibull3P_logf (v 0) (v 1) 0 t + Real.log (v 2 - v 3) := by
        simp [DSZI_logf, weibull3P_logf]
      rw [hp, Real.exp_add, Likelihood.weibull3P_logf_exp ha hb (hT t ht), Real.exp_log (by linarith)]
      exact mul_comm _ _
    · refine List.map_congr_left fun t ht => ?_
      have hs := Likelihood.weibull_sf ha hb (hC t ht).le
      rw [sub_zero] at hs
      have hcm := hlaw.1.compl t
      have e2 : 1 - ((1 - Real.exp (-((t / v 0) ^ v 1))) * (v 2 - v 3) + v 3) = 1 - cdfDSZI (v 0) (v 1) (v 2) (v 3) t := by
        simp only [cdfDSZI, F]; rw [← hs]
        have : (weibull (v 0) (v 1) 0).sp.cdf t = 1 - (weibull (v 0) (v 1) 0).sp.sf t := by linarith
        rw [this]; ring
      rw [DSZI_logR, e2, Real.exp_log]
      have := hS t ht
      linarith

theorem DS_LL_eq (a b ds : ℝ) (T C : List ℝ) : DS_LL a b ds T C = DSZI_LL a b ds 0 [] T C := by
  have e1 : DSZI_logf a b ds 0 = DS_logf a b ds := by funext t; simp [DSZI_logf, DS_logf]
  have e2 : DSZI_logR a b ds 0 = DS_logR a b ds := by funext t; simp [DSZI_logR, DS_logR]
  simp [DS_LL, DSZI_LL, LL, e1, e2]

/-! ### Open sets -/

theorem isOpen_pos {n : ℕ} (i : Fin n) : IsOpen {v : Fin n → ℝ | 0 < v i} := isOpen_lt continuous_const (continuous_apply i)

theorem isOpen_mixture : IsOpen {v : Fin 5 → ℝ | 0 < v 0 ∧ 0 < v 1 ∧ 0 < v 2 ∧ 0 < v 3 ∧ 0 < v 4 ∧ v 4 < 1} := by
  have : IsOpen {v : Fin 5 → ℝ | v 4 < 1} := isOpen_lt (continuous_apply 4) continuous_const
  exact (isOpen_pos 0).inter ((isOpen_pos 1).inter ((isOpen_pos 2).inter ((isOpen_pos 3).inter ((isOpen_pos 4).inter this))))

theorem isOpen_CR : IsOpen {v : Fin 4 → ℝ | 0 < v 0 ∧ 0 < v 1 ∧ 0 < v 2 ∧ 0 < v 3} :=
  (isOpen_pos 0).inter ((isOpen_pos 1).inter ((isOpen_pos 2).inter (isOpen_pos 3)))

theorem F_eq {a b t : ℝ} (ha : 0 < a) (hb : 0 < b) (ht : 0 < t) : F a b t = 1 - Real.exp (-((t / a) ^ b)) := by
  have h := (Distributions.C33_weibull a b 0 ha hb).1.compl t
  have hs := Likelihood.weibull_sf ha hb ht.le
  rw [sub_zero] at hs
  rw [F]; linarith

theorem isOpen_DSZI {zeros : ℕ} {C : List ℝ} (hC : ∀ t ∈ C, 0 < t) :
    IsOpen {w : ℝ × ℝ × ℝ × ℝ | LegalDSZI zeros C w.1 w.2.1 w.2.2.1 w.2.2.2} := by
  set U : Set (ℝ × ℝ × ℝ × ℝ) := {w | 0 < w.1 ∧ 0 < w.2.1} with hU
  have oU : IsOpen U := (isOpen_lt continuous_const continuous_fst).inter
    (isOpen_lt continuous_const (continuous_fst.comp continuous_snd))
  have o1 : IsOpen {w : ℝ × ℝ × ℝ × ℝ | w.2.2.2 < w.2.2.1} := isOpen_lt (by fun_prop) (by fun_prop)
  have o2 : IsOpen {w : ℝ × ℝ × ℝ × ℝ | 0 < w.2.2.2 ∨ zeros = 0} := by
    by_cases hz : zeros = 0
    · simp [hz]
    · simpa [hz] using (isOpen_lt continuous_const (by fun_prop) : IsOpen {w : ℝ × ℝ × ℝ × ℝ | 0 < w.2.2.2})
  have o3 : ∀ l : List ℝ, (∀ t ∈ l, 0 < t) →
      IsOpen (U ∩ {w : ℝ × ℝ × ℝ × ℝ | ∀ t ∈ l, cdfDSZI w.1 w.2.1 w.2.2.1 w.2.2.2 t < 1}) := by
    intro l
    induction l with
    | nil => intro _; simpa using oU
    | cons t l ih =>
      intro hl
      have ht := hl t (by simp)
      have hc : ContinuousOn (fun w : ℝ × ℝ × ℝ × ℝ =>
          w.2.2.2 + (w.2.2.1 - w.2.2.2) * (1 - Real.exp (-((t / w.1) ^ w.2.1)))) U := by
        have hr : ContinuousOn (fun w : ℝ × ℝ × ℝ × ℝ => (t / w.1) ^ w.2.1) U := by
          apply ContinuousOn.rpow
          · exact ContinuousOn.div continuousOn_const continuous_fst.continuousOn (fun w hw => ne_of_gt hw.1)
          · fun_prop
          · intro w hw
            left
            exact ne_of_gt (div_pos ht hw.1)
        have h1 : ContinuousOn (fun w : ℝ × ℝ × ℝ × ℝ => w.2.2.2) U := by fun_prop
        have h2 : ContinuousOn (fun w : ℝ × ℝ × ℝ × ℝ => w.2.2.1) U := by fun_prop
        exact h1.add ((h2.sub h1).mul (continuousOn_const.sub (Real.continuous_exp.comp_continuousOn hr.neg)))
      have ho := hc.isOpen_inter_preimage oU (isOpen_Iio (a := (1 : ℝ)))
      convert ho.inter (ih (fun s hs => hl s (by simp [hs]))) using 1
      ext w
      simp only [Set.mem_inter_iff, Set.mem_setOf_eq, List.forall_mem_cons, Set.mem_preimage, Set.mem_Iio]
      constructor
      · rintro ⟨hw, h1, h2⟩
        refine ⟨⟨hw, ?_⟩, hw, h2⟩
        rw [cdfDSZI, F_eq hw.1 hw.2 ht] at h1
        exact h1
      · rintro ⟨⟨hw, h1⟩, -, h2⟩
        refine ⟨hw, ?_, h2⟩
        rw [cdfDSZI, F_eq hw.1 hw.2 ht]
        exact h1
  convert (o1.inter o2).inter (o3 C hC) using 1
  ext w
  simp only [LegalDSZI, hU, Set.mem_inter_iff, Set.mem_setOf_eq]
  tauto

end Reliability.Props

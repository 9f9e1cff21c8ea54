import Verif.Props.UniqueFit

/-! # C180: entering every item several times does not move the maximum likelihood fit -/

namespace Reliability.Props.UniqueFit

open Reliability Reliability.Distributions Reliability.Likelihood Reliability.InputCheck Reliability.Props.Likelihood Reliability.FunctionCI
open Reliability.FitGlue Reliability.Spec Reliability.Spec.InputCheck Reliability.Spec.FitGlue Reliability.Props
open Reliability.UniqueML Reliability.RankReg

/-- `l'` are the items of `l`, each entered `k` times, in any order. -/
def Times (k : ℕ) (l l' : List ℝ) : Prop := ∀ t, l'.count t = k * l.count t

theorem Times.perm {k : ℕ} {l l' : List ℝ} (h : Times k l l') : l'.Perm (List.replicate k l).flatten := by
  rw [List.perm_iff_count]
  intro t
  rw [h t, List.count_flatten, List.map_replicate, List.sum_replicate, smul_eq_mul]

theorem Times.keep {k : ℕ} {l l' : List ℝ} (h : Times k l l') (d : String) :
    (keep d l').Perm (List.replicate k (keep d l)).flatten := by
  unfold UniqueFit.keep
  refine (h.perm.filter _).trans (.of_eq ?_)
  rw [List.filter_flatten, List.map_replicate]

theorem mem_rep {k : ℕ} {l l' : List ℝ} (h : l'.Perm (List.replicate k l).flatten) {t : ℝ} (ht : t ∈ l') : t ∈ l := by
  rw [h.mem_iff, List.mem_flatten] at ht
  obtain ⟨m, hm, ht⟩ := ht
  rwa [(List.mem_replicate.1 hm).2] at ht

theorem prod_rep {k : ℕ} {l l' : List ℝ} (h : l'.Perm (List.replicate k l).flatten) (g : ℝ → ℝ) :
    (l'.map g).prod = (l.map g).prod ^ k := by
  rw [(h.map g).prod_eq, List.map_flatten, List.map_replicate, List.prod_flatten, List.map_replicate, List.prod_replicate]

theorem LineMax.rep {f : CFam} {k : ℕ} (hk : 0 < k) {F C F' C' : List ℝ} (hF : F'.Perm (List.replicate k F).flatten)
    (hC : C'.Perm (List.replicate k C).flatten) {fo : Option ℝ} {q p : ℝ} (h : LineMax f fo F C q p) : LineMax f fo F' C' q p := by
  have key : ∀ q p, lineLik f F' C' q p = lineLik f F C q p ^ k := by
    intro q p
    unfold lineLik
    rw [prod_rep hF, prod_rep hC, mul_pow]
  refine ⟨h.pos, ?_, fun t ht => h.F_in t (mem_rep hF ht), fun t ht => h.C_in t (mem_rep hC ht), h.forced, ?_⟩
  · intro he
    obtain ⟨t, ht⟩ := List.exists_mem_of_ne_nil F h.ne
    have : t ∈ F' := hF.mem_iff.2 (List.mem_flatten.2 ⟨F, List.mem_replicate.2 ⟨hk.ne', rfl⟩, ht⟩)
    rw [he] at this
    exact absurd this (List.not_mem_nil)
  · intro q' p' hq' hs
    rw [key, key]
    exact pow_le_pow_left₀ (lineLik_pos h.F_in hq').le (h.max q' p' hq' hs) k

theorem rep_eq {f : CFam} {d : String} {k : ℕ} (hk : 0 < k) {F C F' C' : List ℝ} (hF : Times k F F') (hC : Times k C C') {fo : Option ℝ}
    {a b a' b' : ℝ} (hp : ParamsOK f a b) (hp' : ParamsOK f a' b')
    (h : LineMax f fo (keep d F) (keep d C) (slopeOf f b) (icptOf f a b))
    (h' : LineMax f fo (keep d F') (keep d C') (slopeOf f b') (icptOf f a' b')) : a' = a ∧ b' = b := by
  obtain ⟨e1, e2⟩ := h'.unique (LineMax.rep hk (hF.keep d) (hC.keep d) h)
  have := params_line hp'
  rw [e1, e2, params_line hp] at this
  cases this
  exact ⟨rfl, rfl⟩

/-- **C180 (Fit_Weibull_2P).** Every failure and every right censored item is entered `k` times instead of once: a maximum
likelihood run finds the same alpha and beta. -/
theorem C180_weibull_2P {x x' : Args} {r r' : FitRes Two} (h : ExactML fitWeibull2P x r) (h' : ExactML fitWeibull2P x' r')
    (ha : 0 < r.dist.a) (hb : 0 < r.dist.b) (ha' : 0 < r'.dist.a) (hb' : 0 < r'.dist.b) {F C F' C' : List ℝ} (hu : Units x F C)
    (hu' : Units x' F' C') {k : ℕ} (hk : 0 < k) (hF : Times k F F') (hC : Times k C C') (hfo : x.force = x'.force) :
    r'.dist.a = r.dist.a ∧ r'.dist.b = r.dist.b :=
  rep_eq (f := .weibull) hk hF hC ⟨hb, fun _ => ha⟩ ⟨hb', fun _ => ha'⟩ (line_weibull h hu ha hb)
    (hfo ▸ line_weibull h' hu' ha' hb')

/-- **C180 (Fit_Loglogistic_2P).** -/
theorem C180_loglogistic_2P {x x' : Args} {r r' : FitRes Two} (h : ExactML fitLoglogistic2P x r) (h' : ExactML fitLoglogistic2P x' r')
    (ha : 0 < r.dist.a) (hb : 0 < r.dist.b) (ha' : 0 < r'.dist.a) (hb' : 0 < r'.dist.b) {F C F' C' : List ℝ} (hu : Units x F C)
    (hu' : Units x' F' C') {k : ℕ} (hk : 0 < k) (hF : Times k F F') (hC : Times k C C') :
    r'.dist.a = r.dist.a ∧ r'.dist.b = r.dist.b :=
  rep_eq (f := .loglogistic) hk hF hC ⟨hb, fun _ => ha⟩ ⟨hb', fun _ => ha'⟩ (line_loglogistic h hu ha hb)
    (line_loglogistic h' hu' ha' hb')

/-- **C180 (Fit_Normal_2P).** -/
theorem C180_normal_2P {x x' : Args} {r r' : FitRes Two} (h : ExactML fitNormal2P x r) (h' : ExactML fitNormal2P x' r')
    (hb : 0 < r.dist.b) (hb' : 0 < r'.dist.b) {F C F' C' : List ℝ} (hu : Units x F C)
    (hu' : Units x' F' C') {k : ℕ} (hk : 0 < k) (hF : Times k F F') (hC : Times k C C') (hfo : x.force = x'.force) :
    r'.dist.a = r.dist.a ∧ r'.dist.b = r.dist.b :=
  rep_eq (f := .normal) hk hF hC ⟨hb, fun h => by rcases h with h | h <;> cases h⟩ ⟨hb', fun h => by rcases h with h | h <;> cases h⟩
    (line_normal h hu hb) (hfo ▸ line_normal h' hu' hb')

/-- **C180 (Fit_Lognormal_2P).** -/
theorem C180_lognormal_2P {x x' : Args} {r r' : FitRes Two} (h : ExactML fitLognormal2P x r) (h' : ExactML fitLognormal2P x' r')
    (hb : 0 < r.dist.b) (hb' : 0 < r'.dist.b) {F C F' C' : List ℝ} (hu : Units x F C)
    (hu' : Units x' F' C') {k : ℕ} (hk : 0 < k) (hF : Times k F F') (hC : Times k C C') (hfo : x.force = x'.force) :
    r'.dist.a = r.dist.a ∧ r'.dist.b = r.dist.b :=
  rep_eq (f := .lognormal) hk hF hC ⟨hb, fun h => by rcases h with h | h <;> cases h⟩ ⟨hb', fun h => by rcases h with h | h <;> cases h⟩
    (line_lognormal h hu hb) (hfo ▸ line_lognormal h' hu' hb')

/-- **C180 (Fit_Gumbel_2P).** -/
theorem C180_gumbel_2P {x x' : Args} {r r' : FitRes Two} (h : ExactML fitGumbel2P x r) (h' : ExactML fitGumbel2P x' r')
    (hb : 0 < r.dist.b) (hb' : 0 < r'.dist.b) {F C F' C' : List ℝ} (hu : Units x F C)
    (hu' : Units x' F' C') {k : ℕ} (hk : 0 < k) (hF : Times k F F') (hC : Times k C C') :
    r'.dist.a = r.dist.a ∧ r'.dist.b = r.dist.b :=
  rep_eq (f := .gumbel) hk hF hC ⟨hb, fun h => by rcases h with h | h <;> cases h⟩ ⟨hb', fun h => by rcases h with h | h <;> cases h⟩
    (line_gumbel h hu hb) (line_gumbel h' hu' hb')

/-- **C180 (Fit_Exponential_1P).** -/
theorem C180_exponential_1P {x x' : Args} {r r' : FitRes Expo} (argsort argsort' : List ℝ → List ℕ) (J J' : Jac) (num num' : Num ℝ)
    (hE : Exact num.minimize) (hE' : Exact num'.minimize) (h : fitExponential1P argsort J num x = .ok r)
    (h' : fitExponential1P argsort' J' num' x' = .ok r') (hn : r.optimizer ≠ none) (hn' : r'.optimizer ≠ none)
    (hL : 0 < r.dist.Lambda) (hL' : 0 < r'.dist.Lambda) {F C F' C' : List ℝ} (hu : Units x F C) (hu' : Units x' F' C') {k : ℕ}
    (hk : 0 < k) (hF : Times k F F') (hC : Times k C C') : r'.dist.Lambda = r.dist.Lambda := by
  obtain ⟨f, rc, hu1, e1⟩ := C112_exponential_closed_form argsort J num hE x r h hn hL
  obtain ⟨f', rc', hu2, e2⟩ := C112_exponential_closed_form argsort' J' num' hE' x' r' h' hn' hL'
  obtain ⟨rfl, rfl⟩ := used_units hu1 hu
  obtain ⟨rfl, rfl⟩ := used_units hu2 hu'
  have pF := hF.keep "Exponential_1P"
  have pC := hC.keep "Exponential_1P"
  have hs : ∀ l : List ℝ, (List.replicate k l).flatten.sum = k * l.sum := fun l => by
    rw [List.sum_flatten, List.map_replicate, List.sum_replicate, nsmul_eq_mul]
  have hl : ∀ l : List ℝ, (List.replicate k l).flatten.length = k * l.length := fun l => by
    rw [List.length_flatten, List.map_replicate, List.sum_replicate, smul_eq_mul]
  have hk' : (k : ℝ) ≠ 0 := by positivity
  rw [e1, e2, pF.length_eq, pF.sum_eq, pC.sum_eq, hs, hs, hl, Nat.cast_mul, ← mul_add, mul_div_mul_left _ _ hk']

/-! ## The standard errors -/

theorem secondPartials_mul {n : ℕ} (c : ℝ) (f : (Fin n → ℝ) → ℝ) (p : Fin n → ℝ) :
    secondPartials (fun v => c * f v) p = c • secondPartials f p := by
  ext i j
  simp only [secondPartials, Matrix.of_apply, Matrix.smul_apply, smul_eq_mul, deriv_const_mul_field]

theorem information_rep {n : ℕ} {legal : (Fin n → ℝ) → Prop} {D : (Fin n → ℝ) → Dist} {F C F' C' : List ℝ} {p : Fin n → ℝ}
    {V V' : Option (Matrix (Fin n) (Fin n) ℝ)} {k : ℕ} (hk : 0 < k) (hF : F'.Perm (List.replicate k F).flatten)
    (hC : C'.Perm (List.replicate k C).flatten) (hpos : ∀ v, legal v → 0 < likelihoodOf (D v) F C)
    (h : InverseInformation legal D F C p V) (h' : InverseInformation legal D F' C' p V') :
    (∀ i, stdErr V' i = stdErr V i / Real.sqrt k) ∧ ∀ i j, covar V' i j = covar V i j / k := by
  have hk' : (0 : ℝ) < k := by exact_mod_cast hk
  have h1 := h (fun v => Real.log (likelihoodOf (D v) F C)) fun v hv => Real.exp_log (hpos v hv)
  have h2 := h' (fun v => k * Real.log (likelihoodOf (D v) F C)) fun v hv => by
    unfold IsLogLik
    rw [prod_rep hF, prod_rep hC, ← mul_pow, Real.exp_nat_mul, Real.exp_log (hpos v hv)]
    rfl
  simp only [← mul_neg, secondPartials_mul] at h2
  generalize secondPartials (fun v => -Real.log (likelihoodOf (D v) F C)) p = H at h1 h2
  rcases V with _ | V <;> rcases V' with _ | V' <;> dsimp only at h1 h2
  · simp [stdErr, covar]
  · exact absurd ⟨(k : ℝ) • V', by rw [Matrix.mul_smul, ← Matrix.smul_mul]; exact h2⟩ h1
  · exact absurd ⟨(k : ℝ)⁻¹ • V, by rw [Matrix.mul_smul, Matrix.smul_mul, smul_smul, inv_mul_cancel₀ hk'.ne', one_smul]; exact h1⟩ h2
  · have e : V' = (k : ℝ)⁻¹ • V := by
      have h3 : V * H = 1 := mul_eq_one_comm.1 h1
      have : V * (((k : ℝ) • H) * V') = V := by rw [h2, Matrix.mul_one]
      rw [Matrix.smul_mul, Matrix.mul_smul, ← Matrix.mul_assoc, h3, Matrix.one_mul] at this
      rw [← this, smul_smul, inv_mul_cancel₀ hk'.ne', one_smul]
    subst e
    constructor
    · intro i
      simp only [stdErr, Matrix.smul_apply, smul_eq_mul]
      rw [abs_mul, abs_of_pos (inv_pos.2 hk'), Real.sqrt_mul (inv_pos.2 hk').le, Real.sqrt_inv]
      ring
    · intro i j
      simp only [covar, Matrix.smul_apply, smul_eq_mul]
      ring

theorem rows_rep {fam : CFam} (hfam : fam ≠ .gamma) {nA nB : String} {sc : Scale} {F C F' C' : List ℝ} {CI CI' : ℝ} {force : Option ℝ}
    {rows rows' : List FitGlue.Row} {Cov Cov' : ℝ} {d d' : Two} {k : ℕ} (hk : 0 < k) (hF : F'.Perm (List.replicate k F).flatten)
    (hC : C'.Perm (List.replicate k C).flatten) (sF : ∀ t ∈ F, InSupport fam 0 t) (sC : ∀ t ∈ C, InSupport fam 0 t)
    (h : Rows2 fam 0 nA nB sc F C CI force rows Cov d) (h' : Rows2 fam 0 nA nB sc F' C' CI' force rows' Cov' d')
    (hp : ParamsOK fam d.a d.b) (ha : d'.a = d.a) (hb : d'.b = d.b) :
    rows'.map Row.SE = rows.map (fun w => w.SE / Real.sqrt k) ∧ Cov' = Cov / k := by
  have hpos : ∀ a b, ParamsOK fam a b → 0 < likelihoodOf (distOf fam a b 0) F C := fun a b hok => by
    rw [likelihood_std hfam hok sF sC]
    exact lineLik_pos sF (slopeOf_pos hok)
  have hm : rows.map (fun w => w.SE / Real.sqrt k) = (rows.map Row.SE).map (· / Real.sqrt k) := by rw [List.map_map]; rfl
  rw [hm]
  rcases force with _ | s
  · obtain ⟨V, i1, i2, i3, -⟩ := h.2.2.1 rfl
    obtain ⟨V', j1, j2, j3, -⟩ := h'.2.2.1 rfl
    rw [ha, hb] at j1
    obtain ⟨e1, e2⟩ := information_rep hk hF hC (fun v hv => hpos _ _ hv) (i1 hp) (j1 hp)
    rw [i2, j2, i3, j3, e2]
    simp only [e1, List.map_cons, List.map_nil, and_self]
  · obtain ⟨V, i1, i2, i3, -⟩ := h.2.2.2 s rfl
    obtain ⟨V', j1, j2, j3, -⟩ := h'.2.2.2 s rfl
    rw [ha, hb] at j1
    obtain ⟨e1, e2⟩ := information_rep hk hF hC (fun v hv => hpos _ _ hv) (i1 hp) (j1 hp)
    rw [i2, j2, i3, j3]
    simp only [e1, List.map_cons, List.map_nil, zero_div, and_self]

theorem errors_rep {fam : CFam} (hfam : fam ≠ .gamma) {d nA nB : String} {sc : Scale} {x x' : Args} {r r' : FitRes Two}
    {F C F' C' : List ℝ} (hu : Units x F C) (hu' : Units x' F' C') {k : ℕ} (hk : 0 < k) (hF : Times k F F') (hC : Times k C C')
    {fo force force' : Option ℝ} (hfo : force = force') {q p : ℝ} (hl : LineMax fam fo (keep d F) (keep d C) q p)
    (hp : ParamsOK fam r.dist.a r.dist.b)
    (h : ∃ f rc CI, Used d x f rc ∧ x.CI = .float CI ∧ Rows2 fam 0 nA nB sc f rc CI force r.rows r.Cov r.dist)
    (h' : ∃ f rc CI, Used d x' f rc ∧ x'.CI = .float CI ∧ Rows2 fam 0 nA nB sc f rc CI force' r'.rows r'.Cov r'.dist)
    (e : r'.dist.a = r.dist.a ∧ r'.dist.b = r.dist.b) :
    r'.rows.map Row.SE = r.rows.map (fun w => w.SE / Real.sqrt k) ∧ r'.Cov = r.Cov / k := by
  obtain ⟨f, rc, CI, u1, -, w1⟩ := h
  obtain ⟨f', rc', CI', u2, -, w2⟩ := h'
  obtain ⟨rfl, rfl⟩ := used_units u1 hu
  obtain ⟨rfl, rfl⟩ := used_units u2 hu'
  subst hfo
  exact rows_rep hfam hk (hF.keep d) (hC.keep d) hl.F_in hl.C_in w1 w2 hp e.1 e.2

/-- **C180 (Fit_Weibull_2P, standard errors).** The standard errors are divided by the square root of `k`, the covariance by `k`. -/
theorem C180_weibull_2P_errors {argsort argsort' : List ℝ → List ℕ} (harg : IsArgsort argsort) (harg' : IsArgsort argsort')
    (J J' : Jac) (num num' : Option ℝ → Num2) (hE : ∀ fo, Exact (num fo).minimize ∧ Exact (num fo).minimize1)
    (hE' : ∀ fo, Exact (num' fo).minimize ∧ Exact (num' fo).minimize1) (hnum : ∀ s m, ((num (some s)).ls m).2 = s) (hnum' : ∀ s m, ((num' (some s)).ls m).2 = s) 
    {x x' : Args} {r r' : FitRes Two} (h : fitWeibull2P argsort J num x = .ok r) (h' : fitWeibull2P argsort' J' num' x' = .ok r')
    (ho : r.optimizer ≠ none) (ho' : r'.optimizer ≠ none) (ha : 0 < r.dist.a) (hb : 0 < r.dist.b) (ha' : 0 < r'.dist.a) (hb' : 0 < r'.dist.b)
    {F C F' C' : List ℝ} (hu : Units x F C) (hu' : Units x' F' C') {k : ℕ} (hk : 0 < k) (hF : Times k F F') (hC : Times k C C') (hfo : x.force = x'.force) :
    r'.rows.map Row.SE = r.rows.map (fun w => w.SE / Real.sqrt k) ∧ r'.Cov = r.Cov / k := by
  have m : ExactML fitWeibull2P x r := ⟨ho, argsort, J, num, fun fo => (hE fo).1, fun fo => (hE fo).2, h⟩
  have m' : ExactML fitWeibull2P x' r' := ⟨ho', argsort', J', num', fun fo => (hE' fo).1, fun fo => (hE' fo).2, h'⟩
  exact errors_rep (fam := .weibull) (by decide) hu hu' hk hF hC hfo (line_weibull m hu ha hb) ⟨hb, fun _ => ha⟩
    (C100_weibull_2P harg J num hnum x r h) (C100_weibull_2P harg' J' num' hnum' x' r' h')
    (C180_weibull_2P m m' ha hb ha' hb' hu hu' hk hF hC hfo)

/-- **C180 (Fit_Loglogistic_2P, standard errors).** The standard errors are divided by the square root of `k`, the covariance by `k`. -/
theorem C180_loglogistic_2P_errors {argsort argsort' : List ℝ → List ℕ} (harg : IsArgsort argsort) (harg' : IsArgsort argsort')
    (J J' : Jac) (num num' : Option ℝ → Num2) (hE : ∀ fo, Exact (num fo).minimize ∧ Exact (num fo).minimize1)
    (hE' : ∀ fo, Exact (num' fo).minimize ∧ Exact (num' fo).minimize1) 
    {x x' : Args} {r r' : FitRes Two} (h : fitLoglogistic2P argsort J num x = .ok r) (h' : fitLoglogistic2P argsort' J' num' x' = .ok r')
    (ho : r.optimizer ≠ none) (ho' : r'.optimizer ≠ none) (ha : 0 < r.dist.a) (hb : 0 < r.dist.b) (ha' : 0 < r'.dist.a) (hb' : 0 < r'.dist.b)
    {F C F' C' : List ℝ} (hu : Units x F C) (hu' : Units x' F' C') {k : ℕ} (hk : 0 < k) (hF : Times k F F') (hC : Times k C C') :
    r'.rows.map Row.SE = r.rows.map (fun w => w.SE / Real.sqrt k) ∧ r'.Cov = r.Cov / k := by
  have m : ExactML fitLoglogistic2P x r := ⟨ho, argsort, J, num, fun fo => (hE fo).1, fun fo => (hE fo).2, h⟩
  have m' : ExactML fitLoglogistic2P x' r' := ⟨ho', argsort', J', num', fun fo => (hE' fo).1, fun fo => (hE' fo).2, h'⟩
  exact errors_rep (fam := .loglogistic) (by decide) hu hu' hk hF hC (force := none) (force' := none) rfl (line_loglogistic m hu ha hb) ⟨hb, fun _ => ha⟩
    (C100_loglogistic_2P harg J num x r h) (C100_loglogistic_2P harg' J' num' x' r' h')
    (C180_loglogistic_2P m m' ha hb ha' hb' hu hu' hk hF hC)

/-- **C180 (Fit_Normal_2P, standard errors).** The standard errors are divided by the square root of `k`, the covariance by `k`. -/
theorem C180_normal_2P_errors {argsort argsort' : List ℝ → List ℕ} (harg : IsArgsort argsort) (harg' : IsArgsort argsort')
    (J J' : Jac) (num num' : Option ℝ → Num2) (hE : ∀ fo, Exact (num fo).minimize ∧ Exact (num fo).minimize1)
    (hE' : ∀ fo, Exact (num' fo).minimize ∧ Exact (num' fo).minimize1) (hnum : ∀ s m, ((num (some s)).ls m).2 = s) (hnum' : ∀ s m, ((num' (some s)).ls m).2 = s) 
    {x x' : Args} {r r' : FitRes Two} (h : fitNormal2P argsort J num x = .ok r) (h' : fitNormal2P argsort' J' num' x' = .ok r')
    (ho : r.optimizer ≠ none) (ho' : r'.optimizer ≠ none) (hb : 0 < r.dist.b) (hb' : 0 < r'.dist.b)
    {F C F' C' : List ℝ} (hu : Units x F C) (hu' : Units x' F' C') {k : ℕ} (hk : 0 < k) (hF : Times k F F') (hC : Times k C C') (hfo : x.force = x'.force) :
    r'.rows.map Row.SE = r.rows.map (fun w => w.SE / Real.sqrt k) ∧ r'.Cov = r.Cov / k := by
  have m : ExactML fitNormal2P x r := ⟨ho, argsort, J, num, fun fo => (hE fo).1, fun fo => (hE fo).2, h⟩
  have m' : ExactML fitNormal2P x' r' := ⟨ho', argsort', J', num', fun fo => (hE' fo).1, fun fo => (hE' fo).2, h'⟩
  exact errors_rep (fam := .normal) (by decide) hu hu' hk hF hC hfo (line_normal m hu hb) ⟨hb, fun h => by rcases h with h | h <;> cases h⟩
    (C100_normal_2P harg J num hnum x r h) (C100_normal_2P harg' J' num' hnum' x' r' h')
    (C180_normal_2P m m' hb hb' hu hu' hk hF hC hfo)

/-- **C180 (Fit_Lognormal_2P, standard errors).** The standard errors are divided by the square root of `k`, the covariance by `k`. -/
theorem C180_lognormal_2P_errors {argsort argsort' : List ℝ → List ℕ} (harg : IsArgsort argsort) (harg' : IsArgsort argsort')
    (J J' : Jac) (num num' : Option ℝ → Num2) (hE : ∀ fo, Exact (num fo).minimize ∧ Exact (num fo).minimize1)
    (hE' : ∀ fo, Exact (num' fo).minimize ∧ Exact (num' fo).minimize1) (hnum : ∀ s m, ((num (some s)).ls m).2 = s) (hnum' : ∀ s m, ((num' (some s)).ls m).2 = s) 
    {x x' : Args} {r r' : FitRes Two} (h : fitLognormal2P argsort J num x = .ok r) (h' : fitLognormal2P argsort' J' num' x' = .ok r')
    (ho : r.optimizer ≠ none) (ho' : r'.optimizer ≠ none) (hb : 0 < r.dist.b) (hb' : 0 < r'.dist.b)
    {F C F' C' : List ℝ} (hu : Units x F C) (hu' : Units x' F' C') {k : ℕ} (hk : 0 < k) (hF : Times k F F') (hC : Times k C C') (hfo : x.force = x'.force) :
    r'.rows.map Row.SE = r.rows.map (fun w => w.SE / Real.sqrt k) ∧ r'.Cov = r.Cov / k := by
  have m : ExactML fitLognormal2P x r := ⟨ho, argsort, J, num, fun fo => (hE fo).1, fun fo => (hE fo).2, h⟩
  have m' : ExactML fitLognormal2P x' r' := ⟨ho', argsort', J', num', fun fo => (hE' fo).1, fun fo => (hE' fo).2, h'⟩
  exact errors_rep (fam := .lognormal) (by decide) hu hu' hk hF hC hfo (line_lognormal m hu hb) ⟨hb, fun h => by rcases h with h | h <;> cases h⟩
    (C100_lognormal_2P harg J num hnum x r h) (C100_lognormal_2P harg' J' num' hnum' x' r' h')
    (C180_lognormal_2P m m' hb hb' hu hu' hk hF hC hfo)

/-- **C180 (Fit_Gumbel_2P, standard errors).** The standard errors are divided by the square root of `k`, the covariance by `k`. -/
theorem C180_gumbel_2P_errors {argsort argsort' : List ℝ → List ℕ} (harg : IsArgsort argsort) (harg' : IsArgsort argsort')
    (J J' : Jac) (num num' : Option ℝ → Num2) (hE : ∀ fo, Exact (num fo).minimize ∧ Exact (num fo).minimize1)
    (hE' : ∀ fo, Exact (num' fo).minimize ∧ Exact (num' fo).minimize1) 
    {x x' : Args} {r r' : FitRes Two} (h : fitGumbel2P argsort J num x = .ok r) (h' : fitGumbel2P argsort' J' num' x' = .ok r')
    (ho : r.optimizer ≠ none) (ho' : r'.optimizer ≠ none) (hb : 0 < r.dist.b) (hb' : 0 < r'.dist.b)
    {F C F' C' : List ℝ} (hu : Units x F C) (hu' : Units x' F' C') {k : ℕ} (hk : 0 < k) (hF : Times k F F') (hC : Times k C C') :
    r'.rows.map Row.SE = r.rows.map (fun w => w.SE / Real.sqrt k) ∧ r'.Cov = r.Cov / k := by
  have m : ExactML fitGumbel2P x r := ⟨ho, argsort, J, num, fun fo => (hE fo).1, fun fo => (hE fo).2, h⟩
  have m' : ExactML fitGumbel2P x' r' := ⟨ho', argsort', J', num', fun fo => (hE' fo).1, fun fo => (hE' fo).2, h'⟩
  exact errors_rep (fam := .gumbel) (by decide) hu hu' hk hF hC (force := none) (force' := none) rfl (line_gumbel m hu hb) ⟨hb, fun h => by rcases h with h | h <;> cases h⟩
    (C100_gumbel_2P harg J num x r h) (C100_gumbel_2P harg' J' num' x' r' h')
    (C180_gumbel_2P m m' hb hb' hu hu' hk hF hC)

/-- **C180 (Fit_Exponential_1P, standard errors).** -/
theorem C180_exponential_1P_errors {x x' : Args} {r r' : FitRes Expo} (argsort argsort' : List ℝ → List ℕ) (J J' : Jac) (num num' : Num ℝ)
    (hE : Exact num.minimize) (hE' : Exact num'.minimize) (h : fitExponential1P argsort J num x = .ok r)
    (h' : fitExponential1P argsort' J' num' x' = .ok r') (hn : r.optimizer ≠ none) (hn' : r'.optimizer ≠ none)
    (hL : 0 < r.dist.Lambda) (hL' : 0 < r'.dist.Lambda) {F C F' C' : List ℝ} (hu : Units x F C) (hu' : Units x' F' C') {k : ℕ}
    (hk : 0 < k) (hF : Times k F F') (hC : Times k C C') :
    r'.rows.map Row.SE = r.rows.map fun w => w.SE / Real.sqrt k := by
  have e := C180_exponential_1P argsort argsort' J J' num num' hE hE' h h' hn hn' hL hL' hu hu' hk hF hC
  obtain ⟨f, rc, CI, z, w1, w2, u1, -, -, hr, -, -, s1, -, -, -, s2, -⟩ := C103_exponential_1P argsort J num x r h hL
  obtain ⟨f', rc', CI', z', w1', w2', u2, -, -, hr', -, -, s1', -, -, -, s2', -⟩ :=
    C103_exponential_1P argsort' J' num' x' r' h' hL'
  obtain ⟨rfl, rfl⟩ := used_units u1 hu
  obtain ⟨rfl, rfl⟩ := used_units u2 hu'
  have hl : ((keep "Exponential_1P" F').length : ℝ) = k * (keep "Exponential_1P" F).length := by
    rw [(hF.keep "Exponential_1P").length_eq, List.length_flatten, List.map_replicate, List.sum_replicate, smul_eq_mul, Nat.cast_mul]
  have hs : Real.sqrt (keep "Exponential_1P" F').length = Real.sqrt (keep "Exponential_1P" F).length * Real.sqrt k := by
    rw [hl, mul_comm, Real.sqrt_mul' _ (Nat.cast_nonneg _)]
  rw [hr, hr']
  simp only [List.map_cons, List.map_nil, s1, s2, s1', s2', e, hs, div_div, mul_assoc]

/-- The failures 3, 5, 5 entered three times each. -/
example : Times 3 [3, 5, 5] [3, 5, 5, 5, 3, 5, 5, 3, 5] := by
  intro t
  by_cases h1 : t = 3
  · subst h1; norm_num [List.count_cons]
  · by_cases h2 : t = 5
    · subst h2; norm_num [List.count_cons]
    · have h1' : ¬ (3 : ℝ) = t := fun e => h1 e.symm
      have h2' : ¬ (5 : ℝ) = t := fun e => h2 e.symm
      simp [List.count_cons, h1', h2']

end Reliability.Props.UniqueFit

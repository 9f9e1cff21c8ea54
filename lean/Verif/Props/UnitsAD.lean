import Verif.Spec.UnitsAD
import Verif.Props.UnitsEverything
import Verif.Props.Units

/-! # C170: the Anderson–Darling statistic does not depend on the unit of time -/

namespace Reliability.Props.UnitsAD

open Reliability Reliability.Distributions Reliability.InputCheck Reliability.FunctionCI
open Reliability.FitGlue Reliability.Spec Reliability.Spec.InputCheck Reliability.Spec.FitGlue Reliability.Props
open Reliability.Props.UniqueFit Reliability.FitEverythingFull Reliability.Spec.FitEverythingFull Reliability.Props.UnitsEverything
open Reliability.Props.FitEverythingFull Reliability.Props.UnitsReport
open Reliability.Fitters (up Item)

theorem CDF_values {d : Distributions.Dist} {x y : List ℝ} (h : CDF d x = .ok y) : y = x.map d.sp.cdf := CDF_ok_map h

/-- The statistic is a function of the plotting positions and the fitted probabilities at the failures. -/
theorem gof_AD {argsort : List ℝ → List ℕ} (hc : ComparisonSort argsort) {d d' : Distributions.Dist} {F C : List ℝ} {n m n' m' : ℕ}
    {L L' : ℝ} {g g' : GoF} (τ : ℝ → ℝ) (hτ : StrictMono τ) (h : gof argsort (CDF d) F C n m L = .ok g)
    (h' : gof argsort (CDF d') (F.map τ) (C.map τ) n' m' L' = .ok g') (hd : ∀ t, d'.sp.cdf (τ t) = d.sp.cdf t) : g'.AD = g.AD := by
  simp only [gof, bind_ok] at h h'
  obtain ⟨⟨x, y⟩, p1, Y, p2, ad, p3, p4⟩ := h
  obtain ⟨⟨x', y'⟩, q1, Y', q2, ad', q3, q4⟩ := h'
  rw [positions_map hc τ hτ F C none p1] at q1
  cases q1
  have e1 := CDF_values p2
  have e2 := CDF_values q2
  have : Y' = Y := by
    rw [e1, e2, List.map_map]
    exact List.map_congr_left fun t _ => hd t
  rw [this] at q3
  simp only at p3 q3
  rw [p3] at q3
  cases q3
  cases p4
  cases q4
  rfl

theorem fit2_gof {F : Fam2} {argsort : List ℝ → List ℕ} {J : Jac} {num : Option ℝ → Num2} {inp : Checked ℝ} {force : Option ℝ}
    {r : FitRes Two} (h : fit2 F argsort J num inp force = .ok r) :
    r.dist.fam = F.cfam ∧ r.dist.gamma = 0 ∧
      ∃ n m L, gof argsort (CDF (distOf F.cfam r.dist.a r.dist.b 0)) inp.failures inp.right_censored n m L = .ok r.gof := by
  simp only [fit2, bind_ok] at h
  obtain ⟨e, -, s, -, q, -, g, hg, h⟩ := h
  cases h
  exact ⟨rfl, rfl, _, _, _, hg⟩

theorem keep_map {d : String} {l : List ℝ} {τ : ℝ → ℝ} (hu : ∀ t ∈ l, (Usable d (τ t) ↔ Usable d t)) :
    keep d (l.map τ) = (keep d l).map τ := by
  unfold keep
  rw [List.filter_map]
  congr 1
  exact List.filter_congr fun t ht => by simp [hu t ht]

/-- The two-parameter fitters. -/
theorem two_AD {dist : String} {F : Fam2} {argsort : List ℝ → List ℕ} (hc : ComparisonSort argsort) {J J' : Jac}
    {num num' : Option ℝ → Num2} {x x' : Args} {inp inp' : Checked ℝ} {m o ct m' o' ct' : StrArg} {ci ci' : CIArg ℝ} {q q' : QArg ℝ}
    {fb fs fb' fs' force force' : Option ℝ}
    (hi : fittersCheck dist x.failures x.right_censored m o ci q fb fs ct = .ok inp)
    (hi' : fittersCheck dist x'.failures x'.right_censored m' o' ci' q' fb' fs' ct' = .ok inp')
    {r r' : FitRes Two} (h : fit2 F argsort J num inp force = .ok r) (h' : fit2 F argsort J' num' inp' force' = .ok r')
    {A C : List ℝ} {k s : ℝ} (hk : 0 < k) (hs : s = 0 ∨ F.cfam = .normal ∨ F.cfam = .gumbel) (hu : Units x A C)
    (hu' : Units x' (A.map fun t => k * t + s) (C.map fun t => k * t + s))
    (hus : ∀ t, Usable dist (k * t + s) ↔ Usable dist t) (hb : 0 < r.dist.b)
    (ha' : r'.dist.a = (inUnits F.cfam k s r.dist.a r.dist.b).1) (hb' : r'.dist.b = (inUnits F.cfam k s r.dist.a r.dist.b).2) :
    r'.gof.AD = r.gof.AD := by
  obtain ⟨-, -, _, _, _, g⟩ := fit2_gof h
  obtain ⟨-, -, _, _, _, g'⟩ := fit2_gof h'
  have hτ : StrictMono fun t : ℝ => k * t + s := fun u v huv => by
    have := mul_lt_mul_of_pos_left huv hk
    simp only; linarith
  rw [C51_ok_iff] at hi hi'
  obtain ⟨e1, e2⟩ := used_units (used_of_accepts hi) hu
  obtain ⟨e1', e2'⟩ := used_units (used_of_accepts hi') hu'
  rw [keep_map fun t _ => hus t, ← e1] at e1'
  rw [keep_map fun t _ => hus t, ← e2] at e2'
  rw [e1', e2', ha', hb'] at g'
  exact gof_AD hc _ hτ g g' fun t => cdf_units _ _ hk hs hb.ne' t

theorem exact_ml {argsort fit x r} (h : ExactSorted argsort fit x r) : ExactML fit x r := by
  obtain ⟨hn, J, num, h1, h2, h3⟩ := h
  exact ⟨hn, argsort, J, num, h1, h2, h3⟩

theorem map_add_zero (k : ℝ) : (fun t : ℝ => k * t + 0) = (k * ·) := by funext t; ring

/-- **C170 (Fit_Weibull_2P).** Two exact maximum likelihood runs, the second on the times of the first multiplied by `k`: the
Anderson–Darling statistics are equal. -/
theorem C170_weibull_2P {argsort : List ℝ → List ℕ} (hc : ComparisonSort argsort) {x x' : Args} {r r' : FitRes Two}
    (h : ExactSorted argsort fitWeibull2P x r) (h' : ExactSorted argsort fitWeibull2P x' r')
    (ha : 0 < r.dist.a) (hb : 0 < r.dist.b) (ha' : 0 < r'.dist.a) (hb' : 0 < r'.dist.b) {F C : List ℝ} {k : ℝ} (hk : 0 < k)
    (hu : Units x F C) (hu' : Units x' (F.map (k * ·)) (C.map (k * ·))) (hfo : x.force = x'.force) : r'.gof.AD = r.gof.AD := by
  obtain ⟨e1, e2⟩ := C163_weibull_2P (exact_ml h) (exact_ml h') ha hb ha' hb' hu hu' hk (.refl _) (.refl _) hfo
  obtain ⟨-, J, num, -, -, h⟩ := h
  obtain ⟨-, J', num', -, -, h'⟩ := h'
  simp only [fitWeibull2P, bind_ok] at h h'
  obtain ⟨inp, i1, i2⟩ := h
  obtain ⟨inp', i1', i2'⟩ := h'
  exact two_AD (F := weibull2) hc i1 i1' i2 i2' hk (.inl rfl) hu (by simpa only [map_add_zero] using hu')
    (fun t => by rw [add_zero]; exact usable_mul (by decide) hk t) hb e1 e2

/-- **C170 (Fit_Loglogistic_2P).** -/
theorem C170_loglogistic_2P {argsort : List ℝ → List ℕ} (hc : ComparisonSort argsort) {x x' : Args} {r r' : FitRes Two}
    (h : ExactSorted argsort fitLoglogistic2P x r) (h' : ExactSorted argsort fitLoglogistic2P x' r')
    (ha : 0 < r.dist.a) (hb : 0 < r.dist.b) (ha' : 0 < r'.dist.a) (hb' : 0 < r'.dist.b) {F C : List ℝ} {k : ℝ} (hk : 0 < k)
    (hu : Units x F C) (hu' : Units x' (F.map (k * ·)) (C.map (k * ·))) : r'.gof.AD = r.gof.AD := by
  obtain ⟨e1, e2⟩ := C163_loglogistic_2P (exact_ml h) (exact_ml h') ha hb ha' hb' hu hu' hk (.refl _) (.refl _)
  obtain ⟨-, J, num, -, -, h⟩ := h
  obtain ⟨-, J', num', -, -, h'⟩ := h'
  simp only [fitLoglogistic2P, bind_ok] at h h'
  obtain ⟨inp, i1, i2⟩ := h
  obtain ⟨inp', i1', i2'⟩ := h'
  exact two_AD (F := loglogistic2) hc i1 i1' i2 i2' hk (.inl rfl) hu (by simpa only [map_add_zero] using hu')
    (fun t => by rw [add_zero]; exact usable_mul (by decide) hk t) hb e1 e2

/-- **C170 (Fit_Lognormal_2P).** -/
theorem C170_lognormal_2P {argsort : List ℝ → List ℕ} (hc : ComparisonSort argsort) {x x' : Args} {r r' : FitRes Two}
    (h : ExactSorted argsort fitLognormal2P x r) (h' : ExactSorted argsort fitLognormal2P x' r')
    (hb : 0 < r.dist.b) (hb' : 0 < r'.dist.b) {F C : List ℝ} {k : ℝ} (hk : 0 < k)
    (hu : Units x F C) (hu' : Units x' (F.map (k * ·)) (C.map (k * ·))) (hfo : x.force = x'.force) : r'.gof.AD = r.gof.AD := by
  obtain ⟨e1, e2⟩ := C163_lognormal_2P (exact_ml h) (exact_ml h') hb hb' hu hu' hk (.refl _) (.refl _) hfo
  obtain ⟨-, J, num, -, -, h⟩ := h
  obtain ⟨-, J', num', -, -, h'⟩ := h'
  simp only [fitLognormal2P, bind_ok] at h h'
  obtain ⟨inp, i1, i2⟩ := h
  obtain ⟨inp', i1', i2'⟩ := h'
  exact two_AD (F := lognormal2) hc i1 i1' i2 i2' hk (.inl rfl) hu (by simpa only [map_add_zero] using hu')
    (fun t => by rw [add_zero]; exact usable_mul (by decide) hk t) hb e1 e2

/-- **C170 (Fit_Normal_2P).** The times may also be counted from another moment (`s`); a forced sigma is converted. -/
theorem C170_normal_2P {argsort : List ℝ → List ℕ} (hc : ComparisonSort argsort) {x x' : Args} {r r' : FitRes Two}
    (h : ExactSorted argsort fitNormal2P x r) (h' : ExactSorted argsort fitNormal2P x' r')
    (hb : 0 < r.dist.b) (hb' : 0 < r'.dist.b) {F C : List ℝ} {k s : ℝ} (hk : 0 < k)
    (hu : Units x F C) (hu' : Units x' (F.map fun t => k * t + s) (C.map fun t => k * t + s))
    (hfo : x'.force = x.force.map (k * ·)) : r'.gof.AD = r.gof.AD := by
  obtain ⟨e1, e2⟩ := C163_normal_2P (exact_ml h) (exact_ml h') hb hb' hu hu' hk (.refl _) (.refl _) hfo
  obtain ⟨-, J, num, -, -, h⟩ := h
  obtain ⟨-, J', num', -, -, h'⟩ := h'
  simp only [fitNormal2P, bind_ok] at h h'
  obtain ⟨inp, i1, i2⟩ := h
  obtain ⟨inp', i1', i2'⟩ := h'
  exact two_AD (F := normal2) hc i1 i1' i2 i2' hk (.inr (.inl rfl)) hu hu'
    (fun t => ⟨fun _ => usable_line (by decide) _, fun _ => usable_line (by decide) _⟩) hb e1 e2

/-- **C170 (Fit_Gumbel_2P).** -/
theorem C170_gumbel_2P {argsort : List ℝ → List ℕ} (hc : ComparisonSort argsort) {x x' : Args} {r r' : FitRes Two}
    (h : ExactSorted argsort fitGumbel2P x r) (h' : ExactSorted argsort fitGumbel2P x' r')
    (hb : 0 < r.dist.b) (hb' : 0 < r'.dist.b) {F C : List ℝ} {k s : ℝ} (hk : 0 < k)
    (hu : Units x F C) (hu' : Units x' (F.map fun t => k * t + s) (C.map fun t => k * t + s)) : r'.gof.AD = r.gof.AD := by
  obtain ⟨e1, e2⟩ := C163_gumbel_2P (exact_ml h) (exact_ml h') hb hb' hu hu' hk (.refl _) (.refl _)
  obtain ⟨-, J, num, -, -, h⟩ := h
  obtain ⟨-, J', num', -, -, h'⟩ := h'
  simp only [fitGumbel2P, bind_ok] at h h'
  obtain ⟨inp, i1, i2⟩ := h
  obtain ⟨inp', i1', i2'⟩ := h'
  exact two_AD (F := gumbel2) hc i1 i1' i2 i2' hk (.inr (.inr rfl)) hu hu'
    (fun t => ⟨fun _ => usable_line (by decide) _, fun _ => usable_line (by decide) _⟩) hb e1 e2

/-- **C170 (Fit_Exponential_1P).** -/
theorem C170_exponential_1P {argsort : List ℝ → List ℕ} (hc : ComparisonSort argsort) {x x' : Args} {r r' : FitRes Expo} (J J' : Jac)
    (num num' : Num ℝ) (hE : Exact num.minimize) (hE' : Exact num'.minimize) (h : fitExponential1P argsort J num x = .ok r)
    (h' : fitExponential1P argsort J' num' x' = .ok r') (hn : r.optimizer ≠ none) (hn' : r'.optimizer ≠ none)
    (hL : 0 < r.dist.Lambda) (hL' : 0 < r'.dist.Lambda) {F C : List ℝ} {k : ℝ} (hk : 0 < k) (hu : Units x F C)
    (hu' : Units x' (F.map (k * ·)) (C.map (k * ·))) : r'.gof.AD = r.gof.AD := by
  have e := C163_exponential_1P argsort argsort J J' num num' hE hE' h h' hn hn' hL hL' hu hu' hk (.refl _) (.refl _)
  simp only [fitExponential1P, bind_ok] at h h'
  obtain ⟨inp, i1, _, -, _, -, _, -, g, hg, h⟩ := h
  obtain ⟨inp', i1', _, -, _, -, _, -, g', hg', h'⟩ := h'
  cases h
  cases h'
  simp only at e hL ⊢
  rw [C51_ok_iff] at i1 i1'
  obtain ⟨e1, e2⟩ := used_units (used_of_accepts i1) hu
  obtain ⟨e1', e2'⟩ := used_units (used_of_accepts i1') hu'
  have hus : ∀ t, Usable "Exponential_1P" (k * t) ↔ Usable "Exponential_1P" t := fun t => usable_mul (by decide) hk t
  rw [keep_map fun t _ => hus t, ← e1] at e1'
  rw [keep_map fun t _ => hus t, ← e2] at e2'
  rw [e1', e2'] at hg'
  refine gof_AD hc (k * ·) (fun u v huv => mul_lt_mul_of_pos_left huv hk) hg hg' fun t => ?_
  simp only [Fitted.dist]
  rw [e]
  have : ∀ L : ℝ, (k * t - 0) / (1 / (L / k)) = (t - 0) / (1 / L) := fun L => by field_simp; ring
  exact congrArg exponStd.cdf (this _)

/-- The statistic of the fit of one distribution, in two units. -/
theorem individual_AD {A A' : Answers} (hA : ExactAnswers A) (hA' : ExactAnswers A') (has : A'.argsort = A.argsort)
    (hc : ComparisonSort A.argsort) {d : Reliability.Fitters.Dist} (hd : d ∈ scaleDists) (hg : d ≠ .Gamma_2P)
    {F C : List ℝ} {m o m' o' : StrArg} {k : ℝ} (hk : 0 < k) {r r' : Outcome} (h : individual A d (.array F) (.array C) m o = .ok r)
    (h' : individual A' d (.array (F.map (k * ·))) (.array (C.map (k * ·))) m' o' = .ok r') (hn : r.optimizer ≠ none)
    (hn' : r'.optimizer ≠ none) (hp : ∀ n v, (n, v) ∈ r.params → n ∈ tableColumns → n ≠ "Mu" → 0 < v)
    (hp' : ∀ n v, (n, v) ∈ r'.params → n ∈ tableColumns → n ≠ "Mu" → 0 < v) : r'.gof.AD = r.gof.AD := by
  simp only [scaleDists, List.mem_cons, List.not_mem_nil, or_false] at hd
  rcases hd with rfl | rfl | rfl | rfl | rfl | rfl | rfl <;> obtain ⟨r, hr, rfl⟩ := UnitsEverything.map_ok h <;>
    obtain ⟨r', hr', rfl⟩ := UnitsEverything.map_ok h'
  · have ex := hA.exact2 A.w2 (by simp)
    have ex' := hA'.exact2 A'.w2 (by simp)
    obtain ⟨_, _, _, -, -, e⟩ := C100_weibull_2P hA.sorts A.J A.w2 (hA.keeps A.w2 (by simp)) _ r hr
    obtain ⟨_, _, _, -, -, e'⟩ := C100_weibull_2P hA'.sorts A'.J A'.w2 (hA'.keeps A'.w2 (by simp)) _ r' hr'
    have pa : ∀ n v, (n, v) ∈ [("Alpha", r.dist.a), ("Beta", r.dist.b)] → n ∈ tableColumns → n ≠ "Mu" → 0 < v := by
      rw [← e.1]; exact hp
    have pa' : ∀ n v, (n, v) ∈ [("Alpha", r'.dist.a), ("Beta", r'.dist.b)] → n ∈ tableColumns → n ≠ "Mu" → 0 < v := by
      rw [← e'.1]; exact hp'
    rw [has] at hr'
    exact C170_weibull_2P (F := F) (C := C) (k := k) hc ⟨hn, A.J, A.w2, fun fo => (ex fo).1, fun fo => (ex fo).2, hr⟩
      ⟨hn', A'.J, A'.w2, fun fo => (ex' fo).1, fun fo => (ex' fo).2, hr'⟩
      (pa "Alpha" r.dist.a (by simp) (by decide) (by decide)) (pa "Beta" r.dist.b (by simp) (by decide) (by decide)) (pa' "Alpha" r'.dist.a (by simp) (by decide) (by decide)) (pa' "Beta" r'.dist.b (by simp) (by decide) (by decide))
      hk ⟨rfl, .inr rfl⟩ ⟨rfl, .inr rfl⟩ rfl
  · exact absurd rfl hg
  · have ex := hA.exact2 A.l2 (by simp)
    have ex' := hA'.exact2 A'.l2 (by simp)
    obtain ⟨_, _, _, -, -, e⟩ := C100_lognormal_2P hA.sorts A.J A.l2 (hA.keeps A.l2 (by simp)) _ r hr
    obtain ⟨_, _, _, -, -, e'⟩ := C100_lognormal_2P hA'.sorts A'.J A'.l2 (hA'.keeps A'.l2 (by simp)) _ r' hr'
    have pa : ∀ n v, (n, v) ∈ [("Mu", r.dist.a), ("Sigma", r.dist.b)] → n ∈ tableColumns → n ≠ "Mu" → 0 < v := by
      rw [← e.1]; exact hp
    have pa' : ∀ n v, (n, v) ∈ [("Mu", r'.dist.a), ("Sigma", r'.dist.b)] → n ∈ tableColumns → n ≠ "Mu" → 0 < v := by
      rw [← e'.1]; exact hp'
    rw [has] at hr'
    exact C170_lognormal_2P (F := F) (C := C) (k := k) hc ⟨hn, A.J, A.l2, fun fo => (ex fo).1, fun fo => (ex fo).2, hr⟩
      ⟨hn', A'.J, A'.l2, fun fo => (ex' fo).1, fun fo => (ex' fo).2, hr'⟩
      (pa "Sigma" r.dist.b (by simp) (by decide) (by decide)) (pa' "Sigma" r'.dist.b (by simp) (by decide) (by decide))
      hk ⟨rfl, .inr rfl⟩ ⟨rfl, .inr rfl⟩ rfl
  · have lam : ∀ {as J num x} {r : FitRes Expo}, fitExponential1P as J num x = .ok r →
        ("Lambda", r.dist.Lambda) ∈ r.rows.map fun w => (w.name, w.point) := by
      intro as J num x r g
      obtain ⟨_, -, -, -, s, -, e, -⟩ := exp1_run g
      rw [e]
      cases s <;> simp [rowsExp, fixedRow]
    have l' := lam hr'
    rw [has] at hr'
    exact C170_exponential_1P (F := F) (C := C) (k := k) hc A.J A'.J A.e1 A'.e1 hA.exactExpo hA'.exactExpo hr hr' hn hn'
      (hp _ _ (lam hr) (by decide) (by decide)) (hp' _ _ l' (by decide) (by decide)) hk ⟨rfl, .inr rfl⟩ ⟨rfl, .inr rfl⟩
  · have ex := hA.exact2 A.n2 (by simp)
    have ex' := hA'.exact2 A'.n2 (by simp)
    obtain ⟨_, _, _, -, -, e⟩ := C100_normal_2P hA.sorts A.J A.n2 (hA.keeps A.n2 (by simp)) _ r hr
    obtain ⟨_, _, _, -, -, e'⟩ := C100_normal_2P hA'.sorts A'.J A'.n2 (hA'.keeps A'.n2 (by simp)) _ r' hr'
    have pa : ∀ n v, (n, v) ∈ [("Mu", r.dist.a), ("Sigma", r.dist.b)] → n ∈ tableColumns → n ≠ "Mu" → 0 < v := by
      rw [← e.1]; exact hp
    have pa' : ∀ n v, (n, v) ∈ [("Mu", r'.dist.a), ("Sigma", r'.dist.b)] → n ∈ tableColumns → n ≠ "Mu" → 0 < v := by
      rw [← e'.1]; exact hp'
    rw [has] at hr'
    exact C170_normal_2P (F := F) (C := C) (k := k) hc ⟨hn, A.J, A.n2, fun fo => (ex fo).1, fun fo => (ex fo).2, hr⟩
      ⟨hn', A'.J, A'.n2, fun fo => (ex' fo).1, fun fo => (ex' fo).2, hr'⟩
      (pa "Sigma" r.dist.b (by simp) (by decide) (by decide)) (pa' "Sigma" r'.dist.b (by simp) (by decide) (by decide))
      (s := 0) hk ⟨rfl, .inr rfl⟩ (by simp only [map_add_zero]; exact ⟨rfl, .inr rfl⟩) rfl
  · have ex := hA.exact2 A.gu2 (by simp)
    have ex' := hA'.exact2 A'.gu2 (by simp)
    obtain ⟨_, _, _, -, -, e⟩ := C100_gumbel_2P hA.sorts A.J A.gu2 _ r hr
    obtain ⟨_, _, _, -, -, e'⟩ := C100_gumbel_2P hA'.sorts A'.J A'.gu2 _ r' hr'
    have pa : ∀ n v, (n, v) ∈ [("Mu", r.dist.a), ("Sigma", r.dist.b)] → n ∈ tableColumns → n ≠ "Mu" → 0 < v := by
      rw [← e.1]; exact hp
    have pa' : ∀ n v, (n, v) ∈ [("Mu", r'.dist.a), ("Sigma", r'.dist.b)] → n ∈ tableColumns → n ≠ "Mu" → 0 < v := by
      rw [← e'.1]; exact hp'
    rw [has] at hr'
    exact C170_gumbel_2P (F := F) (C := C) (k := k) hc ⟨hn, A.J, A.gu2, fun fo => (ex fo).1, fun fo => (ex fo).2, hr⟩
      ⟨hn', A'.J, A'.gu2, fun fo => (ex' fo).1, fun fo => (ex' fo).2, hr'⟩
      (pa "Sigma" r.dist.b (by simp) (by decide) (by decide)) (pa' "Sigma" r'.dist.b (by simp) (by decide) (by decide))
      (s := 0) hk ⟨rfl, .inr rfl⟩ (by simp only [map_add_zero]; exact ⟨rfl, .inr rfl⟩)
  · have ex := hA.exact2 A.lo2 (by simp)
    have ex' := hA'.exact2 A'.lo2 (by simp)
    obtain ⟨_, _, _, -, -, e⟩ := C100_loglogistic_2P hA.sorts A.J A.lo2 _ r hr
    obtain ⟨_, _, _, -, -, e'⟩ := C100_loglogistic_2P hA'.sorts A'.J A'.lo2 _ r' hr'
    have pa : ∀ n v, (n, v) ∈ [("Alpha", r.dist.a), ("Beta", r.dist.b)] → n ∈ tableColumns → n ≠ "Mu" → 0 < v := by
      rw [← e.1]; exact hp
    have pa' : ∀ n v, (n, v) ∈ [("Alpha", r'.dist.a), ("Beta", r'.dist.b)] → n ∈ tableColumns → n ≠ "Mu" → 0 < v := by
      rw [← e'.1]; exact hp'
    rw [has] at hr'
    exact C170_loglogistic_2P (F := F) (C := C) (k := k) hc ⟨hn, A.J, A.lo2, fun fo => (ex fo).1, fun fo => (ex fo).2, hr⟩
      ⟨hn', A'.J, A'.lo2, fun fo => (ex' fo).1, fun fo => (ex' fo).2, hr'⟩
      (pa "Alpha" r.dist.a (by simp) (by decide) (by decide)) (pa "Beta" r.dist.b (by simp) (by decide) (by decide)) (pa' "Alpha" r'.dist.a (by simp) (by decide) (by decide)) (pa' "Beta" r'.dist.b (by simp) (by decide) (by decide))
      hk ⟨rfl, .inr rfl⟩ ⟨rfl, .inr rfl⟩

theorem withoutZeros_map {k : ℝ} (hk : 0 < k) (l : List ℝ) : withoutZeros (l.map (k * ·)) = (withoutZeros l).map (k * ·) := by
  unfold withoutZeros
  rw [List.filter_map]
  congr 1
  refine List.filter_congr fun t _ => ?_
  simp [hk.ne']

/-- **C170 (Fit_Everything).** The same for the rows of Fit_Everything. -/
theorem C170_rows {A A' : Answers} (hA : ExactAnswers A) (hA' : ExactAnswers A') (has : A'.argsort = A.argsort)
    (hc : ComparisonSort A.argsort) {x x' : FEArgs} {res res' : FERes}
    (h : fitEverything A x = .ok res) (h' : fitEverything A' x' = .ok res') {F C : List ℝ} {k : ℝ} (hk : 0 < k)
    (hg : Given x.failures x.right_censored F C) (hg' : Given x'.failures x'.right_censored (F.map (k * ·)) (C.map (k * ·)))
    {r r' : FRow} (hr : r ∈ res.results) (hr' : r' ∈ res'.results)
    (hd : r'.dist = r.dist) (hs : r.dist ∈ scaleDists) (hga : r.dist ≠ .Gamma_2P) (hp : Admissible r) (hp' : Admissible r') :
    r'.gof.AD = r.gof.AD := by
  obtain ⟨F₁, C₁, g1, -, -, rows⟩ := C121_rows hA.sorts h
  obtain ⟨F₂, C₂, g2, -, -, rows'⟩ := C121_rows hA'.sorts h'
  obtain ⟨rfl, rfl⟩ := given_unique hg g1
  obtain ⟨rfl, rfl⟩ := given_unique hg' g2
  obtain ⟨o, i, a1, a2, a3, a4⟩ := rows r hr
  obtain ⟨o', i', b1, b2, b3, b4⟩ := rows' r' hr'
  rw [hd, withoutZeros_map hk, withoutZeros_map hk] at i'
  rw [a1, b1]
  exact individual_AD hA hA' has hc hs hga hk i i' (by rw [← a2]; exact hp.1) (by rw [← b2]; exact hp'.1)
    (row_positive hp a3 a4 (names_nodup hA hs i)) (row_positive hp' b3 b4 (names_nodup hA' hs i'))

/-- **C170 (best by AD).** If both runs of Fit_Everything sort by the Anderson–Darling statistic and fit only distributions without
a location (and not Gamma_2P), the best distribution of the second run is a best one of the first, and the same one if there are no
ties. -/
theorem C170_best_AD {A A' : Answers} (hA : ExactAnswers A) (hA' : ExactAnswers A') (has : A'.argsort = A.argsort)
    (hc : ComparisonSort A.argsort) {x x' : FEArgs} {res res' : FERes}
    (h : fitEverything A x = .ok res) (h' : fitEverything A' x' = .ok res') {F C : List ℝ} {k : ℝ} (hk : 0 < k)
    (hg : Given x.failures x.right_censored F C) (hg' : Given x'.failures x'.right_censored (F.map (k * ·)) (C.map (k * ·)))
    (he : x'.exclude = x.exclude) {s s' : String} (hsb : x.sort_by = some s) (hsb' : x'.sort_by = some s') (hB : up s = "AD")
    (hB' : up s' = "AD") (hs : ∀ r ∈ res.results, (r.dist ∈ scaleDists ∧ r.dist ≠ .Gamma_2P) ∧ Admissible r)
    (hs' : ∀ r ∈ res'.results, (r.dist ∈ scaleDists ∧ r.dist ≠ .Gamma_2P) ∧ Admissible r) :
    (∃ r ∈ res.results, r.dist = res'.best_name ∧ ∀ q ∈ res.results, r.gof.AD ≤ q.gof.AD) ∧
      ((∀ r ∈ res.results, ∀ q ∈ res.results, r.gof.AD = q.gof.AD → r = q) → res'.best_name = res.best_name) := by
  obtain ⟨b', F₁, C₁, o', -, hb', bn', -, -, -, -, hmin', -⟩ := C121_best hA'.sorts h' hsb'
  obtain ⟨b, F₂, C₂, o, -, hb, bn, -, -, -, -, hmin, -⟩ := C121_best hA.sorts h hsb
  have hbm' : b' ∈ res'.results := List.mem_of_mem_head? (by rw [hb']; rfl)
  have hbm : b ∈ res.results := List.mem_of_mem_head? (by rw [hb]; rfl)
  obtain ⟨r, hr, hrd⟩ := List.mem_map.1 ((same_rows hA hA' h h' he (hs' _ hbm').1.1).2 (List.mem_map_of_mem hbm'))
  have low : ∀ q ∈ res.results, r.gof.AD ≤ q.gof.AD := by
    intro q hq
    obtain ⟨q', hq', hqd⟩ := List.mem_map.1 ((same_rows hA hA' h h' he (hs _ hq).1.1).1 (List.mem_map_of_mem hq))
    have s1 := C170_rows hA hA' has hc h h' hk hg hg' hr hbm' hrd.symm (hs _ hr).1.1 (hs _ hr).1.2 (hs _ hr).2 (hs' _ hbm').2
    have s2 := C170_rows hA hA' has hc h h' hk hg hg' hq hq' hqd (hs _ hq).1.1 (hs _ hq).1.2 (hs _ hq).2 (hs' _ hq').2
    have := hmin' hB' q' hq'
    rwa [s1, s2] at this
  refine ⟨⟨r, hr, hrd.trans bn', low⟩, fun hinj => ?_⟩
  have := hinj r hr b hbm (le_antisymm (low b hbm) (hmin hB r hr))
  rw [← bn', ← hrd, this, bn]

/-- Failures at 1, 2, 3 and an item censored at 4, and the same times in a unit a tenth as long: both calls return, and the best
distribution of the second is a best one of the first. -/
example {argsort : List ℝ → List ℕ} (ha : IsArgsort argsort) (hc : ComparisonSort argsort) (J : Jac) :
    ∃ res res', fitEverything (exactAll argsort J) (exCall [1, 2, 3] [4] "AD") = .ok res ∧
      fitEverything (exactAll argsort J) (exCall [10, 20, 30] [40] "AD") = .ok res' ∧
      ∃ r ∈ res.results, r.dist = res'.best_name ∧ ∀ q ∈ res.results, r.gof.AD ≤ q.gof.AD := by
  have h3 : 2 ≤ ([1, 2, 3] : List ℝ).toFinset.card := by
    rw [List.toFinset_card_of_nodup (by norm_num)]; simp
  have h3' : 2 ≤ ([10, 20, 30] : List ℝ).toFinset.card := by
    rw [List.toFinset_card_of_nodup (by norm_num)]; simp
  obtain ⟨res, h, hs⟩ := ex_returns ha J (F := [1, 2, 3]) (C := [4]) (by simp) (by simp) h3 (s := "AD") (.inl (by decide +kernel))
  obtain ⟨res', h', hs'⟩ := ex_returns ha J (F := [10, 20, 30]) (C := [40]) (by simp) (by simp) h3' (s := "AD") (.inl (by decide +kernel))
  have hA := exactAll_exact ha J
  have ng : ∀ {F C : List ℝ} {res : FERes}, fitEverything (exactAll argsort J) (exCall F C "AD") = .ok res → ∀ r ∈ res.results,
      r.dist ≠ .Gamma_2P := by
    intro F C res h r hr e
    obtain ⟨_, _, -, -, rows, -⟩ := C121_rows ha h
    exact (rows .Gamma_2P).1 (e ▸ List.mem_map_of_mem hr) (ex_leftOut.2 (by decide))
  refine ⟨res, res', h, h', (C170_best_AD hA hA rfl hc h h' (F := [1, 2, 3]) (C := [4]) (k := 10) (by norm_num) ⟨rfl, .inr rfl⟩ ?_
    rfl (s := "AD") (s' := "AD") rfl rfl (by decide +kernel) (by decide +kernel) (fun r hr => ⟨⟨(hs r hr).1, ng h r hr⟩, (hs r hr).2⟩)
    (fun r hr => ⟨⟨(hs' r hr).1, ng h' r hr⟩, (hs' r hr).2⟩)).1⟩
  have e1 : ([1, 2, 3].map ((10 : ℝ) * ·)) = [10, 20, 30] := by norm_num
  have e2 : ([4].map ((10 : ℝ) * ·)) = [40] := by norm_num
  rw [e1, e2]
  exact ⟨rfl, .inr rfl⟩

end Reliability.Props.UnitsAD

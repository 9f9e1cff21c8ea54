import Verif.Spec.UnitsEverything
import Verif.Props.UnitsReport
import Verif.Props.FitEverythingReturns

/-! # C169: Fit_Everything in another unit of time -/

namespace Reliability.Props.UnitsEverything

open Reliability Reliability.Distributions Reliability.InputCheck Reliability.FitGlue Reliability.FitEverythingFull
open Reliability.Spec Reliability.Spec.FitEverythingFull Reliability.Spec.InputCheck Reliability.Spec.FitGlue
open Reliability.Fitters (up fitOrder Exclude Item)
open Reliability.FunctionCI (CFam Two Expo Jac)
open Reliability.Props (bind_ok C100_weibull_2P C100_normal_2P C100_lognormal_2P C100_gumbel_2P C100_loglogistic_2P C100_gamma_2P exp1_run C99_normal_2P C99_lognormal_2P C112_lognormal_2P
  normal_LL_eq devs)
open Reliability.Likelihood
open Reliability.Props.Likelihood (C41_normal_2P C41_lognormal)
open Reliability.Props.UnitsReport Reliability.Props.FitEverythingFull Reliability.Props.UniqueFit

theorem map_ok {α β : Type} {f : α → β} {e : Except Err α} {b : β} (h : e.map f = .ok b) : ∃ a, e = .ok a ∧ f a = b := by
  cases e with
  | error => cases h
  | ok a => exact ⟨a, rfl, by cases h; rfl⟩

/-- The criteria of the fit of one distribution, in two units. -/
theorem individual_shift {A A' : Answers} (hA : ExactAnswers A) (hA' : ExactAnswers A') {d : Reliability.Fitters.Dist} (hd : d ∈ scaleDists)
    {F C F' C' : List ℝ} {m o m' o' : StrArg} {k : ℝ} (hk : 0 < k) (hF : F'.Perm (F.map (k * ·))) (hC : C'.Perm (C.map (k * ·)))
    (hpos : ∀ t ∈ F, 0 < t) {r r' : Outcome} (h : individual A d (.array F) (.array C) m o = .ok r)
    (h' : individual A' d (.array F') (.array C') m' o' = .ok r') (hn : r.optimizer ≠ none) (hn' : r'.optimizer ≠ none)
    (hp : ∀ n v, (n, v) ∈ r.params → n ∈ tableColumns → n ≠ "Mu" → 0 < v) (hp' : ∀ n v, (n, v) ∈ r'.params → n ∈ tableColumns → n ≠ "Mu" → 0 < v) :
    Shifted F.length k r.gof r'.gof := by
  have hcount : (F.countP fun t => decide (0 < t)) = F.length := List.countP_eq_length.2 fun t ht => by simpa using hpos t ht
  simp only [scaleDists, List.mem_cons, List.not_mem_nil, or_false] at hd
  rcases hd with rfl | rfl | rfl | rfl | rfl | rfl | rfl <;> obtain ⟨r, hr, rfl⟩ := map_ok h <;>
    obtain ⟨r', hr', rfl⟩ := map_ok h'
  · have ex := hA.exact2 A.w2 (by simp)
    have ex' := hA'.exact2 A'.w2 (by simp)
    obtain ⟨_, _, _, -, -, e⟩ := C100_weibull_2P hA.sorts A.J A.w2 (hA.keeps A.w2 (by simp)) _ r hr
    obtain ⟨_, _, _, -, -, e'⟩ := C100_weibull_2P hA'.sorts A'.J A'.w2 (hA'.keeps A'.w2 (by simp)) _ r' hr'
    have pa : ∀ n v, (n, v) ∈ [("Alpha", r.dist.a), ("Beta", r.dist.b)] → n ∈ tableColumns → n ≠ "Mu" → 0 < v := by
      rw [← e.1]; exact hp
    have pa' : ∀ n v, (n, v) ∈ [("Alpha", r'.dist.a), ("Beta", r'.dist.b)] → n ∈ tableColumns → n ≠ "Mu" → 0 < v := by
      rw [← e'.1]; exact hp'
    have := C168_weibull_2P (F := F) (C := C) (F' := F') (C' := C') (k := k) ⟨hn, A.argsort, A.J, A.w2, hA.sorts, hA.keeps A.w2 (by simp), fun fo => (ex fo).1, fun fo => (ex fo).2, hr⟩
      ⟨hn', A'.argsort, A'.J, A'.w2, hA'.sorts, hA'.keeps A'.w2 (by simp), fun fo => (ex' fo).1, fun fo => (ex' fo).2, hr'⟩
      (pa "Alpha" r.dist.a (by simp) (by decide) (by decide)) (pa "Beta" r.dist.b (by simp) (by decide) (by decide)) (pa' "Alpha" r'.dist.a (by simp) (by decide) (by decide)) (pa' "Beta" r'.dist.b (by simp) (by decide) (by decide))
      ⟨rfl, .inr rfl⟩ ⟨rfl, .inr rfl⟩ hk hF hC rfl
    rwa [hcount] at this
  · obtain ⟨_, _, _, _, -, -, e⟩ := C100_gamma_2P hA.sorts A.J A.ga2 _ r hr
    obtain ⟨_, _, _, _, -, -, e'⟩ := C100_gamma_2P hA'.sorts A'.J A'.ga2 _ r' hr'
    have pa : ∀ w ∈ r.rows, 0 < w.point := fun w hw => by
      have hm : (w.name, w.point) ∈ r.rows.map fun w => (w.name, w.point) := List.mem_map_of_mem (f := fun w : Row => (w.name, w.point)) hw
      refine hp _ _ hm ?_ ?_ <;> rw [e.1] at hm <;> simp only [List.mem_cons, List.not_mem_nil, or_false, Prod.mk.injEq] at hm <;>
        rcases hm with hm | hm <;> simp only [hm.1] <;> decide
    have pa' : ∀ w ∈ r'.rows, 0 < w.point := fun w hw => by
      have hm : (w.name, w.point) ∈ r'.rows.map fun w => (w.name, w.point) := List.mem_map_of_mem (f := fun w : Row => (w.name, w.point)) hw
      refine hp' _ _ hm ?_ ?_ <;> rw [e'.1] at hm <;> simp only [List.mem_cons, List.not_mem_nil, or_false, Prod.mk.injEq] at hm <;>
        rcases hm with hm | hm <;> simp only [hm.1] <;> decide
    have := C168_gamma_2P (F := F) (C := C) (F' := F') (C' := C') (k := k) hA.sorts hA'.sorts A.J A'.J A.ga2 A'.ga2 hA.exactGamma hA'.exactGamma hr hr' hn hn' pa pa'
      ⟨rfl, .inr rfl⟩ ⟨rfl, .inr rfl⟩ hk hF hC
    rwa [hcount] at this
  · have ex := hA.exact2 A.l2 (by simp)
    have ex' := hA'.exact2 A'.l2 (by simp)
    obtain ⟨_, _, _, -, -, e⟩ := C100_lognormal_2P hA.sorts A.J A.l2 (hA.keeps A.l2 (by simp)) _ r hr
    obtain ⟨_, _, _, -, -, e'⟩ := C100_lognormal_2P hA'.sorts A'.J A'.l2 (hA'.keeps A'.l2 (by simp)) _ r' hr'
    have pa : ∀ n v, (n, v) ∈ [("Mu", r.dist.a), ("Sigma", r.dist.b)] → n ∈ tableColumns → n ≠ "Mu" → 0 < v := by
      rw [← e.1]; exact hp
    have pa' : ∀ n v, (n, v) ∈ [("Mu", r'.dist.a), ("Sigma", r'.dist.b)] → n ∈ tableColumns → n ≠ "Mu" → 0 < v := by
      rw [← e'.1]; exact hp'
    have := C168_lognormal_2P (F := F) (C := C) (F' := F') (C' := C') (k := k) ⟨hn, A.argsort, A.J, A.l2, hA.sorts, hA.keeps A.l2 (by simp), fun fo => (ex fo).1, fun fo => (ex fo).2, hr⟩
      ⟨hn', A'.argsort, A'.J, A'.l2, hA'.sorts, hA'.keeps A'.l2 (by simp), fun fo => (ex' fo).1, fun fo => (ex' fo).2, hr'⟩
      (pa "Sigma" r.dist.b (by simp) (by decide) (by decide)) (pa' "Sigma" r'.dist.b (by simp) (by decide) (by decide))
      ⟨rfl, .inr rfl⟩ ⟨rfl, .inr rfl⟩ hk hF hC rfl
    rwa [hcount] at this
  · have lam : ∀ {as J num x} {r : FitRes Expo}, fitExponential1P as J num x = .ok r →
        ("Lambda", r.dist.Lambda) ∈ r.rows.map fun w => (w.name, w.point) := by
      intro as J num x r g
      obtain ⟨_, -, -, -, s, -, e, -⟩ := exp1_run g
      rw [e]
      cases s <;> simp [rowsExp, fixedRow]
    have := C168_exponential_1P (F := F) (C := C) (F' := F') (C' := C') (k := k) hA.sorts hA'.sorts A.J A'.J A.e1 A'.e1 hA.exactExpo hA'.exactExpo hr hr' hn hn'
      (hp _ _ (lam hr) (by decide) (by decide)) (hp' _ _ (lam hr') (by decide) (by decide))
      ⟨rfl, .inr rfl⟩ ⟨rfl, .inr rfl⟩ hk hF hC
    rwa [hcount] at this
  · have ex := hA.exact2 A.n2 (by simp)
    have ex' := hA'.exact2 A'.n2 (by simp)
    obtain ⟨_, _, _, -, -, e⟩ := C100_normal_2P hA.sorts A.J A.n2 (hA.keeps A.n2 (by simp)) _ r hr
    obtain ⟨_, _, _, -, -, e'⟩ := C100_normal_2P hA'.sorts A'.J A'.n2 (hA'.keeps A'.n2 (by simp)) _ r' hr'
    have pa : ∀ n v, (n, v) ∈ [("Mu", r.dist.a), ("Sigma", r.dist.b)] → n ∈ tableColumns → n ≠ "Mu" → 0 < v := by
      rw [← e.1]; exact hp
    have pa' : ∀ n v, (n, v) ∈ [("Mu", r'.dist.a), ("Sigma", r'.dist.b)] → n ∈ tableColumns → n ≠ "Mu" → 0 < v := by
      rw [← e'.1]; exact hp'
    have := C168_normal_2P (F := F) (C := C) (F' := F') (C' := C') (k := k) ⟨hn, A.argsort, A.J, A.n2, hA.sorts, hA.keeps A.n2 (by simp), fun fo => (ex fo).1, fun fo => (ex fo).2, hr⟩
      ⟨hn', A'.argsort, A'.J, A'.n2, hA'.sorts, hA'.keeps A'.n2 (by simp), fun fo => (ex' fo).1, fun fo => (ex' fo).2, hr'⟩
      (pa "Sigma" r.dist.b (by simp) (by decide) (by decide)) (pa' "Sigma" r'.dist.b (by simp) (by decide) (by decide))
      ⟨rfl, .inr rfl⟩ ⟨rfl, .inr rfl⟩ hk hF hC rfl
    exact this
  · have ex := hA.exact2 A.gu2 (by simp)
    have ex' := hA'.exact2 A'.gu2 (by simp)
    obtain ⟨_, _, _, -, -, e⟩ := C100_gumbel_2P hA.sorts A.J A.gu2 _ r hr
    obtain ⟨_, _, _, -, -, e'⟩ := C100_gumbel_2P hA'.sorts A'.J A'.gu2 _ r' hr'
    have pa : ∀ n v, (n, v) ∈ [("Mu", r.dist.a), ("Sigma", r.dist.b)] → n ∈ tableColumns → n ≠ "Mu" → 0 < v := by
      rw [← e.1]; exact hp
    have pa' : ∀ n v, (n, v) ∈ [("Mu", r'.dist.a), ("Sigma", r'.dist.b)] → n ∈ tableColumns → n ≠ "Mu" → 0 < v := by
      rw [← e'.1]; exact hp'
    have := C168_gumbel_2P (F := F) (C := C) (F' := F') (C' := C') (k := k) ⟨hn, A.argsort, A.J, A.gu2, hA.sorts, hA.keeps A.gu2 (by simp), fun fo => (ex fo).1, fun fo => (ex fo).2, hr⟩
      ⟨hn', A'.argsort, A'.J, A'.gu2, hA'.sorts, hA'.keeps A'.gu2 (by simp), fun fo => (ex' fo).1, fun fo => (ex' fo).2, hr'⟩
      (pa "Sigma" r.dist.b (by simp) (by decide) (by decide)) (pa' "Sigma" r'.dist.b (by simp) (by decide) (by decide))
      ⟨rfl, .inr rfl⟩ ⟨rfl, .inr rfl⟩ hk hF hC
    exact this
  · have ex := hA.exact2 A.lo2 (by simp)
    have ex' := hA'.exact2 A'.lo2 (by simp)
    obtain ⟨_, _, _, -, -, e⟩ := C100_loglogistic_2P hA.sorts A.J A.lo2 _ r hr
    obtain ⟨_, _, _, -, -, e'⟩ := C100_loglogistic_2P hA'.sorts A'.J A'.lo2 _ r' hr'
    have pa : ∀ n v, (n, v) ∈ [("Alpha", r.dist.a), ("Beta", r.dist.b)] → n ∈ tableColumns → n ≠ "Mu" → 0 < v := by
      rw [← e.1]; exact hp
    have pa' : ∀ n v, (n, v) ∈ [("Alpha", r'.dist.a), ("Beta", r'.dist.b)] → n ∈ tableColumns → n ≠ "Mu" → 0 < v := by
      rw [← e'.1]; exact hp'
    have := C168_loglogistic_2P (F := F) (C := C) (F' := F') (C' := C') (k := k) ⟨hn, A.argsort, A.J, A.lo2, hA.sorts, hA.keeps A.lo2 (by simp), fun fo => (ex fo).1, fun fo => (ex fo).2, hr⟩
      ⟨hn', A'.argsort, A'.J, A'.lo2, hA'.sorts, hA'.keeps A'.lo2 (by simp), fun fo => (ex' fo).1, fun fo => (ex' fo).2, hr'⟩
      (pa "Alpha" r.dist.a (by simp) (by decide) (by decide)) (pa "Beta" r.dist.b (by simp) (by decide) (by decide)) (pa' "Alpha" r'.dist.a (by simp) (by decide) (by decide)) (pa' "Beta" r'.dist.b (by simp) (by decide) (by decide))
      ⟨rfl, .inr rfl⟩ ⟨rfl, .inr rfl⟩ hk hF hC
    rwa [hcount] at this

theorem given_unique {f rc : DataArg ℝ} {F C F' C' : List ℝ} (h : Given f rc F C) (h' : Given f rc F' C') : F' = F ∧ C' = C := by
  obtain ⟨h1, h2⟩ := h
  obtain ⟨h1', h2'⟩ := h'
  rw [h1] at h1'
  cases h1'
  refine ⟨rfl, ?_⟩
  rcases h2 with ⟨a, b⟩ | a <;> rcases h2' with ⟨a', b'⟩ | a'
  · rw [b, b']
  · rw [a] at a'; cases a'
  · rw [a] at a'; cases a'
  · rw [a] at a'; cases a'; rfl

theorem withoutZeros_perm {k : ℝ} (hk : 0 < k) {l l' : List ℝ} (h : l'.Perm (l.map (k * ·))) :
    (withoutZeros l').Perm ((withoutZeros l).map (k * ·)) := by
  unfold withoutZeros
  refine (h.filter _).trans (.of_eq ?_)
  rw [List.filter_map]
  congr 1
  refine List.filter_congr fun t _ => ?_
  simp [hk.ne']

/-- The estimates of a row are those of the fit. -/
theorem row_positive {r : FRow} {o : Outcome} (hr : Admissible r)
    (h1 : r.params.map Prod.fst = tableColumns.filter (fun c => decide (c ∈ o.params.map Prod.fst)))
    (h2 : ∀ p ∈ r.params, p ∈ o.params) (hno : (o.params.map Prod.fst).Nodup) :
    ∀ n v, (n, v) ∈ o.params → n ∈ tableColumns → n ≠ "Mu" → 0 < v := by
  intro n v hm hn hmu
  have : n ∈ r.params.map Prod.fst := by
    rw [h1, List.mem_filter]
    exact ⟨hn, by simpa using ⟨v, hm⟩⟩
  obtain ⟨⟨n', v'⟩, hp, rfl⟩ := List.mem_map.1 this
  have e := List.inj_on_of_nodup_map hno (h2 _ hp) hm rfl
  cases e
  exact hr.2 _ hp hmu

theorem names_nodup {A : Answers} (hA : ExactAnswers A) {d : Reliability.Fitters.Dist} (hd : d ∈ scaleDists) {F C : DataArg ℝ} {m o : StrArg} {r : Outcome}
    (h : individual A d F C m o = .ok r) : (r.params.map Prod.fst).Nodup := by
  simp only [scaleDists, List.mem_cons, List.not_mem_nil, or_false] at hd
  rcases hd with rfl | rfl | rfl | rfl | rfl | rfl | rfl <;> obtain ⟨r, hr, rfl⟩ := map_ok h
  · obtain ⟨_, _, _, -, -, e⟩ := C100_weibull_2P hA.sorts A.J A.w2 (hA.keeps A.w2 (by simp)) _ r hr
    simp only [ofTwo, e.1, List.map_cons, List.map_nil]
    decide
  · obtain ⟨_, _, _, _, -, -, e⟩ := C100_gamma_2P hA.sorts A.J A.ga2 _ r hr
    simp only [ofTwo, e.1, List.map_cons, List.map_nil]
    decide
  · obtain ⟨_, _, _, -, -, e⟩ := C100_lognormal_2P hA.sorts A.J A.l2 (hA.keeps A.l2 (by simp)) _ r hr
    simp only [ofTwo, e.1, List.map_cons, List.map_nil]
    decide
  · obtain ⟨_, -, -, -, s, -, e, -⟩ := exp1_run hr
    simp only [ofExpo, e]
    cases s <;> simp [rowsExp, fixedRow]
  · obtain ⟨_, _, _, -, -, e⟩ := C100_normal_2P hA.sorts A.J A.n2 (hA.keeps A.n2 (by simp)) _ r hr
    simp only [ofTwo, e.1, List.map_cons, List.map_nil]
    decide
  · obtain ⟨_, _, _, -, -, e⟩ := C100_gumbel_2P hA.sorts A.J A.gu2 _ r hr
    simp only [ofTwo, e.1, List.map_cons, List.map_nil]
    decide
  · obtain ⟨_, _, _, -, -, e⟩ := C100_loglogistic_2P hA.sorts A.J A.lo2 _ r hr
    simp only [ofTwo, e.1, List.map_cons, List.map_nil]
    decide

/-- **C169.** Two runs of Fit_Everything with exact optimizers, the second on the times of the first multiplied by `k`, in any
order: for each distribution without a location in both tables, the log-likelihood falls by `ln k` for every failure (other
than those at 0, which are dropped), AICc and BIC rise by twice that. -/
theorem C169_criteria {A A' : Answers} (hA : ExactAnswers A) (hA' : ExactAnswers A') {x x' : FEArgs} {res res' : FERes}
    (h : fitEverything A x = .ok res) (h' : fitEverything A' x' = .ok res') {F C F' C' : List ℝ}
    (hg : Given x.failures x.right_censored F C) (hg' : Given x'.failures x'.right_censored F' C') {k : ℝ} (hk : 0 < k)
    (hF : F'.Perm (F.map (k * ·))) (hC : C'.Perm (C.map (k * ·))) {r r' : FRow} (hr : r ∈ res.results) (hr' : r' ∈ res'.results)
    (hd : r'.dist = r.dist) (hs : r.dist ∈ scaleDists) (hp : Admissible r) (hp' : Admissible r') :
    Shifted (F.countP fun t => t ≠ 0) k r.gof r'.gof := by
  obtain ⟨F₁, C₁, g1, -, -, rows⟩ := C121_rows hA.sorts h
  obtain ⟨F₂, C₂, g2, -, -, rows'⟩ := C121_rows hA'.sorts h'
  obtain ⟨rfl, rfl⟩ := given_unique hg g1
  obtain ⟨rfl, rfl⟩ := given_unique hg' g2
  obtain ⟨o, i1, i2, i3, i4, i5⟩ := rows r hr
  obtain ⟨o', j1, j2, j3, j4, j5⟩ := rows' r' hr'
  rw [hd] at j1
  obtain ⟨inp, -, hi, -⟩ := run h
  obtain ⟨F₃, C₃, e1, e2, h0, -⟩ := everything_ok hi
  obtain ⟨rfl, rfl⟩ := given_unique hg ⟨e1, e2⟩
  have hpos : ∀ t ∈ withoutZeros F₃, 0 < t := by
    intro t ht
    obtain ⟨hm, hne⟩ := List.mem_filter.1 ht
    exact lt_of_le_of_ne (h0 t (List.mem_append_left _ hm)) (Ne.symm (by simpa using hne))
  have := individual_shift hA hA' hs hk (withoutZeros_perm hk hF) (withoutZeros_perm hk hC) hpos i1 j1 (by rw [← i3]; exact hp.1)
    (by rw [← j3]; exact hp'.1) (row_positive hp i4 i5 (names_nodup hA hs i1)) (row_positive hp' j4 j5 (names_nodup hA' hs j1))
  rw [i2, j2]
  rwa [withoutZeros, ← List.countP_eq_length_filter] at this

/-- Both runs report the same distributions of `scaleDists`. -/
theorem same_rows {A A' : Answers} (hA : ExactAnswers A) (hA' : ExactAnswers A') {x x' : FEArgs} {res res' : FERes}
    (h : fitEverything A x = .ok res) (h' : fitEverything A' x' = .ok res') (he : x'.exclude = x.exclude)
    {d : Reliability.Fitters.Dist} (hs : d ∈ scaleDists) : d ∈ res.results.map FRow.dist ↔ d ∈ res'.results.map FRow.dist := by
  obtain ⟨F₁, C₁, -, -, rows, -⟩ := C121_rows hA.sorts h
  obtain ⟨F₂, C₂, -, -, rows', -⟩ := C121_rows hA'.sorts h'
  rw [rows, rows', he]
  have key : ∀ n l, LeftOut n l x.exclude d ↔ ∃ s, Item.str s ∈ Reliability.Spec.listed x.exclude ∧ up s ∈ Reliability.Spec.aliases d := by
    intro n l
    unfold LeftOut
    refine ⟨fun h => ?_, .inl⟩
    simp only [scaleDists, List.mem_cons, List.not_mem_nil, or_false] at hs
    rcases hs with rfl | rfl | rfl | rfl | rfl | rfl | rfl <;>
      rcases h with h | ⟨-, h⟩ | ⟨h, -⟩ <;> first | exact h | (simp at h; done) | cases h
  rw [key, key]

/-- **C169 (best by BIC).** If both runs sort by BIC, fit only distributions without a location and every fit is admissible, the
distribution the second run calls the best one has the lowest BIC in the first run too; so if no two BICs are equal, both runs
choose the same distribution. -/
theorem C169_best_BIC {A A' : Answers} (hA : ExactAnswers A) (hA' : ExactAnswers A') {x x' : FEArgs} {res res' : FERes}
    (h : fitEverything A x = .ok res) (h' : fitEverything A' x' = .ok res') {F C F' C' : List ℝ}
    (hg : Given x.failures x.right_censored F C) (hg' : Given x'.failures x'.right_censored F' C') {k : ℝ} (hk : 0 < k)
    (hF : F'.Perm (F.map (k * ·))) (hC : C'.Perm (C.map (k * ·))) (he : x'.exclude = x.exclude) {s s' : String}
    (hsb : x.sort_by = some s) (hsb' : x'.sort_by = some s') (hB : up s = "BIC") (hB' : up s' = "BIC")
    (hs : ∀ r ∈ res.results, r.dist ∈ scaleDists ∧ Admissible r) (hs' : ∀ r ∈ res'.results, r.dist ∈ scaleDists ∧ Admissible r) :
    (∃ r ∈ res.results, r.dist = res'.best_name ∧ ∀ q ∈ res.results, r.gof.BIC ≤ q.gof.BIC) ∧
      ((∀ r ∈ res.results, ∀ q ∈ res.results, r.gof.BIC = q.gof.BIC → r = q) → res'.best_name = res.best_name) := by
  obtain ⟨b', F₁, C₁, o', -, hb', bn', -, -, -, hmin', -⟩ := C121_best hA'.sorts h' hsb'
  obtain ⟨b, F₂, C₂, o, -, hb, bn, -, -, -, hmin, -⟩ := C121_best hA.sorts h hsb
  have hbm' : b' ∈ res'.results := List.mem_of_mem_head? (by rw [hb']; rfl)
  have hbm : b ∈ res.results := List.mem_of_mem_head? (by rw [hb]; rfl)
  obtain ⟨r, hr, hrd⟩ := List.mem_map.1 ((same_rows hA hA' h h' he (hs' _ hbm').1).2 (List.mem_map_of_mem hbm'))
  have low : ∀ q ∈ res.results, r.gof.BIC ≤ q.gof.BIC := by
    intro q hq
    obtain ⟨q', hq', hqd⟩ := List.mem_map.1 ((same_rows hA hA' h h' he (hs _ hq).1).1 (List.mem_map_of_mem hq))
    have s1 := C169_criteria hA hA' h h' hg hg' hk hF hC hr hbm' hrd.symm (hs _ hr).1 (hs _ hr).2 (hs' _ hbm').2
    have s2 := C169_criteria hA hA' h h' hg hg' hk hF hC hq hq' hqd (hs _ hq).1 (hs _ hq).2 (hs' _ hq').2
    exact (C168_same_choice s1 s2).2.2.2.1.1 (hmin' hB' q' hq')
  refine ⟨⟨r, hr, hrd.trans bn', low⟩, fun hinj => ?_⟩
  have := hinj r hr b hbm (le_antisymm (low b hbm) (hmin hB r hr))
  rw [← bn', ← hrd, this, bn]

/-- **C169 (best by AICc).** The same for sorting by AICc, if all the AICc are reported in the first run (then they are in the
second one). -/
theorem C169_best_AICc {A A' : Answers} (hA : ExactAnswers A) (hA' : ExactAnswers A') {x x' : FEArgs} {res res' : FERes}
    (h : fitEverything A x = .ok res) (h' : fitEverything A' x' = .ok res') {F C F' C' : List ℝ}
    (hg : Given x.failures x.right_censored F C) (hg' : Given x'.failures x'.right_censored F' C') {k : ℝ} (hk : 0 < k)
    (hF : F'.Perm (F.map (k * ·))) (hC : C'.Perm (C.map (k * ·))) (he : x'.exclude = x.exclude) {s s' : String}
    (hsb : x.sort_by = some s) (hsb' : x'.sort_by = some s') (hB : up s ∈ ["AIC", "AICC"]) (hB' : up s' ∈ ["AIC", "AICC"])
    (hs : ∀ r ∈ res.results, r.dist ∈ scaleDists ∧ Admissible r) (hs' : ∀ r ∈ res'.results, r.dist ∈ scaleDists ∧ Admissible r)
    (hsome : ∀ r ∈ res.results, r.gof.AICc ≠ none) :
    (∃ r ∈ res.results, r.dist = res'.best_name ∧ ∀ q ∈ res.results, ∃ u v, r.gof.AICc = some u ∧ q.gof.AICc = some v ∧ u ≤ v) ∧
      ((∀ r ∈ res.results, ∀ q ∈ res.results, r.gof.AICc = q.gof.AICc → r = q) → res'.best_name = res.best_name) := by
  obtain ⟨b', F₁, C₁, o', -, hb', bn', -, -, -, -, -, -, hmin', -⟩ := C121_best hA'.sorts h' hsb'
  obtain ⟨b, F₂, C₂, o, -, hb, bn, -, -, -, -, -, -, hmin, -⟩ := C121_best hA.sorts h hsb
  have hbm' : b' ∈ res'.results := List.mem_of_mem_head? (by rw [hb']; rfl)
  have hbm : b ∈ res.results := List.mem_of_mem_head? (by rw [hb]; rfl)
  obtain ⟨r, hr, hrd⟩ := List.mem_map.1 ((same_rows hA hA' h h' he (hs' _ hbm').1).2 (List.mem_map_of_mem hbm'))
  have hsome' : ∀ r ∈ res'.results, r.gof.AICc ≠ none := by
    intro q' hq'
    obtain ⟨q, hq, hqd⟩ := List.mem_map.1 ((same_rows hA hA' h h' he (hs' _ hq').1).2 (List.mem_map_of_mem hq'))
    have s2 := C169_criteria hA hA' h h' hg hg' hk hF hC hq hq' hqd.symm (hs _ hq).1 (hs _ hq).2 (hs' _ hq').2
    rw [s2.AICc]
    simpa using hsome q hq
  have low : ∀ q ∈ res.results, ∃ u v, r.gof.AICc = some u ∧ q.gof.AICc = some v ∧ u ≤ v := by
    intro q hq
    obtain ⟨q', hq', hqd⟩ := List.mem_map.1 ((same_rows hA hA' h h' he (hs _ hq).1).1 (List.mem_map_of_mem hq))
    have s1 := C169_criteria hA hA' h h' hg hg' hk hF hC hr hbm' hrd.symm (hs _ hr).1 (hs _ hr).2 (hs' _ hbm').2
    have s2 := C169_criteria hA hA' h h' hg hg' hk hF hC hq hq' hqd (hs _ hq).1 (hs _ hq).2 (hs' _ hq').2
    exact (C168_same_choice s1 s2).2.2.2.2.1 (hmin' hB' hsome' q' hq')
  refine ⟨⟨r, hr, hrd.trans bn', low⟩, fun hinj => ?_⟩
  obtain ⟨u, v, e1, e2, huv⟩ := low b hbm
  obtain ⟨v', u', e3, e4, hvu⟩ := hmin hB hsome r hr
  have := hinj r hr b hbm (by
    rw [e1, e2]
    rw [e2] at e3
    rw [e1] at e4
    cases e3
    cases e4
    rw [le_antisymm huv hvu])
  rw [← bn', ← hrd, this, bn]

/-- What the log-likelihoods of the second run say about those of the first: if they are all at most 0 the run picks the highest
log-likelihood, if they are all at least 0 it picks the lowest. -/
theorem C169_loglik {A A' : Answers} (hA : ExactAnswers A) (hA' : ExactAnswers A') {x x' : FEArgs} {res res' : FERes}
    (h : fitEverything A x = .ok res) (h' : fitEverything A' x' = .ok res') {F C F' C' : List ℝ}
    (hg : Given x.failures x.right_censored F C) (hg' : Given x'.failures x'.right_censored F' C') {k : ℝ} (hk : 0 < k)
    (hF : F'.Perm (F.map (k * ·))) (hC : C'.Perm (C.map (k * ·))) (he : x'.exclude = x.exclude) {s' : String}
    (hsb' : x'.sort_by = some s') (hB' : up s' ∈ ["LOGLIK", "LOG LIK", "LOG-LIKELIHOOD", "LL", "LOGLIKELIHOOD", "LOG LIKELIHOOD"])
    (hs : ∀ r ∈ res.results, r.dist ∈ scaleDists ∧ Admissible r) (hs' : ∀ r ∈ res'.results, r.dist ∈ scaleDists ∧ Admissible r) :
    ((∀ q ∈ res.results, q.gof.loglik ≤ (F.countP fun t => t ≠ 0) * Real.log k) →
      ∃ r ∈ res.results, r.dist = res'.best_name ∧ ∀ q ∈ res.results, q.gof.loglik ≤ r.gof.loglik) ∧
    ((∀ q ∈ res.results, (F.countP fun t => t ≠ 0) * Real.log k ≤ q.gof.loglik) →
      ∃ r ∈ res.results, r.dist = res'.best_name ∧ ∀ q ∈ res.results, r.gof.loglik ≤ q.gof.loglik) := by
  obtain ⟨b', F₁, C₁, o', -, hb', bn', -, -, -, -, -, -, -, hmin'⟩ := C121_best hA'.sorts h' hsb'
  have hbm' : b' ∈ res'.results := List.mem_of_mem_head? (by rw [hb']; rfl)
  obtain ⟨r, hr, hrd⟩ := List.mem_map.1 ((same_rows hA hA' h h' he (hs' _ hbm').1).2 (List.mem_map_of_mem hbm'))
  have low : ∀ q ∈ res.results, |r.gof.loglik - (F.countP fun t => t ≠ 0) * Real.log k| ≤
      |q.gof.loglik - (F.countP fun t => t ≠ 0) * Real.log k| := by
    intro q hq
    obtain ⟨q', hq', hqd⟩ := List.mem_map.1 ((same_rows hA hA' h h' he (hs _ hq).1).1 (List.mem_map_of_mem hq))
    have s1 := C169_criteria hA hA' h h' hg hg' hk hF hC hr hbm' hrd.symm (hs _ hr).1 (hs _ hr).2 (hs' _ hbm').2
    have s2 := C169_criteria hA hA' h h' hg hg' hk hF hC hq hq' hqd (hs _ hq).1 (hs _ hq).2 (hs' _ hq').2
    have := hmin' hB' q' hq'
    rwa [s1.loglik, s2.loglik] at this
  refine ⟨fun hall => ⟨r, hr, hrd.trans bn', fun q hq => ?_⟩, fun hall => ⟨r, hr, hrd.trans bn', fun q hq => ?_⟩⟩
  · have := low q hq
    rw [abs_of_nonpos (by linarith [hall r hr]), abs_of_nonpos (by linarith [hall q hq])] at this
    linarith
  · have := low q hq
    rw [abs_of_nonneg (by linarith [hall r hr]), abs_of_nonneg (by linarith [hall q hq])] at this
    linarith

/-! ## Example -/

/-- Exact optimizers for every class. -/
noncomputable def exactAll (argsort : List ℝ → List ℕ) (J : Jac) : Answers :=
  ⟨argsort, J, fun _ => 0, keepNum, keepNum, keepNum, keepNum, keepNum, ⟨fun _ => (1, 1), (1, 1), exactMin⟩,
    ⟨fun _ => (1, 1), (1, 1), exactMin⟩, ⟨fun _ => 1, 1, exactMin⟩, ⟨fun _ => (1, 1), (1, 1), exactMin⟩, exNum3 0, exNum3 0, exNum3 0,
    exNum3 0, fun _ _ => keepNum, fun _ _ _ p => ⟨true, p⟩, fun _ _ _ p => ⟨true, p⟩, exBoxMin ![2, 1, 0.5]⟩

theorem exactAll_exact {argsort : List ℝ → List ℕ} (ha : IsArgsort argsort) (J : Jac) : ExactAnswers (exactAll argsort J) := by
  refine ⟨ha, ?_, ?_, exactMin_exact, exactMin_exact⟩
  · intro num hn s m
    simp only [exactAll, List.mem_cons, List.not_mem_nil, or_false, or_self] at hn
    subst hn
    rfl
  · intro num hn fo
    simp only [exactAll, List.mem_cons, List.not_mem_nil, or_false, or_self] at hn
    subst hn
    exact ⟨exactMin_exact, exactMin_exact⟩

/-- The call of the examples: only Normal_2P and Lognormal_2P are wanted. -/
def exCall (F C : List ℝ) (s : String) : FEArgs :=
  { failures := .array F, right_censored := .array C, exclude := Reliability.Props.exExclude, sort_by := some s }

/-- Both fits of the example exist, with a positive Sigma. -/
theorem ex_fits {argsort : List ℝ → List ℕ} (ha : IsArgsort argsort) (J : Jac) {F C : List ℝ} (hF : ∀ t ∈ F, 0 < t)
    (hC : ∀ t ∈ C, 0 < t) (hc : 2 ≤ F.toFinset.card) {d : Reliability.Fitters.Dist} (hd : d = .Normal_2P ∨ d = .Lognormal_2P) :
    ∃ o, individual (exactAll argsort J) d (.array F) (.array C) (.str "MLE") .none = .ok o ∧ o.optimizer ≠ none ∧
      ∀ n v, (n, v) ∈ o.params → n ≠ "Mu" → 0 < v := by
  rcases hd with rfl | rfl
  · obtain ⟨r, h, he, hp⟩ := C164_normal_2P ha J keepNum (fun _ => exactMin_exact) (fun _ => exactMin_exact) (fun _ => exactMin_finds)
      (fun _ => exactMin_finds) (dataArgs F C) _ (accepts_default (by decide) (fun t ht => usable_of_pos (by decide) (hF t ht))
        (fun t ht => usable_of_pos (by decide) (hC t ht)) hc) rfl rfl
    refine ⟨ofTwo r, ?_, he.1, ?_⟩
    · have h' : (fitNormal2P argsort J keepNum (dataArgs F C)).map ofTwo = .ok (ofTwo r) := by rw [h]; rfl
      exact h'
    · obtain ⟨_, _, _, -, -, e⟩ := C100_normal_2P ha J keepNum (fun _ _ => rfl) _ r h
      intro n v hm hn
      simp only [ofTwo, e.1, List.map_cons, List.map_nil, List.mem_cons, List.not_mem_nil, or_false, Prod.mk.injEq] at hm
      rcases hm with ⟨rfl, -⟩ | ⟨rfl, rfl⟩
      · exact absurd rfl hn
      · exact hp
  · obtain ⟨r, h, he, hp⟩ := C164_lognormal_2P ha J keepNum (fun _ => exactMin_exact) (fun _ => exactMin_exact) (fun _ => exactMin_finds)
      (fun _ => exactMin_finds) (dataArgs F C) _ (accepts_default (by decide) (fun t ht => usable_of_pos (by decide) (hF t ht))
        (fun t ht => usable_of_pos (by decide) (hC t ht)) hc) rfl rfl
    refine ⟨ofTwo r, ?_, he.1, ?_⟩
    · have h' : (fitLognormal2P argsort J keepNum (dataArgs F C)).map ofTwo = .ok (ofTwo r) := by rw [h]; rfl
      exact h'
    · obtain ⟨_, _, _, -, -, e⟩ := C100_lognormal_2P ha J keepNum (fun _ _ => rfl) _ r h
      intro n v hm hn
      simp only [ofTwo, e.1, List.map_cons, List.map_nil, List.mem_cons, List.not_mem_nil, or_false, Prod.mk.injEq] at hm
      rcases hm with ⟨rfl, -⟩ | ⟨rfl, rfl⟩
      · exact absurd rfl hn
      · exact hp

/-- What the list of the example leaves out. -/
theorem ex_leftOut {n : ℕ} {l : List ℝ} {d : Reliability.Fitters.Dist} :
    LeftOut n l Reliability.Props.exExclude d ↔ d ≠ .Normal_2P ∧ d ≠ .Lognormal_2P := by
  constructor
  · rintro (⟨s, hs, hd⟩ | ⟨-, hd⟩ | ⟨rfl, -⟩)
    · simp only [Reliability.Spec.listed, Reliability.Props.exExclude, List.mem_map, Item.str.injEq, exists_eq_right] at hs
      have : ∀ u ∈ ["weibull2", "Weibull_3P", "Gamma_2P", "gamma3p", "Lognormal_3P", "expon1", "Expon2P", "gumbel_2p",
          "Loglogistic_2P", "Loglogistic_3P", "Beta2", "mix", "CR", "ds"],
          up u ∉ Reliability.Spec.aliases .Normal_2P ∧ up u ∉ Reliability.Spec.aliases .Lognormal_2P := by
        decide +kernel
      exact ⟨fun e => (this s hs).1 (e ▸ hd), fun e => (this s hs).2 (e ▸ hd)⟩
    · revert hd; cases d <;> simp
    · simp
  · rintro ⟨h1, h2⟩
    left
    simp only [Reliability.Spec.listed, Reliability.Props.exExclude, List.mem_map, Item.str.injEq, exists_eq_right]
    revert h1 h2
    cases d <;> simp <;> decide +kernel

/-- Fit_Everything returns on the example, and every row meets the conditions of C169. -/
theorem ex_returns {argsort : List ℝ → List ℕ} (ha : IsArgsort argsort) (J : Jac) {F C : List ℝ} (hF : ∀ t ∈ F, 0 < t)
    (hC : ∀ t ∈ C, 0 < t) (hc : 2 ≤ F.toFinset.card) {s : String} (hs : SortBy s) :
    ∃ res, fitEverything (exactAll argsort J) (exCall F C s) = .ok res ∧ ∀ r ∈ res.results, r.dist ∈ scaleDists ∧ Admissible r := by
  have wF := withoutZeros_pos hF
  have wC := withoutZeros_pos hC
  have hg : Given (exCall F C s).failures (exCall F C s).right_censored F C := ⟨rfl, .inr rfl⟩
  have hdist : ∀ {d : Reliability.Fitters.Dist}, ¬ LeftOut (withoutZeros F).length (withoutZeros F ++ withoutZeros C) (exCall F C s).exclude d →
      d = .Normal_2P ∨ d = .Lognormal_2P := by
    intro d hd
    by_contra hn
    push Not at hn
    exact hd (ex_leftOut.2 hn)
  obtain ⟨res, hres⟩ := C121_returns_if_each_does (A := exactAll argsort J) ha (x := exCall F C s) hg
    (fun t ht => by rcases List.mem_append.1 ht with h | h; exacts [(hF t h).le, (hC t h).le])
    (m' := some "MLE") (.inr ⟨"MLE", "MLE", ["MLE", "ML", "MAXIMUM LIKELIHOOD ESTIMATION", "MAXIMUM LIKELIHOOD", "MAX LIKELIHOOD"], rfl,
      rfl, by simp [methodNames], by decide +kernel⟩) (o' := none) (.inl ⟨rfl, rfl⟩)
    ⟨by simp [exCall, Reliability.Props.exExclude], by simp [exCall, Reliability.Props.exExclude, Reliability.Spec.listed]⟩ (s := s) rfl
    hs (by rw [wF]; exact hc)
    (fun d hd => by
      obtain ⟨o, ho, -⟩ := ex_fits ha J hF hC hc (hdist hd)
      rw [wF, wC]
      exact ⟨o, ho⟩)
    ⟨.Normal_2P, fun h => (ex_leftOut.1 h).1 rfl⟩
  refine ⟨res, hres, fun r hr => ?_⟩
  obtain ⟨F', C', hg', -, rows, each⟩ := C121_rows ha hres
  obtain ⟨rfl, rfl⟩ := given_unique hg hg'
  have hd := hdist ((rows r.dist).1 (List.mem_map_of_mem hr))
  refine ⟨by rcases hd with h | h <;> rw [h] <;> decide, ?_⟩
  obtain ⟨o, ho, -, h2, -, h4⟩ := each r hr
  obtain ⟨o', ho', k1, k2⟩ := ex_fits ha J hF hC hc hd
  rw [wF, wC] at ho
  have : o = o' := Except.ok.inj (ho.symm.trans ho')
  subst this
  exact ⟨by rw [h2]; exact k1, fun p hp hmu => k2 p.1 p.2 (h4 p hp) hmu⟩

/-- Failures at 1, 2, 3 and an item censored at 4, and the same times in a unit a tenth as long: both calls return, and the best
distribution of the second is a best one of the first. -/
example {argsort : List ℝ → List ℕ} (ha : IsArgsort argsort) (J : Jac) :
    ∃ res res', fitEverything (exactAll argsort J) (exCall [1, 2, 3] [4] "BIC") = .ok res ∧
      fitEverything (exactAll argsort J) (exCall [30, 10, 20] [40] "BIC") = .ok res' ∧
      ∃ r ∈ res.results, r.dist = res'.best_name ∧ ∀ q ∈ res.results, r.gof.BIC ≤ q.gof.BIC := by
  have h3 : 2 ≤ ([1, 2, 3] : List ℝ).toFinset.card := by
    rw [List.toFinset_card_of_nodup (by norm_num)]; simp
  have h3' : 2 ≤ ([30, 10, 20] : List ℝ).toFinset.card := by
    rw [List.toFinset_card_of_nodup (by norm_num)]; simp
  have pF : ([30, 10, 20] : List ℝ).Perm ([1, 2, 3].map ((10 : ℝ) * ·)) := by
    have e : ([1, 2, 3].map ((10 : ℝ) * ·)) = [10, 20, 30] := by norm_num
    rw [e]
    exact List.perm_append_comm (l₁ := [30]) (l₂ := [10, 20])
  have pC : ([40] : List ℝ).Perm ([4].map ((10 : ℝ) * ·)) := by norm_num
  obtain ⟨res, h, hs⟩ := ex_returns ha J (F := [1, 2, 3]) (C := [4]) (by simp) (by simp) h3 (s := "BIC") (.inl (by decide +kernel))
  obtain ⟨res', h', hs'⟩ := ex_returns ha J (F := [30, 10, 20]) (C := [40]) (by simp) (by simp) h3' (s := "BIC") (.inl (by decide +kernel))
  have hA := exactAll_exact ha J
  exact ⟨res, res', h, h', (C169_best_BIC hA hA h h' (F := [1, 2, 3]) (C := [4]) (F' := [30, 10, 20]) (C' := [40]) ⟨rfl, .inr rfl⟩ ⟨rfl, .inr rfl⟩
    (by norm_num) pF pC rfl (s := "BIC") (s' := "BIC") rfl rfl (by decide +kernel) (by decide +kernel) hs hs').1⟩

/-- The likelihood that `x - log x ≥ 1` allows for the Normal distribution. -/
theorem normal_bound {mu sigma : ℝ} (hs : 0 < sigma) : (3 / 2) * Real.log (14 / 9) + 3 / 2 + 3 * Real.log (Real.sqrt (2 * Real.pi)) ≤
    normal2P_LL mu sigma [1, 2, 4] [] := by
  rw [normal_LL_eq hs]
  have hd : 14 / 3 ≤ devs [1, 2, 4] mu := by
    simp only [devs, List.map_cons, List.map_nil, List.sum_cons, List.sum_nil]
    nlinarith [sq_nonneg (mu - 7 / 3)]
  have h1 : (14 / 3) / (2 * sigma ^ 2) ≤ devs [1, 2, 4] mu / (2 * sigma ^ 2) := by gcongr
  have h2 := Real.log_le_sub_one_of_pos (show (0 : ℝ) < (14 / 9) / sigma ^ 2 by positivity)
  rw [Real.log_div (by norm_num) (by positivity), Real.log_pow] at h2
  have e : (14 / 3 : ℝ) / (2 * sigma ^ 2) = (3 / 2) * ((14 / 9) / sigma ^ 2) := by field_simp; norm_num
  rw [e] at h1
  push_cast [List.length_cons, List.length_nil] at h2 ⊢
  linarith

/-- The likelihood of 1, 2, 4 under a Lognormal distribution. -/
theorem lognormal_value {sigma : ℝ} (hs : 0 < sigma) : lognormal_LL (Real.log 2) sigma 0 [1, 2, 4] [] =
    Real.log 2 ^ 2 / sigma ^ 2 + 3 * Real.log 2 + 3 * Real.log sigma + 3 * Real.log (Real.sqrt (2 * Real.pi)) := by
  have hq : (0 : ℝ) < Real.sqrt (2 * Real.pi) := Real.sqrt_pos.2 (by positivity)
  have h4 : Real.log 4 = 2 * Real.log 2 := by
    rw [show (4 : ℝ) = 2 ^ 2 by norm_num, Real.log_pow]; norm_num
  have lf : ∀ t : ℝ, 0 < t → lognormal_logf (Real.log 2) sigma 0 t =
      -0.5 * (((Real.log t - Real.log 2) / sigma) ^ 2) - (Real.log t + Real.log sigma + Real.log (Real.sqrt (2 * Real.pi))) := by
    intro t ht
    rw [lognormal_logf, sub_zero, Real.log_div (Real.exp_pos _).ne' (by positivity), Real.log_exp, Real.log_mul (by positivity) hq.ne',
      Real.log_mul ht.ne' hs.ne']
  simp only [lognormal_LL, LL, List.map_cons, List.map_nil, List.sum_cons, List.sum_nil, lf 1 one_pos, lf 2 two_pos, lf 4 four_pos, h4,
    Real.log_one]
  field_simp
  ring

/-- The failures 1, 2 and 4 are more likely under the best Lognormal distribution than under the best Normal distribution. -/
theorem ex_prefers {argsort : List ℝ → List ℕ} (ha : IsArgsort argsort) (J : Jac) {o o' : Outcome}
    (h : individual (exactAll argsort J) .Normal_2P (.array [1, 2, 4]) (.array []) (.str "MLE") .none = .ok o)
    (h' : individual (exactAll argsort J) .Lognormal_2P (.array [1, 2, 4]) (.array []) (.str "MLE") .none = .ok o') :
    o.gof.loglik < o'.gof.loglik := by
  have hc : 2 ≤ ([1, 2, 4] : List ℝ).toFinset.card := by
    rw [List.toFinset_card_of_nodup (by norm_num)]; simp
  have pF : ∀ t ∈ ([1, 2, 4] : List ℝ), 0 < t := by simp
  have pC : ∀ t ∈ ([] : List ℝ), 0 < t := by simp
  have filt : ∀ d : String, d ∈ ["Normal_2P", "Lognormal_2P"] → ∀ f rc, Used d (dataArgs [1, 2, 4] []) f rc → f = [1, 2, 4] ∧ rc = [] := by
    rintro d hd f rc ⟨F₀, C₀, a, b, rfl, rfl⟩
    cases a
    rcases b with ⟨b, -⟩ | b <;> cases b
    have : ∀ t ∈ ([1, 2, 4] : List ℝ), Usable d t := fun t ht => usable_of_pos (by revert hd; simp; rintro (rfl | rfl) <;> decide) (pF t ht)
    exact ⟨List.filter_eq_self.2 fun t ht => decide_eq_true (this t ht), rfl⟩
  obtain ⟨r, hr, rfl⟩ := map_ok h
  obtain ⟨q, hq, rfl⟩ := map_ok h'
  obtain ⟨r₁, e1, hr1, hrb⟩ := C164_normal_2P ha J keepNum (fun _ => exactMin_exact) (fun _ => exactMin_exact) (fun _ => exactMin_finds)
      (fun _ => exactMin_finds) (dataArgs [1, 2, 4] []) _ (accepts_default (by decide) (fun t ht => usable_of_pos (by decide) (pF t ht))
        (fun t ht => usable_of_pos (by decide) (pC t ht)) hc) rfl rfl
  obtain ⟨q₁, e2, hq1, hqb⟩ := C164_lognormal_2P ha J keepNum (fun _ => exactMin_exact) (fun _ => exactMin_exact) (fun _ => exactMin_finds)
      (fun _ => exactMin_finds) (dataArgs [1, 2, 4] []) _ (accepts_default (by decide) (fun t ht => usable_of_pos (by decide) (pF t ht))
        (fun t ht => usable_of_pos (by decide) (pC t ht)) hc) rfl rfl
  have er : r = r₁ := Except.ok.inj (hr.symm.trans e1)
  have eq : q = q₁ := Except.ok.inj (hq.symm.trans e2)
  subst er eq
  obtain ⟨f, rc, u, -, dr⟩ := C99_normal_2P ha J keepNum (fun _ _ => rfl) _ r e1
  obtain ⟨rfl, rfl⟩ := filt _ (by simp) _ _ u
  obtain ⟨f, rc, u, -, -, dq⟩ := C99_lognormal_2P ha J keepNum (fun _ _ => rfl) _ q e2
  obtain ⟨rfl, rfl⟩ := filt _ (by simp) _ _ u
  obtain ⟨f, rc, u, hmax⟩ := C112_lognormal_2P argsort J keepNum (fun _ => exactMin_exact) (fun _ => exactMin_exact) _ q e2 hq1.1 hqb
  obtain ⟨rfl, rfl⟩ := filt _ (by simp) _ _ u
  have l1 := (dr hrb).loglik
  have l2 := (dq hqb).loglik
  have n1 := C41_normal_2P r.dist.a r.dist.b hrb [1, 2, 4] []
  have k1 : r.gof.loglik = loglik (normal2P_LL r.dist.a r.dist.b [1, 2, 4] []) := Real.exp_injective (l1.trans n1.symm)
  have hL : 0 < Real.log 2 := Real.log_pos (by norm_num)
  have hsp : 0 < Real.sqrt (2 / 3) * Real.log 2 := by positivity
  have n2 := C41_lognormal (Real.log 2) (Real.sqrt (2 / 3) * Real.log 2) 0 hsp [1, 2, 4] [] pF pC
  have k2 := hmax (Real.log 2) (Real.sqrt (2 / 3) * Real.log 2) hsp (by intro s hs; cases hs)
  have k3 : loglik (lognormal_LL (Real.log 2) (Real.sqrt (2 / 3) * Real.log 2) 0 [1, 2, 4] []) ≤ q.gof.loglik := by
    rw [← Real.exp_le_exp]
    unfold IsLogLik at n2 l2
    rw [n2, l2]
    exact k2
  refine lt_of_lt_of_le ?_ k3
  show r.gof.loglik < _
  rw [k1]
  have b1 := normal_bound (mu := r.dist.a) hrb
  rw [lognormal_value hsp]
  unfold loglik
  have e3 : Real.log 2 ^ 2 / (Real.sqrt (2 / 3) * Real.log 2) ^ 2 = 3 / 2 := by
    rw [mul_pow, Real.sq_sqrt (by norm_num)]
    field_simp
  have e4 : Real.log (Real.sqrt (2 / 3) * Real.log 2) + Real.log 2 < Real.log (14 / 9) / 2 := by
    rw [← Real.log_mul hsp.ne' two_ne_zero, ← Real.log_sqrt (by norm_num)]
    refine Real.log_lt_log (by positivity) ?_
    refine Real.lt_sqrt_of_sq_lt ?_
    rw [mul_pow, mul_pow, Real.sq_sqrt (by norm_num)]
    have := Real.log_two_lt_d9
    nlinarith
  rw [e3]
  linarith

/-- **C169, finding.** Sorting by log-likelihood depends on the unit of time: the code sorts by its absolute value.  For failures
in the ratio 1 : 2 : 4 and exact optimizers there is a unit in which Fit_Everything prefers the Lognormal distribution (the more
likely one) and another in which it prefers the Normal distribution. -/
theorem C169_loglik_finding {argsort : List ℝ → List ℕ} (ha : IsArgsort argsort) (J : Jac) :
    ∃ k k' : ℝ, 0 < k ∧ 0 < k' ∧ ∃ res res',
      fitEverything (exactAll argsort J) (exCall ([1, 2, 4].map (k * ·)) [] "Log-likelihood") = .ok res ∧
      fitEverything (exactAll argsort J) (exCall ([1, 2, 4].map (k' * ·)) [] "Log-likelihood") = .ok res' ∧
      res.best_name = .Lognormal_2P ∧ res'.best_name = .Normal_2P := by
  have hSB : SortBy "Log-likelihood" := .inl (by decide +kernel)
  have hA := exactAll_exact ha J
  have hc : ∀ k : ℝ, 0 < k → 2 ≤ ([1, 2, 4].map (k * ·)).toFinset.card := by
    intro k hk
    rw [List.toFinset_card_of_nodup (by
      refine List.Nodup.map (fun a b h => mul_left_cancel₀ hk.ne' h) (by norm_num))]
    simp
  have pF : ∀ k : ℝ, 0 < k → ∀ t ∈ ([1, 2, 4].map (k * ·)), 0 < t := by
    intro k hk t ht
    simp only [List.map_cons, List.map_nil, List.mem_cons, List.not_mem_nil, or_false] at ht
    rcases ht with rfl | rfl | rfl <;> positivity
  have run : ∀ k : ℝ, 0 < k → _ := fun k hk => ex_returns ha J (F := [1, 2, 4].map (k * ·)) (C := []) (pF k hk) (by simp) (hc k hk) hSB
  have e1 : ([1, 2, 4] : List ℝ).map ((1 : ℝ) * ·) = [1, 2, 4] := by simp
  obtain ⟨res, h, hs⟩ := run 1 one_pos
  rw [e1] at h
  have hg : Given (exCall [1, 2, 4] [] "Log-likelihood").failures (exCall [1, 2, 4] [] "Log-likelihood").right_censored [1, 2, 4] [] :=
    ⟨rfl, .inr rfl⟩
  obtain ⟨F', C', hg', -, rows, each⟩ := C121_rows ha h
  obtain ⟨rfl, rfl⟩ := given_unique hg hg'
  obtain ⟨r, hr, hrd⟩ := List.mem_map.1 ((rows .Normal_2P).2 fun h => (ex_leftOut.1 h).1 rfl)
  obtain ⟨q, hq, hqd⟩ := List.mem_map.1 ((rows .Lognormal_2P).2 fun h => (ex_leftOut.1 h).2 rfl)
  have wz : withoutZeros [1, 2, 4] = [1, 2, 4] := withoutZeros_pos (by simp)
  have wn : withoutZeros [] = [] := rfl
  have only : ∀ p ∈ res.results, p.dist = .Normal_2P ∨ p.dist = .Lognormal_2P := by
    intro p hp
    have := (rows p.dist).1 (List.mem_map_of_mem hp)
    by_contra hn
    push Not at hn
    exact this (ex_leftOut.2 hn)
  have ind : ∀ p ∈ res.results, ∃ o, individual (exactAll argsort J) p.dist (.array [1, 2, 4]) (.array []) (.str "MLE") .none = .ok o ∧
      p.gof = o.gof := by
    intro p hp
    obtain ⟨o, ho, hgof, -⟩ := each p hp
    rw [wz, wn] at ho
    exact ⟨o, ho, hgof⟩
  obtain ⟨or, hor, gr⟩ := ind r hr
  obtain ⟨oq, hoq, gq⟩ := ind q hq
  rw [hrd] at hor
  rw [hqd] at hoq
  have lt : r.gof.loglik < q.gof.loglik := by
    rw [gr, gq]; exact ex_prefers ha J hor hoq
  have two : ∀ p ∈ res.results, p.gof = r.gof ∧ p.dist = .Normal_2P ∨ p.gof = q.gof ∧ p.dist = .Lognormal_2P := by
    intro p hp
    obtain ⟨o, ho, hgo⟩ := ind p hp
    rcases only p hp with hd | hd
    · rw [hd] at ho
      exact .inl ⟨by rw [hgo, gr, Except.ok.inj (ho.symm.trans hor)], hd⟩
    · rw [hd] at ho
      exact .inr ⟨by rw [hgo, gq, Except.ok.inj (ho.symm.trans hoq)], hd⟩
  have cnt : (([1, 2, 4] : List ℝ).countP fun t => t ≠ 0) = 3 := by simp [List.countP_cons]
  refine ⟨Real.exp (q.gof.loglik / 3), Real.exp (r.gof.loglik / 3), Real.exp_pos _, Real.exp_pos _, ?_⟩
  obtain ⟨res₁, h₁, hs₁⟩ := run _ (Real.exp_pos (q.gof.loglik / 3))
  obtain ⟨res₂, h₂, hs₂⟩ := run _ (Real.exp_pos (r.gof.loglik / 3))
  refine ⟨res₁, res₂, h₁, h₂, ?_, ?_⟩
  · obtain ⟨p, hp, hpd, hmax⟩ := (C169_loglik hA hA h h₁ hg ⟨rfl, .inr rfl⟩ (Real.exp_pos _) (.refl _) (by simp) rfl
      (s' := "Log-likelihood") rfl (by decide +kernel) hs hs₁).1 (by
        intro p hp
        rw [cnt, Real.log_exp]
        rcases two p hp with ⟨e, -⟩ | ⟨e, -⟩ <;> rw [e] <;> push_cast <;> linarith)
    rcases two p hp with ⟨e, -⟩ | ⟨-, e⟩
    · have := hmax q hq
      rw [e] at this
      linarith
    · rw [← hpd, e]
  · obtain ⟨p, hp, hpd, hmin⟩ := (C169_loglik hA hA h h₂ hg ⟨rfl, .inr rfl⟩ (Real.exp_pos _) (.refl _) (by simp) rfl
      (s' := "Log-likelihood") rfl (by decide +kernel) hs hs₂).2 (by
        intro p hp
        rw [cnt, Real.log_exp]
        rcases two p hp with ⟨e, -⟩ | ⟨e, -⟩ <;> rw [e] <;> push_cast <;> linarith)
    rcases two p hp with ⟨-, e⟩ | ⟨e, -⟩
    · rw [← hpd, e]
    · have := hmin r hr
      rw [e] at this
      linarith

end Reliability.Props.UnitsEverything

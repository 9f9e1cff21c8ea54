import Verif.Props.ProbPlots
import Verif.Spec.ProbPlotsSemi

/-!
# C114: QQ_plot_semiparametric
-/

namespace Reliability.ProbPlots

open Reliability Reliability.Distributions Reliability.Utils Reliability.Spec Spec List Reliability.Props.Distributions

/-! ## the empirical CDF -/

theorem failureEcdf_eq (k : NP.Result ℝ) : failureEcdf k = (atFailures k).map fun s => 1 - s := by
  simp [failureEcdf, atFailures]

theorem ecdfOf_spec {np : Numerics} {method : String} {f : List ℝ} {rc : Option (List ℝ)} {a : Option ℝ}
    {E : List ℝ} (h : ecdfOf np method f rc a = .ok E) :
    ∃ S, SurvivalAtFailures np f rc a method S ∧ E = S.map fun s => 1 - s := by
  unfold ecdfOf at h
  split at h
  · subst method
    cases hk : NP.kaplanMeier np.argsort np.sqrt np.ppf (some f) rc (95 / 100) "SF" with
    | error e => rw [hk] at h; cases h
    | ok k =>
      rw [hk] at h
      cases h
      exact ⟨_, .KM k hk, failureEcdf_eq k⟩
  split at h
  · subst method
    cases hk : NP.nelsonAalen np.exp np.argsort np.sqrt np.ppf (some f) rc (95 / 100) "SF" with
    | error e => rw [hk] at h; cases h
    | ok k =>
      rw [hk] at h
      cases h
      exact ⟨_, .NA k hk, failureEcdf_eq k⟩
  split at h
  · subst method
    cases hk : NP.rankAdjustment np.argsort np.sqrt np.ppf (some f) rc a (95 / 100) "SF" with
    | error e => rw [hk] at h; cases h
    | ok k =>
      rw [hk] at h
      cases h
      exact ⟨_, .RA k hk, failureEcdf_eq k⟩
  · cases h

theorem ecdfOf_eq {np : Numerics} {method : String} {f : List ℝ} {rc : Option (List ℝ)} {a : Option ℝ}
    {S : List ℝ} (h : SurvivalAtFailures np f rc a method S) :
    ecdfOf np method f rc a = .ok (S.map fun s => 1 - s) := by
  cases h with
  | KM k h => simp only [ecdfOf, h, if_true, ← failureEcdf_eq]; rfl
  | NA k h =>
    simp only [ecdfOf, h, if_true, ← failureEcdf_eq, if_neg (by decide : ¬ "NA" = "KM")]; rfl
  | RA k h =>
    simp only [ecdfOf, h, if_true, ← failureEcdf_eq, if_neg (by decide : ¬ "RA" = "KM"),
      if_neg (by decide : ¬ "RA" = "NA")]; rfl

theorem filter_zip_length : ∀ (cs : List Bool) (es : List ℝ), es.length = cs.length →
    ((cs.zip es).filter fun p => p.1).length = cs.count true
  | [], _, _ => by simp
  | c :: cs, [], h => by simp at h
  | c :: cs, e :: es, h => by
    have ih := filter_zip_length cs es (by simpa using h)
    cases c <;> simp [ih]

theorem count_codes {argsort : List ℝ → List Nat} (ha : IsArgsort argsort) (f rc : List ℝ) :
    ((NP.sortedData argsort f rc).map Prod.snd).count true = f.length := by
  rw [((NP.sortedData_perm ha f rc).map Prod.snd).count_eq]
  have h1 : ∀ l : List ℝ, (l.map ((Prod.snd : ℝ × Bool → Bool) ∘ fun t => (t, true))).count true = l.length := by
    intro l; induction l <;> simp_all
  have h2 : ∀ l : List ℝ, (l.map ((Prod.snd : ℝ × Bool → Bool) ∘ fun t => (t, false))).count true = 0 := by
    intro l; induction l <;> simp_all
  simp [NP.Spec.tagged, h1, h2]

theorem kmLoop_failures : ∀ (cs : List Bool) (v : ℝ), 0 ≤ v → v ≤ 1 →
    ∀ p ∈ cs.zip (NP.kmLoop (some v) cs), p.1 = true → 0 ≤ p.2 ∧ p.2 < 1
  | [], _, _, _ => by simp
  | c :: cs, v, h0, h1 => by
    intro p hp hp1
    rw [NP.kmLoop_cons, zip_cons_cons, mem_cons] at hp
    have g0 : 0 ≤ NP.factor c cs.length * v := mul_nonneg (NP.factor_nonneg _ _) h0
    have g1 : NP.factor c cs.length * v ≤ 1 := mul_le_one₀ (NP.factor_le_one _ _) h0 h1
    rcases hp with rfl | hp
    · simp only at hp1 ⊢
      subst hp1
      refine ⟨g0, ?_⟩
      have := NP.factor_lt_one (K := ℝ) cs.length
      have := NP.factor_nonneg (K := ℝ) true cs.length
      nlinarith
    · exact kmLoop_failures cs _ g0 g1 p hp hp1

theorem naCHF_failures : ∀ (cs : List Bool) (v : ℝ), 0 ≤ v →
    ∀ p ∈ cs.zip ((NP.naCHF v cs).map fun H => Real.exp (-H)), p.1 = true → 0 < p.2 ∧ p.2 < 1
  | [], _, _ => by simp
  | c :: cs, v, h0 => by
    intro p hp hp1
    rw [NP.naCHF] at hp
    simp only [map_cons, zip_cons_cons, mem_cons] at hp
    have hc : 0 ≤ NP.code (K := ℝ) c := by unfold NP.code; split <;> norm_num
    have g0 : 0 ≤ v + NP.code c / ((cs.length + 1 : ℕ) : ℝ) := by positivity
    rcases hp with rfl | hp
    · simp only at hp1 ⊢
      subst hp1
      refine ⟨Real.exp_pos _, (Real.exp_lt_exp.2 (?_ : _ < (0 : ℝ))).trans_eq Real.exp_zero⟩
      have : (0 : ℝ) < NP.code true / ((cs.length + 1 : ℕ) : ℝ) := by
        simp only [NP.code, if_true]; positivity
      linarith
    · exact naCHF_failures cs _ g0 p hp hp1

theorem naCHF_len : ∀ (cs : List Bool) (v : ℝ), (NP.naCHF v cs).length = cs.length
  | [], _ => rfl
  | c :: cs, v => by simp [NP.naCHF, naCHF_len cs]

theorem raVals_failures : ∀ (cs : List Bool) (v : ℝ) (Q : List ℝ), Q.length = cs.count true →
    ((cs.zip (NP.raVals v Q cs)).filter fun p => p.1).map (fun p => p.2) = Q.map fun q => 1 - q
  | [], v, Q, h => by
    have : Q = [] := by simpa using h
    simp [this]
  | false :: cs, v, Q, h => by
    have := raVals_failures cs v Q (by simpa using h)
    simpa [NP.raVals] using this
  | true :: cs, v, [], h => by simp at h
  | true :: cs, v, q :: Q, h => by
    have := raVals_failures cs q Q (by simpa using h)
    simpa [NP.raVals] using this

/-- The estimates at the failures by rank adjustment are the complements of the plotting positions. -/
theorem atFailures_RA {np : Numerics} (hs : IsArgsort np.argsort) {f : List ℝ} {rc : Option (List ℝ)}
    {a : Option ℝ} (ha : 0 ≤ a.getD (3 / 10)) (ha1 : a.getD (3 / 10) ≤ 1) {k : NP.Result ℝ}
    (h : NP.rankAdjustment np.argsort np.sqrt np.ppf (some f) rc a (95 / 100) "SF" = .ok k) :
    ∃ x y, PP.plottingPositions np.argsort f (some (rc.getD [])) a true = .ok (x, y) ∧
      y.length = f.length ∧ atFailures k = y.map fun p => 1 - p := by
  obtain ⟨f', x, y, RA, hf, -, -, hf2, hpp, hra, rfl⟩ := NP.rankAdjustment_ok h
  obtain rfl : f = f' := by simpa using hf
  obtain ⟨hx, hy, hloop⟩ := NP.ra_values hs f (rc.getD []) hf2 ha ha1 hpp
  rw [hloop] at hra
  obtain rfl : NP.raVals 0 y ((NP.sortedData np.argsort f (rc.getD [])).map Prod.snd) = RA := by simpa using hra
  obtain ⟨x', y', hpp', -, -, hl, -⟩ := PP.C09_strictly_increasing_probabilities hs f (some (rc.getD [])) a
    (by rintro rfl; simp at hf2) ha ha1 (fun _ => by simp only [Option.getD_some]; omega)
  rw [hpp] at hpp'
  cases hpp'
  refine ⟨x, y, hpp, hl, ?_⟩
  simp only [atFailures]
  exact raVals_failures _ 0 y (by rw [hl, count_codes hs])

/-- One estimate per failure, each a probability below one. -/
theorem survival_range {np : Numerics} (hs : IsArgsort np.argsort) (hexp : np.exp = Real.exp) {f : List ℝ}
    {rc : Option (List ℝ)} {a : Option ℝ} (ha : 0 ≤ a.getD (3 / 10)) (ha1 : a.getD (3 / 10) < 1)
    {method : String} {S : List ℝ} (h : SurvivalAtFailures np f rc a method S) :
    S.length = f.length ∧ 2 ≤ f.length ∧ ∀ s ∈ S, 0 ≤ s ∧ s < 1 := by
  cases h with
  | KM k h =>
    obtain ⟨f', hf, -, -, hf2, rfl⟩ := NP.kaplanMeier_ok h
    obtain rfl : f = f' := by simpa using hf
    refine ⟨?_, hf2, ?_⟩
    · simp only [atFailures, NP.assemble, length_map]
      rw [filter_zip_length _ _ (NP.kmLoop_length _ _), count_codes hs]
    · intro s hm
      simp only [atFailures, NP.assemble, mem_map, mem_filter] at hm
      obtain ⟨p, ⟨hp, hp1⟩, rfl⟩ := hm
      exact kmLoop_failures _ 1 zero_le_one le_rfl p hp hp1
  | NA k h =>
    obtain ⟨f', hf, -, -, hf2, rfl⟩ := NP.nelsonAalen_ok h
    obtain rfl : f = f' := by simpa using hf
    refine ⟨?_, hf2, ?_⟩
    · simp only [atFailures, NP.assemble, length_map]
      rw [filter_zip_length _ _ (by simp [naCHF_len]), count_codes hs]
    · intro s hm
      simp only [atFailures, NP.assemble, mem_map (f := fun p : Bool × ℝ => p.2), mem_filter] at hm
      obtain ⟨p, ⟨hp, hp1⟩, rfl⟩ := hm
      rw [hexp] at hp
      have := naCHF_failures _ 0 le_rfl p hp hp1
      exact ⟨this.1.le, this.2⟩
  | RA k h =>
    obtain ⟨f', -, -, -, hf, -, -, hf2, -⟩ := NP.rankAdjustment_ok h
    obtain rfl : f = f' := by simpa using hf
    obtain ⟨x, y, hpp, hl, he⟩ := atFailures_RA hs ha ha1.le h
    obtain ⟨x', y', hpp', -, -, -, -, -, hr⟩ := PP.C09_strictly_increasing_probabilities hs f
      (some (rc.getD [])) a (by rintro rfl; simp at hf2) ha ha1.le (fun _ => by simp only [Option.getD_some]; omega)
    rw [hpp] at hpp'
    cases hpp'
    rw [he]
    refine ⟨by simpa using hl, hf2, ?_⟩
    intro s hm
    obtain ⟨p, hp, rfl⟩ := mem_map.1 hm
    have := hr ha1 p hp
    constructor <;> linarith

/-! ## the points -/

theorem isfOne_eq (d : Dist) {q : ℝ} (h0 : 0 ≤ q) (h1 : q ≤ 1) : isfOne d q = .ok (isfE d q) := by
  simp [isfOne, inverseSF, checkQ, not_lt.2 h0, not_lt.2 h1]

theorem isfAll_eq (d : Dist) : ∀ qs : List ℝ, (∀ q ∈ qs, 0 ≤ q ∧ q ≤ 1) →
    isfAll d qs = .ok (qs.map (isfE d))
  | [], _ => rfl
  | q :: qs, h => by
    have hq := h q (by simp)
    rw [isfAll, isfOne_eq d hq.1 hq.2, isfAll_eq d qs fun r hr => h r (by simp [hr])]
    rfl

/-- The theoretical time at survival probability one minus `q`, `q > 0`; the lower end of the support (0 if it is
infinite) when `q = 1`. -/
noncomputable def theo (d : Dist) (s : ℝ) : ℝ := if s = 0 then d.lowerEnd.getD 0 else d.sp.isf (1 - s)

theorem theo_spec (d : Dist) {s : ℝ} (h1 : s < 1) : ninfToZero (isfE d (1 - s)) = .fin (theo d s) := by
  unfold isfE theo lowE
  by_cases h : s = 0
  · subst h
    cases hd : d.lowerEnd <;> simp [ninfToZero]
  · rw [if_neg (fun e => h (by linarith)), if_neg (by linarith), if_neg h]
    rfl

theorem qqSemi_eq {np : Numerics} (hs : IsArgsort np.argsort) (hexp : np.exp = Real.exp)
    (polyfit : List ℝ → List ℝ → ℝ × ℝ) (lstsq : List ℝ → List ℝ → ℝ) {f : List ℝ}
    {rc : Option (List ℝ)} {a : Option ℝ} (ha : 0 ≤ a.getD (3 / 10)) (ha1 : a.getD (3 / 10) < 1)
    {method : String} {S : List ℝ}
    (h : SurvivalAtFailures np (Np.sort f) (rc.map Np.sort) a method S) (Y : Dist) :
    qqSemiparametric np polyfit lstsq (some f) rc (some Y) method a (.bool false) =
      .ok ⟨Np.sort f, (S.map (theo Y)).reverse, lstsq (Np.sort f) (S.map (theo Y)).reverse,
        (polyfit (Np.sort f) (S.map (theo Y)).reverse).1, (polyfit (Np.sort f) (S.map (theo Y)).reverse).2⟩ := by
  obtain ⟨-, -, hr⟩ := survival_range hs hexp ha ha1 h
  have e1 := isfAll_eq Y (S.map fun s => 1 - s) (by
    intro q hq
    obtain ⟨s, hs, rfl⟩ := mem_map.1 hq
    have := hr s hs
    constructor <;> linarith)
  have e2 : ((S.map fun s => 1 - s).map (isfE Y)).reverse.map ninfToZero = (S.map (theo Y)).reverse.map .fin := by
    rw [← map_reverse, ← map_reverse, ← map_reverse, map_map, map_map, map_map]
    apply map_congr_left
    intro s hs
    exact theo_spec Y (hr s (mem_reverse.1 hs)).2
  simp only [qqSemiparametric, ecdfOf_eq h, bind, Except.bind, e1, e2, allFinite_fin, fitLines, scatter, if_true]
  rfl

/-- **C114 (points and lines).** Whenever the chosen estimator accepts the data, the QQ plot is drawn.  Its
abscissas are the sorted failures; the ordinate of failure `i` (of `n`, counted from 0) is the time at which
the distribution has *failed* with the *survival* probability `S` estimated at failure `n - 1 - i` (at `S = 0`
the lower end of the support, 0 if that is infinite).  The returned lines are the least-squares ones. -/
theorem C114_points {np : Numerics} (hs : IsArgsort np.argsort) (hexp : np.exp = Real.exp)
    {polyfit : List ℝ → List ℝ → ℝ × ℝ} {lstsq : List ℝ → List ℝ → ℝ} (hls : LeastSquares polyfit lstsq)
    {f : List ℝ} {rc : Option (List ℝ)} {a : Option ℝ} (ha : 0 ≤ a.getD (3 / 10)) (ha1 : a.getD (3 / 10) < 1)
    {method : String} {S : List ℝ}
    (h : SurvivalAtFailures np (f.insertionSort (· ≤ ·)) (rc.map (·.insertionSort (· ≤ ·))) a method S)
    {Y : Dist} (hY : Standard Y) :
    ∃ r, qqSemiparametric np polyfit lstsq (some f) rc (some Y) method a (.bool false) = .ok r ∧
      r.x_scatter = f.insertionSort (· ≤ ·) ∧ r.y_scatter.length = f.length ∧ S.length = f.length ∧
      (∀ i < f.length, ∃ s y, S[f.length - 1 - i]? = some s ∧ r.y_scatter[i]? = some y ∧
        (s ≠ 0 → Y.sp.cdf y = s) ∧ (s = 0 → y = Y.lowerEnd.getD 0)) ∧
      (∀ m c, sse r.x_scatter r.y_scatter r.m1 r.c1 ≤ sse r.x_scatter r.y_scatter m c) ∧
      (∀ m, sse r.x_scatter r.y_scatter r.m 0 ≤ sse r.x_scatter r.y_scatter m 0) := by
  obtain ⟨hl, h2, hr⟩ := survival_range hs hexp ha ha1 h
  rw [length_insertionSort] at hl h2
  have hls' := hls (Np.sort f) (S.map (theo Y)).reverse
    (by intro e; have := congrArg length e; simp [Np.sort] at this; simp [this] at h2)
    (by simp [Np.sort, hl])
  refine ⟨_, qqSemi_eq hs hexp polyfit lstsq ha ha1 h Y, rfl, by simp [hl], hl, ?_, hls'.1, hls'.2⟩
  intro i hi
  have hi' : f.length - 1 - i < S.length := by omega
  refine ⟨S[f.length - 1 - i], theo Y S[f.length - 1 - i], getElem?_eq_getElem hi', ?_, ?_, ?_⟩
  · simp only
    rw [getElem?_reverse (by simpa [hl] using hi), getElem?_map, length_map, hl, getElem?_eq_getElem hi']
    rfl
  · intro hne
    have hr' := hr _ (getElem_mem hi')
    rw [theo, if_neg hne, cdf_isf hY (by linarith) (by have := lt_of_le_of_ne hr'.1 (Ne.symm hne); linarith)]
    ring
  · intro h0
    rw [theo, if_pos h0]

theorem checkInputs_ok {f : List ℝ} (h : 2 ≤ f.length) : NP.checkInputs (some f) "SF" (95 / 100 : ℝ) = .ok f := by
  unfold NP.checkInputs
  simp only
  rw [if_neg (by simp), if_neg (by norm_num), if_neg (by omega)]

/-- **C114 (accepted data).** With at least two failures each of the three methods gives estimates. -/
theorem C114_accepts {np : Numerics} (hs : IsArgsort np.argsort) {f : List ℝ} (hf : 2 ≤ f.length)
    (rc : Option (List ℝ)) {a : Option ℝ} (ha : 0 ≤ a.getD (3 / 10)) (ha1 : a.getD (3 / 10) ≤ 1)
    {method : String} (hm : method ∈ ["KM", "NA", "RA"]) :
    ∃ S, SurvivalAtFailures np f rc a method S := by
  simp only [mem_cons, not_mem_nil, or_false] at hm
  rcases hm with rfl | rfl | rfl
  · exact ⟨_, .KM _ (by unfold NP.kaplanMeier; rw [checkInputs_ok hf]; rfl)⟩
  · exact ⟨_, .NA _ (by unfold NP.nelsonAalen; rw [checkInputs_ok hf]; rfl)⟩
  · obtain ⟨x, y, hpp, -⟩ := PP.C09_strictly_increasing_probabilities hs f
      (some (rc.getD [])) a (by rintro rfl; simp at hf) ha ha1 (fun _ => by simp only [Option.getD_some]; omega)
    obtain ⟨-, -, hloop⟩ := NP.ra_values hs f (rc.getD []) hf ha ha1 hpp
    refine ⟨_, .RA _ (by
      unfold NP.rankAdjustment
      rw [checkInputs_ok hf]
      simp only [bind, Except.bind, hpp, hloop]
      rfl)⟩

/-- **C114 (rejected data).** No failures argument, no distribution, another method name, or fewer than two
failures: ValueError. -/
theorem C114_rejects (np : Numerics) (polyfit : List ℝ → List ℝ → ℝ × ℝ) (lstsq : List ℝ → List ℝ → ℝ)
    (f : Option (List ℝ)) (rc : Option (List ℝ)) (Y : Option Dist) (method : String) (a : Option ℝ) (ds : Factor)
    (h : f = none ∨ Y = none ∨ method ∉ ["KM", "NA", "RA"] ∨ ∃ l, f = some l ∧ l.length < 2) :
    qqSemiparametric np polyfit lstsq f rc Y method a ds = valueErr := by
  cases f with
  | none => rfl
  | some l =>
    cases Y with
    | none => rfl
    | some Y =>
      have he : ecdfOf np method (Np.sort l) (rc.map Np.sort) a = valueErr := by
        by_cases hm : method ∈ ["KM", "NA", "RA"]
        · have hl : l.length < 2 := by
            rcases h with h | h | h | ⟨l', h, h'⟩
            · cases h
            · cases h
            · exact absurd hm h
            · cases h; exact h'
          have hc : NP.checkInputs (some (Np.sort l)) "SF" (95 / 100 : ℝ) = valueErr := by
            unfold NP.checkInputs
            simp only
            rw [if_neg (by simp), if_neg (by norm_num), if_pos (by simpa [Np.sort] using hl)]
          simp only [mem_cons, not_mem_nil, or_false] at hm
          rcases hm with rfl | rfl | rfl
          · simp only [ecdfOf, if_true, NP.kaplanMeier, hc]; rfl
          · simp only [ecdfOf, if_true, NP.nelsonAalen, hc, if_neg (by decide : ¬ "NA" = "KM")]; rfl
          · simp only [ecdfOf, if_true, NP.rankAdjustment, hc, if_neg (by decide : ¬ "RA" = "KM"),
              if_neg (by decide : ¬ "RA" = "NA")]; rfl
        · simp only [mem_cons, not_mem_nil, or_false, not_or] at hm
          rw [ecdfOf, if_neg hm.1, if_neg hm.2.1, if_neg hm.2.2]
      simp only [qqSemiparametric, he]; rfl

theorem filter_replicate_true (n : ℕ) (es : List ℝ) (h : es.length = n) :
    ((((replicate n true).zip es).filter fun p => p.1).map fun p => p.2) = es := by
  subst h
  induction es with
  | nil => rfl
  | cons e es ih => simpa [replicate_succ] using ih

/-- With complete data the Kaplan-Meier estimate at the `j`-th of `n` failures (from 0) is `(n - 1 - j)/n`. -/
theorem survival_KM_complete {np : Numerics} (hs : IsArgsort np.argsort) {f : List ℝ} {rc : Option (List ℝ)}
    (hrc : rc.getD [] = []) {a : Option ℝ} {S : List ℝ} (h : SurvivalAtFailures np f rc a "KM" S) :
    S = (List.range' 1 f.length).map fun i : ℕ => ((f.length - i : ℕ) : ℝ) / (f.length : ℝ) := by
  generalize hm : "KM" = m at h
  cases h with
  | NA => exact absurd hm (by decide)
  | RA => exact absurd hm (by decide)
  | KM k h =>
    have h14 := NP.C14_complete_data hs hrc h
    have h12 := NP.C12_survival_curve hs h
    have hp := h12.1
    rw [hrc] at hp
    have hlen : k.data.length = f.length := by
      have := hp.length_eq
      simp [NP.Spec.tagged, ← h12.2.2.1] at this
      exact this
    rw [hlen] at h14
    rw [← h14]
    have hcodes : k.censor_codes = replicate f.length true := by
      rw [eq_replicate_iff]
      refine ⟨by rw [← h12.2.2.1, hlen], ?_⟩
      intro b hb
      obtain ⟨i, hi, rfl⟩ := getElem_of_mem hb
      have hi' : i < k.data.length := by rw [h12.2.2.1]; exact hi
      have : (k.data[i], k.censor_codes[i]) ∈ k.data.zip k.censor_codes := by
        rw [← getElem_zip (h := by simp [hi, hi'])]
        exact getElem_mem _
      have := hp.mem_iff.1 this
      simp [NP.Spec.tagged] at this
      exact this.2
    rw [atFailures, hcodes]
    exact filter_replicate_true _ _ (by rw [h12.2.2.2.1, hlen])

/-- **C114 (complete data, Kaplan-Meier).** With `n` uncensored failures, failure `i` (counted from 0) is
compared with the time by which the distribution has failed with probability `i/n`; the first one with the
lower end of the support, or with 0 if there is none. -/
theorem C114_complete_KM {np : Numerics} (hs : IsArgsort np.argsort) (hexp : np.exp = Real.exp)
    {polyfit : List ℝ → List ℝ → ℝ × ℝ} {lstsq : List ℝ → List ℝ → ℝ} (hls : LeastSquares polyfit lstsq)
    {f : List ℝ} (hf : 2 ≤ f.length) {Y : Dist} (hY : Standard Y) :
    ∃ r, qqSemiparametric np polyfit lstsq (some f) none (some Y) "KM" none (.bool false) = .ok r ∧
      r.x_scatter = f.insertionSort (· ≤ ·) ∧ r.y_scatter.length = f.length ∧
      (∃ y, r.y_scatter[0]? = some y ∧ y = Y.lowerEnd.getD 0) ∧
      ∀ i, 1 ≤ i → i < f.length → ∃ y, r.y_scatter[i]? = some y ∧ Y.sp.cdf y = (i : ℝ) / f.length := by
  obtain ⟨S, hS⟩ := C114_accepts (np := np) hs (f := f.insertionSort (· ≤ ·)) (by simpa using hf) none
    (a := none) (by norm_num) (by norm_num) (method := "KM") (by simp)
  obtain ⟨r, hr, hx, hy, hl, hp, -⟩ := C114_points hs hexp hls (f := f) (rc := none) (a := none)
    (by norm_num) (by norm_num) hS hY
  have hSv := survival_KM_complete hs rfl hS
  rw [length_insertionSort] at hSv
  have key : ∀ i < f.length, S[f.length - 1 - i]? = some ((i : ℝ) / f.length) := by
    intro i hi
    rw [hSv, getElem?_map, getElem?_eq_getElem (by simp; omega)]
    simp only [Option.map_some, getElem_range']
    congr 3
    omega
  refine ⟨r, hr, hx, hy, ?_, ?_⟩
  · obtain ⟨s, y, h1, h2, -, h4⟩ := hp 0 (by omega)
    rw [key 0 (by omega)] at h1
    refine ⟨y, h2, h4 ?_⟩
    have := (Option.some.inj h1).symm
    simpa using this
  · intro i h1i hi
    obtain ⟨s, y, h1, h2, h3, -⟩ := hp i hi
    rw [key i hi] at h1
    obtain rfl := Option.some.inj h1
    refine ⟨y, h2, h3 ?_⟩
    have : (0 : ℝ) < i := by exact_mod_cast h1i
    have : (0 : ℝ) < f.length := by exact_mod_cast (by omega : 0 < f.length)
    positivity

/-- **C114 (complete data, rank adjustment).** With uncensored failures the ordinate of failure `i` (counted from
0) is the time by which the distribution has failed with the failure's own plotting position
`(i + 1 - a)/(n + 1 - 2a)`. -/
theorem C114_complete_RA {np : Numerics} (hs : IsArgsort np.argsort) (hexp : np.exp = Real.exp)
    {polyfit : List ℝ → List ℝ → ℝ × ℝ} {lstsq : List ℝ → List ℝ → ℝ} (hls : LeastSquares polyfit lstsq)
    {f : List ℝ} (hf : 2 ≤ f.length) {a : Option ℝ} (ha : 0 ≤ a.getD (3 / 10)) (ha1 : a.getD (3 / 10) < 1)
    {Y : Dist} (hY : Standard Y) :
    ∃ r, qqSemiparametric np polyfit lstsq (some f) none (some Y) "RA" a (.bool false) = .ok r ∧
      r.x_scatter = f.insertionSort (· ≤ ·) ∧ r.y_scatter.length = f.length ∧
      ∀ i < f.length, ∃ y, r.y_scatter[i]? = some y ∧
        Y.sp.cdf y = ((i : ℝ) + 1 - a.getD (3 / 10)) / (f.length + 1 - 2 * a.getD (3 / 10)) := by
  obtain ⟨S, hS⟩ := C114_accepts (np := np) hs (f := f.insertionSort (· ≤ ·)) (by simpa using hf) none
    (a := a) ha ha1.le (method := "RA") (by simp)
  obtain ⟨r, hr, hx, hy, hl, hp, -⟩ := C114_points hs hexp hls (f := f) (rc := none) (a := a) ha ha1 hS hY
  have hn : (2 : ℝ) ≤ f.length := by exact_mod_cast hf
  have hSv : S = (List.range' 1 f.length).map fun i : ℕ =>
      1 - ((i : ℝ) - a.getD (3 / 10)) / (f.length + 1 - 2 * a.getD (3 / 10)) := by
    clear hp hr
    generalize hm : "RA" = m at hS
    cases hS with
    | KM => exact absurd hm (by decide)
    | NA => exact absurd hm (by decide)
    | RA k h =>
      obtain ⟨x, y, hpp, -, he⟩ := atFailures_RA hs ha ha1.le h
      have h10 := PP.C10_complete_data hs (f.insertionSort (· ≤ ·)) a
        (by intro e; have := congrArg length e; simp at this; simp [this] at hf) ha ha1.le
        (by rw [length_insertionSort]; linarith)
      have e : PP.plottingPositions np.argsort (f.insertionSort (· ≤ ·)) none a true =
          PP.plottingPositions np.argsort (f.insertionSort (· ≤ ·))
            (some ((none : Option (List ℝ)).getD [])) a true := rfl
      rw [e, hpp] at h10
      cases h10
      rw [he, map_map, length_insertionSort]
      rfl
  refine ⟨r, hr, hx, hy, ?_⟩
  intro i hi
  obtain ⟨s, y, h1, h2, h3, -⟩ := hp i hi
  refine ⟨y, h2, ?_⟩
  have hD : (0 : ℝ) < f.length + 1 - 2 * a.getD (3 / 10) := by linarith
  have key : S[f.length - 1 - i]? = some (((i : ℝ) + 1 - a.getD (3 / 10)) / (f.length + 1 - 2 * a.getD (3 / 10))) := by
    rw [hSv, getElem?_map, getElem?_eq_getElem (by simp; omega)]
    simp only [Option.map_some, getElem_range']
    congr 1
    have : ((1 + 1 * (f.length - 1 - i) : ℕ) : ℝ) = f.length - i := by
      have : 1 + 1 * (f.length - 1 - i) = f.length - i := by omega
      rw [this, Nat.cast_sub hi.le]
    rw [this, eq_div_iff hD.ne', sub_mul, div_mul_cancel₀ _ hD.ne']
    ring
  rw [key] at h1
  obtain rfl := Option.some.inj h1
  apply h3
  have : (0 : ℝ) ≤ i := by positivity
  have : (0 : ℝ) < (i : ℝ) + 1 - a.getD (3 / 10) := by linarith
  positivity

/-- **C114 (when the plot is right).** Provided the last estimate is not 0, each failure is paired with the
theoretical time at its own estimated failure probability exactly when the estimates are symmetric:
`S_i + S_{n-1-i} = 1`. -/
theorem C114_correct_iff {np : Numerics} (hs : IsArgsort np.argsort) (hexp : np.exp = Real.exp)
    {polyfit : List ℝ → List ℝ → ℝ × ℝ} {lstsq : List ℝ → List ℝ → ℝ} (hls : LeastSquares polyfit lstsq)
    {f : List ℝ} {rc : Option (List ℝ)} {a : Option ℝ} (ha : 0 ≤ a.getD (3 / 10)) (ha1 : a.getD (3 / 10) < 1)
    {method : String} {S : List ℝ}
    (h : SurvivalAtFailures np (f.insertionSort (· ≤ ·)) (rc.map (·.insertionSort (· ≤ ·))) a method S)
    (h0 : ∀ s ∈ S, s ≠ 0) {Y : Dist} (hY : Standard Y) {r : QQ}
    (hr : qqSemiparametric np polyfit lstsq (some f) rc (some Y) method a (.bool false) = .ok r) :
    PairsCorrectly Y S r.y_scatter ↔
      ∀ (i : ℕ) (s s' : ℝ), i < S.length → S[i]? = some s → S[S.length - 1 - i]? = some s' → s + s' = 1 := by
  obtain ⟨r', hr', -, hy, hl, hp, -⟩ := C114_points hs hexp hls ha ha1 h hY
  rw [hr] at hr'
  cases hr'
  constructor
  · intro hc i s s' hi h1 h2
    obtain ⟨t, y, g1, g2, g3, -⟩ := hp i (by omega)
    rw [hl] at h2
    rw [h2] at g1
    cases g1
    have e1 := g3 (h0 _ (mem_of_getElem? h2))
    have e2 := hc i s y h1 g2
    linarith
  · intro hc i s v h1 h2
    have hi : i < S.length := by
      by_contra hcon
      rw [getElem?_eq_none (by omega)] at h1
      cases h1
    obtain ⟨t, y, g1, g2, g3, -⟩ := hp i (by omega)
    rw [h2] at g2
    cases g2
    rw [g3 (h0 _ (mem_of_getElem? g1))]
    have := hc i s t hi h1 (by rw [hl]; exact g1)
    linarith

/-- **C114, what is false.** If fewer than half of the items are estimated to fail by the last failure, as is
usual with censored data, every failure is paired with the wrong theoretical time: its own estimated failure
probability is below one half, while the time plotted against it is one by which more than half have failed. -/
theorem C114_censored_finding {np : Numerics} (hs : IsArgsort np.argsort) (hexp : np.exp = Real.exp)
    {polyfit : List ℝ → List ℝ → ℝ × ℝ} {lstsq : List ℝ → List ℝ → ℝ} (hls : LeastSquares polyfit lstsq)
    {f : List ℝ} {rc : Option (List ℝ)} {a : Option ℝ} (ha : 0 ≤ a.getD (3 / 10)) (ha1 : a.getD (3 / 10) < 1)
    {method : String} {S : List ℝ}
    (h : SurvivalAtFailures np (f.insertionSort (· ≤ ·)) (rc.map (·.insertionSort (· ≤ ·))) a method S)
    (hhalf : ∀ s ∈ S, 1 / 2 < s) {Y : Dist} (hY : Standard Y) :
    ∃ r, qqSemiparametric np polyfit lstsq (some f) rc (some Y) method a (.bool false) = .ok r ∧
      ∀ i < f.length, ∃ s y, S[i]? = some s ∧ r.y_scatter[i]? = some y ∧ 1 - s < 1 / 2 ∧ 1 / 2 < Y.sp.cdf y := by
  obtain ⟨r, hr, -, hy, hl, hp, -⟩ := C114_points hs hexp hls ha ha1 h hY
  refine ⟨r, hr, ?_⟩
  intro i hi
  obtain ⟨t, y, g1, g2, g3, -⟩ := hp i hi
  have hi' : i < S.length := by omega
  have h1 := hhalf _ (getElem_mem hi')
  have h2 := hhalf _ (mem_of_getElem? g1)
  refine ⟨S[i], y, getElem?_eq_getElem hi', g2, by linarith, ?_⟩
  rw [g3 (by linarith)]
  exact h2

/-- Two failures and ten censored items: the Kaplan-Meier estimates are 11/12 and 10/12. -/
theorem ex_censored_estimates (sqrt : ℝ → ℝ) (ppf : ℝ → Ext ℝ) :
    SurvivalAtFailures ⟨refArgsort, sqrt, Real.exp, ppf⟩ [1, 2] (some (replicate 10 3)) none "KM" [11 / 12, 10 / 12] := by
  have hs : refArgsort ([1, 2, 3, 3, 3, 3, 3, 3, 3, 3, 3, 3] : List ℝ) = [0, 1, 2, 3, 4, 5, 6, 7, 8, 9, 10, 11] := by
    norm_num [refArgsort, zipIdx, insertionSort, orderedInsert]
  have hS : NP.sortedData refArgsort [(1 : ℝ), 2] (replicate 10 3) =
      [(1, true), (2, true)] ++ replicate 10 (3, false) := by
    simp [NP.sortedData, sortValues, hs, takeRows, replicate]
  have hk := SurvivalAtFailures.KM (np := ⟨refArgsort, sqrt, Real.exp, ppf⟩) (f := [1, 2])
    (rc := some (replicate 10 3)) (a := none) _ (by unfold NP.kaplanMeier; rw [checkInputs_ok (by simp)]; rfl)
  convert hk using 1
  simp only [atFailures, NP.assemble, Option.getD_some, hS]
  simp [replicate, NP.kmLoop, NP.code]
  norm_num

/-- Non-vacuity of the finding. -/
example (sqrt : ℝ → ℝ) (ppf : ℝ → Ext ℝ) : ∃ polyfit lstsq r,
    qqSemiparametric ⟨refArgsort, sqrt, Real.exp, ppf⟩ polyfit lstsq (some [1, 2]) (some (replicate 10 3))
      (some (weibull 10 2 0)) "KM" none (.bool false) = .ok r ∧
    ∀ i < 2, ∃ y, r.y_scatter[i]? = some y ∧ 1 / 2 < (weibull 10 2 0).sp.cdf y := by
  obtain ⟨p, l, h⟩ := leastSquares_exists
  obtain ⟨r, hr, hp⟩ := C114_censored_finding (np := ⟨refArgsort, sqrt, Real.exp, ppf⟩) refArgsort_isArgsort rfl h
    (f := [1, 2]) (rc := some (replicate 10 3)) (a := none) (by norm_num) (by norm_num) (method := "KM")
    (S := [11 / 12, 10 / 12]) (by
      convert ex_censored_estimates sqrt ppf using 1
      · norm_num [insertionSort, orderedInsert]
      · norm_num [replicate, insertionSort, orderedInsert])
    (by norm_num) (.weibull 10 2 0 (by norm_num) (by norm_num))
  refine ⟨p, l, r, hr, fun i hi => ?_⟩
  obtain ⟨s, y, -, h2, -, h3⟩ := hp i (by simpa using hi)
  exact ⟨y, h2, h3⟩

end Reliability.ProbPlots

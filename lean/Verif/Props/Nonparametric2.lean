import Verif.Props.Nonparametric
import Verif.Props.PlottingPositions

/-! # C16–C18: NelsonAalen, RankAdjustment, step arrays -/

set_option linter.unusedSectionVars false

namespace Reliability.NP

open Reliability List

section NA
variable {argsort : List ℝ → List Nat} {sqrt : ℝ → ℝ} {ppf : ℝ → Ext ℝ}
  {failures right_censored : Option (List ℝ)} {CI : ℝ} {plot_type : String}

theorem naCHF_spec (S : List (ℝ × Bool)) (i : Nat) (hi : i < S.length) :
    (naCHF 0 (S.map Prod.snd))[i]? = some (Spec.hazardSum S i) := by
  rw [naCHF_eq, acc_spec _ 0 S i hi, zero_add]
  unfold Spec.hazardSum
  congr 1
  apply Finset.sum_congr rfl
  intro j hj
  have : j < S.length := by
    unfold Spec.failsUpTo at hj
    have := (Finset.mem_range.1 (Finset.mem_filter.1 hj).1)
    omega
  have e1 : S.length - j - 1 + 1 = S.length - j := by omega
  rw [e1]

theorem naCHF_mono (cs : List Bool) :
    (naCHF (0 : ℝ) cs).Pairwise (· ≤ ·) ∧ ∀ v ∈ naCHF (0 : ℝ) cs, 0 ≤ v := by
  rw [naCHF_eq]
  exact acc_mono _ (fun m => by positivity) 0 cs

theorem na_range (cs : List Bool) : ∀ v ∈ (naCHF (0 : ℝ) cs).map (fun H => Real.exp (-H)),
    0 < v ∧ v ≤ 1 := by
  intro v hv
  obtain ⟨H, hH, rfl⟩ := mem_map.1 hv
  refine ⟨Real.exp_pos _, ?_⟩
  rw [Real.exp_le_one_iff]
  have := (naCHF_mono cs).2 H hH
  linarith

theorem na_sorted (cs : List Bool) :
    ((naCHF (0 : ℝ) cs).map (fun H => Real.exp (-H))).Pairwise (· ≥ ·) := by
  rw [pairwise_map]
  exact (naCHF_mono cs).1.imp fun h => Real.exp_le_exp.2 (by linarith)

/-- **C16.** In row `i` the Nelson–Aalen survival is `exp(-∑ 1/(items remaining))`, the sum being over
the failures so far; the column lies in `(0,1]` and never increases. -/
theorem C16_nelson_aalen {r : Result ℝ}
    (h : nelsonAalen Real.exp argsort sqrt ppf failures right_censored CI plot_type = .ok r) :
    r.est.length = r.data.length ∧
    (∀ i < r.data.length,
      r.est[i]? = some (Real.exp (-(Spec.hazardSum (r.data.zip r.censor_codes) i)))) ∧
    r.est.Pairwise (· ≥ ·) ∧ ∀ v ∈ r.est, 0 < v ∧ v ≤ 1 := by
  obtain ⟨f, rfl, -, -, -, rfl⟩ := nelsonAalen_ok h
  set S := sortedData argsort f (right_censored.getD []) with hS
  have hz : (S.map Prod.fst).zip (S.map Prod.snd) = S := by
    rw [zip_map', map_id'']; intro x; rfl
  simp only [assemble, hz, length_map]
  refine ⟨by rw [naCHF_eq, acc_length]; simp, ?_, na_sorted _, na_range _⟩
  intro i hi
  rw [getElem?_map, naCHF_spec S i hi]
  rfl

/-- **C16.** The Nelson–Aalen cumulative hazard never decreases. -/
theorem C16_hazard_monotone (S : List (ℝ × Bool)) (i j : Nat) (hij : i ≤ j) :
    0 ≤ Spec.hazardSum S i ∧ Spec.hazardSum S i ≤ Spec.hazardSum S j := by
  unfold Spec.hazardSum
  refine ⟨Finset.sum_nonneg fun k _ => by positivity, ?_⟩
  apply Finset.sum_le_sum_of_subset_of_nonneg
  · unfold Spec.failsUpTo
    apply Finset.filter_subset_filter
    intro k hk
    rw [Finset.mem_range] at hk ⊢
    omega
  · intro k _ _; positivity

theorem km_le_na (p H : ℝ) (hp : p ≤ Real.exp (-H)) (hp0 : 0 ≤ p) (cs : List Bool) (i : Nat) (a b : ℝ)
    (ha : (kmLoop (some p) cs)[i]? = some a)
    (hb : ((naCHF H cs).map fun H => Real.exp (-H))[i]? = some b) : a ≤ b := by
  induction cs generalizing p H i with
  | nil => simp [kmLoop] at ha
  | cons c cs ih =>
    rw [kmLoop_cons] at ha
    rw [naCHF, map_cons] at hb
    have hstep : factor c cs.length * p ≤ Real.exp (-(H + code c / ((cs.length + 1 : Nat) : ℝ))) := by
      have hf : factor (K := ℝ) c cs.length ≤ Real.exp (-(code c / ((cs.length + 1 : Nat) : ℝ))) := by
        have h1 : factor (K := ℝ) c cs.length = 1 - code c / ((cs.length + 1 : Nat) : ℝ) := by
          unfold factor
          have : ((cs.length + 1 : Nat) : ℝ) ≠ 0 := by positivity
          field_simp
        rw [h1]
        have := Real.add_one_le_exp (-(code c / ((cs.length + 1 : Nat) : ℝ)))
        linarith
      rw [neg_add, Real.exp_add, mul_comm]
      exact mul_le_mul hp hf (factor_nonneg _ _) (Real.exp_pos _).le
    cases i with
    | zero =>
      simp only [getElem?_cons_zero, Option.some.injEq] at ha hb
      rw [← ha, ← hb]; exact hstep
    | succ i =>
      simp only [getElem?_cons_succ] at ha hb
      exact ih _ _ hstep (mul_nonneg (factor_nonneg _ _) hp0) i ha hb

/-- **C16.** On the same data the Nelson–Aalen survival is never below the Kaplan–Meier survival. -/
theorem C16_nelson_aalen_ge_kaplan_meier {sqrt' : ℝ → ℝ} {ppf' : ℝ → Ext ℝ} {CI' : ℝ}
    {plot_type' : String} {r k : Result ℝ}
    (h : nelsonAalen Real.exp argsort sqrt ppf failures right_censored CI plot_type = .ok r)
    (hk : kaplanMeier argsort sqrt' ppf' failures right_censored CI' plot_type' = .ok k)
    (i : Nat) (a b : ℝ) (ha : k.est[i]? = some a) (hb : r.est[i]? = some b) :
    k.data = r.data ∧ a ≤ b := by
  obtain ⟨f, rfl, -, -, -, rfl⟩ := nelsonAalen_ok h
  obtain ⟨f', hf', -, -, -, rfl⟩ := kaplanMeier_ok hk
  obtain rfl : f = f' := by simpa using hf'
  exact ⟨rfl, km_le_na 1 0 (by simp) zero_le_one _ i a b ha hb⟩

/-- **C16 (bounds).** For `0 < CI ≤ 1`: `0 ≤ lower ≤ SF ≤ upper ≤ 1` in every row. -/
theorem C16_bounds_bracket (hsq : ∀ x : ℝ, 0 < x → 0 < sqrt x) (hq : NormalQuantile ppf)
    (hCI : 0 < CI) {r : Result ℝ}
    (h : nelsonAalen Real.exp argsort sqrt ppf failures right_censored CI plot_type = .ok r)
    (i : Nat) (hi : i < r.data.length) :
    ∃ l e u, r.lower[i]? = some (.fin l) ∧ r.est[i]? = some e ∧ r.upper[i]? = some (.fin u) ∧
      0 ≤ l ∧ l ≤ e ∧ e ≤ u ∧ u ≤ 1 := by
  obtain ⟨f, rfl, h0, h1, -, rfl⟩ := nelsonAalen_ok h
  set S := sortedData argsort f (right_censored.getD []) with hS
  set NA := (naCHF 0 (S.map Prod.snd)).map (fun H => Real.exp (-H)) with hNA
  have hlen : NA.length = S.length := by rw [hNA, length_map, naCHF_eq, acc_length]; simp
  simp only [assemble, length_map] at hi ⊢
  have hzl : ((S.map Prod.snd).zip NA).length = S.length := by simp [hlen]
  obtain ⟨l, u, hlu, hh⟩ := gwLoop_bracket sqrt hsq (ppf (1 - (1 - CI) / 2))
    (hq.nonneg _ (by linarith) (by linarith)) ((S.map Prod.snd).zip NA) (.fin 0) (.fin 0)
    (Or.inl ⟨0, le_rfl, rfl⟩) ⟨0, le_rfl, rfl⟩
    (fun p hp => by
      have := na_range (S.map Prod.snd) p.2 (of_mem_zip hp).2
      exact ⟨this.1.le, this.2⟩)
    (Or.inl (hq.pos _ (by linarith) (by linarith)))
    i (by rw [hzl]; exact hi)
  have hei : NA[i]? = some (((S.map Prod.snd).zip NA)[i]'(by rw [hzl]; exact hi)).2 := by
    rw [getElem_zip]
    simp only
    rw [getElem?_eq_getElem (by omega)]
  refine ⟨l, _, u, ?_, hei, ?_, hh⟩
  · rw [getElem?_map]; unfold greenwood; rw [hlu]; rfl
  · rw [getElem?_map]; unfold greenwood; rw [hlu]; rfl

/-- **C16 (finding).** At `CI = 0` (accepted) with the last observation a failure, the last bounds of
NelsonAalen are `nan` (`inf * 0`). -/
theorem C16_CI_zero_gives_nan : ∃ r : Result ℝ,
    nelsonAalen Real.exp refArgsort Real.sqrt (fun p => .fin (p - 1 / 2)) (some [1, 2]) none 0 "SF" = .ok r ∧
    r.upper[1]? = some .nan ∧ r.lower[1]? = some .nan := by
  have hc : checkInputs (some [(1 : ℝ), 2]) "SF" 0 = .ok [1, 2] := by
    simp [checkInputs, not_lt.2 (zero_le_one (α := ℝ))]
  refine ⟨_, by unfold nelsonAalen; rw [hc]; rfl, ?_⟩
  have hs : refArgsort [(1 : ℝ), 2] = [0, 1] := by
    simp [refArgsort, zipIdx, insertionSort, orderedInsert]
  have hS : sortedData refArgsort [(1 : ℝ), 2] [] = [(1, true), (2, true)] := by
    simp [sortedData, sortValues, hs, takeRows]
  simp only [Option.getD_none, hS, assemble]
  have hz : (1 : ℝ) - (1 - 0) / 2 - 1 / 2 = 0 := by norm_num
  have hpos : ∀ x : ℝ, 0 < Real.exp x ^ 2 := fun x => by positivity
  simp [greenwood, gwLoop, naCHF, code, Ext.divFin, Ext.infMul, Ext.add, Ext.mul, Ext.rpowHalf,
    Ext.sub, Ext.neg, Ext.clipHi, Ext.clipLo, Ext.gt, hpos]
  norm_num [Ext.infMul, Ext.divFin, Ext.mul, Ext.rpowHalf, hpos, not_lt.2 (hpos _).le, Ext.add, Ext.neg, Ext.gt]

end NA

variable {K : Type _} [Field K] [LinearOrder K] [IsStrictOrderedRing K]

theorem ordered_eq (argsort : List K → List Nat) (f rc : List K) :
    PP.ordered argsort f rc = sortedData argsort f rc := by
  unfold PP.ordered sortedData
  rw [← PP.allRows_map_fst, sortValues_map]
  rfl

section RA
variable {argsort : List K → List Nat} {sqrt : K → K} {ppf : K → Ext K}
  {failures right_censored : Option (List K)} {a : Option K} {CI : K} {plot_type : String}

theorem rankAdjustment_ok {r : Result K}
    (h : rankAdjustment argsort sqrt ppf failures right_censored a CI plot_type = .ok r) :
    ∃ f x y RA, failures = some f ∧ 0 ≤ CI ∧ CI ≤ 1 ∧ 2 ≤ f.length ∧
      PP.plottingPositions argsort f (some (right_censored.getD [])) a true = .ok (x, y) ∧
      raLoop (0 :: y) 0 ((sortedData argsort f (right_censored.getD [])).map Prod.snd) = .ok RA ∧
      r = (
        let S := sortedData argsort f (right_censored.getD [])
        let d := S.map Prod.fst
        let c := S.map Prod.snd
        let steps := (0, 0) :: raSteps 0 (x.zip y)
        let lastCens := c.getLast? == some false
        let steps' := if lastCens then steps ++ [(d.getLastD 0, (steps.getLastD (0, 0)).2)] else steps
        let z := ppf (1 - (1 - CI) / 2)
        let b := greenwood sqrt z c RA
        let down := (Ext.fin 1, Ext.fin 1) :: ((c.zip b).filter (fun p => p.1)).map Prod.snd
        let dbl := down.flatMap fun p => [p, p]
        let dbl' := if c.getLast? == some true then dbl.dropLast else dbl
        let SF := steps'.map fun p => 1 - p.2
        { data := d, censor_codes := c, est := RA
          lower := b.map Prod.fst, upper := b.map Prod.snd
          xvals := steps'.map Prod.fst
          SF := SF, SF_lower := dbl'.map Prod.fst, SF_upper := dbl'.map Prod.snd
          CDF := steps'.map Prod.snd
          CDF_lower := dbl'.map (fun p => Ext.sub (.fin 1) p.2)
          CDF_upper := dbl'.map (fun p => Ext.sub (.fin 1) p.1) }) := by
  unfold rankAdjustment at h
  cases hc : checkInputs failures plot_type CI with
  | error e => rw [hc] at h; cases h
  | ok f =>
    rw [hc] at h
    obtain ⟨h1, h2, h3, h4⟩ := checkInputs_ok hc
    cases hp : PP.plottingPositions argsort f (some (right_censored.getD [])) a true with
    | error e =>
      simp only [bind, Except.bind, hp] at h
      cases h
    | ok xy =>
      obtain ⟨x, y⟩ := xy
      simp only [bind, Except.bind, hp] at h
      cases hr : raLoop (0 :: y) 0 ((sortedData argsort f (right_censored.getD [])).map Prod.snd) with
      | error e => rw [hr] at h; cases h
      | ok RA =>
        rw [hr] at h
        refine ⟨f, x, y, RA, h1, h2, h3, h4, hp, hr, ?_⟩
        cases h
        rfl

theorem positions_bounds (A : K) (ha : 0 ≤ A) (ha1 : A ≤ 1) (S : List (K × Bool)) (hn : 2 ≤ S.length) :
    (0 :: PP.Spec.positions A S).Pairwise (· ≤ ·) ∧ ∀ p ∈ PP.Spec.positions A S, 0 ≤ p ∧ p ≤ 1 := by
  have hnK : (2 : K) ≤ (S.length : K) := by exact_mod_cast hn
  have hpos : 0 < (S.length : K) + 1 - 2 * A := by linarith
  have hb := PP.ranks_bounds (K := K) (fun x : K × Bool => x.2) S
  rw [PP.rankLoop_eq_spec] at hb
  have hy : PP.Spec.positions A S =
      ((PP.Spec.failPositions S).map (PP.Spec.rank S)).map
        (fun r => (r - A) / ((S.length : K) + 1 - 2 * A)) := by
    unfold PP.Spec.positions; rw [map_map]; rfl
  have hrange : ∀ p ∈ PP.Spec.positions A S, 0 ≤ p ∧ p ≤ 1 := by
    intro p hp
    rw [hy] at hp
    obtain ⟨r, hr, rfl⟩ := mem_map.1 hp
    have := hb.2 r hr
    refine ⟨div_nonneg (by linarith) hpos.le, ?_⟩
    rw [div_le_one hpos]; linarith
  refine ⟨pairwise_cons.2 ⟨fun p hp => (hrange p hp).1, ?_⟩, hrange⟩
  rw [hy, pairwise_map]
  exact hb.1.imp fun hlt => by
    apply div_le_div_of_nonneg_right _ hpos.le; linarith

/-- What the inner call to `plotting_positions` returns, and the RA column built from it. -/
theorem ra_values (hargs : IsArgsort argsort) (f rc : List K) (hf : 2 ≤ f.length)
    (ha : 0 ≤ a.getD (3 / 10)) (ha1 : a.getD (3 / 10) ≤ 1) {x y : List K}
    (hp : PP.plottingPositions argsort f (some rc) a true = .ok (x, y)) :
    x = ((sortedData argsort f rc).filter (fun p => p.2)).map Prod.fst ∧
    y = PP.Spec.positions (a.getD (3 / 10)) (sortedData argsort f rc) ∧
    raLoop (0 :: y) 0 ((sortedData argsort f rc).map Prod.snd) =
      .ok (raVals 0 y ((sortedData argsort f rc).map Prod.snd)) := by
  have hn : (f.length + rc.length : Nat) ≥ 2 := by omega
  have hnK : (2 : K) ≤ ((f.length + rc.length : Nat) : K) := by exact_mod_cast hn
  have hres := PP.plottingPositions_sorted hargs f (some rc) a (by rintro rfl; simp at hf) ha ha1 (by
    simp only [Option.getD_some]
    have : 0 < ((f.length + rc.length : Nat) : K) + 1 - 2 * a.getD (3 / 10) := by linarith
    exact this.ne')
  rw [hres] at hp
  simp only [Except.ok.injEq, Prod.mk.injEq, Option.getD_some, ordered_eq] at hp
  refine ⟨hp.1.symm, hp.2.symm, ?_⟩
  have := raLoop_eq (K := K) [] 0 y ((sortedData argsort f rc).map Prod.snd) (by
    rw [← hp.2]
    unfold PP.Spec.positions
    rw [length_map, PP.failPositions_length, count, countP_map, countP_eq_length_filter]
    congr 1
    apply filter_congr
    intro p _
    simp)
  simpa using this

/-- **C17.** RankAdjustment's survival in every row is `Spec.rankSF`: 1 before the first failure, then
one minus the plotting position of the latest failure (so constant across censored rows); it never
increases and lies in `[0,1]`. -/
theorem C17_rank_adjustment (hargs : IsArgsort argsort)
    (ha : 0 ≤ a.getD (3 / 10)) (ha1 : a.getD (3 / 10) ≤ 1) {r : Result K}
    (h : rankAdjustment argsort sqrt ppf failures right_censored a CI plot_type = .ok r) :
    r.est.length = r.data.length ∧
    (∀ i < r.data.length,
      r.est[i]? = some (Spec.rankSF (a.getD (3 / 10)) (r.data.zip r.censor_codes) i)) ∧
    r.est.Pairwise (· ≥ ·) ∧ ∀ v ∈ r.est, 0 ≤ v ∧ v ≤ 1 := by
  obtain ⟨f, x, y, RA, rfl, h0, h1, hf2, hpp, hra, rfl⟩ := rankAdjustment_ok h
  set S := sortedData argsort f (right_censored.getD []) with hS
  have hz : (S.map Prod.fst).zip (S.map Prod.snd) = S := by
    rw [zip_map', map_id'']; intro x; rfl
  obtain ⟨hx, hy, hloop⟩ := ra_values hargs f (right_censored.getD []) hf2 ha ha1 hpp
  rw [hloop] at hra
  obtain rfl : raVals 0 y (S.map Prod.snd) = RA := by simpa using hra
  have hSn : 2 ≤ S.length := by
    rw [hS, (sortedData_perm hargs _ _).length_eq]; simp [Spec.tagged]; omega
  have hb := positions_bounds (a.getD (3 / 10)) ha ha1 S hSn
  rw [← hy] at hb
  have hm := raVals_mono 0 y (S.map Prod.snd) hb.1
  simp only [hz, length_map]
  refine ⟨by rw [raVals_length]; simp, ?_, hm.1, ?_⟩
  · intro i hi
    have := raVals_spec (a.getD (3 / 10)) [] S 0 (by simp)
    have hy' : y = ((List.range' 0 S.length).filter (PP.Spec.isFail S)).map
        fun i => (PP.Spec.rank S i - a.getD (3 / 10)) / ((S.length : K) + 1 - 2 * a.getD (3 / 10)) := by
      rw [hy]; unfold PP.Spec.positions PP.Spec.failPositions
      rw [range_eq_range']
    simp only [nil_append, length_nil] at this
    rw [← hy'] at this
    rw [this, getElem?_map, getElem?_range' (by simpa using hi)]
    simp
  · intro v hv
    obtain ⟨w, hw, rfl, h0w⟩ := hm.2.1 v hv
    rcases mem_cons.1 hw with rfl | hw
    · constructor <;> linarith
    · have := hb.2 w hw
      constructor <;> linarith

/-- **C17 (link with plotting_positions).** The step plot of RankAdjustment is built from exactly the
points of `plotting_positions` on the same data: the CDF after each failure is its position. -/
theorem C17_uses_plotting_positions {r : Result K}
    (h : rankAdjustment argsort sqrt ppf failures right_censored a CI plot_type = .ok r) :
    ∃ f x y, failures = some f ∧
      PP.plottingPositions argsort f (some (right_censored.getD [])) a true = .ok (x, y) ∧
      ∀ p ∈ x.zip y, p ∈ r.xvals.zip r.CDF := by
  obtain ⟨f, x, y, RA, rfl, h0, h1, hf2, hpp, hra, rfl⟩ := rankAdjustment_ok h
  refine ⟨f, x, y, rfl, hpp, ?_⟩
  have hmem : ∀ (L : List (K × K)) (v : K), ∀ p ∈ L, p ∈ raSteps v L := by
    intro L
    induction L with
    | nil => simp
    | cons q L ih =>
      intro v p hp
      rw [raSteps]
      rcases mem_cons.1 hp with rfl | hp
      · simp
      · exact mem_cons_of_mem _ (mem_cons_of_mem _ (ih _ p hp))
  intro p hp
  have := hmem (x.zip y) 0 p hp
  simp only
  rw [zip_map', map_id'']
  · split
    · simp [this]
    · simp [this]
  · intro x; rfl

/-- **C17 (bounds).** For `0 < CI ≤ 1`, every row of RankAdjustment has `0 ≤ lower ≤ SF ≤ upper ≤ 1`. -/
theorem C17_bounds_bracket (hargs : IsArgsort argsort) (hsq : ∀ x : K, 0 < x → 0 < sqrt x)
    (hq : NormalQuantile ppf) (hCI : 0 < CI)
    (ha : 0 ≤ a.getD (3 / 10)) (ha1 : a.getD (3 / 10) ≤ 1) {r : Result K}
    (h : rankAdjustment argsort sqrt ppf failures right_censored a CI plot_type = .ok r)
    (i : Nat) (hi : i < r.data.length) :
    ∃ l e u, r.lower[i]? = some (.fin l) ∧ r.est[i]? = some e ∧ r.upper[i]? = some (.fin u) ∧
      0 ≤ l ∧ l ≤ e ∧ e ≤ u ∧ u ≤ 1 := by
  obtain ⟨hlen, -, -, hrange⟩ := C17_rank_adjustment hargs ha ha1 h
  obtain ⟨f, x, y, RA, rfl, h0, h1, hf2, hpp, hra, rfl⟩ := rankAdjustment_ok h
  set S := sortedData argsort f (right_censored.getD []) with hS
  simp only [length_map] at hi hlen hrange ⊢
  have hzl : ((S.map Prod.snd).zip RA).length = S.length := by simp [hlen]
  obtain ⟨l, u, hlu, hh⟩ := gwLoop_bracket sqrt hsq (ppf (1 - (1 - CI) / 2))
    (hq.nonneg _ (by linarith) (by linarith)) ((S.map Prod.snd).zip RA) (.fin 0) (.fin 0)
    (Or.inl ⟨0, le_rfl, rfl⟩) ⟨0, le_rfl, rfl⟩
    (fun p hp => hrange p.2 (of_mem_zip hp).2)
    (Or.inl (hq.pos _ (by linarith) (by linarith)))
    i (by rw [hzl]; exact hi)
  have hei : RA[i]? = some (((S.map Prod.snd).zip RA)[i]'(by rw [hzl]; exact hi)).2 := by
    rw [getElem_zip]
    simp only
    rw [getElem?_eq_getElem (by omega)]
  refine ⟨l, _, u, ?_, hei, ?_, hh⟩
  · rw [getElem?_map]; unfold greenwood; rw [hlu]; rfl
  · rw [getElem?_map]; unfold greenwood; rw [hlu]; rfl

end RA

/-- The hypotheses of C16 and C17 are met: NelsonAalen and RankAdjustment return a result on ordinary
tied, censored data. -/
example (argsort : List ℝ → List Nat) (sqrt : ℝ → ℝ) (ppf : ℝ → Ext ℝ) :
    ∃ r, nelsonAalen Real.exp argsort sqrt ppf (some [3, 5, 5]) (some [5, 12]) (19 / 20) "CHF" = .ok r := by
  have : checkInputs (some [(3 : ℝ), 5, 5]) "CHF" (19 / 20) = .ok [3, 5, 5] := by
    norm_num [checkInputs]
  exact ⟨_, by unfold nelsonAalen; rw [this]; rfl⟩

example (sqrt : ℚ → ℚ) (ppf : ℚ → Ext ℚ) :
    ∃ r, rankAdjustment refArgsort sqrt ppf (some [3, 5, 5]) (some [5, 12]) none (19 / 20) "SF" = .ok r := by
  have hc : checkInputs (some [(3 : ℚ), 5, 5]) "SF" (19 / 20) = .ok [3, 5, 5] := by
    norm_num [checkInputs]
  obtain ⟨x, y, hp, -⟩ := PP.C09_strictly_increasing_probabilities (K := ℚ)
    (refArgsort_isArgsort) [3, 5, 5] (some [5, 12]) none (by simp) (by norm_num) (by norm_num)
    (by norm_num)
  have hra := (ra_values (K := ℚ) (a := none) refArgsort_isArgsort [3, 5, 5] [5, 12] (by simp)
    (by norm_num) (by norm_num) hp).2.2
  unfold rankAdjustment
  simp only [hc, bind, Except.bind, Option.getD_some, hp, hra]
  exact ⟨_, rfl⟩

end Reliability.NP

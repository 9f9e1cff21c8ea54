import Verif.Spec.NonparametricOrder
import Verif.Spec.RankRegression
import Verif.Props.Nonparametric2
import Verif.Props.Units
import Mathlib.Analysis.SpecialFunctions.Arsinh

/-!
# C172: Kaplan-Meier, Nelson-Aalen and Rank Adjustment depend only on the order of the times

`C172_*_times`: an increasing change of the times that keeps 0 changes only the times reported.
`C172_*_data_order`: the order in which the failures and the censored times are typed in does not matter, and neither does
the sort, unless an item is censored at a failure time and the sort is not stable.
-/

namespace Reliability.Props

open Reliability Reliability.NP List
open Reliability.Spec (ComparisonSort atTimes NoSharedTime)

section times
variable {argsort : List ℝ → List Nat}

theorem sortedData_map (hc : ComparisonSort argsort) (g : ℝ → ℝ) (hg : StrictMono g) (f rc : List ℝ) :
    sortedData argsort (f.map g) (rc.map g) = (sortedData argsort f rc).map fun p => (g p.1, p.2) := by
  unfold sortedData
  have : (map (fun t => (t, true)) (f.map g) ++ map (fun t => (t, false)) (rc.map g)) =
      (map (fun t => (t, true)) f ++ map (fun t => (t, false)) rc).map fun p : ℝ × Bool => (g p.1, p.2) := by
    simp [map_append, Function.comp_def]
  rw [this, sortValues_map]
  congr 1
  unfold sortValues
  congr 1
  rw [show (Prod.fst ∘ fun p : ℝ × Bool => (g p.1, p.2)) = g ∘ Prod.fst from rfl, ← map_map, hc g hg]

theorem stepRest_map (g : ℝ → ℝ) (prev : Row ℝ) (rows : List (Row ℝ)) :
    stepRest { prev with t := g prev.t } (rows.map fun r => { r with t := g r.t }) =
      (stepRest prev rows).map fun e => { e with x := g e.x } := by
  induction rows generalizing prev with
  | nil => rfl
  | cons r rs ih =>
    simp only [map_cons, stepRest]
    split
    · rw [ih r]; rfl
    · rw [ih r]; rfl

theorem stepEntries_map (g : ℝ → ℝ) (c0 : Bool) (rows : List (Row ℝ)) :
    stepEntries c0 (rows.map fun r => { r with t := g r.t }) =
      (stepEntries c0 rows).map fun e => { e with x := g e.x } := by
  cases rows with
  | nil => rfl
  | cons r rs =>
    simp only [map_cons, stepEntries, stepRest_map]
    cases c0 <;> simp

theorem assemble_map (g : ℝ → ℝ) (h0 : g 0 = 0) (S : List (ℝ × Bool)) (est : List ℝ) (b : List (Ext ℝ × Ext ℝ)) :
    assemble (S.map fun p => (g p.1, p.2)) est b = atTimes g (assemble S est b) := by
  have hd : (S.map fun p => (g p.1, p.2)).map Prod.fst = (S.map Prod.fst).map g := by simp [map_map, Function.comp_def]
  have hcod : (S.map fun p => (g p.1, p.2)).map Prod.snd = S.map Prod.snd := by simp [map_map, Function.comp_def]
  have hrows : ((((S.map Prod.fst).map g).zip (est.zip b)).map fun p => (⟨p.1, p.2.1, p.2.2.1, p.2.2.2⟩ : Row ℝ)) =
      (((S.map Prod.fst).zip (est.zip b)).map fun p => (⟨p.1, p.2.1, p.2.2.1, p.2.2.2⟩ : Row ℝ)).map
        fun r => { r with t := g r.t } := by
    rw [zip_map_left', map_map, map_map]; rfl
  unfold assemble
  simp only [hd, hcod, hrows, stepEntries_map, atTimes]
  simp only [map_map, Function.comp_def, map_cons, h0]

theorem checkInputs_map (g : ℝ → ℝ) (failures : Option (List ℝ)) (pt : String) (CI : ℝ) :
    checkInputs (failures.map (List.map g)) pt CI = (checkInputs failures pt CI).map (List.map g) := by
  unfold checkInputs
  cases failures with
  | none => rfl
  | some f =>
    simp only [Option.map_some, length_map]
    split_ifs <;> rfl

theorem getD_map' (g : ℝ → ℝ) (rc : Option (List ℝ)) : (rc.map (List.map g)).getD [] = (rc.getD []).map g := by
  cases rc <;> rfl

variable {sqrt : ℝ → ℝ} {ppf : ℝ → Ext ℝ} {failures right_censored : Option (List ℝ)} {CI : ℝ} {plot_type : String}

/-- **C172 (Kaplan-Meier, times).** Put any strictly increasing change of the times that fixes 0 — another unit, a log-like
scale — in front of `KaplanMeier`: it raises exactly when it did before, with the same error, and otherwise returns the same
estimates, bounds, codes and curves, at the changed times. -/
theorem C172_KM_times (hc : ComparisonSort argsort) (g : ℝ → ℝ) (hg : StrictMono g) (h0 : g 0 = 0) :
    kaplanMeier argsort sqrt ppf (failures.map (List.map g)) (right_censored.map (List.map g)) CI plot_type =
      (kaplanMeier argsort sqrt ppf failures right_censored CI plot_type).map (atTimes g) := by
  unfold kaplanMeier
  rw [checkInputs_map]
  cases checkInputs failures plot_type CI with
  | error e => rfl
  | ok f =>
    have hcod : ∀ S : List (ℝ × Bool), (S.map fun p => (g p.1, p.2)).map Prod.snd = S.map Prod.snd := by
      intro S; simp [map_map, Function.comp_def]
    simp only [Except.map, bind, Except.bind, pure, Except.pure, getD_map', sortedData_map hc g hg, hcod, assemble_map g h0]

/-- **C172 (Nelson-Aalen, times).** The same for `NelsonAalen`. -/
theorem C172_NA_times {exp : ℝ → ℝ} (hc : ComparisonSort argsort) (g : ℝ → ℝ) (hg : StrictMono g) (h0 : g 0 = 0) :
    nelsonAalen exp argsort sqrt ppf (failures.map (List.map g)) (right_censored.map (List.map g)) CI plot_type =
      (nelsonAalen exp argsort sqrt ppf failures right_censored CI plot_type).map (atTimes g) := by
  unfold nelsonAalen
  rw [checkInputs_map]
  cases checkInputs failures plot_type CI with
  | error e => rfl
  | ok f =>
    have hcod : ∀ S : List (ℝ × Bool), (S.map fun p => (g p.1, p.2)).map Prod.snd = S.map Prod.snd := by
      intro S; simp [map_map, Function.comp_def]
    simp only [Except.map, bind, Except.bind, pure, Except.pure, getD_map', sortedData_map hc g hg, hcod, assemble_map g h0]

theorem plottingPositions_times (hc : ComparisonSort argsort) (g : ℝ → ℝ) (hg : StrictMono g) (f rc : List ℝ)
    (a : Option ℝ) :
    PP.plottingPositions argsort (f.map g) (some (rc.map g)) a true =
      (PP.plottingPositions argsort f (some rc) a true).map fun p => (p.1.map g, p.2) := by
  cases h : PP.plottingPositions argsort f (some rc) a true with
  | ok p => exact positions_map hc g hg f rc a (x := p.1) (y := p.2) h
  | error e =>
    unfold PP.plottingPositions at h ⊢
    simp only [Option.getD_some, if_true] at h ⊢
    split at h
    · rename_i ha
      rw [if_pos ha]
      exact h
    · rename_i ha
      rw [if_neg ha]
      rw [adjRows_map]
      have hsv : sortValues argsort (fun r : (ℝ × Bool) × ℕ => r.1.1)
            ((PP.allRows f rc).map fun r => ((g r.1.1, r.1.2), r.2)) =
          (sortValues argsort (fun r : (ℝ × Bool) × ℕ => r.1.1) (PP.allRows f rc)).map
            fun r => ((g r.1.1, r.1.2), r.2) := by
        rw [sortValues_map]
        congr 1
        unfold sortValues
        congr 1
        rw [show ((fun r : (ℝ × Bool) × ℕ => r.1.1) ∘ fun r : (ℝ × Bool) × ℕ => ((g r.1.1, r.1.2), r.2)) =
          g ∘ (fun r : (ℝ × Bool) × ℕ => r.1.1) from rfl, ← map_map, hc g hg]
      rw [hsv, length_map, findIdx?_map, zip_map_left', filter_map]
      simp only [Function.comp_def]
      cases hi : findIdx? (fun r : (ℝ × Bool) × ℕ => r.1.2)
          (sortValues argsort (fun r => r.1.1) (PP.allRows f rc)) with
      | none => rw [hi] at h; exact h
      | some i =>
        rw [hi] at h
        simp only at h ⊢
        split at h
        · rename_i h0
          rw [if_pos h0]; exact h
        · cases h

theorem raSteps_map (g : ℝ → ℝ) (prev : ℝ) (L : List (ℝ × ℝ)) :
    raSteps prev (L.map fun p => (g p.1, p.2)) = (raSteps prev L).map fun p => (g p.1, p.2) := by
  induction L generalizing prev with
  | nil => rfl
  | cons p L ih => obtain ⟨x, y⟩ := p; simp [raSteps, ih]

theorem getLastD_map' {α β : Type _} (g : α → β) (L : List α) (d : α) : (L.map g).getLastD (g d) = g (L.getLastD d) := by
  rw [getLastD_eq_getLast?, getLastD_eq_getLast?, getLast?_map]
  cases L.getLast? <;> rfl

/-- **C172 (Rank Adjustment, times).** The same for `RankAdjustment`, with any plotting heuristic. -/
theorem C172_RA_times {a : Option ℝ} (hc : ComparisonSort argsort) (g : ℝ → ℝ) (hg : StrictMono g) (h0 : g 0 = 0) :
    rankAdjustment argsort sqrt ppf (failures.map (List.map g)) (right_censored.map (List.map g)) a CI plot_type =
      (rankAdjustment argsort sqrt ppf failures right_censored a CI plot_type).map (atTimes g) := by
  unfold rankAdjustment
  rw [checkInputs_map]
  cases checkInputs failures plot_type CI with
  | error e => rfl
  | ok f =>
    have hcod : ∀ S : List (ℝ × Bool), (S.map fun p => (g p.1, p.2)).map Prod.snd = S.map Prod.snd := by
      intro S; simp [map_map, Function.comp_def]
    have hd : ∀ S : List (ℝ × Bool), (S.map fun p => (g p.1, p.2)).map Prod.fst = (S.map Prod.fst).map g := by
      intro S; simp [map_map, Function.comp_def]
    simp only [Except.map, bind, Except.bind, pure, Except.pure, getD_map', sortedData_map hc g hg, hcod, hd,
      plottingPositions_times hc g hg]
    cases PP.plottingPositions argsort f (some (right_censored.getD [])) a true with
    | error e => rfl
    | ok p =>
      obtain ⟨x, y⟩ := p
      simp only [Except.map]
      cases raLoop (0 :: y) 0 ((sortedData argsort f (right_censored.getD [])).map Prod.snd) with
      | error e => rfl
      | ok RA =>
        simp only [atTimes, zip_map_left', raSteps_map]
        have hst : ((0 : ℝ), (0 : ℝ)) :: (raSteps 0 (x.zip y)).map (fun p => (g p.1, p.2)) =
            (((0 : ℝ), (0 : ℝ)) :: raSteps 0 (x.zip y)).map (fun p => (g p.1, p.2)) := by simp [h0]
        have hl : (((sortedData argsort f (right_censored.getD [])).map Prod.fst).map g).getLastD 0 =
            g (((sortedData argsort f (right_censored.getD [])).map Prod.fst).getLastD 0) := by
          rw [← getLastD_map' g, h0]
        have hl2 : ((((((0 : ℝ), (0 : ℝ)) :: raSteps 0 (x.zip y)).map (fun p => (g p.1, p.2))).getLastD (0, 0))).2 =
            ((((0 : ℝ), (0 : ℝ)) :: raSteps 0 (x.zip y)).getLastD (0, 0)).2 := by
          have := getLastD_map' (fun p : ℝ × ℝ => (g p.1, p.2)) (((0 : ℝ), (0 : ℝ)) :: raSteps 0 (x.zip y)) (0, 0)
          simp only [h0] at this
          rw [this]
        rw [hst, hl, hl2]
        split <;> simp [map_append, Function.comp_def]

end times

section order
variable {K : Type _} [Field K] [LinearOrder K] [IsStrictOrderedRing K] {argsort argsort' : List K → List Nat}

theorem sortedData_perm_noTies (h : IsArgsort argsort) (h' : IsArgsort argsort') {f f' rc rc' : List K}
    (hf : f ~ f') (hr : rc ~ rc') (hn : NoSharedTime f rc) :
    sortedData argsort f rc = sortedData argsort' f' rc' := by
  have hp : sortedData argsort f rc ~ sortedData argsort' f' rc' :=
    (sortedData_perm h f rc).trans ((((hf.map _).append (hr.map _))).trans (sortedData_perm h' f' rc').symm)
  refine hp.eq_of_pairwise (le := fun p q => p.1 ≤ q.1) ?_ (sortedData_sorted h _ _) (sortedData_sorted h' _ _)
  rintro ⟨t, c⟩ ⟨t', c'⟩ hm hm' h1 h2
  obtain rfl : t = t' := le_antisymm h1 h2
  have m1 := (sortedData_perm h f rc).mem_iff.1 hm
  have m2 := (sortedData_perm h f rc).mem_iff.1 (hp.mem_iff.2 hm')
  simp only [Spec.tagged, mem_append, mem_map, Prod.mk.injEq] at m1 m2
  cases c <;> cases c'
  · rfl
  · obtain ⟨x, hx, rfl, -⟩ | ⟨x, hx, rfl, he⟩ := m2
    · obtain ⟨y, hy, -, he⟩ | ⟨y, hy, rfl, -⟩ := m1
      · cases he
      · exact absurd hy (hn _ hx)
    · cases he
  · obtain ⟨x, hx, rfl, -⟩ | ⟨x, hx, rfl, he⟩ := m1
    · obtain ⟨y, hy, -, he⟩ | ⟨y, hy, rfl, -⟩ := m2
      · cases he
      · exact absurd hy (hn _ hx)
    · cases he
  · rfl

theorem sortedData_perm_stable (h : IsStableArgsort argsort) (h' : IsStableArgsort argsort') {f f' rc rc' : List K}
    (hf : f ~ f') (hr : rc ~ rc') :
    sortedData argsort f rc = sortedData argsort' f' rc' := by
  have hp : sortedData argsort f rc ~ sortedData argsort' f' rc' :=
    (sortedData_perm h.1 f rc).trans ((((hf.map _).append (hr.map _))).trans (sortedData_perm h'.1 f' rc').symm)
  have p1 := (sortedData_sorted h.1 f rc).and (stable_failuresFirst h f rc)
  have p2 := (sortedData_sorted h'.1 f' rc').and (stable_failuresFirst h' f' rc')
  refine hp.eq_of_pairwise (le := fun p q => p.1 ≤ q.1 ∧ (p.1 = q.1 → q.2 = true → p.2 = true)) ?_ p1 p2
  rintro ⟨t, c⟩ ⟨t', c'⟩ _ _ ⟨h1, k1⟩ ⟨h2, k2⟩
  obtain rfl : t = t' := le_antisymm h1 h2
  cases c <;> cases c' <;> simp_all

/-- `plotting_positions(sort=True)` reads the table only through its sorted rows. -/
def ppOf (a : Option K) (S : List (K × Bool)) : Except Err (List K × List K) :=
  let a' := a.getD (3 / 10)
  if a' < 0 ∨ a' > 1 then valueErr
  else
    let n := S.length
    let fr := (S.zip (List.range' 1 n).reverse).filter fun r => r.1.2
    match S.findIdx? (fun r => r.2) with
    | none => .error .indexError
    | some k =>
      let ranks := PP.adjustedRanks n k (fr.map Prod.snd)
      if (n : K) + 1 - 2 * a' = 0 then .error .zeroDivision
      else .ok (fr.map (fun r => r.1.1), ranks.map fun i => (i - a') / ((n : K) + 1 - 2 * a'))

theorem plottingPositions_eq_ppOf (h : IsArgsort argsort) (f rc : List K) (a : Option K) :
    PP.plottingPositions argsort f (some rc) a true = ppOf a (sortedData argsort f rc) := by
  rw [← ordered_eq]
  unfold PP.plottingPositions ppOf PP.ordered
  simp only [Option.getD_some, if_true, length_map, sortValues_length h, findIdx?_map, zip_map_left', filter_map, map_map,
    Function.comp_def]
  split
  · rfl
  · cases findIdx? (fun r : (K × Bool) × ℕ => r.1.2) (sortValues argsort (fun r => r.1.1) (PP.allRows f rc)) <;> rfl

variable {sqrt : K → K} {ppf : K → Ext K} {failures failures' right_censored right_censored' : Option (List K)}
  {CI : K} {plot_type : String}

theorem checkInputs_perm {f f' : List K} (hf : f ~ f') :
    checkInputs (some f') plot_type CI = (checkInputs (some f) plot_type CI).map fun _ => f' := by
  unfold checkInputs
  simp only [hf.length_eq]
  split_ifs <;> rfl

theorem checkInputs_eq {f g : List K} (h : checkInputs (some f) plot_type CI = .ok g) : g = f := by
  obtain ⟨h, -⟩ := checkInputs_ok h
  cases h; rfl

/-- **C172 (order of the data).** Enter the same failures and the same censored times in another order, and sort with
another algorithm. If no item is censored at a failure time — or if both sorts are stable — the three estimators do exactly
the same: same error, or same results in every array. -/
theorem C172_data_order {exp : K → K} {a : Option K} (h : IsArgsort argsort) (h' : IsArgsort argsort')
    {f f' rc rc' : List K} (hf : f ~ f') (hr : rc ~ rc')
    (hs : NoSharedTime f rc ∨ (IsStableArgsort argsort ∧ IsStableArgsort argsort')) :
    kaplanMeier argsort' sqrt ppf (some f') (some rc') CI plot_type =
        kaplanMeier argsort sqrt ppf (some f) (some rc) CI plot_type ∧
      nelsonAalen exp argsort' sqrt ppf (some f') (some rc') CI plot_type =
        nelsonAalen exp argsort sqrt ppf (some f) (some rc) CI plot_type ∧
      rankAdjustment argsort' sqrt ppf (some f') (some rc') a CI plot_type =
        rankAdjustment argsort sqrt ppf (some f) (some rc) a CI plot_type := by
  have hS : sortedData argsort f rc = sortedData argsort' f' rc' := by
    rcases hs with hn | ⟨s1, s2⟩
    · exact sortedData_perm_noTies h h' hf hr hn
    · exact sortedData_perm_stable s1 s2 hf hr
  unfold kaplanMeier nelsonAalen rankAdjustment
  rw [checkInputs_perm hf]
  cases hk : checkInputs (some f) plot_type CI with
  | error e => exact ⟨rfl, rfl, rfl⟩
  | ok g =>
    obtain rfl := checkInputs_eq hk
    simp only [Except.map, bind, Except.bind, Option.getD_some, plottingPositions_eq_ppOf h, plottingPositions_eq_ppOf h',
      hS, and_self]

end order

/-- **C172 (finding).** Without that proviso the order of typing can matter: an unstable sort may put the item censored at
time 1 before or after the failures at time 1, and the estimate after time 1 is then 0 or 1/3. -/
theorem C172_shared_time_finding :
    ∃ (A A' : List ℚ → List Nat) (r r' : Result ℚ), IsArgsort A ∧ IsArgsort A' ∧
      kaplanMeier A id (fun _ => .fin 0) (some [1, 1]) (some [1]) (1 / 2) "SF" = .ok r ∧
      kaplanMeier A' id (fun _ => .fin 0) (some [1, 1]) (some [1]) (1 / 2) "SF" = .ok r' ∧
      r.est.getLast? = some 0 ∧ r'.est.getLast? = some (1 / 3) := by
  obtain ⟨r, hr⟩ := (C12_accepts_iff (argsort := revArgsort) (sqrt := id) (ppf := fun _ => .fin 0)
    (failures := some [(1 : ℚ), 1]) (right_censored := some [1]) (CI := 1 / 2) (plot_type := "SF")).2
    ⟨[1, 1], rfl, by simp, by norm_num, by norm_num, by simp⟩
  obtain ⟨r', hr'⟩ := (C12_accepts_iff (argsort := refArgsort) (sqrt := id) (ppf := fun _ => .fin 0)
    (failures := some [(1 : ℚ), 1]) (right_censored := some [1]) (CI := 1 / 2) (plot_type := "SF")).2
    ⟨[1, 1], rfl, by simp, by norm_num, by norm_num, by simp⟩
  refine ⟨revArgsort, refArgsort, r, r', revArgsort_isArgsort, refArgsort_isArgsort, hr, hr', ?_, ?_⟩
  · obtain ⟨f, hf, -, -, -, rfl⟩ := kaplanMeier_ok hr
    obtain rfl : [(1 : ℚ), 1] = f := by simpa using hf
    have : revArgsort [(1 : ℚ), 1, 1] = [2, 1, 0] := by decide +kernel
    simp [assemble, sortedData, sortValues, this, takeRows, kmLoop, code]
  · obtain ⟨f, hf, -, -, -, rfl⟩ := kaplanMeier_ok hr'
    obtain rfl : [(1 : ℚ), 1] = f := by simpa using hf
    have : refArgsort [(1 : ℚ), 1, 1] = [0, 1, 2] := by decide +kernel
    simp [assemble, sortedData, sortValues, this, takeRows, kmLoop, code]
    norm_num

/-- The hypotheses of `C172_*_times` hold of reading days as hours, and of `sinh`-like changes; those of `C172_data_order` of
a concrete data set typed in two orders. -/
example : ComparisonSort (refArgsort (K := ℝ)) ∧ StrictMono (fun t : ℝ => 24 * t) ∧ (24 : ℝ) * 0 = 0 ∧
    StrictMono Real.sinh ∧ Real.sinh 0 = 0 := by
  refine ⟨?_, fun a b h => by simpa using h, by norm_num, Real.sinh_strictMono, Real.sinh_zero⟩
  intro g hg keys
  unfold refArgsort
  rw [zipIdx_map, ← map_insertionSort (r := fun p q : ℝ × ℕ => p.1 < q.1 ∨ (p.1 = q.1 ∧ p.2 ≤ q.2)), map_map]
  · rfl
  · rintro ⟨a, i⟩ - ⟨b, j⟩ -
    simp [hg.lt_iff_lt, hg.injective.eq_iff]

example : [(5 : ℚ), 3, 9] ~ [3, 9, 5] ∧ [(7 : ℚ), 12] ~ [12, 7] ∧ NoSharedTime [(5 : ℚ), 3, 9] [7, 12] := by
  refine ⟨by decide, by decide, ?_⟩
  intro t ht
  simp only [mem_cons, not_mem_nil, or_false] at ht ⊢
  rcases ht with rfl | rfl | rfl <;> norm_num

end Reliability.Props

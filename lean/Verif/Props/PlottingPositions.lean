import Mathlib.Tactic.NormNum
import Verif.Lemmas.PlottingPositions

/-!
# C08–C11: `plotting_positions`

`argsort` is pandas' (unspecified) order of tied rows; every theorem holds for any function that is
an argsort.  `tagged f rc` is the user's data as (time, failed?) pairs.
-/

namespace Reliability.PP

open Reliability List

variable {K : Type _} [Field K] [LinearOrder K] [IsStrictOrderedRing K]

/-- **C08.** For every input with at least one failure and every `a ∈ [0,1]` (`n+1-2a ≠ 0`), the
result of `plotting_positions(sort=True)` is: the failure times of the data taken in a time order
`S`, and for each failure `(adjusted rank - a)/(n+1-2a)`. -/
theorem C08_adjusted_rank_estimator {argsort : List K → List Nat} (h : IsArgsort argsort)
    (f : List K) (rc : Option (List K)) (a : Option K) (hf : f ≠ [])
    (ha : 0 ≤ a.getD (3 / 10)) (ha1 : a.getD (3 / 10) ≤ 1)
    (hd : ((f.length + (rc.getD []).length : Nat) : K) + 1 - 2 * a.getD (3 / 10) ≠ 0) :
    ∃ S : List (K × Bool),
      S ~ f.map (fun t => (t, true)) ++ (rc.getD []).map (fun t => (t, false)) ∧
      S.Pairwise (fun p q => p.1 ≤ q.1) ∧
      plottingPositions argsort f rc a true =
        .ok ((S.filter (fun p => p.2)).map Prod.fst, Spec.positions (a.getD (3 / 10)) S) :=
  ⟨ordered argsort f (rc.getD []), ordered_perm h _ _, ordered_sorted h _ _,
    plottingPositions_sorted h f rc a hf ha ha1 hd⟩

omit [LinearOrder K] [IsStrictOrderedRing K] in
/-- The product over the failures strictly before position `i`. -/
theorem rank_prev (S : List (K × Bool)) (i : Nat) (hi : Spec.isFail S i = false) (hi0 : 0 < i) :
    Spec.rank S i = Spec.rank S (i - 1) := by
  unfold Spec.rank
  rw [show i - 1 + 1 = i by omega, Finset.range_add_one, Finset.filter_insert]
  simp [hi]

/-- **C08 (recursive form).** The specified rank obeys the textbook recursion: at a failure with
`m` items at or beyond it, `r_j = r_{j-1} + (n+1-r_{j-1})/(1+m)`; at a censored item it is unchanged;
before the first item it is 0. -/
theorem C08_rank_recursion (S : List (K × Bool)) (i : Nat) :
    Spec.rank S i =
      (let prev := if i = 0 then 0 else Spec.rank S (i - 1)
       if Spec.isFail S i then prev + ((S.length : K) + 1 - prev) / (1 + ((S.length - i : Nat) : K))
       else prev) := by
  have hprev : (if i = 0 then (0 : K) else Spec.rank S (i - 1)) = ((S.length : K) + 1) *
    (1 - ∏ j ∈ (Finset.range i).filter (fun j => Spec.isFail S j = true),
      ((S.length - j : Nat) : K) / (((S.length - j : Nat) : K) + 1)) := by
    split
    · next h => subst h; simp
    · next h => unfold Spec.rank; rw [show i - 1 + 1 = i by omega]
  simp only [hprev]
  unfold Spec.rank
  rw [Finset.range_add_one, Finset.filter_insert]
  cases hfi : Spec.isFail S i with
  | false => simp
  | true =>
    simp only [if_true]
    rw [Finset.prod_insert (by simp)]
    generalize ∏ j ∈ (Finset.range i).filter (fun j => Spec.isFail S j = true),
      ((S.length - j : Nat) : K) / (((S.length - j : Nat) : K) + 1) = P
    have : (1 : K) + ((S.length - i : Nat) : K) ≠ 0 := by positivity
    have : ((S.length - i : Nat) : K) + 1 ≠ 0 := by positivity
    field_simp
    ring

/-- **C08 (error branches).** `a` outside `[0,1]` is a ValueError; data without a failure is an
IndexError; `n = 1` with `a = 1` is a division by zero. -/
theorem C08_errors {argsort : List K → List Nat} (h : IsArgsort argsort)
    (f : List K) (rc : Option (List K)) (a : Option K) (sort : Bool) :
    ((a.getD (3 / 10) < 0 ∨ 1 < a.getD (3 / 10)) →
      plottingPositions argsort f rc a sort = valueErr) ∧
    (0 ≤ a.getD (3 / 10) → a.getD (3 / 10) ≤ 1 → f = [] →
      plottingPositions argsort f rc a sort = .error .indexError) ∧
    (∀ t, f = [t] → rc.getD [] = [] → a = some 1 →
      plottingPositions argsort f rc a sort = .error .zeroDivision) := by
  refine ⟨?_, ?_, ?_⟩
  · intro ha
    simp [plottingPositions, ha]
  · rintro ha ha1 rfl
    unfold plottingPositions
    have hnone : (sortValues argsort (fun r => r.1.1) (allRows [] (rc.getD []))).findIdx?
        (fun r => r.1.2) = none := by
      rw [findIdx?_eq_none_iff]
      intro x hx
      rw [(sortValues_perm h _ _).mem_iff] at hx
      have : x.1 ∈ (allRows [] (rc.getD [])).map Prod.fst := mem_map_of_mem hx
      rw [allRows_map_fst] at this
      simp at this
      obtain ⟨t, _, ht⟩ := this
      simp [← ht]
    simp only [hnone]
    rw [if_neg (by push Not; exact ⟨ha, ha1⟩)]
  · rintro t rfl hrc rfl
    obtain ⟨k, hk⟩ := exists_leading h [t] (rc.getD []) (by simp)
    unfold plottingPositions
    simp only [hk]
    rw [if_neg (by simp)]
    simp only [hrc, allRows]
    rw [if_pos]
    simp
    norm_num

theorem failPositions_length (S : List (K × Bool)) :
    (Spec.failPositions S).length = (S.filter (fun p => p.2)).length := by
  rw [← revList_length]
  have := congrArg length (rankLoop_eq_spec S)
  rw [rankLoop_length, length_map] at this
  exact this.symm

/-- **C09.** Whatever the data (at least one failure), `a ∈ [0,1]`: exactly one plotting position per
failure, times ascending, positions strictly increasing, in `[0,1]`, and in `(0,1)` when `a < 1`. -/
theorem C09_strictly_increasing_probabilities {argsort : List K → List Nat} (h : IsArgsort argsort)
    (f : List K) (rc : Option (List K)) (a : Option K) (hf : f ≠ [])
    (ha : 0 ≤ a.getD (3 / 10)) (ha1 : a.getD (3 / 10) ≤ 1)
    (hn : a.getD (3 / 10) = 1 → 1 < f.length + (rc.getD []).length) :
    ∃ x y, plottingPositions argsort f rc a true = .ok (x, y) ∧
      x ~ f ∧ x.Pairwise (· ≤ ·) ∧ y.length = f.length ∧ y.Pairwise (· < ·) ∧
      (∀ p ∈ y, 0 ≤ p ∧ p ≤ 1) ∧ (a.getD (3 / 10) < 1 → ∀ p ∈ y, 0 < p ∧ p < 1) := by
  set n := f.length + (rc.getD []).length with hndef
  have hn1 : 1 ≤ n := by
    have : f.length ≠ 0 := by simpa using hf
    omega
  have hnK : (1 : K) ≤ (n : K) := by exact_mod_cast hn1
  set A := a.getD (3 / 10) with hA
  have hpos : 0 < (n : K) + 1 - 2 * A := by
    rcases ha1.lt_or_eq with h1 | h1
    · linarith
    · have : 1 < n := hn h1
      have : (1 : K) < (n : K) := by exact_mod_cast this
      linarith
  have hres := plottingPositions_sorted h f rc a hf ha ha1 (by rw [← hA, ← hndef]; exact hpos.ne')
  set S := ordered argsort f (rc.getD []) with hS
  have hperm := ordered_perm h f (rc.getD [])
  have hSlen : S.length = n := by rw [hS, hperm.length_eq]; simp [hndef]
  have hfilt : S.filter (fun p => p.2) ~ f.map (fun t => (t, true)) := by
    have := hperm.filter (fun p => p.2)
    simpa [filter_append, filter_map, Function.comp_def] using this
  have hb := ranks_bounds (K := K) (fun x : K × Bool => x.2) S
  rw [rankLoop_eq_spec] at hb
  have hy : Spec.positions A S =
      ((Spec.failPositions S).map (Spec.rank S)).map (fun r => (r - A) / ((n : K) + 1 - 2 * A)) := by
    unfold Spec.positions; rw [map_map, hSlen]; rfl
  refine ⟨_, _, hres, ?_, ?_, ?_, ?_, ?_, ?_⟩
  · have := hfilt.map Prod.fst
    simpa [map_map, Function.comp_def] using this
  · rw [pairwise_map]
    exact (ordered_sorted h f (rc.getD [])).filter _
  · rw [hy]; simp only [length_map]
    rw [failPositions_length, hfilt.length_eq]; simp
  · rw [hy, pairwise_map]
    exact hb.1.imp fun hlt => by
      apply div_lt_div_of_pos_right _ hpos; linarith
  · intro p hp
    rw [hy] at hp
    obtain ⟨r, hr, rfl⟩ := mem_map.1 hp
    have := hb.2 r hr
    rw [hSlen] at this
    refine ⟨div_nonneg (by linarith) hpos.le, ?_⟩
    rw [div_le_one hpos]; linarith
  · intro hlt p hp
    rw [hy] at hp
    obtain ⟨r, hr, rfl⟩ := mem_map.1 hp
    have := hb.2 r hr
    rw [hSlen] at this
    refine ⟨div_pos (by linarith) hpos, ?_⟩
    rw [div_lt_one hpos]; linarith

/-- The rank loop on complete data counts 1, 2, …, n. -/
theorem rankLoop_complete (n : Nat) (k : Nat) (vs : List Nat) (hvs : vs = (List.range' 1 k).reverse)
    (hk : k ≤ n) :
    rankLoop (K := K) n ((n - k : Nat) : K) vs =
      (List.range' (n - k + 1) k).map (fun i : Nat => (i : K)) := by
  induction k generalizing vs with
  | zero => simp [hvs, rankLoop]
  | succ k ih =>
    have hrev : (List.range' 1 (k + 1)).reverse = (k + 1) :: (List.range' 1 k).reverse := by
      rw [range'_concat]; simp [Nat.add_comm]
    rw [hvs, hrev]
    simp only [rankLoop]
    have hnk : (n - k : Nat) = n - (k + 1) + 1 := by omega
    have h1 : ((n - (k + 1) : Nat) : K) + ((n : K) + 1 - ((n - (k + 1) : Nat) : K)) /
        (1 + ((k + 1 : Nat) : K)) = ((n - k : Nat) : K) := by
      have e : (n : K) = ((n - (k + 1) : Nat) : K) + ((k + 1 : Nat) : K) := by
        rw [← Nat.cast_add]; congr 1; omega
      have hne : (1 : K) + ((k + 1 : Nat) : K) ≠ 0 := by positivity
      rw [hnk, e]
      push_cast
      have hne' : (1 : K) + ((k : K) + 1) ≠ 0 := by positivity
      field_simp
      ring
    rw [h1, ih _ rfl (by omega), range'_succ, map_cons, hnk]

omit [LinearOrder K] [IsStrictOrderedRing K] [Field K] in
theorem revList_all_fail (S : List (K × Bool)) (hall : ∀ p ∈ S, p.2 = true) :
    revList (fun x : K × Bool => x.2) S = (List.range' 1 S.length).reverse := by
  induction S with
  | nil => rfl
  | cons r rs ih =>
    rw [revList, if_pos (hall r (by simp)), ih (fun p hp => hall p (by simp [hp])),
      length_cons, range'_concat]
    simp [Nat.add_comm]

/-- **C10.** With no censored data the result is the sorted failures with `(i-a)/(n+1-2a)`,
`i = 1..n`. -/
theorem C10_complete_data {argsort : List K → List Nat} (h : IsArgsort argsort)
    (f : List K) (a : Option K) (hf : f ≠ [])
    (ha : 0 ≤ a.getD (3 / 10)) (ha1 : a.getD (3 / 10) ≤ 1)
    (hd : (f.length : K) + 1 - 2 * a.getD (3 / 10) ≠ 0) :
    plottingPositions argsort f none a true =
      .ok (f.insertionSort (· ≤ ·), (List.range' 1 f.length).map fun i : Nat =>
        ((i : K) - a.getD (3 / 10)) / ((f.length : K) + 1 - 2 * a.getD (3 / 10))) := by
  have hres := plottingPositions_sorted h f none a hf ha ha1 (by simpa using hd)
  rw [hres]
  set S := ordered argsort f (Option.getD none []) with hS
  have hperm : S ~ f.map (fun t => (t, true)) := by
    have := ordered_perm h f (Option.getD none [])
    rw [← hS] at this
    simpa using this
  have hall : ∀ p ∈ S, p.2 = true := by
    intro p hp
    rw [hperm.mem_iff] at hp
    obtain ⟨t, _, rfl⟩ := mem_map.1 hp
    rfl
  have hlen : S.length = f.length := by rw [hperm.length_eq]; simp
  have hranks : (Spec.failPositions S).map (Spec.rank S) =
      (List.range' 1 f.length).map (fun i : Nat => (i : K)) := by
    rw [← rankLoop_eq_spec, revList_all_fail S hall, hlen]
    have := rankLoop_complete (K := K) f.length f.length _ rfl le_rfl
    simpa using this
  congr 2
  · have hfl : S.filter (fun p => p.2) = S := filter_eq_self.2 (by intro p hp; simpa using hall p hp)
    rw [hfl]
    apply Perm.eq_of_pairwise (le := (· ≤ ·))
    · intro x y _ _ h1 h2; exact le_antisymm h1 h2
    · rw [pairwise_map]; exact ordered_sorted h f _
    · exact pairwise_insertionSort _ _
    · refine Perm.trans ?_ (perm_insertionSort _ _).symm
      have := hperm.map Prod.fst
      simpa [map_map, Function.comp_def] using this
  · unfold Spec.positions
    rw [hlen]
    have := congrArg (fun l : List K => l.map (fun i =>
      (i - a.getD (3 / 10)) / ((f.length : K) + 1 - 2 * a.getD (3 / 10)))) hranks
    simpa [map_map, Function.comp_def] using this

/-- **C11.** `sort=False` returns exactly the user's failures as `x`, and the same (time, position)
points as `sort=True`; `sort=True` returns ascending times. -/
theorem C11_sort_option {argsort : List K → List Nat} (h : IsArgsort argsort)
    (f : List K) (rc : Option (List K)) (a : Option K) (hf : f ≠ [])
    (ha : 0 ≤ a.getD (3 / 10)) (ha1 : a.getD (3 / 10) ≤ 1)
    (hd : ((f.length + (rc.getD []).length : Nat) : K) + 1 - 2 * a.getD (3 / 10) ≠ 0) :
    ∃ x y y', plottingPositions argsort f rc a true = .ok (x, y) ∧
      plottingPositions argsort f rc a false = .ok (f, y') ∧
      x.Pairwise (· ≤ ·) ∧ x.length = y.length ∧ f.length = y'.length ∧ f.zip y' ~ x.zip y := by
  obtain ⟨k, hk⟩ := exists_leading h f (rc.getD []) hf
  set S := sortValues argsort (fun r => r.1.1) (allRows f (rc.getD [])) with hS
  have hlen : (allRows f (rc.getD [])).length = S.length := (sortValues_length h _ _).symm
  have hn : S.length = f.length + (rc.getD []).length := by
    rw [← hlen]; simp [allRows]
  have hrev := filter_zip_rev (fun r : (K × Bool) × Nat => r.1.2) S
  have hfst := filter_zip_fst (fun r : (K × Bool) × Nat => r.1.2) S
  rw [hn] at hrev hfst
  -- the failure rows are the user's failures with their index
  have hperm : S.filter (fun r => r.1.2) ~ (f.zipIdx).map (fun p => ((p.1, true), p.2)) := by
    have h1 : S.filter (fun r => r.1.2) ~ (allRows f (rc.getD [])).filter (fun r => r.1.2) :=
      (sortValues_perm h _ _).filter _
    have h2 : (allRows f (rc.getD [])).filter (fun r => r.1.2) =
        (f.zipIdx).map (fun p => ((p.1, true), p.2)) := by
      unfold allRows
      rw [zipIdx_append, filter_append, filter_eq_self.2, filter_eq_nil_iff.2, append_nil, zipIdx_map]
      · rfl
      · intro x hx
        rw [zipIdx_map, mem_map] at hx
        obtain ⟨p, _, rfl⟩ := hx
        simp
      · intro x hx
        rw [zipIdx_map, mem_map] at hx
        obtain ⟨p, _, rfl⟩ := hx
        simp
    rw [h2] at h1; exact h1
  set W := (S.zip (List.range' 1 (f.length + (rc.getD []).length)).reverse).filter
    (fun r => r.1.1.2) with hW
  have hWlen : W.length = f.length := by
    have := congrArg length hfst
    rw [length_map, hperm.length_eq] at this
    simpa using this
  have hadjlen : (adjustedRanks (K := K) (f.length + (rc.getD []).length) k (W.map Prod.snd)).length
      = W.length := by
    have := adjustedRanks_eq (K := K) (fun r : (K × Bool) × Nat => r.1.2) S k hk
    rw [hn] at this
    rw [hrev, this, rankLoop_length, revList_length, ← hfst, length_map]
  set F := (adjustedRanks (K := K) (f.length + (rc.getD []).length) k (W.map Prod.snd)).map fun i =>
    (i - a.getD (3 / 10)) / (((f.length + (rc.getD []).length : Nat) : K) + 1 - 2 * a.getD (3 / 10))
    with hF
  have hFlen : F.length = W.length := by rw [hF, length_map, hadjlen]
  have hval : ∀ b, plottingPositions argsort f rc a b =
      if b then .ok (W.map (fun r => r.1.1.1), F)
      else
        let df2 := ((W.zip F).map fun p => (p.1.1.1.1, p.2, p.1.1.2)).insertionSort
            fun p q => p.2.2 ≤ q.2.2
        .ok (df2.map (fun p => p.1), df2.map (fun p => p.2.1)) := by
    intro b
    unfold plottingPositions
    simp only [← hS, hlen, hk]
    rw [if_neg (by push Not; exact ⟨ha, ha1⟩), hn, if_neg hd]
  set df2 := ((W.zip F).map fun p => (p.1.1.1.1, p.2, p.1.1.2)).insertionSort
            fun p q => p.2.2 ≤ q.2.2 with hdf2
  have hdfp : df2 ~ (W.zip F).map fun p => (p.1.1.1.1, p.2, p.1.1.2) := perm_insertionSort _ _
  have hdfs : df2.Pairwise fun p q => p.2.2 ≤ q.2.2 :=
    pairwise_insertionSort (fun p q : K × K × Nat => p.2.2 ≤ q.2.2) _
  have hkeys : df2.map (fun p => (p.1, p.2.2)) = f.zipIdx := by
    apply Perm.eq_of_pairwise (le := fun p q : K × Nat => p.2 ≤ q.2)
    · rintro ⟨x1, x2⟩ ⟨y1, y2⟩ hx hy h1 h2
      have hx2 : (x1, x2) ∈ f.zipIdx := by
        have hp : df2.map (fun p => (p.1, p.2.2)) ~ f.zipIdx := by
          refine (hdfp.map _).trans ?_
          rw [map_map]
          have e : (fun p : K × K × Nat => (p.1, p.2.2)) ∘
              (fun p : (((K × Bool) × Nat) × Nat) × K => (p.1.1.1.1, p.2, p.1.1.2)) =
              (fun r : (K × Bool) × Nat => (r.1.1, r.2)) ∘ Prod.fst ∘ Prod.fst := rfl
          rw [e, ← map_map, ← map_map, map_fst_zip (by omega), hfst]
          have := hperm.map (fun r : (K × Bool) × Nat => (r.1.1, r.2))
          simpa [map_map, Function.comp_def] using this
        exact hp.mem_iff.1 hx
      have e : x2 = y2 := le_antisymm h1 h2
      subst e
      have a1 := mem_zipIdx_iff_getElem?.1 hx2
      have a2 := mem_zipIdx_iff_getElem?.1 hy
      simp only at a1 a2
      rw [a1] at a2
      simpa using a2
    · rw [pairwise_map]; exact hdfs
    · have := pairwise_lt_range' (s := 0) (n := f.length)
      have e : (f.zipIdx).map Prod.snd = List.range' 0 f.length := by simp [zipIdx_map_snd]
      rw [← e, pairwise_map] at this
      exact this.imp fun h => le_of_lt h
    · refine (hdfp.map _).trans ?_
      rw [map_map]
      have e : (fun p : K × K × Nat => (p.1, p.2.2)) ∘
          (fun p : (((K × Bool) × Nat) × Nat) × K => (p.1.1.1.1, p.2, p.1.1.2)) =
          (fun r : (K × Bool) × Nat => (r.1.1, r.2)) ∘ Prod.fst ∘ Prod.fst := rfl
      rw [e, ← map_map, ← map_map, map_fst_zip (by omega), hfst]
      have := hperm.map (fun r : (K × Bool) × Nat => (r.1.1, r.2))
      simpa [map_map, Function.comp_def] using this
  have hx : df2.map (fun p => p.1) = f := by
    have := congrArg (map Prod.fst) hkeys
    rw [map_map, zipIdx_map_fst] at this
    exact this
  have hdflen : df2.length = f.length := by
    have := congrArg length hx
    rw [length_map] at this; exact this
  refine ⟨W.map (fun r => r.1.1.1), F, df2.map (fun p => p.2.1), by rw [hval true]; simp, ?_, ?_, ?_, ?_, ?_⟩
  · rw [hval false]
    simp only [Bool.false_eq_true, if_false]
    rw [hx]
  · rw [show (fun r : ((K × Bool) × Nat) × Nat => r.1.1.1) =
      (fun r : (K × Bool) × Nat => r.1.1) ∘ Prod.fst from rfl, ← map_map, hfst, pairwise_map]
    exact (sortValues_sorted h (fun r : (K × Bool) × Nat => r.1.1) _).filter _
  · rw [length_map, hFlen]
  · rw [length_map, hdflen]
  · have h1 : f.zip (df2.map (fun p => p.2.1)) = df2.map (fun p => (p.1, p.2.1)) := by
      conv_lhs => rw [← hx]
      rw [zip_map']
    have h2 : (W.map (fun r => r.1.1.1)).zip F = (W.zip F).map (fun p => (p.1.1.1.1, p.2)) := by
      rw [zip_map_left]; rfl
    rw [h1, h2]
    refine (hdfp.map _).trans ?_
    rw [map_map]
    exact Perm.refl _

/-- A concrete data set (ties, leading censoring) meets the hypotheses of C08–C11. -/
example : ∃ x y, plottingPositions (K := ℚ) refArgsort [5, 3, 5] (some [1, 5]) none true =
    .ok (x, y) ∧ y.length = 3 := by
  obtain ⟨x, y, h1, -, -, h2, -⟩ := C09_strictly_increasing_probabilities (K := ℚ)
    (refArgsort_isArgsort) [5, 3, 5] (some [1, 5]) none (by simp) (by norm_num) (by norm_num)
    (by norm_num)
  exact ⟨x, y, h1, h2⟩

end Reliability.PP

import Verif.Model.OtherFunctions
import Verif.Spec.OtherFunctions
import Mathlib.Tactic

/-!
# C57, C58: make_right_censored_data and make_ALT_data
-/

namespace Reliability.Props

open Reliability OtherFunctions Spec List

/-! ## C57 -/

/-- **C57 (threshold).** The failures are exactly the observations up to the threshold, in order; every other
observation is censored at the threshold; the caller's data are unchanged. -/
theorem C57_threshold (data : Data) (hd : data ≠ .other) (th : ℝ) (shuffle : List ℝ → List ℝ) (rand : ℕ → List ℝ) :
    ∃ f c, makeRightCensored data (some th) none shuffle rand = (.ok ⟨f, c⟩, data) ∧
      (∀ x, f.count x = if x ≤ th then data.values.count x else 0) ∧ f.Sublist data.values ∧ (∀ x ∈ c, x = th) ∧
      c.length + f.length = data.values.length ∧ (0 ≤ th → RightCensoring data.values f c) := by
  have h : makeRightCensored data (some th) none shuffle rand =
      (.ok ⟨data.values.filter fun x => x ≤ th, (data.values.filter fun x => th < x).map fun _ => 1 * th⟩, data) := by
    cases data with
    | other => exact absurd rfl hd
    | list l => rfl
    | ndarray l => rfl
  have hsplit : (data.values.filter (fun x => x ≤ th) ++ data.values.filter fun x => th < x).Perm data.values := by
    have := filter_append_perm (fun x : ℝ => decide (x ≤ th)) data.values
    refine (Perm.of_eq ?_).trans this
    congr 1
    refine filter_congr fun x _ => ?_
    by_cases hx : x ≤ th
    · simp [hx, not_lt.2 hx]
    · simp [hx, not_le.1 hx]
  refine ⟨_, _, h, ?_, filter_sublist, ?_, ?_, ?_⟩
  · intro x
    by_cases hx : x ≤ th
    · rw [count_filter (by simpa using hx), if_pos hx]
    · rw [if_neg hx, count_eq_zero]
      simp [hx]
  · intro x hx
    obtain ⟨y, -, rfl⟩ := mem_map.1 hx
    ring
  · have := hsplit.length_eq
    simp only [length_append, length_map] at this ⊢
    omega
  · intro h0
    refine ⟨_, hsplit, ?_⟩
    rw [forall₂_map_left_iff]
    rw [forall₂_same]
    intro x hx
    simp only [mem_filter, decide_eq_true_eq] at hx
    rw [one_mul]
    exact ⟨h0, hx.2.le⟩

/-- **C57 (fraction).** For every shuffle and every uniform draw: exactly `⌊n·fraction⌋` observations (by default
half) are censored, each at a time between 0 and its value, and the others are failures. -/
theorem C57_fraction (data : Data) (hd : data ≠ .other) (fr : Option ℝ) (h0 : 0 ≤ fr.getD (1 / 2))
    (h1 : fr.getD (1 / 2) < 1) (shuffle : List ℝ → List ℝ) (rand : ℕ → List ℝ) (hs : ∀ l, (shuffle l).Perm l)
    (hr : ∀ k, (rand k).length = k ∧ ∀ u ∈ rand k, 0 ≤ u ∧ u < 1) (hpos : ∀ x ∈ data.values, 0 ≤ x) :
    ∃ f c, (makeRightCensored data none fr shuffle rand).1 = .ok ⟨f, c⟩ ∧ RightCensoring data.values f c ∧
      c.length = ⌊(data.values.length : ℝ) * fr.getD (1 / 2)⌋₊ ∧ c.length + f.length = data.values.length := by
  have h : (makeRightCensored data none fr shuffle rand).1 =
      .ok ⟨(shuffle data.values).drop ⌊((shuffle data.values).length : ℝ) * fr.getD (1 / 2)⌋₊,
        zipWith (· * ·) ((shuffle data.values).take ⌊((shuffle data.values).length : ℝ) * fr.getD (1 / 2)⌋₊)
          (rand ⌊((shuffle data.values).length : ℝ) * fr.getD (1 / 2)⌋₊)⟩ := by
    have hn : ¬ (fr.getD (1 / 2) < 0 ∨ fr.getD (1 / 2) ≥ 1) := by push Not; exact ⟨h0, h1⟩
    cases data with
    | other => exact absurd rfl hd
    | list l => simp only [makeRightCensored]; rw [if_neg hn]
    | ndarray l => simp only [makeRightCensored]; rw [if_neg hn]
  have hl : (shuffle data.values).length = data.values.length := (hs _).length_eq
  have hmem : ∀ x ∈ shuffle data.values, 0 ≤ x := fun x hx => hpos x ((hs _).mem_iff.1 hx)
  rw [hl] at h
  generalize hk : ⌊(data.values.length : ℝ) * fr.getD (1 / 2)⌋₊ = k at h
  have hkl : k ≤ data.values.length := by
    rw [← hk]
    refine Nat.floor_le_of_le ?_
    have : (0:ℝ) ≤ data.values.length := Nat.cast_nonneg _
    nlinarith
  refine ⟨_, _, h, ⟨(shuffle data.values).take k, ?_, ?_⟩, ?_, ?_⟩
  · refine perm_append_comm.trans ?_
    rw [take_append_drop]
    exact hs _
  · rw [forall₂_iff_get]
    refine ⟨by simp [(hr k).1], fun i hi1 hi2 => ?_⟩
    simp only [get_eq_getElem, getElem_zipWith]
    have hmt : ((shuffle data.values).take k)[i] ∈ shuffle data.values := mem_of_mem_take (getElem_mem _)
    have hx := hmem _ hmt
    have hu := (hr k).2 ((rand k)[i]'(by
      simp only [length_zipWith] at hi1; omega)) (getElem_mem _)
    constructor
    · exact mul_nonneg hx hu.1
    · exact mul_le_of_le_one_right hx hu.2.le
  · simp [(hr k).1, hl, hkl]
  · simp only [length_zipWith, length_take, length_drop, hl, (hr k).1]
    omega

/-- **C57 (errors).** ValueError exactly when the data are no list or array, when both methods are requested, or when
the fraction is not in `[0, 1)`. -/
theorem C57_errors (data : Data) (threshold fr : Option ℝ) (shuffle : List ℝ → List ℝ) (rand : ℕ → List ℝ) :
    ((data = .other ∨ (threshold ≠ none ∧ fr ≠ none) ∨
        threshold = none ∧ ¬ (0 ≤ fr.getD (1 / 2) ∧ fr.getD (1 / 2) < 1)) →
      (makeRightCensored data threshold fr shuffle rand).1 = .error .valueError) ∧
    (¬ (data = .other ∨ (threshold ≠ none ∧ fr ≠ none) ∨
        threshold = none ∧ ¬ (0 ≤ fr.getD (1 / 2) ∧ fr.getD (1 / 2) < 1)) →
      ∃ r, (makeRightCensored data threshold fr shuffle rand).1 = .ok r) := by
  have hneg : (fr.getD (1 / 2) < 0 ∨ fr.getD (1 / 2) ≥ 1) ↔ ¬ (0 ≤ fr.getD (1 / 2) ∧ fr.getD (1 / 2) < 1) := by
    rw [not_and_or, not_le, not_lt]
  cases data with
  | other => exact ⟨fun _ => rfl, fun h => absurd (.inl rfl) h⟩
  | list l =>
    cases threshold with
    | some th =>
      cases fr with
      | some f => exact ⟨fun _ => rfl, fun h => absurd (.inr (.inl ⟨by simp, by simp⟩)) h⟩
      | none =>
        refine ⟨?_, fun _ => ⟨_, rfl⟩⟩
        rintro (h | ⟨-, h⟩ | ⟨h, -⟩)
        · cases h
        · exact absurd rfl h
        · cases h
    | none =>
      simp only [makeRightCensored]
      constructor
      · rintro (h | ⟨h, -⟩ | ⟨-, h⟩)
        · cases h
        · exact absurd rfl h
        · rw [if_pos (hneg.2 h)]
      · intro h
        rw [if_neg (fun hc => h (.inr (.inr ⟨trivial, hneg.1 hc⟩)))]
        exact ⟨_, rfl⟩
  | ndarray l =>
    cases threshold with
    | some th =>
      cases fr with
      | some f => exact ⟨fun _ => rfl, fun h => absurd (.inr (.inl ⟨by simp, by simp⟩)) h⟩
      | none =>
        refine ⟨?_, fun _ => ⟨_, rfl⟩⟩
        rintro (h | ⟨-, h⟩ | ⟨h, -⟩)
        · cases h
        · exact absurd rfl h
        · cases h
    | none =>
      simp only [makeRightCensored]
      constructor
      · rintro (h | ⟨h, -⟩ | ⟨-, h⟩)
        · cases h
        · exact absurd rfl h
        · rw [if_pos (hneg.2 h)]
      · intro h
        rw [if_neg (fun hc => h (.inr (.inr ⟨trivial, hneg.1 hc⟩)))]
        exact ⟨_, rfl⟩

/-- **C57 (caller's data, partial).** A list is left unchanged; so is an array under threshold censoring.
Missing: an array under fraction censoring, see the finding. -/
theorem C57_caller_partial (data : Data) (threshold fr : Option ℝ) (shuffle : List ℝ → List ℝ) (rand : ℕ → List ℝ)
    (h : (∃ l, data = .list l) ∨ threshold ≠ none) : (makeRightCensored data threshold fr shuffle rand).2 = data := by
  cases data with
  | other => rfl
  | list l =>
    cases threshold <;> cases fr <;> simp only [makeRightCensored]
    all_goals (split <;> rfl)
  | ndarray l =>
    rcases h with ⟨l', h⟩ | h
    · cases h
    · cases threshold with
      | none => exact absurd rfl h
      | some th => cases fr <;> rfl

/-- **C57, finding.** A caller's array is shuffled in place, even when the call then raises ValueError. -/
theorem C57_caller_finding (l : List ℝ) (shuffle : List ℝ → List ℝ) (rand : ℕ → List ℝ) (fr : ℝ) :
    (makeRightCensored (.ndarray l) none (some fr) shuffle rand).2 = .ndarray (shuffle l) ∧
    (1 ≤ fr → (makeRightCensored (.ndarray l) none (some fr) shuffle rand).1 = .error .valueError) := by
  simp only [makeRightCensored, Option.getD_some]
  constructor
  · split <;> rfl
  · intro h; rw [if_pos (.inr h)]

/-- **C57, finding.** For negative observations the "censored" time exceeds the original value. -/
theorem C57_negative_finding :
    (makeRightCensored (.list [-2, -4]) none (some (1 / 2)) id (fun k => replicate k (1 / 2))).1 = .ok ⟨[-4], [-1]⟩ := by
  have : ⌊((2:ℕ) : ℝ) * (1 / 2)⌋₊ = 1 := by norm_num
  simp only [makeRightCensored, Data.values, Option.getD_some, id, length_cons, length_nil]
  rw [if_neg (by norm_num)]
  simp only [zero_add, Nat.reduceAdd, this]
  norm_num

/-- Concrete, non-trivial instances. -/
example : ∃ f c, makeRightCensored (.ndarray [5, 1, 7, 3]) (some 4) none id (fun k => replicate k 0) =
    (.ok ⟨f, c⟩, .ndarray [5, 1, 7, 3]) ∧ RightCensoring [5, 1, 7, 3] f c ∧ c.length + f.length = 4 := by
  obtain ⟨f, c, h, -, -, -, hl, hc⟩ := C57_threshold (.ndarray [5, 1, 7, 3]) (by simp) 4 id (fun k => replicate k 0)
  exact ⟨f, c, h, hc (by norm_num), hl⟩

example : ∃ f c, (makeRightCensored (.list [5, 1, 7]) none (some 0.7) List.reverse (fun k => replicate k 0.5)).1 =
    .ok ⟨f, c⟩ ∧ c.length = 2 := by
  obtain ⟨f, c, h, -, hl, -⟩ := C57_fraction (.list [5, 1, 7]) (by simp) (some 0.7) (by norm_num) (by norm_num)
    List.reverse (fun k => replicate k 0.5) (fun l => reverse_perm l)
    (fun k => ⟨by simp, fun u hu => by rw [eq_of_mem_replicate hu]; norm_num⟩)
    (fun x hx => by simp only [Data.values, mem_cons, not_mem_nil, or_false] at hx; rcases hx with rfl | rfl | rfl <;> norm_num)
  refine ⟨f, c, h, ?_⟩
  rw [hl, Nat.floor_eq_iff (by simp only [Data.values]; norm_num)]
  simp only [Data.values]
  norm_num

end Reliability.Props

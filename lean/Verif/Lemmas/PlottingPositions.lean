import Mathlib.Tactic.Ring
import Mathlib.Tactic.FieldSimp
import Mathlib.Tactic.Linarith
import Mathlib.Tactic.Positivity
import Mathlib.Tactic.Push
import Mathlib.Algebra.BigOperators.Intervals
import Verif.Model.PlottingPositions
import Verif.Spec.PlottingPositions
import Verif.Lemmas.Sorting

/-! Helper lemmas for the plotting-position properties. -/

namespace Reliability.PP

open Reliability List

section basic
variable {α : Type _}

/-- Reverse ranks of the failures of a time-ordered list. -/
def revList (fail : α → Bool) : List α → List Nat
  | [] => []
  | r :: rs => if fail r then (rs.length + 1) :: revList fail rs else revList fail rs

theorem zip_reverse_cons (r : α) (rs : List α) :
    (r :: rs).zip (List.range' 1 (rs.length + 1)).reverse =
      (r, rs.length + 1) :: rs.zip (List.range' 1 rs.length).reverse := by
  rw [range'_concat]
  simp [Nat.add_comm]

theorem filter_zip_rev (fail : α → Bool) (S : List α) :
    ((S.zip (List.range' 1 S.length).reverse).filter (fun r => fail r.1)).map Prod.snd =
      revList fail S := by
  induction S with
  | nil => rfl
  | cons r rs ih =>
    rw [length_cons, zip_reverse_cons, filter_cons, revList]
    split <;> simp [ih]

theorem filter_zip_fst (fail : α → Bool) (S : List α) :
    ((S.zip (List.range' 1 S.length).reverse).filter (fun r => fail r.1)).map Prod.fst =
      S.filter fail := by
  induction S with
  | nil => rfl
  | cons r rs ih =>
    rw [length_cons, zip_reverse_cons, filter_cons, filter_cons]
    split <;> simp [ih]

theorem revList_map {β : Type _} (fail : β → Bool) (f : α → β) (S : List α) :
    revList fail (S.map f) = revList (fail ∘ f) S := by
  induction S with
  | nil => rfl
  | cons r rs ih => simp [revList, ih]

theorem revList_le (fail : α → Bool) (S : List α) : ∀ v ∈ revList fail S, 1 ≤ v ∧ v ≤ S.length := by
  induction S with
  | nil => simp [revList]
  | cons r rs ih =>
    intro v hv
    rw [revList] at hv
    split at hv
    · rcases mem_cons.1 hv with rfl | hv
      · simp
      · have := ih v hv; simp; omega
    · have := ih v hv; simp; omega

theorem revList_sorted (fail : α → Bool) (S : List α) : (revList fail S).Pairwise (· > ·) := by
  induction S with
  | nil => simp [revList]
  | cons r rs ih =>
    rw [revList]
    split
    · refine pairwise_cons.2 ⟨?_, ih⟩
      intro v hv
      have := revList_le fail rs v hv
      omega
    · exact ih

theorem revList_length (fail : α → Bool) (S : List α) :
    (revList fail S).length = (S.filter fail).length := by
  induction S with
  | nil => rfl
  | cons r rs ih => rw [revList, filter_cons]; split <;> simp [ih]

end basic

variable {K : Type _} [Field K] [LinearOrder K] [IsStrictOrderedRing K]

/-- The two branches of the code agree with the single recursion started at 0. -/
theorem adjustedRanks_eq {α : Type _} (fail : α → Bool) (S : List α) (k : Nat)
    (hk : S.findIdx? fail = some k) :
    adjustedRanks (K := K) S.length k (revList fail S) = rankLoop S.length 0 (revList fail S) := by
  unfold adjustedRanks
  split
  · rfl
  · next h =>
    obtain rfl : k = 0 := by omega
    cases S with
    | nil => simp at hk
    | cons r rs =>
      have hr : fail r = true := by
        by_contra hc
        rw [findIdx?_cons] at hk
        simp [hc] at hk
      simp only [revList, hr, if_true, tail_cons, rankLoop, length_cons]
      have h1 : (0 : K) + (((rs.length + 1 : Nat) : K) + 1 - 0) / (1 + ((rs.length + 1 : Nat) : K)) = 1 := by
        have : (1 : K) + ((rs.length + 1 : Nat) : K) ≠ 0 := by positivity
        field_simp
        ring
      rw [h1]

theorem rankLoop_length (n : Nat) (r : K) (vs : List Nat) : (rankLoop n r vs).length = vs.length := by
  induction vs generalizing r with
  | nil => rfl
  | cons v vs ih => simp [rankLoop, ih]

/-- Loop invariant: ranks are strictly increasing, above `r`, and `r_j ≤ n + 1 - v_j`. -/
theorem rankLoop_inv (n : Nat) (r : K) (vs : List Nat) (hs : vs.Pairwise (· > ·))
    (h1 : ∀ v ∈ vs, 1 ≤ v) (hr : ∀ v ∈ vs, (v : K) + 1 ≤ (n : K) + 1 - r) :
    (rankLoop n r vs).Pairwise (· < ·) ∧ ∀ x ∈ rankLoop n r vs, r < x ∧ x ≤ n := by
  induction vs generalizing r with
  | nil => simp [rankLoop]
  | cons v vs ih =>
    have hv := h1 v (by simp)
    have hrv := hr v (by simp)
    have hvK : (1 : K) ≤ (v : K) := by exact_mod_cast hv
    have hpos : (0 : K) < 1 + (v : K) := by linarith
    have hinc : (0 : K) < ((n : K) + 1 - r) / (1 + (v : K)) := by
      apply div_pos _ hpos; linarith
    have hnew : (v : K) ≤ (n : K) + 1 - (r + ((n : K) + 1 - r) / (1 + (v : K))) := by
      have h2 : (n : K) + 1 - (r + ((n : K) + 1 - r) / (1 + (v : K))) =
          ((n : K) + 1 - r) * (v : K) / (1 + (v : K)) := by
        field_simp; ring
      rw [h2, le_div_iff₀ hpos]
      nlinarith
    have hvs := (pairwise_cons.1 hs)
    have := ih (r + ((n : K) + 1 - r) / (1 + (v : K))) hvs.2
      (fun w hw => h1 w (mem_cons_of_mem _ hw)) (by
        intro w hw
        have hwv : w + 1 ≤ v := hvs.1 w hw
        have : (w : K) + 1 ≤ (v : K) := by exact_mod_cast hwv
        linarith)
    simp only [rankLoop]
    refine ⟨pairwise_cons.2 ⟨fun x hx => (this.2 x hx).1, this.1⟩, ?_⟩
    intro x hx
    rcases mem_cons.1 hx with rfl | hx
    · exact ⟨by linarith, by linarith⟩
    · have := this.2 x hx
      exact ⟨by linarith, this.2⟩

/-- Every adjusted rank lies in `[1, n]` and they strictly increase. -/
theorem ranks_bounds {α : Type _} (fail : α → Bool) (S : List α) :
    (rankLoop (K := K) S.length 0 (revList fail S)).Pairwise (· < ·) ∧
    ∀ x ∈ rankLoop (K := K) S.length 0 (revList fail S), 1 ≤ x ∧ x ≤ S.length := by
  have hle := revList_le fail S
  have hinv := rankLoop_inv (K := K) S.length 0 (revList fail S) (revList_sorted fail S)
    (fun v hv => (hle v hv).1) (fun v hv => by
      have : (v : K) ≤ (S.length : K) := by exact_mod_cast (hle v hv).2
      linarith)
  refine ⟨hinv.1, fun x hx => ⟨?_, (hinv.2 x hx).2⟩⟩
  -- the first rank is at least one and the others are larger
  revert hx hinv
  cases hrev : revList fail S with
  | nil => simp [rankLoop]
  | cons v vs =>
    intro hinv hx
    have hv := hle v (by rw [hrev]; simp)
    have hvK : (v : K) ≤ (S.length : K) := by exact_mod_cast hv.2
    have hpos : (0 : K) < 1 + (v : K) := by positivity
    have hfirst : (1 : K) ≤ 0 + ((S.length : K) + 1 - 0) / (1 + (v : K)) := by
      rw [zero_add, le_div_iff₀ hpos]; linarith
    simp only [rankLoop] at hinv hx
    rcases mem_cons.1 hx with rfl | hx
    · exact hfirst
    · exact hfirst.trans ((pairwise_cons.1 hinv.1).1 x hx).le

/-! ### product form -/

theorem isFail_append_right (A B : List (K × Bool)) (i : Nat) :
    Spec.isFail (A ++ B) (A.length + i) = Spec.isFail B i := by
  unfold Spec.isFail
  rw [getElem?_append_right (by omega)]
  congr 3
  omega

/-- The rank loop continued after the prefix `A` produces the product-form ranks. -/
theorem rankLoop_spec (A B : List (K × Bool)) (r : K)
    (hr : r = ((A ++ B).length + 1 : K) *
      (1 - ∏ j ∈ (Finset.range A.length).filter (fun j => Spec.isFail (A ++ B) j = true),
        (((A ++ B).length - j : Nat) : K) / ((((A ++ B).length - j : Nat) : K) + 1))) :
    rankLoop (A ++ B).length r (revList (fun x : K × Bool => x.2) B) =
      ((List.range' A.length B.length).filter (Spec.isFail (A ++ B))).map (Spec.rank (A ++ B)) := by
  induction B generalizing A r with
  | nil => simp [revList, rankLoop]
  | cons b B ih =>
    have hb : Spec.isFail (A ++ b :: B) A.length = b.2 := by
      have := isFail_append_right A (b :: B) 0
      simpa [Spec.isFail] using this
    have hab : A ++ b :: B = (A ++ [b]) ++ B := by simp
    have hlen : (A ++ [b]).length = A.length + 1 := by simp
    rw [length_cons, range'_succ, filter_cons, revList]
    have hdiff : (A ++ b :: B).length - A.length = B.length + 1 := by simp
    cases hfb : b.2 with
    | false =>
      simp only [hb, hfb, Bool.false_eq_true, if_false]
      have := ih (A ++ [b]) r (by
        rw [hr, ← hab, hlen, Finset.range_add_one, Finset.filter_insert]
        simp [hb, hfb])
      rw [← hab, hlen] at this
      exact this
    | true =>
      simp only [hb, hfb, if_true, rankLoop, map_cons]
      have hprod : ∏ j ∈ (Finset.range (A.length + 1)).filter (fun j => Spec.isFail (A ++ b :: B) j = true),
          (((A ++ b :: B).length - j : Nat) : K) / ((((A ++ b :: B).length - j : Nat) : K) + 1) =
          ((B.length + 1 : Nat) : K) / (((B.length + 1 : Nat) : K) + 1) *
          ∏ j ∈ (Finset.range A.length).filter (fun j => Spec.isFail (A ++ b :: B) j = true),
          (((A ++ b :: B).length - j : Nat) : K) / ((((A ++ b :: B).length - j : Nat) : K) + 1) := by
        rw [Finset.range_add_one, Finset.filter_insert]
        simp only [hb, hfb, if_true]
        rw [Finset.prod_insert (by simp), hdiff]
      have hrank : r + (((A ++ b :: B).length : K) + 1 - r) / (1 + ((B.length + 1 : Nat) : K)) =
          Spec.rank (A ++ b :: B) A.length := by
        unfold Spec.rank
        rw [hprod, hr]
        generalize ∏ j ∈ (Finset.range A.length).filter (fun j => Spec.isFail (A ++ b :: B) j = true),
          (((A ++ b :: B).length - j : Nat) : K) / ((((A ++ b :: B).length - j : Nat) : K) + 1) = P
        have : (1 : K) + ((B.length + 1 : Nat) : K) ≠ 0 := by positivity
        have : ((B.length + 1 : Nat) : K) + 1 ≠ 0 := by positivity
        field_simp
        ring
      rw [hrank]
      congr 1
      have := ih (A ++ [b]) (Spec.rank (A ++ b :: B) A.length) (by
        rw [← hab, hlen]; rfl)
      rw [← hab, hlen] at this
      exact this

theorem rankLoop_eq_spec (S : List (K × Bool)) :
    rankLoop S.length 0 (revList (fun x : K × Bool => x.2) S) =
      (Spec.failPositions S).map (Spec.rank S) := by
  have := rankLoop_spec (K := K) [] S 0 (by simp)
  simpa [Spec.failPositions, range_eq_range'] using this

/-! ### unfolding the whole function -/

/-- The data in the order chosen by the sort, without row numbers. -/
def ordered (argsort : List K → List Nat) (f rc : List K) : List (K × Bool) :=
  (sortValues argsort (fun r => r.1.1) (allRows f rc)).map Prod.fst

omit [IsStrictOrderedRing K] in
theorem allRows_map_fst (f rc : List K) :
    (allRows f rc).map Prod.fst = f.map (fun t => (t, true)) ++ rc.map (fun t => (t, false)) := by
  simp [allRows, zipIdx_map_fst]

omit [IsStrictOrderedRing K] in
theorem ordered_perm {argsort : List K → List Nat} (h : IsArgsort argsort) (f rc : List K) :
    ordered argsort f rc ~ f.map (fun t => (t, true)) ++ rc.map (fun t => (t, false)) := by
  rw [← allRows_map_fst]
  exact (sortValues_perm h _ _).map _

omit [IsStrictOrderedRing K] in
theorem ordered_sorted {argsort : List K → List Nat} (h : IsArgsort argsort) (f rc : List K) :
    (ordered argsort f rc).Pairwise fun a b => a.1 ≤ b.1 := by
  unfold ordered
  rw [pairwise_map]
  exact sortValues_sorted h _ _

theorem findIdx?_map' {α β : Type _} (p : β → Bool) (f : α → β) (l : List α) :
    (l.map f).findIdx? p = l.findIdx? (p ∘ f) := by
  simp

omit [IsStrictOrderedRing K] in
theorem exists_leading {argsort : List K → List Nat} (h : IsArgsort argsort) (f rc : List K)
    (hf : f ≠ []) : ∃ k,
    (sortValues argsort (fun r => r.1.1) (allRows f rc)).findIdx? (fun r => r.1.2) = some k := by
  obtain ⟨t, f', rfl⟩ := exists_cons_of_ne_nil hf
  rcases hk : (sortValues argsort (fun r => r.1.1) (allRows (t :: f') rc)).findIdx? (fun r => r.1.2) with _ | k
  · rw [findIdx?_eq_none_iff] at hk
    have hmem : ((t, true), 0) ∈ sortValues argsort (fun r => r.1.1) (allRows (t :: f') rc) := by
      rw [(sortValues_perm h _ _).mem_iff]
      simp [allRows]
    have := hk _ hmem
    simp at this
  · exact ⟨k, hk⟩

/-- Value of `plotting_positions(sort=True)` in terms of the ordered data. -/
theorem plottingPositions_sorted {argsort : List K → List Nat} (h : IsArgsort argsort)
    (f : List K) (rc : Option (List K)) (a : Option K) (hf : f ≠ [])
    (ha : 0 ≤ a.getD (3 / 10)) (ha1 : a.getD (3 / 10) ≤ 1)
    (hd : ((f.length + (rc.getD []).length : Nat) : K) + 1 - 2 * a.getD (3 / 10) ≠ 0) :
    plottingPositions argsort f rc a true =
      .ok (((ordered argsort f (rc.getD [])).filter (fun x => x.2)).map Prod.fst,
        Spec.positions (a.getD (3 / 10)) (ordered argsort f (rc.getD []))) := by
  obtain ⟨k, hk⟩ := exists_leading h f (rc.getD []) hf
  set S := sortValues argsort (fun r => r.1.1) (allRows f (rc.getD [])) with hS
  have hlen : (allRows f (rc.getD [])).length = S.length := (sortValues_length h _ _).symm
  have hn : S.length = f.length + (rc.getD []).length := by
    rw [← hlen]; simp [allRows]
  have hO : ordered argsort f (rc.getD []) = S.map Prod.fst := rfl
  unfold plottingPositions
  simp only [← hS, hlen, hk]
  rw [if_neg (by push Not; exact ⟨ha, ha1⟩)]
  have hrev := filter_zip_rev (fun r : (K × Bool) × Nat => r.1.2) S
  have hfst := filter_zip_fst (fun r : (K × Bool) × Nat => r.1.2) S
  rw [hn] at hrev hfst
  rw [if_neg (by rw [hn]; exact hd)]
  simp only [hn, hrev, if_true]
  congr 2
  · rw [show (fun r : ((K × Bool) × Nat) × Nat => r.1.1.1) =
      (fun r : (K × Bool) × Nat => r.1.1) ∘ Prod.fst from rfl, ← map_map, hfst, hO, filter_map,
      map_map]
    rfl
  · have hadj := adjustedRanks_eq (K := K) (fun r : (K × Bool) × Nat => r.1.2) S k hk
    rw [hn] at hadj
    rw [hadj]
    have hmap : revList (fun r : (K × Bool) × Nat => r.1.2) S =
        revList (fun x : K × Bool => x.2) (S.map Prod.fst) := by
      rw [revList_map]; rfl
    have hspec := rankLoop_eq_spec (S.map Prod.fst)
    rw [length_map, hn] at hspec
    rw [hmap, hspec, hO]
    unfold Spec.positions
    rw [length_map, hn, map_map]
    rfl

end Reliability.PP

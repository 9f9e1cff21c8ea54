import Mathlib.Tactic.Linarith
import Mathlib.Data.List.Enum
import Mathlib.Data.List.Induction
import Mathlib.Data.List.Perm.Basic
import Verif.Model.Sorting

/-! Lemmas about `sortValues`. -/

namespace Reliability

open List

variable {K α β : Type _}

theorem takeRows_range (rows : List α) : takeRows (List.range rows.length) rows = rows := by
  unfold takeRows
  induction rows using List.reverseRecOn with
  | nil => rfl
  | append_singleton l a ih =>
    rw [length_append, length_singleton, range_succ, filterMap_append]
    congr 1
    · conv_rhs => rw [← ih]
      apply filterMap_congr
      intro i hi
      rw [mem_range] at hi
      rw [getElem?_append_left hi]
    · simp

theorem takeRows_perm {p : List Nat} (rows : List α) (hp : p ~ List.range rows.length) :
    takeRows p rows ~ rows := by
  have := hp.filterMap (fun i => rows[i]?)
  exact this.trans (by rw [show (List.range rows.length).filterMap (fun i => rows[i]?) =
    takeRows (List.range rows.length) rows from rfl, takeRows_range])

theorem takeRows_map (f : α → β) (p : List Nat) (rows : List α) :
    takeRows p (rows.map f) = (takeRows p rows).map f := by
  unfold takeRows
  rw [map_filterMap]
  apply filterMap_congr
  intro i _
  rw [getElem?_map]

theorem sortValues_perm [LE K] {argsort : List K → List Nat} (h : IsArgsort argsort) (key : α → K)
    (rows : List α) : sortValues argsort key rows ~ rows := by
  apply takeRows_perm
  simpa using (h (rows.map key)).1

theorem sortValues_sorted [LE K] {argsort : List K → List Nat} (h : IsArgsort argsort) (key : α → K)
    (rows : List α) : (sortValues argsort key rows).Pairwise fun a b => key a ≤ key b := by
  have := (h (rows.map key)).2
  rw [takeRows_map] at this
  exact pairwise_map.1 this

theorem sortValues_length [LE K] {argsort : List K → List Nat} (h : IsArgsort argsort) (key : α → K)
    (rows : List α) : (sortValues argsort key rows).length = rows.length :=
  (sortValues_perm h key rows).length_eq

theorem sortValues_map (argsort : List K → List Nat) (key : β → K) (f : α → β)
    (rows : List α) :
    sortValues argsort key (rows.map f) = (sortValues argsort (key ∘ f) rows).map f := by
  unfold sortValues
  rw [takeRows_map, map_map]

/-- rows taken with their row number -/
theorem takeRows_zipIdx (p : List Nat) (rows : List α) (hp : ∀ i ∈ p, i < rows.length) :
    (takeRows p rows.zipIdx).map Prod.snd = p := by
  unfold takeRows
  induction p with
  | nil => rfl
  | cons i p ih =>
    have hi := hp i (by simp)
    have := ih (fun j hj => hp j (mem_cons_of_mem _ hj))
    rw [filterMap_cons]
    have hz : rows.zipIdx[i]? = some (rows[i], i) := by simp [hi]
    rw [hz, map_cons, this]

theorem refArgsort_stable [LinearOrder K] : IsStableArgsort (refArgsort (K := K)) := by
  have lexTotal : ∀ p q : K × Nat, (p.1 < q.1 ∨ (p.1 = q.1 ∧ p.2 ≤ q.2)) ∨
      (q.1 < p.1 ∨ (q.1 = p.1 ∧ q.2 ≤ p.2)) := by
    intro p q
    rcases lt_trichotomy p.1 q.1 with h | h | h
    · simp [h]
    · rcases le_total p.2 q.2 with h' | h' <;> simp [h, h']
    · simp [h]
  have lexTrans : ∀ p q r : K × Nat, (p.1 < q.1 ∨ (p.1 = q.1 ∧ p.2 ≤ q.2)) →
      (q.1 < r.1 ∨ (q.1 = r.1 ∧ q.2 ≤ r.2)) → (p.1 < r.1 ∨ (p.1 = r.1 ∧ p.2 ≤ r.2)) := by
    rintro p q r (h | ⟨h, h'⟩) (g | ⟨g, g'⟩)
    · exact Or.inl (h.trans g)
    · exact Or.inl (g ▸ h)
    · exact Or.inl (h ▸ g)
    · exact Or.inr ⟨h.trans g, h'.trans g'⟩
  have hperm : ∀ keys : List K, refArgsort keys ~ List.range keys.length := by
    intro keys
    unfold refArgsort
    refine ((perm_insertionSort _ _).map _).trans ?_
    simp [zipIdx_map_snd, range_eq_range']
  have hpw : ∀ keys : List K, (keys.zipIdx.insertionSort fun p q => p.1 < q.1 ∨ (p.1 = q.1 ∧ p.2 ≤ q.2)).Pairwise
      fun p q => p.1 < q.1 ∨ (p.1 = q.1 ∧ p.2 ≤ q.2) := by
    intro keys
    have : Std.Total (fun p q : K × Nat => p.1 < q.1 ∨ (p.1 = q.1 ∧ p.2 ≤ q.2)) := ⟨lexTotal⟩
    have : IsTrans (K × Nat) (fun p q => p.1 < q.1 ∨ (p.1 = q.1 ∧ p.2 ≤ q.2)) := ⟨lexTrans⟩
    exact pairwise_insertionSort _ _
  have hmem : ∀ (keys : List K) (p : K × Nat),
      p ∈ (keys.zipIdx.insertionSort fun p q => p.1 < q.1 ∨ (p.1 = q.1 ∧ p.2 ≤ q.2)) →
      keys[p.2]? = some p.1 := by
    intro keys p hp
    rw [mem_insertionSort] at hp
    obtain ⟨a, i⟩ := p
    exact mk_mem_zipIdx_iff_getElem?.1 hp
  have htake : ∀ keys : List K, takeRows (refArgsort keys) keys =
      (keys.zipIdx.insertionSort fun p q => p.1 < q.1 ∨ (p.1 = q.1 ∧ p.2 ≤ q.2)).map Prod.fst := by
    intro keys
    have hm := hmem keys
    unfold takeRows refArgsort
    generalize (keys.zipIdx.insertionSort fun p q => p.1 < q.1 ∨ (p.1 = q.1 ∧ p.2 ≤ q.2)) = L at hm
    induction L with
    | nil => rfl
    | cons p L ih =>
      rw [map_cons, filterMap_cons, hm p (by simp)]
      simp [ih (fun q hq => hm q (mem_cons_of_mem _ hq))]
  refine ⟨fun keys => ⟨hperm keys, ?_⟩, ?_⟩
  · rw [htake, pairwise_map]
    refine (hpw keys).imp ?_
    rintro p q (h | h)
    · exact h.le
    · exact h.1.le
  · intro keys
    unfold refArgsort
    rw [pairwise_map]
    have hnd : (keys.zipIdx.insertionSort fun p q => p.1 < q.1 ∨ (p.1 = q.1 ∧ p.2 ≤ q.2)).Pairwise
        fun p q => p.2 ≠ q.2 := by
      have : (refArgsort keys).Nodup := (hperm keys).nodup_iff.2 nodup_range
      exact pairwise_map.1 this
    have hall := (hpw keys).and hnd
    refine Pairwise.imp_of_mem ?_ hall
    rintro p q hp hq ⟨h, hne⟩ hk
    rw [hmem keys p hp, hmem keys q hq] at hk
    have hk' : p.1 = q.1 := by simpa using hk
    rcases h with h | h
    · exact absurd hk' (ne_of_lt h)
    · exact lt_of_le_of_ne h.2 hne

theorem refArgsort_isArgsort [LinearOrder K] : IsArgsort (refArgsort (K := K)) :=
  refArgsort_stable.1

end Reliability

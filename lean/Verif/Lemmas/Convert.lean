import Mathlib.Tactic.Ring
import Mathlib.Tactic.Linarith
import Mathlib.Tactic.NormNum
import Mathlib.Tactic.Push
import Verif.Model.Convert
import Verif.Spec.Convert

/-! Helper lemmas for the conversion properties. -/

namespace Reliability.Convert

open Reliability List

variable {T : Type _}

theorem pyInt_natCast (n : Nat) : pyInt (n : ℚ) = n := by
  simp [pyInt]

theorem onesTimes_natCast (n : Nat) (x : T) : onesTimes (n : ℚ) x = .ok (replicate n x) := by
  simp [onesTimes, pyInt_natCast]

/-! ### run-length encoding -/

theorem runLength_expand [DecidableEq T] (l : List T) : Spec.expand (runLength l) = l := by
  induction l with
  | nil => rfl
  | cons x xs ih =>
    unfold runLength
    revert ih
    cases h : runLength xs with
    | nil => intro ih; simp [Spec.expand] at ih ⊢; exact ih
    | cons p r =>
      obtain ⟨y, c⟩ := p
      intro ih
      simp only [Spec.expand, flatMap_cons] at ih ⊢
      split
      · next hxy =>
        subst hxy
        simp only [flatMap_cons, replicate_succ, cons_append]
        rw [ih]
      · simp only [flatMap_cons, replicate_one, cons_append, nil_append]
        rw [ih]

theorem runLength_ne_nil [DecidableEq T] (x : T) (xs : List T) : runLength (x :: xs) ≠ [] := by
  unfold runLength
  split
  · simp
  · split <;> simp

/-- The first key of the encoding is the head of the list. -/
theorem runLength_head [DecidableEq T] (x : T) (xs : List T) :
    ∃ c r, runLength (x :: xs) = (x, c) :: r := by
  unfold runLength
  split
  · exact ⟨_, _, rfl⟩
  · split
    · next h => exact ⟨_, _, by rw [h]⟩
    · exact ⟨_, _, rfl⟩

theorem runLength_pos [DecidableEq T] (l : List T) : ∀ p ∈ runLength l, 1 ≤ p.2 := by
  induction l with
  | nil => simp [runLength]
  | cons x xs ih =>
    unfold runLength
    revert ih
    cases h : runLength xs with
    | nil => intro _; simp
    | cons q r =>
      obtain ⟨y, c⟩ := q
      intro ih
      simp only
      split
      · intro p hp
        rcases mem_cons.1 hp with rfl | hp
        · simp
        · exact ih p (mem_cons_of_mem _ hp)
      · intro p hp
        rcases mem_cons.1 hp with rfl | hp
        · simp
        · exact ih p hp

theorem runLength_keys_sub [DecidableEq T] (l : List T) : ∀ p ∈ runLength l, p.1 ∈ l := by
  intro p hp
  rw [← runLength_expand l]
  refine mem_flatMap.2 ⟨p, hp, ?_⟩
  have := runLength_pos l p hp
  simp [mem_replicate]; omega

theorem runLength_sorted [LinearOrder T] (l : List T) (hl : l.Pairwise (· ≤ ·)) :
    ((runLength l).map Prod.fst).Pairwise (· < ·) := by
  induction l with
  | nil => simp [runLength]
  | cons x xs ih =>
    have hx := (pairwise_cons.1 hl).1
    have ih' := ih (pairwise_cons.1 hl).2
    have hsub := runLength_keys_sub xs
    unfold runLength
    revert ih' hsub
    cases h : runLength xs with
    | nil => intro _ _; simp
    | cons q r =>
      obtain ⟨y, c⟩ := q
      intro ih' hsub
      simp only
      split
      · simpa using ih'
      · next hne =>
        simp only [map_cons, pairwise_cons] at ih' ⊢
        have hxy : x < y := lt_of_le_of_ne (hx y (hsub (y, c) (by simp))) hne
        refine ⟨?_, ih'⟩
        intro z hz
        rcases mem_cons.1 hz with rfl | hz
        · exact hxy
        · exact lt_trans hxy (ih'.1 z hz)

theorem count_expand [DecidableEq T] (table : List (T × Nat)) (t : T) :
    (Spec.expand table).count t = Spec.totalAt table t := by
  induction table with
  | nil => rfl
  | cons p r ih =>
    simp only [Spec.expand, Spec.totalAt, flatMap_cons, count_append, filter_cons] at ih ⊢
    rw [ih, count_replicate]
    by_cases h : p.1 = t <;> simp [h]

/-- In a table with distinct keys the total of a listed key is its own quantity. -/
theorem totalAt_of_mem [DecidableEq T] (table : List (T × Nat)) (hn : (table.map Prod.fst).Nodup)
    (p : T × Nat) (hp : p ∈ table) : Spec.totalAt table p.1 = p.2 := by
  induction table with
  | nil => simp at hp
  | cons q r ih =>
    simp only [map_cons, nodup_cons] at hn
    rcases mem_cons.1 hp with rfl | hp
    · have : r.filter (fun q => decide (q.1 = p.1)) = [] := by
        rw [filter_eq_nil_iff]
        intro a ha
        simp only [decide_eq_true_eq]
        intro h
        exact hn.1 (mem_map.2 ⟨a, ha, h⟩)
      simp [Spec.totalAt, this]
    · have hne : q.1 ≠ p.1 := fun h => hn.1 (h ▸ mem_map.2 ⟨p, hp, rfl⟩)
      have := ih hn.2 hp
      simpa [Spec.totalAt, filter_cons, hne] using this

theorem length_expand (table : List (T × Nat)) :
    (Spec.expand table).length = (table.map Prod.snd).sum := by
  simp [Spec.expand, length_flatMap]

/-- Encoding an expanded table with strictly increasing keys and positive counts is the identity. -/
theorem runLength_of_expand [LinearOrder T] (table : List (T × Nat))
    (hs : (table.map Prod.fst).Pairwise (· < ·)) (hp : ∀ p ∈ table, 1 ≤ p.2) :
    runLength (Spec.expand table) = table := by
  induction table with
  | nil => rfl
  | cons p r ih =>
    obtain ⟨x, n⟩ := p
    simp only [map_cons, pairwise_cons] at hs
    have ihr := ih hs.2 (fun q hq => hp q (mem_cons_of_mem _ hq))
    have hn : 1 ≤ n := hp (x, n) (by simp)
    have key : ∀ k, runLength (replicate (k+1) x ++ Spec.expand r) = (x, k+1) :: r := by
      intro k
      induction k with
      | zero =>
        simp only [zero_add, replicate_one, cons_append, nil_append]
        unfold runLength
        rw [ihr]
        cases r with
        | nil => rfl
        | cons q r' =>
          obtain ⟨y, c⟩ := q
          have : x ≠ y := ne_of_lt (hs.1 y (by simp))
          simp [this]
      | succ k ihk =>
        rw [replicate_succ, cons_append]
        unfold runLength
        rw [ihk]
        simp
    obtain ⟨m, rfl⟩ : ∃ m, n = m + 1 := ⟨n - 1, by omega⟩
    simpa [Spec.expand] using key m

theorem sorted_expand [LinearOrder T] (table : List (T × Nat))
    (hs : (table.map Prod.fst).Pairwise (· < ·)) :
    (Spec.expand table).Pairwise (· ≤ ·) := by
  induction table with
  | nil => simp [Spec.expand]
  | cons p r ih =>
    simp only [map_cons, pairwise_cons] at hs
    simp only [Spec.expand, flatMap_cons]
    rw [pairwise_append]
    refine ⟨?_, ih hs.2, ?_⟩
    · rw [pairwise_replicate]; right; exact le_refl _
    · intro a ha b hb
      rw [mem_replicate] at ha
      obtain ⟨q, hq, hb⟩ := mem_flatMap.1 hb
      rw [mem_replicate] at hb
      rw [ha.2, hb.2]
      exact le_of_lt (hs.1 q.1 (mem_map.2 ⟨q, hq, rfl⟩))

/-! ### `np.unique` -/

theorem zip_npUnique [LinearOrder T] (l : List T) :
    (npUnique l).1.zip (npUnique l).2 = runLength (l.insertionSort (· ≤ ·)) := by
  simp only [npUnique]
  exact zip_unzip _

theorem npUnique_fst [LinearOrder T] (l : List T) :
    (npUnique l).1 = (runLength (l.insertionSort (· ≤ ·))).map Prod.fst := by
  simp [npUnique, unzip_eq_map]

theorem npUnique_snd [LinearOrder T] (l : List T) :
    (npUnique l).2 = (runLength (l.insertionSort (· ≤ ·))).map Prod.snd := by
  simp [npUnique, unzip_eq_map]

theorem insertionSort_sorted [LinearOrder T] (l : List T) :
    (l.insertionSort (· ≤ ·)).Pairwise (· ≤ ·) := pairwise_insertionSort _ l

theorem insertionSort_congr [LinearOrder T] {l l' : List T} (h : l ~ l') :
    l.insertionSort (· ≤ ·) = l'.insertionSort (· ≤ ·) := by
  apply Perm.eq_of_pairwise' (r := (· ≤ ·)) (insertionSort_sorted l) (insertionSort_sorted l')
  exact (perm_insertionSort _ l).trans (h.trans (perm_insertionSort _ l').symm)

theorem npUnique_congr [LinearOrder T] {l l' : List T} (h : l ~ l') : npUnique l = npUnique l' := by
  simp [npUnique, insertionSort_congr h]

theorem npUnique_length_eq [LinearOrder T] (l : List T) :
    (npUnique l).1.length = (npUnique l).2.length := by
  simp [npUnique_fst, npUnique_snd]

theorem expand_npUnique [LinearOrder T] (l : List T) :
    Spec.expand ((npUnique l).1.zip (npUnique l).2) = l.insertionSort (· ≤ ·) := by
  rw [zip_npUnique, runLength_expand]

theorem npUnique_sorted [LinearOrder T] (l : List T) : (npUnique l).1.Pairwise (· < ·) := by
  rw [npUnique_fst]; exact runLength_sorted _ (insertionSort_sorted l)

theorem npUnique_nil_iff [LinearOrder T] (l : List T) : (npUnique l).1 = [] ↔ l = [] := by
  constructor
  · intro h
    have h2 : Spec.expand ((npUnique l).1.zip (npUnique l).2) = [] := by simp [h, Spec.expand]
    rw [expand_npUnique] at h2
    have := congrArg length h2
    simpa using this
  · rintro rfl; rfl

/-- A table that is already grouped is returned unchanged by expand + `np.unique`. -/
theorem npUnique_expand [LinearOrder T] (table : List (T × Nat))
    (hs : (table.map Prod.fst).Pairwise (· < ·)) (hp : ∀ p ∈ table, 1 ≤ p.2) :
    npUnique (Spec.expand table) = (table.map Prod.fst, table.map Prod.snd) := by
  have h1 : (Spec.expand table).insertionSort (· ≤ ·) = Spec.expand table :=
    (sorted_expand table hs).insertionSort_eq
  simp only [npUnique, h1, runLength_of_expand table hs hp]
  simp [unzip_eq_map]

/-! ### the expanding loop -/

theorem expandLoop_nat (table : List (T × Nat)) (acc : List T) :
    expandLoop (table.map fun p => (p.1, (p.2 : ℚ))) acc = .ok (acc ++ Spec.expand table) := by
  induction table generalizing acc with
  | nil => simp [expandLoop, Spec.expand]
  | cons p r ih =>
    simp only [map_cons, expandLoop, onesTimes_natCast]
    simp only [bind, Except.bind]
    rw [ih]
    simp [Spec.expand, append_assoc]

theorem zip_map_cast (l : List T) (n : List Nat) :
    l.zip (n.map (fun k : Nat => (k : ℚ))) = (l.zip n).map fun p => (p.1, (p.2 : ℚ)) := by
  rw [zip_map_right]; rfl

/-! ### the XCN loop -/

/-- What a single row contributes to the failure side. -/
def failPart (fc cc : Option Code) (r : T × Code × ℚ) : List T :=
  if classify fc cc r.2.1 = some .failure then replicate (pyInt r.2.2).toNat r.1 else []

/-- What a single row contributes to the censored side. -/
def censPart (fc cc : Option Code) (r : T × Code × ℚ) : List T :=
  if classify fc cc r.2.1 = some .censored then replicate (pyInt r.2.2).toNat r.1 else []

/-- A row the loop accepts. -/
def rowOK (fc cc : Option Code) (r : T × Code × ℚ) : Prop :=
  classify fc cc r.2.1 ≠ none ∧ 0 ≤ pyInt r.2.2

instance (fc cc : Option Code) (r : T × Code × ℚ) : Decidable (rowOK fc cc r) := by
  unfold rowOK; infer_instance

theorem xcnLoop_eq (fc cc : Option Code) (rows : List (T × Code × ℚ)) (fs cs : List T) :
    xcnLoop fc cc rows fs cs =
      if ∀ r ∈ rows, rowOK fc cc r then
        .ok (fs ++ rows.flatMap (failPart fc cc), cs ++ rows.flatMap (censPart fc cc))
      else valueErr := by
  induction rows generalizing fs cs with
  | nil => simp [xcnLoop]
  | cons r rows ih =>
    obtain ⟨x, c, n⟩ := r
    unfold xcnLoop
    cases hc : classify fc cc c with
    | none =>
      simp only
      rw [if_neg]
      intro h
      exact (h (x, c, n) (by simp)).1 hc
    | some s =>
      by_cases hn : pyInt n < 0
      · have : ¬ ∀ r ∈ (x, c, n) :: rows, rowOK fc cc r := by
          intro h
          have := (h _ (by simp : (x, c, n) ∈ (x, c, n) :: rows)).2
          simp only at this; omega
        rw [if_neg this]
        cases s <;> simp [onesTimes, hn, bind, Except.bind]
      · have hok : rowOK fc cc (x, c, n) := ⟨by simp [hc], by simp only; omega⟩
        have hiff : (∀ r ∈ (x, c, n) :: rows, rowOK fc cc r) ↔ ∀ r ∈ rows, rowOK fc cc r := by
          simp [hok]
        simp only [hiff]
        cases s
        · simp only [onesTimes, hn, if_false, bind, Except.bind]
          rw [ih]
          simp [failPart, censPart, hc, append_assoc]
        · simp only [onesTimes, hn, if_false, bind, Except.bind]
          rw [ih]
          simp [failPart, censPart, hc, append_assoc]

theorem mem_defaultFailure (c : Code) : c ∈ defaultFailureCodes ↔ c ∈ Spec.documentedFailure := by
  have : defaultFailureCodes = Spec.documentedFailure := by decide
  rw [this]

theorem mem_defaultCensor (c : Code) : c ∈ defaultCensorCodes ↔ c ∈ Spec.documentedCensored := by
  have : defaultCensorCodes = Spec.documentedCensored := by decide
  rw [this]

theorem classify_failure (fc cc : Option Code) (c : Code) :
    classify fc cc c = some .failure ↔ Spec.MeansFailed fc cc c := by
  unfold classify Spec.MeansFailed
  rw [← mem_defaultFailure]
  have : ∀ a : Option Code, (some c = a) ↔ (a = some c) := fun a => eq_comm
  simp only [this]
  by_cases h1 : fc = some c <;> by_cases h2 : cc = some c <;>
    by_cases h3 : c ∈ defaultFailureCodes <;> by_cases h4 : c ∈ defaultCensorCodes <;>
    simp_all

theorem classify_censored (fc cc : Option Code) (c : Code) :
    classify fc cc c = some .censored ↔ Spec.MeansCensored fc cc c := by
  unfold classify Spec.MeansCensored
  rw [← mem_defaultFailure, ← mem_defaultCensor]
  have : ∀ a : Option Code, (some c = a) ↔ (a = some c) := fun a => eq_comm
  simp only [this]
  by_cases h1 : fc = some c <;> by_cases h2 : cc = some c <;>
    by_cases h3 : c ∈ defaultFailureCodes <;> by_cases h4 : c ∈ defaultCensorCodes <;>
    simp_all

theorem classify_ne_none (fc cc : Option Code) (c : Code) :
    classify fc cc c ≠ none ↔ Spec.MeansFailed fc cc c ∨ Spec.MeansCensored fc cc c := by
  rw [← classify_failure, ← classify_censored]
  cases h : classify fc cc c with
  | none => simp
  | some s => cases s <;> simp

end Reliability.Convert

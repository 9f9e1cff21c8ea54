import Mathlib.Tactic.Linarith
import Mathlib.Tactic.NormNum
import Mathlib.Algebra.Order.Field.Rat
import Mathlib.Data.List.Sort
import Verif.Props.InputCheck

/-! # C74: ALT_fitters_input_checking -/

namespace Reliability.Props

instance exceptDecEq {α : Type} [DecidableEq α] : DecidableEq (Except Err α)
  | .ok a, .ok b => decidable_of_iff (a = b) ⟨fun h => by rw [h], fun h => Except.ok.inj h⟩
  | .error a, .error b => decidable_of_iff (a = b) ⟨fun h => by rw [h], fun h => Except.error.inj h⟩
  | .ok _, .error _ => isFalse (by intro h; cases h)
  | .error _, .ok _ => isFalse (by intro h; cases h)

open List Reliability.InputCheck Reliability.Spec.InputCheck

section

variable {K : Type _} {κ : Type _} [LinearOrder κ]

/-- Specification: the values recorded at key `k`, in their original order. -/
def valuesAt {κ K : Type _} [DecidableEq κ] (rows : List (κ × K)) (k : κ) : List K :=
  (rows.filter fun r => decide (r.1 = k)).map (·.2)

theorem strict_ext {l l' : List κ} (h : l.Pairwise (· < ·)) (h' : l'.Pairwise (· < ·)) (hm : ∀ x, x ∈ l ↔ x ∈ l') :
    l = l' := by
  have hp : l ~ l' := (perm_ext_iff_of_nodup (h.imp (fun h => ne_of_lt h)) (h'.imp (fun h => ne_of_lt h))).2 hm
  exact hp.eq_of_pairwise (fun a b _ _ hab hba => absurd hab (not_lt.2 hba.le)) h h'

theorem sortedKeys_strict (l : List κ) : (l.dedup.insertionSort (· ≤ ·)).Pairwise (· < ·) := by
  have h1 : (l.dedup.insertionSort (· ≤ ·)).Pairwise (· ≤ ·) := pairwise_insertionSort _ _
  have h2 : (l.dedup.insertionSort (· ≤ ·)).Nodup := (perm_insertionSort _ _).nodup_iff.2 (nodup_dedup l)
  exact (h1.and h2).imp fun h => lt_of_le_of_ne h.1 h.2

theorem mem_sortedKeys (l : List κ) (k : κ) : k ∈ l.dedup.insertionSort (· ≤ ·) ↔ k ∈ l := by
  rw [(perm_insertionSort _ _).mem_iff, mem_dedup]

theorem filter_mem_cons {ck ss : List κ} {s : κ} (hc : ck.Pairwise (· < ·)) (hs : (s :: ss).Pairwise (· < ·))
    (h : s ∈ ck) : ck.filter (fun x => decide (x ∈ s :: ss)) = s :: ck.filter (fun x => decide (x ∈ ss)) := by
  have hs' := pairwise_cons.1 hs
  apply strict_ext
  · exact hc.sublist filter_sublist
  · rw [pairwise_cons]
    refine ⟨fun x hx => ?_, hc.sublist filter_sublist⟩
    have := (mem_filter.1 hx).2
    exact hs'.1 x (by simpa using this)
  · intro x
    simp only [mem_filter, mem_cons, decide_eq_true_eq]
    constructor
    · rintro ⟨h1, rfl | h2⟩
      · exact .inl rfl
      · exact .inr ⟨h1, h2⟩
    · rintro (rfl | ⟨h1, h2⟩)
      · exact ⟨h, .inl rfl⟩
      · exact ⟨h1, .inr h2⟩

theorem padGroups_aligned (ck : List κ) (hc : ck.Pairwise (· < ·)) (g : κ → List K) (hg : ∀ k, k ∉ ck → g k = [])
    (ks : List κ) (hk : ks.Pairwise (· < ·)) (done : List (List K)) :
    padGroups ck done.length ks (done ++ (ck.filter (fun x => decide (x ∈ ks))).map g) = done ++ ks.map g := by
  induction ks generalizing done with
  | nil => simp [padGroups]
  | cons s ss ih =>
    rw [padGroups]
    have hss := (pairwise_cons.1 hk).2
    have hlt := (pairwise_cons.1 hk).1
    by_cases hs : s ∈ ck
    · rw [if_neg (not_not.2 hs), filter_mem_cons hc hk hs]
      have := ih hss (done ++ [g s])
      rw [length_append] at this
      simp only [length_cons, length_nil, Nat.zero_add, append_assoc, cons_append, nil_append] at this
      simpa using this
    · rw [if_pos hs]
      have hf : ck.filter (fun x => decide (x ∈ s :: ss)) = ck.filter (fun x => decide (x ∈ ss)) := by
        apply filter_congr
        intro x hx
        congr 1
        rw [mem_cons, eq_iff_iff, or_iff_right]
        rintro rfl; exact hs hx
      rw [hf]
      have := ih hss (done ++ [[]])
      rw [length_append] at this
      simp only [length_cons, length_nil, Nat.zero_add, append_assoc, cons_append, nil_append] at this
      rw [pyInsert, take_left, drop_left, map_cons, hg s hs]
      exact this

variable [Field K] [LinearOrder K]

theorem groupby_keys (rows : List (κ × K)) :
    (groupby rows).map (·.1) = (rows.map (·.1)).dedup.insertionSort (· ≤ ·) := by
  unfold groupby
  rw [map_map]
  exact map_id _

theorem groupby_values (rows : List (κ × K)) :
    (groupby rows).map (·.2) = ((groupby rows).map (·.1)).map (valuesAt rows) := by
  unfold groupby
  rw [map_map, map_map, map_map]
  rfl

/-- Specification: the groups are one per stress that occurs among the failures, in descending order, with the
failures and the censored times recorded at that very stress. -/
structure Grouped (fRows cRows : List (κ × K)) (stresses : List κ) (fg : List (List K)) (cg : Option (List (List K))) :
    Prop where
  descending : stresses.Pairwise (· > ·)
  stresses_iff : ∀ k, k ∈ stresses ↔ ∃ x, (k, x) ∈ fRows
  failures : fg = stresses.map (valuesAt fRows)
  censored : cg = if cRows = [] then none else some (stresses.map (valuesAt cRows))

theorem groupData_ok {strict : Bool} {m : Nat} {fRows cRows : List (κ × K)} {fg cg keys}
    (h : groupData strict m fRows cRows = .ok (fg, cg, keys))
    (hs : strict = true ∨ ∀ r ∈ cRows, ∃ x, (r.1, x) ∈ fRows) :
    Grouped fRows cRows keys.reverse fg.reverse (cg.map List.reverse) ∧
      m ≤ (fg.map fun g => g.toFinset.card).sum ∧ ∀ r ∈ cRows, ∃ x, (r.1, x) ∈ fRows := by
  unfold groupData at h
  simp only at h
  have hkeys := groupby_keys fRows
  have hck := groupby_keys cRows
  have hmemk : ∀ k, k ∈ (groupby fRows).map (·.1) ↔ ∃ x, (k, x) ∈ fRows := by
    intro k; rw [hkeys, mem_sortedKeys, mem_map]
    constructor
    · rintro ⟨⟨a, x⟩, h, rfl⟩; exact ⟨x, h⟩
    · rintro ⟨x, h⟩; exact ⟨_, h, rfl⟩
  have hmemc : ∀ k, k ∈ (groupby cRows).map (·.1) ↔ ∃ x, (k, x) ∈ cRows := by
    intro k; rw [hck, mem_sortedKeys, mem_map]
    constructor
    · rintro ⟨⟨a, x⟩, h, rfl⟩; exact ⟨x, h⟩
    · rintro ⟨x, h⟩; exact ⟨_, h, rfl⟩
  have hdesc : ((groupby fRows).map (·.1)).reverse.Pairwise (· > ·) := by
    rw [pairwise_reverse, hkeys]; exact sortedKeys_strict _
  by_cases h1 : totalUnique ((groupby fRows).map (·.2)) < m
  · rw [if_pos h1] at h; cases h
  rw [if_neg h1] at h
  have htot : m ≤ (((groupby fRows).map (·.2)).map fun g => g.toFinset.card).sum := by
    have : ((groupby fRows).map (·.2)).map (fun g => g.toFinset.card) =
      ((groupby fRows).map (·.2)).map (fun g => g.dedup.length) :=
      map_congr_left fun g _ => List.card_toFinset g
    rw [this]; exact not_lt.1 h1
  by_cases h2 : 0 < cRows.length
  · rw [if_pos h2] at h
    by_cases h3 : strict = true ∧ ((groupby cRows).map (·.1)).any (fun k => decide (k ∉ (groupby fRows).map (·.1))) = true
    · rw [if_pos h3] at h; cases h
    rw [if_neg h3] at h
    have hsub : ∀ k ∈ (groupby cRows).map (·.1), k ∈ (groupby fRows).map (·.1) := by
      intro k hk
      rcases hs with hs | hs
      · by_contra hn
        exact h3 ⟨hs, any_eq_true.2 ⟨k, hk, by simpa using hn⟩⟩
      · rw [hmemc] at hk
        obtain ⟨x, hx⟩ := hk
        rw [hmemk]; exact hs _ hx
    cases h
    refine ⟨⟨hdesc, fun k => by rw [mem_reverse]; exact hmemk k, ?_, ?_⟩, htot, ?_⟩
    · rw [groupby_values, ← map_reverse]
    · rw [if_neg (by rintro rfl; simp at h2)]
      simp only [Option.map_some, Option.some.injEq]
      rw [map_reverse]
      congr 1
      have hall : ((groupby cRows).map (·.1)).filter (fun x => decide (x ∈ (groupby fRows).map (·.1))) =
          (groupby cRows).map (·.1) := by
        rw [filter_eq_self]; intro k hk; simpa using hsub k hk
      have := padGroups_aligned ((groupby cRows).map (·.1)) (by rw [hck]; exact sortedKeys_strict _) (valuesAt cRows)
        (fun k hk => by
          unfold valuesAt
          rw [map_eq_nil_iff, filter_eq_nil_iff]
          rintro ⟨a, x⟩ hr
          simp only [decide_eq_true_eq]
          rintro rfl
          exact hk ((hmemc _).2 ⟨x, hr⟩))
        ((groupby fRows).map (·.1)) (by rw [hkeys]; exact sortedKeys_strict _) []
      rw [hall] at this
      rw [groupby_values]
      simpa using this
    · rintro ⟨k, x⟩ hr
      exact (hmemk k).1 (hsub k ((hmemc k).2 ⟨x, hr⟩))
  · rw [if_neg h2] at h
    cases h
    have hnil : cRows = [] := by
      cases cRows with
      | nil => rfl
      | cons a l => simp at h2
    refine ⟨⟨hdesc, fun k => by rw [mem_reverse]; exact hmemk k, ?_, ?_⟩, htot, ?_⟩
    · rw [groupby_values, ← map_reverse]
    · rw [if_pos hnil]; rfl
    · subst hnil; simp

/-- Counting distinct values stress by stress is counting distinct (stress, value) pairs. -/
theorem totalUnique_eq (rows : List (κ × K)) :
    totalUnique ((groupby rows).map (·.2)) = rows.toFinset.card := by
  have h1 : totalUnique ((groupby rows).map (·.2)) =
      ((rows.map (·.1)).toFinset).sum fun k => ((valuesAt rows k).toFinset).card := by
    unfold totalUnique
    rw [groupby_values, groupby_keys, map_map, ← List.sum_toFinset _ ((sortedKeys_strict _).imp (fun h => ne_of_lt h))]
    have : ((rows.map (·.1)).dedup.insertionSort (· ≤ ·)).toFinset = (rows.map (·.1)).toFinset := by
      ext k; rw [mem_toFinset, mem_toFinset, mem_sortedKeys]
    rw [this]
    apply Finset.sum_congr rfl
    intro k _
    simp only [Function.comp_apply]
    rw [← List.card_toFinset]
  rw [h1, Finset.card_eq_sum_card_fiberwise (f := Prod.fst) (t := (rows.map (·.1)).toFinset)]
  · apply Finset.sum_congr rfl
    intro k _
    refine Finset.card_bij' (fun x _ => (k, x)) (fun r _ => r.2) ?_ ?_ ?_ ?_
    · intro x hx
      simp only [valuesAt, mem_toFinset, mem_map, mem_filter, decide_eq_true_eq] at hx
      obtain ⟨⟨a, b⟩, ⟨h, rfl⟩, rfl⟩ := hx
      simpa using h
    · rintro ⟨a, b⟩ hr
      simp only [Finset.mem_filter, mem_toFinset] at hr
      obtain ⟨hr, rfl⟩ := hr
      simp only [valuesAt, mem_toFinset, mem_map, mem_filter, decide_eq_true_eq]
      exact ⟨_, ⟨hr, rfl⟩, rfl⟩
    · intro x _; rfl
    · rintro ⟨a, b⟩ hr
      simp only [Finset.mem_filter, mem_toFinset] at hr
      rw [← hr.2]
  · rintro ⟨a, b⟩ hr
    have hr : (a, b) ∈ rows := by simpa using hr
    simpa using ⟨b, hr⟩

/-! ## The whole check -/

/-- Specification: is it a dual-stress model? -/
def DualStress (model : String) (fs2 : DataArg K) : Prop :=
  model = "Dual_Exponential" ∨ model = "Power_Exponential" ∨ model = "Dual_Power" ∨
    (model = "Everything" ∧ fs2 ≠ .none)

/-- The stress (pair) of every item, with its time. -/
def stressRows (dual : Bool) (s1 s2 t : List K) : List ((K × Option K) × K) :=
  (if dual = true then List.zipWith (fun x y => (x, some y)) s1 s2 else s1.map fun x => (x, none)).zip t

/-- The requirements on the inputs of the ALT fitters. -/
structure ALTRequirements (dist model : String) (f fs1 fs2 c cs1 cs2 : DataArg K) (CI : CIArg K) (use : UseArg K)
    (optimizer : StrArg) (dual : Bool) (F A B C D E : List K) : Prop where
  dist_known : dist = "Exponential" ∨ dist = "Weibull" ∨ dist = "Lognormal" ∨ dist = "Normal" ∨ dist = "Everything"
  model_known : model = "Exponential" ∨ model = "Eyring" ∨ model = "Power" ∨ model = "Dual_Exponential" ∨
    model = "Power_Exponential" ∨ model = "Dual_Power" ∨ model = "Everything"
  is_dual : dual = true ↔ DualStress model fs2
  failures : f = .array F ∧ fs1 = .array A ∧ (dual = true → fs2 = .array B) ∧ (dual = false → B = [])
  censored : (c = .none ∧ C = [] ∧ D = [] ∧ E = []) ∨
    (c = .array C ∧ cs1 = .array D ∧ (dual = true → cs2 = .array E) ∧ (dual = false → E = []))
  one_stress_each : A.length = F.length ∧ D.length = C.length ∧
    (dual = true → B.length = F.length ∧ E.length = C.length)
  positive : (∀ x ∈ F, 0 < x) ∧ ∀ x ∈ C, 0 < x
  ci : ∃ ci, CI = .float ci ∧ 0 < ci ∧ ci < 1
  optimizer_ok : ∃ o, Means optimizerNames optimizer o
  two_stresses : 2 ≤ A.toFinset.card ∧ (dual = true → 2 ≤ B.toFinset.card)
  enough : (if dual = true then 4 else 3) ≤ (stressRows dual A B F).toFinset.card
  known_pairs : dual = true → ∀ r ∈ stressRows dual D E C, ∃ x, (r.1, x) ∈ stressRows dual A B F
  use_ok : use = .none ∨ (dual = false ∧ ∃ u, use = .num u) ∨ (dual = true ∧ ∃ u v, use = .array [u, v])

theorem isDual_iff (model : String) (fs2 : DataArg K) : isDual model fs2 = true ↔ DualStress model fs2 := by
  unfold isDual DualStress
  by_cases h : model = "Everything"
  · subst h
    cases fs2 <;> simp
  · rw [if_neg h]
    simp only [mem_cons, not_mem_nil, or_false, decide_eq_true_eq, h, false_and]

theorem altTypes_iff (dual : Bool) (f fs1 fs2 c cs1 cs2 : DataArg K) (F A B C D E : List K) :
    altTypes dual f fs1 fs2 c cs1 cs2 = .ok (F, A, B, C, D, E) ↔
      (f = .array F ∧ fs1 = .array A ∧ (dual = true → fs2 = .array B) ∧ (dual = false → B = [])) ∧
      ((c = .none ∧ C = [] ∧ D = [] ∧ E = []) ∨
        (c = .array C ∧ cs1 = .array D ∧ (dual = true → cs2 = .array E) ∧ (dual = false → E = []))) := by
  unfold altTypes
  cases dual
  · cases f <;> cases fs1 <;> cases c <;> simp [valueErr, eq_comm]
    · tauto
    · cases cs1 <;> simp [eq_comm]; tauto
  · cases f <;> cases fs1 <;> cases fs2 <;> cases c <;> simp [valueErr, eq_comm]
    · tauto
    · cases cs1 <;> cases cs2 <;> simp [eq_comm]; tauto

theorem altLengths_iff (dual : Bool) (F A B C D E : List K) (u : Unit) :
    altLengths dual F A B C D E = .ok u ↔ A.length = F.length ∧ D.length = C.length ∧
      (dual = true → B.length = F.length ∧ E.length = C.length) := by
  unfold altLengths
  cases dual
  · simp only [if_true, Bool.false_eq_true, false_imp_iff, and_true]
    split
    · simp [valueErr]; omega
    · split
      · simp [valueErr]; omega
      · simp; omega
  · simp only [Bool.true_eq_false, if_false, true_imp_iff]
    split
    · simp [valueErr]; omega
    · split
      · simp [valueErr]; omega
      · simp; omega

theorem altPositive_iff (F C : List K) (u : Unit) :
    altPositive F C = .ok u ↔ F ++ C ≠ [] ∧ (∀ x ∈ F, 0 < x) ∧ ∀ x ∈ C, 0 < x := by
  unfold altPositive
  cases h : (F ++ C).min? with
  | none =>
    rw [min?_eq_none_iff] at h
    simp [valueErr, h]
  | some m =>
    have hm := (Np.min?_iff _ m).1 h
    have hne : F ++ C ≠ [] := by intro h'; rw [h'] at h; cases h
    simp only
    by_cases hp : m ≤ 0
    · rw [if_pos hp]
      constructor
      · intro h; cases h
      · rintro ⟨-, a, b⟩
        rcases mem_append.1 hm.1 with h | h
        · exact absurd (a m h) (not_lt.2 hp)
        · exact absurd (b m h) (not_lt.2 hp)
    · rw [if_neg hp]
      have hp := not_le.1 hp
      constructor
      · intro _
        exact ⟨hne, fun x hx => lt_of_lt_of_le hp (hm.2 x (mem_append_left _ hx)),
          fun x hx => lt_of_lt_of_le hp (hm.2 x (mem_append_right _ hx))⟩
      · intro _; rfl

theorem altStresses_iff (dual : Bool) (A B : List K) (u : Unit) :
    altStresses dual A B = .ok u ↔ 2 ≤ A.toFinset.card ∧ (dual = true → 2 ≤ B.toFinset.card) := by
  unfold altStresses
  rw [List.card_toFinset, List.card_toFinset]
  split
  · simp [valueErr]; omega
  · split
    · split
      · simp_all [valueErr]
      · simp_all
    · simp_all

theorem altUse_iff (dual : Bool) (use r : UseArg K) :
    altUse dual use = .ok r ↔ r = use ∧
      (use = .none ∨ (dual = false ∧ ∃ u, use = .num u) ∨ (dual = true ∧ ∃ u v, use = .array [u, v])) := by
  unfold altUse
  cases use with
  | none => simp [eq_comm]
  | num x => cases dual <;> simp [valueErr, eq_comm]
  | other => simp [valueErr]
  | array l =>
    cases dual
    · simp [valueErr]
    · match l with
      | [] => simp [valueErr]
      | [a] => simp [valueErr]
      | [a, b] => simp [eq_comm]
      | a :: b :: c :: l => simp [valueErr]

/-- The rows the model groups are the stress rows, keyed. -/
theorem keyed_rows (key : K → Option K → κ) (dual : Bool) (A B F : List K) :
    (if dual = true then (List.zipWith (fun x y => key x (some y)) A B).zip F
        else (A.map fun x => key x none).zip F) =
      (stressRows dual A B F).map fun r => (key r.1.1 r.1.2, r.2) := by
  unfold stressRows
  have h : ∀ l : List (K × Option K), (l.map fun p => key p.1 p.2).zip F =
      (l.zip F).map fun r => (key r.1.1 r.1.2, r.2) := by
    intro l; rw [zip_map_left]; rfl
  cases dual
  · simp only [Bool.false_eq_true, if_false]
    rw [← h, map_map]; rfl
  · simp only [if_true]
    rw [← h, map_zipWith]

/-- Distinct stresses (pairs of stresses, if `dual`) have distinct keys: the number itself, or Python's
`str(s1) + "_" + str(s2)`. -/
def KeyInj (dual : Bool) (key : K → Option K → κ) : Prop :=
  ∀ p q : K × Option K, p.2.isSome = dual → q.2.isSome = dual → key p.1 p.2 = key q.1 q.2 → p = q

theorem stressRows_isSome {dual : Bool} {A B F : List K} {r : (K × Option K) × K} (h : r ∈ stressRows dual A B F) :
    r.1.2.isSome = dual := by
  unfold stressRows at h
  obtain ⟨⟨a, b⟩, x⟩ := r
  have h1 := (of_mem_zip h).1
  cases dual
  · simp only [Bool.false_eq_true, if_false, mem_map, Prod.mk.injEq] at h1
    obtain ⟨_, _, _, rfl⟩ := h1; rfl
  · simp only [if_true] at h1
    rw [← List.map_uncurry_zip_eq_zipWith, mem_map] at h1
    obtain ⟨⟨_, _⟩, _, h⟩ := h1
    simp only [Function.uncurry_apply_pair, Prod.mk.injEq] at h
    rw [← h.2]; rfl

/-- Specification of the grouping: one group per stress (pair) occurring among the failures, no stress twice, each with
the failures and the censored times recorded at that very stress, in their original order. -/
structure GroupedByStress (key : K → Option K → κ) (dual : Bool) (F A B C D E : List K) (r : ALTChecked K κ)
    (S : List (K × Option K)) : Prop where
  nodup : S.Nodup
  stresses_iff : ∀ s, s ∈ S ↔ ∃ x, (s, x) ∈ stressRows dual A B F
  reported : r.stresses_for_groups = S.map fun s => key s.1 s.2
  descending : r.stresses_for_groups.Pairwise (· > ·)
  failures : r.failure_groups = S.map (valuesAt (stressRows dual A B F))
  censored : r.right_censored_groups = if C = [] then none else some (S.map (valuesAt (stressRows dual D E C)))

theorem ungroup {key : K → Option K → κ} {dual : Bool} (hkey : KeyInj dual key) (A B F : List K) (s : K × Option K)
    (hs : s.2.isSome = dual) :
    valuesAt ((stressRows dual A B F).map fun r => (key r.1.1 r.1.2, r.2)) (key s.1 s.2) =
      valuesAt (stressRows dual A B F) s := by
  unfold valuesAt
  rw [filter_map, map_map]
  congr 1
  apply filter_congr
  intro r hr
  simp only [Function.comp_apply]
  congr 1
  rw [eq_iff_iff]
  exact ⟨fun h => hkey _ _ (stressRows_isSome hr) hs h, fun h => by rw [h]⟩

theorem stressRows_length {dual : Bool} {A B F : List K} (h1 : A.length = F.length)
    (h2 : dual = true → B.length = F.length) : (stressRows dual A B F).length = F.length := by
  unfold stressRows
  cases dual
  · simp [h1]
  · simp [h1, h2 rfl]

theorem groupData_accepts (strict : Bool) (m : Nat) (fRows cRows : List (κ × K)) :
    (∃ x, groupData strict m fRows cRows = .ok x) ↔
      m ≤ fRows.toFinset.card ∧ (strict = true → ∀ r ∈ cRows, ∃ x, (r.1, x) ∈ fRows) := by
  unfold groupData
  simp only
  rw [totalUnique_eq]
  by_cases h1 : fRows.toFinset.card < m
  · rw [if_pos h1]
    constructor
    · rintro ⟨x, h⟩; cases h
    · rintro ⟨h, -⟩; omega
  rw [if_neg h1]
  by_cases h2 : 0 < cRows.length
  · rw [if_pos h2]
    have hiff : ((groupby cRows).map (·.1)).any (fun k => decide (k ∉ (groupby fRows).map (·.1))) = true ↔
        ¬ ∀ r ∈ cRows, ∃ x, (r.1, x) ∈ fRows := by
      rw [any_eq_true, groupby_keys, groupby_keys]
      simp only [mem_sortedKeys, decide_eq_true_eq, mem_map]
      push Not
      constructor
      · rintro ⟨_, ⟨⟨a, b⟩, hb, rfl⟩, h⟩
        exact ⟨_, hb, fun x hx => h _ hx rfl⟩
      · rintro ⟨⟨a, b⟩, hr, h⟩
        refine ⟨a, ⟨_, hr, rfl⟩, ?_⟩
        rintro ⟨a', x⟩ hx rfl
        exact h x hx
    by_cases h3 : strict = true ∧ ((groupby cRows).map (·.1)).any (fun k => decide (k ∉ (groupby fRows).map (·.1))) = true
    · rw [if_pos h3]
      constructor
      · rintro ⟨x, h⟩; cases h
      · rintro ⟨-, h⟩; exact absurd (h h3.1) (hiff.1 h3.2)
    · rw [if_neg h3]
      constructor
      · intro _
        refine ⟨by omega, fun hs => ?_⟩
        by_contra hn
        exact h3 ⟨hs, hiff.2 hn⟩
      · intro _; exact ⟨_, rfl⟩
  · rw [if_neg h2]
    constructor
    · intro _
      refine ⟨by omega, fun _ r hr => ?_⟩
      exact absurd (length_pos_of_mem hr) h2
    · intro _; exact ⟨_, rfl⟩

theorem keyed_card {key : K → Option K → κ} {dual : Bool} (hkey : KeyInj dual key) (A B F : List K) :
    ((stressRows dual A B F).map fun r => (key r.1.1 r.1.2, r.2)).toFinset.card =
      (stressRows dual A B F).toFinset.card := by
  have : ((stressRows dual A B F).map fun r => (key r.1.1 r.1.2, r.2)).toFinset =
      (stressRows dual A B F).toFinset.image fun r => (key r.1.1 r.1.2, r.2) := by
    ext x; simp
  rw [this]
  apply Finset.card_image_of_injOn
  intro r hr r' hr' he
  have hr : r ∈ stressRows dual A B F := by simpa using hr
  have hr' : r' ∈ stressRows dual A B F := by simpa using hr'
  simp only [Prod.mk.injEq] at he
  exact Prod.ext (hkey _ _ (stressRows_isSome hr) (stressRows_isSome hr') he.1) he.2

theorem keyed_mem {key : K → Option K → κ} {dual : Bool} (hkey : KeyInj dual key) (A B F : List K) (s : K × Option K)
    (hs : s.2.isSome = dual) :
    (∃ x, (key s.1 s.2, x) ∈ (stressRows dual A B F).map fun r => (key r.1.1 r.1.2, r.2)) ↔
      ∃ x, (s, x) ∈ stressRows dual A B F := by
  constructor
  · rintro ⟨x, hx⟩
    obtain ⟨r, hr, he⟩ := mem_map.1 hx
    simp only [Prod.mk.injEq] at he
    refine ⟨x, ?_⟩
    have := hkey _ _ (stressRows_isSome hr) hs he.1
    rw [← this, ← he.2]; exact hr
  · rintro ⟨x, hx⟩
    exact ⟨x, mem_map.2 ⟨_, hx, rfl⟩⟩

/-- What acceptance means, step by step. -/
theorem altCheck_iff (key : K → Option K → κ) (dist model : String) (f fs1 fs2 c cs1 cs2 : DataArg K) (CI : CIArg K)
    (use : UseArg K) (optimizer : StrArg) (r : ALTChecked K κ) :
    altCheck key dist model f fs1 fs2 c cs1 cs2 CI use optimizer = .ok r ↔
      dist ∈ ["Exponential", "Weibull", "Lognormal", "Normal", "Everything"] ∧
      model ∈ ["Exponential", "Eyring", "Power", "Dual_Exponential", "Power_Exponential", "Dual_Power", "Everything"] ∧
      altTypes (isDual model fs2) f fs1 fs2 c cs1 cs2 = .ok (r.failures, r.failure_stress_1, r.failure_stress_2,
        r.right_censored, r.right_censored_stress_1, r.right_censored_stress_2) ∧
      altLengths (isDual model fs2) r.failures r.failure_stress_1 r.failure_stress_2
        r.right_censored r.right_censored_stress_1 r.right_censored_stress_2 = .ok () ∧
      altPositive r.failures r.right_censored = .ok () ∧ checkCI CI = .ok r.CI ∧
      checkOptimizer optimizer = .ok r.optimizer ∧
      altStresses (isDual model fs2) r.failure_stress_1 r.failure_stress_2 = .ok () ∧
      (∃ fg cg keys, groupData (isDual model fs2) (if isDual model fs2 = true then 4 else 3)
        ((stressRows (isDual model fs2) r.failure_stress_1 r.failure_stress_2 r.failures).map
          fun r => (key r.1.1 r.1.2, r.2))
        ((stressRows (isDual model fs2) r.right_censored_stress_1 r.right_censored_stress_2 r.right_censored).map
          fun r => (key r.1.1 r.1.2, r.2)) = .ok (fg, cg, keys) ∧ r.failure_groups = fg.reverse ∧
          r.right_censored_groups = cg.map List.reverse ∧ r.stresses_for_groups = keys.reverse) ∧
      altUse (isDual model fs2) use = .ok r.use_level_stress := by
  unfold altCheck
  by_cases h1 : dist ∈ ["Exponential", "Weibull", "Lognormal", "Normal", "Everything"]
  swap
  · rw [if_pos h1]
    constructor
    · intro h; cases h
    · intro h; exact absurd h.1 h1
  rw [if_neg (not_not.2 h1)]
  by_cases h2 : model ∈ ["Exponential", "Eyring", "Power", "Dual_Exponential", "Power_Exponential", "Dual_Power",
    "Everything"]
  swap
  · rw [if_pos h2]
    constructor
    · intro h; cases h
    · intro h; exact absurd h.2.1 h2
  rw [if_neg (not_not.2 h2)]
  simp only [bind_ok]
  constructor
  · rintro ⟨⟨F, A, B, C, D, E⟩, t1, ⟨⟩, t2, ⟨⟩, t3, ci, t4, opt, t5, ⟨⟩, t6, ⟨fg, cg, keys⟩, t7, u, t8, t9⟩
    have t9 := Except.ok.inj t9
    subst t9
    rw [keyed_rows, keyed_rows] at t7
    exact ⟨h1, h2, t1, t2, t3, t4, t5, t6, ⟨fg, cg, keys, t7, rfl, rfl, rfl⟩, t8⟩
  · rintro ⟨-, -, t1, t2, t3, t4, t5, t6, ⟨fg, cg, keys, t7, e1, e2, e3⟩, t8⟩
    refine ⟨_, t1, (), t2, (), t3, _, t4, _, t5, (), t6, (fg, cg, keys), ?_, _, t8, ?_⟩
    · rw [keyed_rows, keyed_rows]; exact t7
    · obtain ⟨⟩ := r
      simp only at e1 e2 e3
      rw [e1, e2, e3]
      rfl

/-- **C74 (what is accepted).** `ALT_fitters_input_checking` accepts exactly the inputs meeting its requirements. -/
theorem C74_accepts_iff (key : K → Option K → κ) (dist model : String) (f fs1 fs2 c cs1 cs2 : DataArg K)
    (hkey : ∀ dual, (dual = true ↔ DualStress model fs2) → KeyInj dual key) (CI : CIArg K) (use : UseArg K) (optimizer : StrArg) :
    (∃ r, altCheck key dist model f fs1 fs2 c cs1 cs2 CI use optimizer = .ok r) ↔
      ∃ dual F A B C D E, ALTRequirements dist model f fs1 fs2 c cs1 cs2 CI use optimizer dual F A B C D E := by
  constructor
  · rintro ⟨r, h⟩
    rw [altCheck_iff] at h
    obtain ⟨h1, h2, t1, t2, t3, t4, t5, t6, ⟨fg, cg, keys, t7, -⟩, t8⟩ := h
    rw [altTypes_iff] at t1
    rw [altLengths_iff] at t2
    rw [altPositive_iff] at t3
    rw [checkCI_iff] at t4
    rw [checkOptimizer_iff] at t5
    rw [altStresses_iff] at t6
    rw [altUse_iff] at t8
    replace hkey := hkey _ (isDual_iff model fs2)
    have t7 := (groupData_accepts _ _ _ _).1 ⟨_, t7⟩
    rw [keyed_card hkey] at t7
    refine ⟨isDual model fs2, _, _, _, _, _, _, by simpa using h1, by simpa using h2, isDual_iff _ _, t1.1, t1.2, t2,
      t3.2, ⟨_, t4⟩, ⟨_, t5⟩, t6, t7.1, fun hd r hr => ?_, t8.2⟩
    obtain ⟨x, hx⟩ := t7.2 hd _ (mem_map.2 ⟨r, hr, rfl⟩)
    exact (keyed_mem hkey _ _ _ _ (stressRows_isSome hr)).1 ⟨x, hx⟩
  · rintro ⟨dual, F, A, B, C, D, E, q⟩
    have hd : dual = isDual model fs2 := by
      have := q.is_dual.trans (isDual_iff model fs2).symm
      cases dual <;> cases h : isDual model fs2 <;> simp_all
    replace hkey := hkey _ q.is_dual
    obtain ⟨ci, hci⟩ := q.ci
    obtain ⟨o, ho⟩ := q.optimizer_ok
    have hg := (groupData_accepts (κ := κ) dual (if dual = true then 4 else 3)
        ((stressRows dual A B F).map fun r => (key r.1.1 r.1.2, r.2))
        ((stressRows dual D E C).map fun r => (key r.1.1 r.1.2, r.2))).2
      ⟨by rw [keyed_card hkey]; exact q.enough, fun hd r hr => by
        obtain ⟨r', hr', rfl⟩ := mem_map.1 hr
        exact (keyed_mem hkey _ _ _ _ (stressRows_isSome hr')).2 (q.known_pairs hd r' hr')⟩
    obtain ⟨⟨fg, cg, keys⟩, hg⟩ := hg
    refine ⟨⟨F, A, B, C, D, E, ci, o, use, fg.reverse, cg.map List.reverse, keys.reverse⟩, ?_⟩
    rw [altCheck_iff, ← hd]
    refine ⟨by simpa using q.dist_known, by simpa using q.model_known, (altTypes_iff _ _ _ _ _ _ _ _ _ _ _ _ _).2
      ⟨q.failures, q.censored⟩, (altLengths_iff _ _ _ _ _ _ _ _).2 q.one_stress_each,
      (altPositive_iff _ _ _).2 ⟨?_, q.positive⟩, (checkCI_iff _ _).2 hci, (checkOptimizer_iff _ _).2 ho,
      (altStresses_iff _ _ _ _).2 q.two_stresses, ⟨_, _, _, hg, rfl, rfl, rfl⟩, (altUse_iff _ _ _).2 ⟨rfl, q.use_ok⟩⟩
    intro hne
    have hF : F = [] := (append_eq_nil_iff.1 hne).1
    have h2 := q.two_stresses.1
    have := q.one_stress_each.1
    rw [hF] at this
    simp only [length_nil, length_eq_zero_iff] at this
    rw [this] at h2
    simp at h2

/-- **C74 (what comes out).** The accepted input is passed on unchanged, and the groups pair every failure and every
censored time with its own stress — for dual-stress models always, for single-stress models whenever every stress
with censored data also has failures. -/
theorem C74_groups (key : K → Option K → κ) (dist model : String) (f fs1 fs2 c cs1 cs2 : DataArg K)
    (hkey : ∀ dual, (dual = true ↔ DualStress model fs2) → KeyInj dual key) (CI : CIArg K) (use : UseArg K) (optimizer : StrArg) (r : ALTChecked K κ)
    (h : altCheck key dist model f fs1 fs2 c cs1 cs2 CI use optimizer = .ok r) :
    ∃ dual, ALTRequirements dist model f fs1 fs2 c cs1 cs2 CI use optimizer dual r.failures r.failure_stress_1
        r.failure_stress_2 r.right_censored r.right_censored_stress_1 r.right_censored_stress_2 ∧
      CI = .float r.CI ∧ Means optimizerNames optimizer r.optimizer ∧ r.use_level_stress = use ∧
      ((dual = true ∨ ∀ s ∈ r.right_censored_stress_1, s ∈ r.failure_stress_1) →
        ∃ S, GroupedByStress key dual r.failures r.failure_stress_1 r.failure_stress_2 r.right_censored
          r.right_censored_stress_1 r.right_censored_stress_2 r S) := by
  have h' := h
  rw [altCheck_iff] at h
  obtain ⟨h1, h2, t1, t2, t3, t4, t5, t6, ⟨fg, cg, keys, t7, e1, e2, e3⟩, t8⟩ := h
  rw [altTypes_iff] at t1
  rw [altLengths_iff] at t2
  rw [altPositive_iff] at t3
  rw [checkCI_iff] at t4
  rw [checkOptimizer_iff] at t5
  rw [altStresses_iff] at t6
  rw [altUse_iff] at t8
  replace hkey := hkey _ (isDual_iff model fs2)
  have t7' := (groupData_accepts _ _ _ _).1 ⟨_, t7⟩
  rw [keyed_card hkey] at t7'
  refine ⟨isDual model fs2, ⟨by simpa using h1, by simpa using h2, isDual_iff _ _, t1.1, t1.2, t2,
      t3.2, ⟨_, t4⟩, ⟨_, t5⟩, t6, t7'.1, fun hd r hr => ?_, t8.2⟩, t4.1, t5, t8.1, fun hm => ?_⟩
  · obtain ⟨x, hx⟩ := t7'.2 hd _ (mem_map.2 ⟨r, hr, rfl⟩)
    exact (keyed_mem hkey _ _ _ _ (stressRows_isSome hr)).1 ⟨x, hx⟩
  · set dual := isDual model fs2 with hdual
    set fr := stressRows dual r.failure_stress_1 r.failure_stress_2 r.failures with hfr
    set cr := stressRows dual r.right_censored_stress_1 r.right_censored_stress_2 r.right_censored with hcr
    have hmatch : dual = true ∨ ∀ r ∈ cr.map (fun r => (key r.1.1 r.1.2, r.2)), ∃ x, (r.1, x) ∈
        fr.map fun r => (key r.1.1 r.1.2, r.2) := by
      rcases hm with hm | hm
      · exact .inl hm
      · cases hdd : dual with
        | true => exact .inl rfl
        | false =>
          right
          intro q hq
          obtain ⟨⟨⟨a, b⟩, x⟩, hp, rfl⟩ := mem_map.1 hq
          have hb : b = none := by
            have := stressRows_isSome (hcr ▸ hp)
            rw [hdd] at this; simpa using this
          have ha : a ∈ r.right_censored_stress_1 := by
            rw [hcr, hdd] at hp
            unfold stressRows at hp
            have := (of_mem_zip hp).1
            simp only [Bool.false_eq_true, if_false, mem_map, Prod.mk.injEq] at this
            obtain ⟨_, h, rfl, _⟩ := this; exact h
          obtain ⟨i, hi⟩ := mem_iff_getElem?.1 (hm a ha)
          have hil : i < r.failures.length := by rw [← t2.1]; exact (List.getElem?_eq_some_iff.1 hi).1
          refine ⟨r.failures[i], mem_map.2 ⟨((a, none), r.failures[i]), ?_, by rw [hb]⟩⟩
          rw [hfr, hdd]
          unfold stressRows
          simp only [Bool.false_eq_true, if_false]
          apply mem_iff_getElem?.2
          refine ⟨i, getElem?_zip_eq_some.2 ⟨?_, getElem?_eq_getElem hil⟩⟩
          rw [getElem?_map, hi]; rfl
    obtain ⟨g, -, -⟩ := groupData_ok t7 hmatch
    rw [← e1, ← e2, ← e3] at g
    -- the stresses behind the keys
    have hex : ∀ k ∈ r.stresses_for_groups, ∃ s : K × Option K, s.2.isSome = dual ∧ key s.1 s.2 = k := by
      intro k hk
      obtain ⟨x, hx⟩ := (g.stresses_iff k).1 hk
      obtain ⟨q, hq, he⟩ := mem_map.1 hx
      exact ⟨q.1, stressRows_isSome hq, congrArg Prod.fst he⟩
    obtain ⟨S, hS, hSs⟩ : ∃ S : List (K × Option K), (S.map fun s => key s.1 s.2) = r.stresses_for_groups ∧
        ∀ s ∈ S, s.2.isSome = dual := by
      clear g
      generalize r.stresses_for_groups = l at hex
      induction l with
      | nil => exact ⟨[], rfl, by simp⟩
      | cons k l ih =>
        obtain ⟨S, h1, h2⟩ := ih fun k hk => hex k (mem_cons_of_mem _ hk)
        obtain ⟨s, h3, h4⟩ := hex k mem_cons_self
        refine ⟨s :: S, by rw [map_cons, h1, h4], ?_⟩
        intro t ht
        rcases mem_cons.1 ht with rfl | ht
        · exact h3
        · exact h2 t ht
    refine ⟨S, ?_, ?_, hS.symm, g.descending, ?_, ?_⟩
    · have : (S.map fun s => key s.1 s.2).Nodup := by
        rw [hS]; exact g.descending.imp fun h => ne_of_gt h
      exact this.of_map
    · intro s
      rw [← hfr]
      constructor
      · intro hs
        have : key s.1 s.2 ∈ r.stresses_for_groups := by rw [← hS]; exact mem_map.2 ⟨s, hs, rfl⟩
        exact (keyed_mem hkey _ _ _ _ (hSs s hs)).1 ((g.stresses_iff _).1 this)
      · rintro ⟨x, hx⟩
        have hs : s.2.isSome = dual := stressRows_isSome (r := (s, x)) hx
        have := (g.stresses_iff _).2 ((keyed_mem hkey _ _ _ _ hs).2 ⟨x, hx⟩)
        rw [← hS] at this
        obtain ⟨s', hs', he⟩ := mem_map.1 this
        rw [← hkey s' s (hSs s' hs') hs he]; exact hs'
    · rw [g.failures, ← hS, map_map]
      apply map_congr_left
      intro s hs
      exact ungroup hkey _ _ _ _ (hSs s hs)
    · rw [g.censored]
      have hlen : cr.length = r.right_censored.length := stressRows_length t2.2.1 fun hd => (t2.2.2 hd).2
      by_cases hC : r.right_censored = []
      · have hcr0 : cr = [] := by rw [← length_eq_zero_iff, hlen, hC]; rfl
        rw [if_pos hC, if_pos (by rw [hcr0]; rfl)]
      · have hcr0 : cr ≠ [] := by
          intro h; rw [h] at hlen; exact hC (length_eq_zero_iff.1 hlen.symm)
        rw [if_neg hC, if_neg (by simpa using hcr0)]
        congr 1
        rw [← hS, map_map]
        apply map_congr_left
        intro s hs
        exact ungroup hkey _ _ _ _ (hSs s hs)

/-- **C74 (refusals).** Every refusal is a ValueError. -/
theorem C74_refusals (key : K → Option K → κ) (dist model : String) (f fs1 fs2 c cs1 cs2 : DataArg K) (CI : CIArg K)
    (use : UseArg K) (optimizer : StrArg) (e : Err)
    (h : altCheck key dist model f fs1 fs2 c cs1 cs2 CI use optimizer = .error e) : e = .valueError := by
  revert e
  change OnlyVE _
  unfold altCheck
  refine onlyVE_ite OnlyVE.ve (onlyVE_ite OnlyVE.ve ?_)
  simp only
  refine OnlyVE.bind ?_ fun x _ => ?_
  · unfold altTypes; simp only; repeat' split
    all_goals first | exact OnlyVE.ok _ | exact OnlyVE.ve
  obtain ⟨F, A, B, C, D, E⟩ := x
  refine OnlyVE.bind ?_ fun _ _ => OnlyVE.bind ?_ fun _ _ => OnlyVE.bind ?_ fun _ _ => OnlyVE.bind ?_ fun _ _ =>
    OnlyVE.bind ?_ fun _ _ => OnlyVE.bind ?_ fun x _ => ?_
  · unfold altLengths; repeat' split
    all_goals first | exact OnlyVE.ok _ | exact OnlyVE.ve
  · unfold altPositive; repeat' split
    all_goals first | exact OnlyVE.ok _ | exact OnlyVE.ve
  · unfold checkCI; repeat' split
    all_goals first | exact OnlyVE.ok _ | exact OnlyVE.ve
  · unfold checkOptimizer; repeat' split
    all_goals first | exact OnlyVE.ok _ | exact OnlyVE.ve
  · unfold altStresses; repeat' split
    all_goals first | exact OnlyVE.ok _ | exact OnlyVE.ve
  · unfold groupData; simp only; repeat' split
    all_goals first | exact OnlyVE.ok _ | exact OnlyVE.ve
  · obtain ⟨fg, cg, keys⟩ := x
    refine OnlyVE.bind ?_ fun _ _ => OnlyVE.ok _
    unfold altUse; repeat' split
    all_goals first | exact OnlyVE.ok _ | exact OnlyVE.ve

/-- **C74, finding.** In single-stress models a stress that has only censored data is accepted and its group is put
against the wrong stress: here the item censored at stress 15 is listed under stress 20, and there are more censored
groups than stresses. -/
theorem C74_misplaced_finding :
    ∃ r : ALTChecked ℚ ℚ, altCheck (fun x _ => x) "Weibull" "Exponential" (.array [1, 2, 3]) (.array [10, 20, 20]) .none
      (.array [7]) (.array [15]) .none (.float (95/100)) .none .none = .ok r ∧
      r.stresses_for_groups = [20, 10] ∧ r.right_censored_groups = some [[7], [], []] := by
  refine ⟨⟨[1, 2, 3], [10, 20, 20], [], [7], [15], [], 95/100, none, .none, [[2, 3], [1]], some [[7], [], []],
    [20, 10]⟩, ?_, rfl, rfl⟩
  rw [altCheck_iff]
  refine ⟨by decide, by decide, by rfl, by decide +kernel, by decide +kernel, ?_, rfl, by decide +kernel,
    ⟨[[1], [2, 3]], some [[], [], [7]], [10, 20], ?_, rfl, rfl, rfl⟩, rfl⟩
  · rw [checkCI_iff]; exact ⟨rfl, by norm_num, by norm_num⟩
  · decide +kernel

example : ∃ r : ALTChecked ℚ ℚ, altCheck (fun x _ => x) "Weibull" "Exponential" (.array [1, 2, 3]) (.array [10, 20, 20])
      .none (.array [7]) (.array [10]) .none (.float (95/100)) .none .none = .ok r ∧
      r.stresses_for_groups = [20, 10] ∧ r.right_censored_groups = some [[], [7]] := by
  refine ⟨⟨[1, 2, 3], [10, 20, 20], [], [7], [10], [], 95/100, none, .none, [[2, 3], [1]], some [[], [7]],
    [20, 10]⟩, ?_, rfl, rfl⟩
  rw [altCheck_iff]
  refine ⟨by decide, by decide, by rfl, by decide +kernel, by decide +kernel, ?_, rfl, by decide +kernel,
    ⟨[[1], [2, 3]], some [[7], []], [10, 20], ?_, rfl, rfl, rfl⟩, rfl⟩
  · rw [checkCI_iff]; exact ⟨rfl, by norm_num, by norm_num⟩
  · decide +kernel

end

end Reliability.Props

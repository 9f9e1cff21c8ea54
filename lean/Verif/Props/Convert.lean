import Mathlib.Data.List.Dedup
import Mathlib.Data.List.Perm.Basic
import Mathlib.Data.List.Perm.Lattice
import Verif.Lemmas.Convert

/-!
# Properties C01–C07: data-format conversions (`reliability/Convert_data.py`)
-/

namespace Reliability.Convert

open Reliability List

variable {T : Type _}

/-- `right_censored` as a plain list (`None` = no censored items). -/
abbrev rcList (o : Option (List T)) : List T := o.getD []

/-! ## C01 -/

/-- **C01** FR → FNRN → FR.  The round trip always succeeds, returns the failures in ascending order
as a permutation of the input, and the same for the right-censored values; `right_censored` is
`None` afterwards exactly when it was `None` before. -/
theorem C01_FR_FNRN_FR_roundtrip [LinearOrder T] (f : List T) (rc : Option (List T)) :
    ∃ out : FR T,
      FNRN_to_FR (FR_to_FNRN f rc).failures
        ((FR_to_FNRN f rc).num_failures.map (fun k : Nat => (k : ℚ)))
        (FR_to_FNRN f rc).right_censored
        ((FR_to_FNRN f rc).num_right_censored.map (List.map (fun k : Nat => (k : ℚ)))) = .ok out ∧
      out.failures ~ f ∧ out.failures.Pairwise (· ≤ ·) ∧
      (rc = none ↔ out.right_censored = none) ∧
      rcList out.right_censored ~ rcList rc ∧ (rcList out.right_censored).Pairwise (· ≤ ·) := by
  cases rc with
  | none =>
    refine ⟨⟨f.insertionSort (· ≤ ·), none⟩, ?_, perm_insertionSort _ f, insertionSort_sorted f,
      by simp, by simp, by simp⟩
    simp only [FR_to_FNRN, FNRN_to_FR, zip_map_cast, expandLoop_nat, expand_npUnique]
    simp [npUnique_length_eq, bind, Except.bind]
  | some l =>
    refine ⟨⟨f.insertionSort (· ≤ ·), some (l.insertionSort (· ≤ ·))⟩, ?_, perm_insertionSort _ f,
      insertionSort_sorted f, by simp, perm_insertionSort _ l, insertionSort_sorted l⟩
    simp only [FR_to_FNRN, FNRN_to_FR, zip_map_cast, expandLoop_nat, expand_npUnique, Option.map]
    simp [npUnique_length_eq, bind, Except.bind]

example : FR_to_FNRN [3, 1, 3, 2] (some [5, 5]) =
    (⟨[1, 2, 3], [1, 1, 2], some [5], some [2]⟩ : FNRN Nat) := by decide

/-! ## C02 -/

/-- Two codes survive being stored in one numpy array: both are strings or both are numbers. -/
def SameKind (a b : Code) : Prop := a.isStr = b.isStr

instance (a b : Code) : Decidable (SameKind a b) := by unfold SameKind; infer_instance

theorem npArrayCodes_sameKind {a b : Code} (h : SameKind a b) (l : List Code)
    (hl : ∀ c ∈ l, c = a ∨ c = b) : npArrayCodes l = l := by
  unfold npArrayCodes
  split
  · next hany =>
    have hall : ∀ c ∈ l, c.isStr = true := by
      obtain ⟨c, hc, hs⟩ := any_eq_true.1 hany
      intro d hd
      rcases hl c hc with rfl | rfl <;> rcases hl d hd with rfl | rfl <;>
        simp_all [SameKind]
    conv_rhs => rw [← map_id l]
    apply map_congr_left
    intro c hc
    have := hall c hc
    cases c <;> simp_all [Code.stringify, Code.isStr]
  · rfl

theorem dedup_length_le_two {α : Type _} [DecidableEq α] (a b : α) (l : List α)
    (hl : ∀ c ∈ l, c = a ∨ c = b) : l.dedup.length ≤ 2 := by
  have hsub : l.dedup ⊆ [a, b] := by
    intro c hc
    have := hl c (mem_dedup.1 hc)
    simpa using this
  exact (List.subperm_of_subset (nodup_dedup l) hsub).length_le

theorem uniqueCodeCount_le_two {a b : Code} (l : List Code)
    (hl : ∀ c ∈ l, c = a ∨ c = b) : uniqueCodeCount l ≤ 2 := by
  unfold uniqueCodeCount npArrayCodes
  split
  · apply dedup_length_le_two a.stringify b.stringify
    intro c hc
    obtain ⟨d, hd, rfl⟩ := mem_map.1 hc
    rcases hl d hd with rfl | rfl <;> simp
  · exact dedup_length_le_two a b l hl

/-- The row list of an XCN table that lists grouped failures first, then grouped censored items. -/
theorem xcn_rows (u1 v1 : List T) (u2 v2 : List Nat) (F C : Code)
    (hu : u1.length = u2.length) (hv : v1.length = v2.length) :
    (u1 ++ v1).zip (((u1.map fun _ => F) ++ (v1.map fun _ => C)).zip
        ((u2 ++ v2).map fun k : Nat => (k : ℚ))) =
      ((u1.zip u2).map fun p => (p.1, F, (p.2 : ℚ))) ++
      ((v1.zip v2).map fun p => (p.1, C, (p.2 : ℚ))) := by
  have aux : ∀ (a : List T) (b : List Nat) (D : Code), a.length = b.length →
      a.zip ((a.map fun _ => D).zip (b.map fun k : Nat => (k : ℚ))) =
        (a.zip b).map fun p => (p.1, D, (p.2 : ℚ)) := by
    intro a
    induction a with
    | nil => intro b D _; simp
    | cons x xs ih =>
      intro b D h
      cases b with
      | nil => simp at h
      | cons y ys => simpa using ih ys D (by simpa using h)
  rw [map_append, zip_append (by simp [hu]), zip_append (by simp [hu]), aux _ _ _ hu, aux _ _ _ hv]

/-- What the loop yields on such a row list. -/
theorem loop_rows (fc cc : Option Code) (F C : Code) (u v : List (T × Nat))
    (hF : classify fc cc F = some .failure) (hC : v ≠ [] → classify fc cc C = some .censored) :
    xcnLoop fc cc ((u.map fun p => (p.1, F, (p.2 : ℚ))) ++
      (v.map fun p => (p.1, C, (p.2 : ℚ)))) [] [] = .ok (Spec.expand u, Spec.expand v) := by
  rw [xcnLoop_eq, if_pos]
  · simp only [flatMap_append, flatMap_map, nil_append]
    congr 2
    · have h1 : (u.flatMap fun a => failPart fc cc (a.1, F, (a.2 : ℚ))) = Spec.expand u := by
        unfold Spec.expand
        congr 1; funext p
        simp [failPart, hF, pyInt_natCast]
      have h2 : (v.flatMap fun a => failPart fc cc (a.1, C, (a.2 : ℚ))) = [] := by
        rw [flatMap_eq_nil_iff]
        intro a ha
        simp [failPart, hC (ne_nil_of_mem ha)]
      rw [h1, h2, append_nil]
    · have h1 : (u.flatMap fun a => censPart fc cc (a.1, F, (a.2 : ℚ))) = [] := by
        rw [flatMap_eq_nil_iff]
        intro a ha
        simp [censPart, hF]
      have h2 : (v.flatMap fun a => censPart fc cc (a.1, C, (a.2 : ℚ))) = Spec.expand v := by
        unfold Spec.expand
        rcases eq_or_ne v [] with rfl | hv
        · simp
        · congr 1; funext p
          simp [censPart, hC hv, pyInt_natCast]
      rw [h1, h2, nil_append]
  · intro r hr
    rcases mem_append.1 hr with hr | hr
    · obtain ⟨p, _, rfl⟩ := mem_map.1 hr
      exact ⟨by simp [hF], by simp [pyInt_natCast]⟩
    · obtain ⟨p, hp, rfl⟩ := mem_map.1 hr
      exact ⟨by simp [hC (ne_nil_of_mem hp)], by simp [pyInt_natCast]⟩

/-- `XCN_to_FR` on a table that lists grouped failures first, then grouped censored items. -/
theorem XCN_to_FR_grouped (u1 v1 : List T) (u2 v2 : List Nat) (C F : Code)
    (hu : u1.length = u2.length) (hv : v1.length = v2.length) (cc fc : Option Code)
    (hF : classify (fc.map Code.upper) (cc.map Code.upper) F.upper = some .failure)
    (hC : classify (fc.map Code.upper) (cc.map Code.upper) C.upper = some .censored) :
    XCN_to_FR (u1 ++ v1) ((u1.map fun _ => F) ++ (v1.map fun _ => C))
        (some ((u2 ++ v2).map fun k : Nat => (k : ℚ))) cc fc =
      .ok ⟨Spec.expand (u1.zip u2),
        if Spec.expand (v1.zip v2) = [] then none else some (Spec.expand (v1.zip v2))⟩ := by
  have huc : uniqueCodeCount
      ((u1.map fun _ => F.upper) ++ (v1.map fun _ => C.upper)) ≤ 2 := by
    refine uniqueCodeCount_le_two (a := F.upper) (b := C.upper) _ ?_
    intro c hc
    rcases mem_append.1 hc with hc | hc <;> obtain ⟨_, _, rfl⟩ := mem_map.1 hc <;> simp
  have hup : ((u1.map fun _ => F) ++ (v1.map fun _ => C)).map Code.upper =
      (u1.map fun _ => F.upper) ++ (v1.map fun _ => C.upper) := by
    simp
  unfold XCN_to_FR
  rw [if_neg (by simp), if_neg (by simp [hu, hv]), if_neg (by rw [hup]; omega), hup]
  simp only [Option.getD_some]
  rw [xcn_rows u1 v1 u2 v2 F.upper C.upper hu hv, loop_rows _ _ _ _ _ _ hF (fun _ => hC)]
  simp [bind, Except.bind]

theorem FR_to_XCN_eq [LinearOrder T] (f : List T) (rc : Option (List T)) (C F : Code)
    (hk : SameKind F C) :
    FR_to_XCN f rc C F =
      ⟨(npUnique f).1 ++ (npUnique (rcList rc)).1,
       ((npUnique f).1.map fun _ => F) ++ ((npUnique (rcList rc)).1.map fun _ => C),
       (npUnique f).2 ++ (npUnique (rcList rc)).2⟩ := by
  have hmem : ∀ (a b : List T), ∀ c ∈ (a.map fun _ => F) ++ (b.map fun _ => C), c = F ∨ c = C := by
    intro a b c hc
    rcases mem_append.1 hc with hc | hc <;> obtain ⟨_, _, rfl⟩ := mem_map.1 hc <;> simp
  cases rc with
  | none => simp [FR_to_XCN, FR_to_FNRN, npUnique, runLength]
  | some l =>
    simp only [FR_to_XCN, FR_to_FNRN, Option.getD_some]
    rw [npArrayCodes_sameKind hk _ (hmem _ _)]

/-- Core of the FR → XCN → FR round trip, for any reading codes under which the written codes are
recognised. -/
theorem FR_XCN_FR_core [LinearOrder T] (f : List T) (rc : Option (List T)) (C F : Code)
    (cc fc : Option Code) (hk : SameKind F C)
    (hF : classify (fc.map Code.upper) (cc.map Code.upper) F.upper = some .failure)
    (hC : classify (fc.map Code.upper) (cc.map Code.upper) C.upper = some .censored) :
    XCN_to_FR (FR_to_XCN f rc C F).X (FR_to_XCN f rc C F).C
        (some ((FR_to_XCN f rc C F).N.map fun k : Nat => (k : ℚ))) cc fc =
      .ok ⟨f.insertionSort (· ≤ ·),
        if rcList rc = [] then none else some ((rcList rc).insertionSort (· ≤ ·))⟩ := by
  rw [FR_to_XCN_eq f rc C F hk]
  simp only
  rw [XCN_to_FR_grouped _ _ _ _ C F (npUnique_length_eq _) (npUnique_length_eq _) cc fc hF hC,
    expand_npUnique, expand_npUnique]
  have : (rcList rc).insertionSort (· ≤ ·) = [] ↔ rcList rc = [] := by
    rw [← length_eq_zero_iff, length_insertionSort, length_eq_zero_iff]
  simp only [this]

/-- **C02** FR → XCN → FR with the default codes: the round trip always succeeds; the failures and
the right-censored values come back as the same multisets (in ascending order), and `right_censored`
is `None` exactly when there were no censored items. -/
theorem C02_FR_XCN_FR_roundtrip [LinearOrder T] (f : List T) (rc : Option (List T)) :
    ∃ out : FR T,
      XCN_to_FR (FR_to_XCN f rc).X (FR_to_XCN f rc).C
        (some ((FR_to_XCN f rc).N.map fun k : Nat => (k : ℚ))) none none = .ok out ∧
      out.failures ~ f ∧ out.failures.Pairwise (· ≤ ·) ∧
      rcList out.right_censored ~ rcList rc ∧ (rcList out.right_censored).Pairwise (· ≤ ·) ∧
      (out.right_censored = none ↔ rcList rc = []) := by
  refine ⟨_, FR_XCN_FR_core f rc (.str "C") (.str "F") none none rfl (by decide) (by decide),
    perm_insertionSort _ f, insertionSort_sorted f, ?_, ?_, ?_⟩
  · by_cases h : rcList rc = []
    · simp [h]
    · simpa [h] using perm_insertionSort _ (rcList rc)
  · by_cases h : rcList rc = []
    · simp [h]
    · simpa [h] using insertionSort_sorted (rcList rc)
  · by_cases h : rcList rc = [] <;> simp [h]

/-- **C02 (custom codes)** With user-chosen codes the round trip also holds, provided the two codes
are of the same kind (both strings or both numbers) and differ case-insensitively, and the same two
codes are given when reading back. -/
theorem C02_custom_codes_partial [LinearOrder T] (f : List T) (rc : Option (List T)) (C F : Code)
    (hk : SameKind F C) (hne : F.upper ≠ C.upper) :
    ∃ out : FR T,
      XCN_to_FR (FR_to_XCN f rc C F).X (FR_to_XCN f rc C F).C
        (some ((FR_to_XCN f rc C F).N.map fun k : Nat => (k : ℚ))) (some C) (some F) = .ok out ∧
      out.failures ~ f ∧ rcList out.right_censored ~ rcList rc := by
  refine ⟨_, FR_XCN_FR_core f rc C F (some C) (some F) hk (by simp [classify])
    (by simp [classify, Ne.symm hne]), perm_insertionSort _ f, ?_⟩
  by_cases h : rcList rc = []
  · simp [h]
  · simpa [h] using perm_insertionSort _ (rcList rc)

/-- **C02, what is false**: with one numeric and one string code numpy stores the number as a
string, and reading back with the very same codes raises `ValueError`. -/
theorem C02_mixed_codes_counterexample :
    XCN_to_FR (FR_to_XCN [1, 2] (some [3]) (.str "C") (.num 7)).X
      (FR_to_XCN [1, 2] (some [3]) (.str "C") (.num 7)).C
      (some ((FR_to_XCN [1, 2] (some [3]) (.str "C") (.num 7)).N.map fun k : Nat => (k : ℚ)))
      (some (.str "C")) (some (.num 7)) = (valueErr : Except Err (FR Nat)) := by
  rfl

example : SameKind (.num 5) (.num 6) ∧ (Code.num 5).upper ≠ (Code.num 6).upper := by decide

example : (FR_to_XCN [3, 1, 3] (some [5])).C = [.str "F", .str "F", .str "C"] := by decide

/-! ## C03 -/

/-- The histogram property of one grouped list. -/
theorem npUnique_histogram [LinearOrder T] (l : List T) :
    (npUnique l).1.Pairwise (· < ·) ∧ (npUnique l).1.length = (npUnique l).2.length ∧
    (∀ p ∈ (npUnique l).1.zip (npUnique l).2, 1 ≤ p.2 ∧ p.2 = l.count p.1) ∧
    (∀ t, t ∈ (npUnique l).1 ↔ t ∈ l) ∧ (npUnique l).2.sum = l.length := by
  have hs := npUnique_sorted l
  refine ⟨hs, npUnique_length_eq l, ?_, ?_, ?_⟩
  · intro p hp
    rw [zip_npUnique] at hp
    refine ⟨runLength_pos _ p hp, ?_⟩
    have hnd : ((runLength (l.insertionSort (· ≤ ·))).map Prod.fst).Nodup := by
      rw [← npUnique_fst]; exact hs.imp (fun h => ne_of_lt h)
    rw [← totalAt_of_mem _ hnd p hp, ← count_expand, runLength_expand]
    exact (perm_insertionSort _ l).count_eq _
  · intro t
    rw [npUnique_fst]
    constructor
    · intro h
      obtain ⟨p, hp, rfl⟩ := mem_map.1 h
      exact (mem_insertionSort _).1 (runLength_keys_sub _ p hp)
    · intro h
      have h1 : t ∈ l.insertionSort (· ≤ ·) := (mem_insertionSort _).2 h
      rw [← runLength_expand (l.insertionSort (· ≤ ·))] at h1
      obtain ⟨p, hp, ht⟩ := mem_flatMap.1 h1
      rw [mem_replicate] at ht
      exact mem_map.2 ⟨p, hp, ht.2.symm⟩
  · rw [npUnique_snd, ← length_expand, runLength_expand]
    exact length_insertionSort _ l

/-- **C03** The grouped failures of `FR_to_FNRN` are an exact histogram of the failures: strictly
increasing times, every quantity ≥ 1 and equal to the number of occurrences of its time, the listed
times are exactly the times occurring, and the quantities add up to the number of failures.  The
same holds for the right-censored list when it is given (and it is `None` when not given). -/
theorem C03_FNRN_is_histogram [LinearOrder T] (f : List T) (rc : Option (List T)) :
    let g := FR_to_FNRN f rc
    (g.failures.Pairwise (· < ·) ∧ g.failures.length = g.num_failures.length ∧
      (∀ p ∈ g.failures.zip g.num_failures, 1 ≤ p.2 ∧ p.2 = f.count p.1) ∧
      (∀ t, t ∈ g.failures ↔ t ∈ f) ∧ g.num_failures.sum = f.length) ∧
    (rc = none → g.right_censored = none ∧ g.num_right_censored = none) ∧
    (∀ l, rc = some l → ∃ v w, g.right_censored = some v ∧ g.num_right_censored = some w ∧
      v.Pairwise (· < ·) ∧ v.length = w.length ∧
      (∀ p ∈ v.zip w, 1 ≤ p.2 ∧ p.2 = l.count p.1) ∧
      (∀ t, t ∈ v ↔ t ∈ l) ∧ w.sum = l.length) := by
  cases rc with
  | none => exact ⟨npUnique_histogram f, by simp [FR_to_FNRN], by simp⟩
  | some l =>
    refine ⟨npUnique_histogram f, by simp, ?_⟩
    intro l' hl'
    obtain rfl : l = l' := by simpa using hl'
    exact ⟨_, _, rfl, rfl, npUnique_histogram l⟩

example : ((FR_to_FNRN [4, 2, 4, 4] none).failures.zip (FR_to_FNRN [4, 2, 4, 4] none).num_failures)
    = [(2, 1), (4, 3)] := by decide

/-! ## C05 -/

/-- The (time, upper-cased code, quantity) rows of an XCN table. -/
abbrev rowsOf (X : List T) (C : List Code) (N : List ℚ) : List (T × Code × ℚ) :=
  X.zip ((C.map Code.upper).zip N)

/-- `pyInt` is truncation. -/
theorem pyInt_eq : pyInt = Spec.trunc := by
  funext q
  unfold pyInt Spec.trunc
  split_ifs with h
  · rw [Int.tdiv_eq_ediv_of_nonneg (by simpa using h), Rat.floor_def']
  · have e := Rat.floor_def' (q := -q)
    rw [Int.floor_neg, Rat.num_neg_eq_neg_num, Rat.den_neg_eq_den] at e
    have h' : 0 ≤ -q.num := by
      have := Rat.num_neg.2 (not_le.1 h)
      omega
    rw [← Int.tdiv_eq_ediv_of_nonneg h', Int.neg_tdiv] at e
    omega

/-- `XCN_to_FR`, with the code's truncation. -/
theorem XCN_to_FR_spec (X : List T) (C : List Code) (N : List ℚ) (cc fc : Option Code) :
    let userF := fc.map Code.upper
    let userC := cc.map Code.upper
    let rows := rowsOf X C N
    let valid := X.length = C.length ∧ X.length = N.length ∧
      uniqueCodeCount (C.map Code.upper) ≤ 2 ∧
      ∀ r ∈ rows, (Spec.MeansFailed userF userC r.2.1 ∨ Spec.MeansCensored userF userC r.2.1) ∧
        0 ≤ pyInt r.2.2
    let fl := (rows.filter fun r => Spec.MeansFailed userF userC r.2.1).flatMap
      fun r => replicate (pyInt r.2.2).toNat r.1
    let cl := (rows.filter fun r => Spec.MeansCensored userF userC r.2.1).flatMap
      fun r => replicate (pyInt r.2.2).toNat r.1
    (valid → XCN_to_FR X C (some N) cc fc = .ok ⟨fl, if cl = [] then none else some cl⟩) ∧
    (¬ valid → XCN_to_FR X C (some N) cc fc = valueErr) := by
  intro userF userC rows valid fl cl
  have hrows : (∀ r ∈ rows, rowOK userF userC r) ↔
      ∀ r ∈ rows, (Spec.MeansFailed userF userC r.2.1 ∨ Spec.MeansCensored userF userC r.2.1) ∧
        0 ≤ pyInt r.2.2 := by
    simp only [rowOK, classify_ne_none]
  have hfl : rows.flatMap (failPart userF userC) = fl := by
    simp only [fl]
    generalize rows = rs
    induction rs with
    | nil => rfl
    | cons r rs ih =>
      simp only [flatMap_cons, filter_cons, ih, failPart, classify_failure]
      by_cases h : Spec.MeansFailed userF userC r.2.1 <;> simp [h]
  have hcl : rows.flatMap (censPart userF userC) = cl := by
    simp only [cl]
    generalize rows = rs
    induction rs with
    | nil => rfl
    | cons r rs ih =>
      simp only [flatMap_cons, filter_cons, ih, censPart, classify_censored]
      by_cases h : Spec.MeansCensored userF userC r.2.1 <;> simp [h]
  have hloop := xcnLoop_eq userF userC rows [] []
  rw [hfl, hcl] at hloop
  constructor
  · rintro ⟨h1, h2, h3, h4⟩
    rw [if_pos (hrows.2 h4)] at hloop
    simp only [nil_append] at hloop
    simp only [XCN_to_FR, Option.getD_some, h1, ne_eq, not_true_eq_false, if_false]
    rw [if_neg (by omega), if_neg (by omega)]
    show (xcnLoop userF userC rows [] [] >>= _) = _
    rw [hloop]
    simp [bind, Except.bind, length_eq_zero_iff]
  · intro hnv
    unfold XCN_to_FR
    simp only [Option.getD_some]
    by_cases h1 : X.length = C.length
    · by_cases h2 : X.length = N.length
      · by_cases h3 : uniqueCodeCount (C.map Code.upper) > 2
        · simp [h1, h3]
        · have h4 : ¬ ∀ r ∈ rows, rowOK userF userC r := by
            intro h
            exact hnv ⟨h1, h2, by omega, hrows.1 h⟩
          rw [if_neg h4] at hloop
          rw [if_neg (by omega), if_neg (by omega), if_neg h3]
          show (xcnLoop userF userC rows [] [] >>= _) = _
          rw [hloop]
          simp [bind, Except.bind]
      · rw [if_neg (by omega)]; simp [h2]
    · simp [h1]

/-- **C05** Complete description of `XCN_to_FR`.  It succeeds exactly when the lengths agree, at
most two distinct codes occur, every code has a meaning (under the user's codes and the documented
names) and no quantity truncates to a negative number; then the failures are, in row order, each
failing row's time repeated by its quantity, likewise the right-censored list, which is `None` when
empty. In every other case it raises `ValueError`. -/
theorem C05_XCN_to_FR_spec (X : List T) (C : List Code) (N : List ℚ) (cc fc : Option Code) :
    let userF := fc.map Code.upper
    let userC := cc.map Code.upper
    let rows := rowsOf X C N
    let valid := X.length = C.length ∧ X.length = N.length ∧
      uniqueCodeCount (C.map Code.upper) ≤ 2 ∧
      ∀ r ∈ rows, (Spec.MeansFailed userF userC r.2.1 ∨ Spec.MeansCensored userF userC r.2.1) ∧
        0 ≤ Spec.trunc r.2.2
    let fl := (rows.filter fun r => Spec.MeansFailed userF userC r.2.1).flatMap
      fun r => replicate (Spec.trunc r.2.2).toNat r.1
    let cl := (rows.filter fun r => Spec.MeansCensored userF userC r.2.1).flatMap
      fun r => replicate (Spec.trunc r.2.2).toNat r.1
    (valid → XCN_to_FR X C (some N) cc fc = .ok ⟨fl, if cl = [] then none else some cl⟩) ∧
    (¬ valid → XCN_to_FR X C (some N) cc fc = valueErr) := by
  rw [← pyInt_eq]
  exact XCN_to_FR_spec X C N cc fc

/-- **C05 (exactly one side)** No code means both "failed" and "censored". -/
theorem C05_sides_disjoint (userF userC : Option Code) (c : Code) :
    ¬ (Spec.MeansFailed userF userC c ∧ Spec.MeansCensored userF userC c) := by
  rintro ⟨h1, h2⟩
  have a := (classify_failure userF userC c).2 h1
  have b := (classify_censored userF userC c).2 h2
  rw [a] at b; simp at b

/-- **C05 (default quantities)** Omitting `N` is the same as giving all ones. -/
theorem C05_default_N (X : List T) (C : List Code) (cc fc : Option Code) :
    XCN_to_FR X C none cc fc = XCN_to_FR X C (some (X.map fun _ => 1)) cc fc := rfl

example : XCN_to_FR [1, 2, 3] [.str "f", .str "Susp", .str "F"] (some [2, 1, 1]) none none
    = .ok (⟨[1, 1, 3], some [2]⟩ : FR Nat) := by rfl

example : XCN_to_FR [1] [.str "X"] none none none = (valueErr : Except Err (FR Nat)) := by rfl

/-- user codes take precedence over the documented ones -/
example : XCN_to_FR [1, 2] [.str "c", .str "f"] none (some (.str "f")) (some (.str "c"))
    = .ok (⟨[1], some [2]⟩ : FR Nat) := by rfl

/-! ## C06 -/

theorem uniqueCodeCount_perm {l l' : List Code} (h : l ~ l') :
    uniqueCodeCount l = uniqueCodeCount l' := by
  unfold uniqueCodeCount npArrayCodes
  have hany : l.any Code.isStr = l'.any Code.isStr := by
    rw [Bool.eq_iff_iff, any_eq_true, any_eq_true]
    constructor <;> rintro ⟨c, hc, hs⟩
    · exact ⟨c, h.mem_iff.1 hc, hs⟩
    · exact ⟨c, h.mem_iff.2 hc, hs⟩
  rw [hany]
  split
  · exact ((h.map _).dedup).length_eq
  · exact h.dedup.length_eq

theorem rowsOf_map (rows : List (T × Code × ℚ)) :
    rowsOf (rows.map (·.1)) (rows.map (·.2.1)) (rows.map (·.2.2)) =
      rows.map fun r => (r.1, r.2.1.upper, r.2.2) := by
  induction rows with
  | nil => rfl
  | cons r rs ih => simpa [rowsOf] using ih

/-- **C06** Reordering the rows of an XCN table does not change the result: `XCN_to_FR` either raises
for both orders or returns the same failures and censored values up to order, and
`XCN_to_FNRN` returns identical output. -/
theorem C06_row_order_irrelevant [LinearOrder T] (rows rows' : List (T × Code × ℚ))
    (h : rows ~ rows') (cc fc : Option Code) :
    (XCN_to_FR (rows.map (·.1)) (rows.map (·.2.1)) (some (rows.map (·.2.2))) cc fc = valueErr ∧
      XCN_to_FR (rows'.map (·.1)) (rows'.map (·.2.1)) (some (rows'.map (·.2.2))) cc fc = valueErr ∨
     ∃ a b : FR T,
      XCN_to_FR (rows.map (·.1)) (rows.map (·.2.1)) (some (rows.map (·.2.2))) cc fc = .ok a ∧
      XCN_to_FR (rows'.map (·.1)) (rows'.map (·.2.1)) (some (rows'.map (·.2.2))) cc fc = .ok b ∧
      a.failures ~ b.failures ∧ rcList a.right_censored ~ rcList b.right_censored ∧
      (a.right_censored = none ↔ b.right_censored = none)) ∧
    XCN_to_FNRN (rows.map (·.1)) (rows.map (·.2.1)) (some (rows.map (·.2.2))) cc fc =
      XCN_to_FNRN (rows'.map (·.1)) (rows'.map (·.2.1)) (some (rows'.map (·.2.2))) cc fc := by
  have hfirst : (XCN_to_FR (rows.map (·.1)) (rows.map (·.2.1)) (some (rows.map (·.2.2))) cc fc = valueErr ∧
      XCN_to_FR (rows'.map (·.1)) (rows'.map (·.2.1)) (some (rows'.map (·.2.2))) cc fc = valueErr ∨
     ∃ a b : FR T,
      XCN_to_FR (rows.map (·.1)) (rows.map (·.2.1)) (some (rows.map (·.2.2))) cc fc = .ok a ∧
      XCN_to_FR (rows'.map (·.1)) (rows'.map (·.2.1)) (some (rows'.map (·.2.2))) cc fc = .ok b ∧
      a.failures ~ b.failures ∧ rcList a.right_censored ~ rcList b.right_censored ∧
      (a.right_censored = none ↔ b.right_censored = none)) := by
    have s1 := XCN_to_FR_spec (rows.map (·.1)) (rows.map (·.2.1)) (rows.map (·.2.2)) cc fc
    have s2 := XCN_to_FR_spec (rows'.map (·.1)) (rows'.map (·.2.1)) (rows'.map (·.2.2)) cc fc
    simp only [rowsOf_map] at s1 s2
    have hp : (rows.map fun r => (r.1, r.2.1.upper, r.2.2)) ~
        (rows'.map fun r => (r.1, r.2.1.upper, r.2.2)) := h.map _
    have hu : uniqueCodeCount ((rows.map (·.2.1)).map Code.upper) =
        uniqueCodeCount ((rows'.map (·.2.1)).map Code.upper) :=
      uniqueCodeCount_perm ((h.map _).map _)
    simp only [length_map, hu, true_and] at s1 s2
    by_cases hv : uniqueCodeCount ((rows'.map (·.2.1)).map Code.upper) ≤ 2 ∧
        ∀ r ∈ (rows'.map fun r => (r.1, r.2.1.upper, r.2.2)),
          (Spec.MeansFailed (fc.map Code.upper) (cc.map Code.upper) r.2.1 ∨
            Spec.MeansCensored (fc.map Code.upper) (cc.map Code.upper) r.2.1) ∧ 0 ≤ pyInt r.2.2
    · right
      have hv' := hv
      refine ⟨_, _, s1.1 ⟨hv.1, fun r hr => hv.2 r (hp.mem_iff.1 hr)⟩, s2.1 hv, ?_, ?_, ?_⟩
      · exact (hp.filter _).flatMap_right _
      · have hc := (hp.filter fun r => decide (Spec.MeansCensored (fc.map Code.upper)
          (cc.map Code.upper) r.2.1)).flatMap_right fun r => replicate (pyInt r.2.2).toNat r.1
        rcases eq_or_ne (((rows'.map fun r => (r.1, r.2.1.upper, r.2.2)).filter fun r =>
          decide (Spec.MeansCensored (fc.map Code.upper) (cc.map Code.upper) r.2.1)).flatMap
            fun r => replicate (pyInt r.2.2).toNat r.1) [] with hnil | hnil
        · have := hc; rw [hnil, perm_nil] at this
          simp only [hnil, this]
          simp
        · have hn2 : (((rows.map fun r => (r.1, r.2.1.upper, r.2.2)).filter fun r =>
            decide (Spec.MeansCensored (fc.map Code.upper) (cc.map Code.upper) r.2.1)).flatMap
              fun r => replicate (pyInt r.2.2).toNat r.1) ≠ [] := by
            intro h0; rw [h0] at hc; exact hnil (nil_perm.1 hc)
          simp only [hnil, hn2, if_false, rcList, Option.getD_some]
          exact hc
      · have hc := (hp.filter fun r => decide (Spec.MeansCensored (fc.map Code.upper)
          (cc.map Code.upper) r.2.1)).flatMap_right fun r => replicate (pyInt r.2.2).toNat r.1
        simp only [ite_eq_left_iff, reduceCtorEq, imp_false, not_not]
        constructor
        · intro h0; rw [h0] at hc; exact nil_perm.1 hc
        · intro h0; rw [h0] at hc; exact perm_nil.1 hc
    · left
      refine ⟨s1.2 ?_, s2.2 hv⟩
      rintro ⟨a, b⟩
      exact hv ⟨a, fun r hr => b r (hp.mem_iff.2 hr)⟩
  refine ⟨hfirst, ?_⟩
  rcases hfirst with ⟨h1, h2⟩ | ⟨a, b, h1, h2, hf, hr, hn⟩
  · simp [XCN_to_FNRN, h1, h2, bind, Except.bind]
  · simp only [XCN_to_FNRN, h1, h2, bind, Except.bind]
    congr 1
    obtain ⟨af, ar⟩ := a
    obtain ⟨bf, br⟩ := b
    simp only at hf hr hn
    cases ar with
    | none =>
      obtain rfl : br = none := hn.1 rfl
      simp [FR_to_FNRN, npUnique_congr hf]
    | some x =>
      cases br with
      | none => simp at hn
      | some y =>
        have hxy : x ~ y := by simpa using hr
        simp [FR_to_FNRN, npUnique_congr hf, npUnique_congr hxy]

example : XCN_to_FNRN [2, 1, 2] [.str "F", .str "C", .str "F"] none none none =
    .ok (⟨[2], [2], some [1], some [1]⟩ : FNRN Nat) := by rfl

/-! ## C04 -/

/-- **C04** FNRN → XCN → FNRN: for every grouped data set (lengths matching, natural quantities) the
round trip succeeds and preserves, for every time, the total quantity failed and the total quantity
censored; a data set that is already normalised (strictly increasing times, positive quantities,
censored part absent or non-empty) is returned unchanged. -/
theorem C04_FNRN_XCN_FNRN_roundtrip [LinearOrder T] (f : List (T × Nat)) (rc : Option (List (T × Nat))) :
    ∃ (x : XCN T) (g : FNRN T),
      FNRN_to_XCN (f.map Prod.fst) (f.map fun p => (p.2 : ℚ)) (rc.map (List.map Prod.fst))
        (rc.map (List.map fun p => (p.2 : ℚ))) = .ok x ∧
      XCN_to_FNRN x.X x.C (some (x.N.map fun k : Nat => (k : ℚ))) none none = .ok g ∧
      (∀ t, Spec.totalAt (g.failures.zip g.num_failures) t = Spec.totalAt f t) ∧
      (∀ t, Spec.totalAt ((rcList g.right_censored).zip (rcList g.num_right_censored)) t =
        Spec.totalAt (rcList rc) t) ∧
      ((f.map Prod.fst).Pairwise (· < ·) → (∀ p ∈ f, 1 ≤ p.2) →
        ((rcList rc).map Prod.fst).Pairwise (· < ·) → (∀ p ∈ rcList rc, 1 ≤ p.2) → rc ≠ some [] →
        g = ⟨f.map Prod.fst, f.map Prod.snd, rc.map (List.map Prod.fst),
              rc.map (List.map Prod.snd)⟩) := by
  have hz : ∀ l : List (T × Nat), (l.map Prod.fst).zip (l.map fun p => (p.2 : ℚ)) =
      l.map fun p => (p.1, (p.2 : ℚ)) := by
    intro l
    induction l with
    | nil => rfl
    | cons a b ih => simpa using ih
  have hFR : FNRN_to_FR (f.map Prod.fst) (f.map fun p => (p.2 : ℚ)) (rc.map (List.map Prod.fst))
        (rc.map (List.map fun p => (p.2 : ℚ))) =
        .ok ⟨Spec.expand f, rc.map Spec.expand⟩ := by
    unfold FNRN_to_FR
    rw [hz, expandLoop_nat]
    cases rc with
    | none => simp [bind, Except.bind]
    | some l =>
      simp only [Option.map_some, hz, expandLoop_nat]
      simp [bind, Except.bind]
  have hrcL : rcList (rc.map Spec.expand) = Spec.expand (rcList rc) := by
    cases rc <;> simp [Spec.expand]
  refine ⟨FR_to_XCN (Spec.expand f) (rc.map Spec.expand),
    FR_to_FNRN ((Spec.expand f).insertionSort (· ≤ ·))
      (if rcList (rc.map Spec.expand) = [] then none
        else some ((rcList (rc.map Spec.expand)).insertionSort (· ≤ ·))),
    by unfold FNRN_to_XCN; rw [hFR]; rfl, ?_⟩
  · have hcore := FR_XCN_FR_core (Spec.expand f) (rc.map Spec.expand) (.str "C") (.str "F") none none
      rfl (by decide) (by decide)
    have hsortsort : ∀ l : List T, npUnique (l.insertionSort (· ≤ ·)) = npUnique l :=
      fun l => npUnique_congr (perm_insertionSort _ l)
    refine ⟨?_, ?_, ?_, ?_⟩
    · unfold XCN_to_FNRN
      rw [hcore]; rfl
    · intro t
      have : (FR_to_FNRN ((Spec.expand f).insertionSort (· ≤ ·))
        (if rcList (rc.map Spec.expand) = [] then none
          else some ((rcList (rc.map Spec.expand)).insertionSort (· ≤ ·)))).failures.zip
        (FR_to_FNRN ((Spec.expand f).insertionSort (· ≤ ·))
        (if rcList (rc.map Spec.expand) = [] then none
          else some ((rcList (rc.map Spec.expand)).insertionSort (· ≤ ·)))).num_failures =
          (npUnique (Spec.expand f)).1.zip (npUnique (Spec.expand f)).2 := by
        by_cases h0 : rcList (rc.map Spec.expand) = [] <;> simp [FR_to_FNRN, h0, hsortsort]
      rw [this, ← count_expand, expand_npUnique, (perm_insertionSort _ _).count_eq, count_expand]
    · intro t
      by_cases h0 : rcList (rc.map Spec.expand) = []
      · simp only [h0, if_true, FR_to_FNRN, Option.getD_none, zip_nil_left]
        rw [← count_expand (rcList rc), ← hrcL, h0]; rfl
      · simp only [h0, if_false, FR_to_FNRN, Option.getD_some, hsortsort]
        rw [← count_expand, expand_npUnique, (perm_insertionSort _ _).count_eq, hrcL, count_expand]
    · intro h1 h2 h3 h4 h5
      have e1 := npUnique_expand f h1 h2
      cases rc with
      | none => simp [FR_to_FNRN, hsortsort, e1]
      | some l =>
        have e2 := npUnique_expand l h3 h4
        have hne : Spec.expand l ≠ [] := by
          intro h
          apply h5
          have := congrArg length h
          rw [length_expand] at this
          cases l with
          | nil => rfl
          | cons p q =>
            have hp := h4 p (by simp)
            simp at this; omega
        simp [FR_to_FNRN, hsortsort, e1, e2, hne]

example : (do
    let x ← FNRN_to_XCN [3, 1, 3] [1, 2, 1] (some [4]) (some [2])
    XCN_to_FNRN x.X x.C (some (x.N.map fun k : Nat => (k : ℚ))) none none)
    = .ok (⟨[1, 3], [2, 2], some [4], some [2]⟩ : FNRN Nat) := by rfl

/-! ## C07 -/

theorem translateCodes_eq (fIn cIn : Option Code) (fOut cOut : Code) (cs : List Code)
    (h : ∀ c ∈ cs, classify fIn cIn c ≠ none) :
    translateCodes fIn cIn fOut cOut cs =
      .ok (cs.map fun c => if classify fIn cIn c = some .failure then fOut else cOut) := by
  induction cs with
  | nil => rfl
  | cons c cs ih =>
    have hc := h c (by simp)
    have ih' := ih (fun d hd => h d (mem_cons_of_mem _ hd))
    unfold translateCodes
    cases hcl : classify fIn cIn c with
    | none => exact absurd hcl hc
    | some s => cases s <;> simp [ih', hcl, bind, Except.bind]

theorem removeNaNs_map_some {α : Type _} (l : List α) : removeNaNs (l.map some) = l := by
  simp [removeNaNs, filterMap_map]

/-- **C07 (partial)** If the requested output codes are themselves default codes with the right
meaning (a documented failure code for failures, a documented censor code for censored, both of the
same kind) — in particular for the default "F"/"C" — then `xlsx_to_XCN` reports exactly the grouped
form of the spreadsheet's own failures and censored values as classified by the user's *input* codes.
Missing: arbitrary output codes, for which the claim is false (`C07_custom_codes_swap`). -/
theorem C07_xlsx_to_XCN_partial [LinearOrder T] (X : List T) (C : List Code) (N : List ℚ)
    (cIn fIn : Option Code) (cOut fOut : Code) (fr : FR T)
    (hk : SameKind fOut cOut)
    (hF : Spec.MeansFailed none none fOut.upper) (hC : Spec.MeansCensored none none cOut.upper)
    (hfr : XCN_to_FR X C (some N) cIn fIn = .ok fr) :
    xlsx_to_XCN (X.map some) (C.map some) (some (N.map some)) cIn fIn cOut fOut =
      .ok (FR_to_XCN fr.failures fr.right_censored cOut fOut) := by
  have hF' := (classify_failure none none fOut.upper).2 hF
  have hC' := (classify_censored none none cOut.upper).2 hC
  have hspec := XCN_to_FR_spec X C N cIn fIn
  simp only at hspec
  by_cases hv : X.length = C.length ∧ X.length = N.length ∧
      uniqueCodeCount (C.map Code.upper) ≤ 2 ∧
      ∀ r ∈ rowsOf X C N, (Spec.MeansFailed (fIn.map Code.upper) (cIn.map Code.upper) r.2.1 ∨
        Spec.MeansCensored (fIn.map Code.upper) (cIn.map Code.upper) r.2.1) ∧ 0 ≤ pyInt r.2.2
  swap
  · rw [hspec.2 hv] at hfr; cases hfr
  obtain ⟨h1, h2, h3, h4⟩ := hv
  set userF := fIn.map Code.upper with huF
  set userC := cIn.map Code.upper with huC
  -- every code of the sheet is recognised
  have hrec : ∀ c ∈ C.map Code.upper, classify userF userC c ≠ none := by
    intro c hc
    obtain ⟨i, hi, rfl⟩ := getElem_of_mem hc
    have hi1 : i < X.length := by simpa [h1] using hi
    have hi2 : i < N.length := by omega
    have hmem : (X[i], (C.map Code.upper)[i], N[i]) ∈ rowsOf X C N := by
      refine mem_iff_getElem.2 ⟨i, ?_, ?_⟩
      · simp [rowsOf]; omega
      · simp [rowsOf]
    exact (classify_ne_none _ _ _).2 (h4 _ hmem).1
  set g : Code → Code := fun c => if classify userF userC c = some .failure then fOut else cOut with hg
  have harr : npArrayCodes ((C.map Code.upper).map g) = (C.map Code.upper).map g := by
    apply npArrayCodes_sameKind hk
    intro c hc
    obtain ⟨d, _, rfl⟩ := mem_map.1 hc
    simp only [hg]; split <;> simp
  -- rewriting the rows by their output codes does not change the loop's outcome
  have hcls : ∀ c ∈ C.map Code.upper, classify none none ((g c).upper) = classify userF userC c := by
    intro c hc
    have hne := hrec c hc
    simp only [hg]
    cases hcl : classify userF userC c with
    | none => exact absurd hcl hne
    | some s => cases s <;> simp [hF', hC']
  have hrows : ∀ (X : List T) (D : List Code) (N : List ℚ),
      (∀ c ∈ D, classify none none ((g c).upper) = classify userF userC c) →
      ∀ fs cs, xcnLoop none none (X.zip (((D.map g).map Code.upper).zip N)) fs cs =
        xcnLoop userF userC (X.zip (D.zip N)) fs cs := by
    intro X D N
    induction X generalizing D N with
    | nil => intros; simp [xcnLoop]
    | cons x xs ih =>
      cases D with
      | nil => intros; simp [xcnLoop]
      | cons d ds =>
        cases N with
        | nil => intros; simp [xcnLoop]
        | cons n ns =>
          intro hD fs cs
          have hd := hD d (by simp)
          simp only [map_cons, zip_cons_cons, xcnLoop, hd]
          cases classify userF userC d with
          | none => rfl
          | some s =>
            cases s <;> simp only [bind, Except.bind] <;> cases onesTimes n x <;> simp only <;>
              exact ih ds ns (fun c hc => hD c (mem_cons_of_mem _ hc)) _ _
  have huc : uniqueCodeCount (((C.map Code.upper).map g).map Code.upper) ≤ 2 := by
    refine uniqueCodeCount_le_two (a := fOut.upper) (b := cOut.upper) _ ?_
    intro c hc
    obtain ⟨d, hd, rfl⟩ := mem_map.1 hc
    obtain ⟨e, _, rfl⟩ := mem_map.1 hd
    simp only [hg]; split <;> simp
  have hinner : XCN_to_FR X ((C.map Code.upper).map g) (some N) none none = .ok fr := by
    rw [← hfr]
    unfold XCN_to_FR
    simp only [Option.getD_some, Option.map_none, hrows X (C.map Code.upper) N hcls]
    rw [if_neg (by simp [h1]), if_neg (by omega), if_neg (by omega),
      if_neg (by omega), if_neg (by omega), if_neg (by omega)]
  unfold xlsx_to_XCN
  simp only [removeNaNs_map_some]
  rw [if_neg (by omega), ← huF, ← huC, translateCodes_eq _ _ _ _ _ hrec]
  simp only [bind, Except.bind, ← hg, harr, hinner]
  rw [if_neg]
  simp [← h1, ← h2]

/-- **C07, what is false.** Asking `xlsx_to_XCN` for output codes 1 = failed, 0 = censored silently
swaps the two: the sheet's failure at time 10 is reported as censored and its censored item at time
20 as a failure (the code calls `XCN_to_FR` on the *output* codes without passing their meaning). -/
theorem C07_custom_codes_swap :
    xlsx_to_XCN [some 10, some 20] [some (.str "F"), some (.str "C")] none none none
      (censor_code_in_XCN := .num 0) (failure_code_in_XCN := .num 1) =
    .ok (⟨[20, 10], [.num 1, .num 0], [1, 1]⟩ : XCN Nat) := by rfl

/-- **C07, what is false.** Output codes outside the default tables always raise, although they are
documented as accepted. -/
theorem C07_custom_codes_raise :
    xlsx_to_XCN [some 10, some 20] [some (.str "F"), some (.str "C")] none none none
      (censor_code_in_XCN := .str "ALIVE") (failure_code_in_XCN := .str "DEAD") =
    (valueErr : Except Err (XCN Nat)) := by rfl

example : xlsx_to_XCN [some 10, none, some 20] [some (.str "dead"), some (.str "alive")] none
      (some (.str "alive")) (some (.str "dead")) =
    .ok (⟨[10, 20], [.str "F", .str "C"], [1, 1]⟩ : XCN Nat) := by rfl

end Reliability.Convert

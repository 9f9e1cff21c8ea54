import Verif.Model.Frames
import Verif.Props.Xlsx

/-!
# C133 — what a converter writes to an xlsx file, the xlsx readers read back
-/

namespace Reliability.Convert

open List

variable {T : Type _}

theorem removeNaNs_extendTo {α : Type _} (l : List α) (n m : ℕ) : removeNaNs (extendTo l n m) = l := by
  unfold removeNaNs extendTo
  rw [filterMap_append]
  have h1 : (l.map some).filterMap id = l := by simp [filterMap_map]
  have h2 : (if m ≠ n then replicate (m - n) (none : Option α) else []).filterMap id = [] := by
    split <;> simp
  rw [h1, h2, append_nil]

theorem length_extendTo {α : Type _} (l : List α) (n m : ℕ) (hn : l.length = n) (hm : n ≤ m) : (extendTo l n m).length = m := by
  unfold extendTo
  split <;> simp <;> omega

/-- **C133** FR format: for every data (empty lists included) the dataframe can be built, its columns have the same length (that of the
longer list), and an xlsx file with these cells is read back by `xlsx_to_FR` as the same failures and the same right censored times in
the same order; without right censored data the file has one column and reads back as `None`. -/
theorem C133_FR (d : FR T) :
    ∃ F, frameFR d = .ok F ∧ xlsx_to_FR F.failures F.right_censored = d ∧
      (d.right_censored = none ↔ F.right_censored = none) ∧
      ∀ rc rc', d.right_censored = some rc → F.right_censored = some rc' →
        F.failures.length = max d.failures.length rc.length ∧ rc'.length = max d.failures.length rc.length := by
  obtain ⟨f, rc⟩ := d
  cases rc with
  | none =>
    refine ⟨⟨f.map some, none⟩, rfl, ?_, by simp, by simp⟩
    simp [xlsx_to_FR, removeNaNs_map_some]
  | some rc =>
    have h1 := length_extendTo f f.length (max f.length rc.length) rfl (le_max_left _ _)
    have h2 := length_extendTo rc rc.length (max f.length rc.length) rfl (le_max_right _ _)
    refine ⟨⟨extendTo f f.length (max f.length rc.length), some (extendTo rc rc.length (max f.length rc.length))⟩, ?_, ?_, by simp, ?_⟩
    · simp only [frameFR]
      rw [if_neg (by rw [h1, h2]; simp)]
    · simp [xlsx_to_FR, removeNaNs_extendTo]
    · rintro _ _ ⟨⟩ ⟨⟩
      exact ⟨h1, h2⟩

/-- **C133** FNRN format: every FNRN data of the library (each converter ends with `FR_to_FNRN`) can be made into a dataframe, and an xlsx
file with these cells is read back by `xlsx_to_FNRN` as exactly the same four arrays. -/
theorem C133_FNRN [LinearOrder T] (f : List T) (rc : Option (List T)) :
    ∃ F, frameFNRN (FR_to_FNRN f rc) = .ok F ∧ xlsx_to_FNRN F.failures F.num_failures F.censored = .ok (FR_to_FNRN f rc) := by
  cases rc with
  | none =>
    refine ⟨⟨(npUnique f).1.map some, (npUnique f).2.map fun k : ℕ => some (k : ℚ), none⟩, ?_, ?_⟩
    · simp [frameFNRN, FR_to_FNRN, npUnique_length_eq]
    · have e : ((npUnique f).2.map fun k : ℕ => some (k : ℚ)) = ((npUnique f).2.map fun k : ℕ => (k : ℚ)).map some := by simp
      simp only [xlsx_to_FNRN, e, removeNaNs_map_some]
      rw [if_neg (by simp [npUnique_length_eq])]
      have h : FNRN_to_FR (npUnique f).1 ((npUnique f).2.map fun k : ℕ => (k : ℚ)) none none = .ok ⟨f.insertionSort (· ≤ ·), none⟩ := by
        simp only [FNRN_to_FR, zip_map_cast, expandLoop_nat, expand_npUnique]
        simp [npUnique_length_eq, bind, Except.bind]
      simp only [h, bind, Except.bind, FR_to_FNRN]
      rw [npUnique_congr (perm_insertionSort _ f)]
  | some l =>
    set m := max (npUnique f).1.length (npUnique l).1.length with hm
    have l1 := length_extendTo (npUnique f).1 (npUnique f).1.length m rfl (le_max_left _ _)
    have l2 := length_extendTo ((npUnique f).2.map fun k : ℕ => (k : ℚ)) (npUnique f).1.length m (by simp [npUnique_length_eq]) (le_max_left _ _)
    have l3 := length_extendTo (npUnique l).1 (npUnique l).1.length m rfl (le_max_right _ _)
    have l4 := length_extendTo ((npUnique l).2.map fun k : ℕ => (k : ℚ)) (npUnique l).1.length m (by simp [npUnique_length_eq]) (le_max_right _ _)
    refine ⟨⟨extendTo (npUnique f).1 (npUnique f).1.length m, extendTo ((npUnique f).2.map fun k : ℕ => (k : ℚ)) (npUnique f).1.length m,
      some (extendTo (npUnique l).1 (npUnique l).1.length m, extendTo ((npUnique l).2.map fun k : ℕ => (k : ℚ)) (npUnique l).1.length m)⟩, ?_, ?_⟩
    · refine (if_neg ?_).trans rfl
      show ¬ (_ ≠ _ ∨ _ ≠ _ ∨ _ ≠ _)
      rintro (h | h | h)
      · exact h (l1.trans l2.symm)
      · exact h (l1.trans l3.symm)
      · exact h (l1.trans l4.symm)
    · simp only [xlsx_to_FNRN, removeNaNs_extendTo]
      rw [if_neg (by simp [npUnique_length_eq])]
      rw [if_neg (by simp [npUnique_length_eq])]
      have h : FNRN_to_FR (npUnique f).1 ((npUnique f).2.map fun k : ℕ => (k : ℚ)) (some (npUnique l).1)
          (some ((npUnique l).2.map fun k : ℕ => (k : ℚ))) = .ok ⟨f.insertionSort (· ≤ ·), some (l.insertionSort (· ≤ ·))⟩ := by
        simp only [FNRN_to_FR, zip_map_cast, expandLoop_nat, expand_npUnique]
        simp [npUnique_length_eq, bind, Except.bind]
      simp only [h, bind, Except.bind, FR_to_FNRN]
      rw [npUnique_congr (perm_insertionSort _ f), npUnique_congr (perm_insertionSort _ l)]

theorem codes_mem [LinearOrder T] (f : List T) (rc : Option (List T)) (C F : Code) (hk : SameKind F C) :
    (FR_to_XCN f rc C F).C = (npUnique f).1.map (fun _ => F) ++ (npUnique (rcList rc)).1.map (fun _ => C) := by
  rw [FR_to_XCN_eq f rc C F hk]

theorem FR_to_XCN_sorted [LinearOrder T] (f : List T) (rc : Option (List T)) (C F : Code) (hk : SameKind F C) :
    FR_to_XCN (f.insertionSort (· ≤ ·)) (if rcList rc = [] then none else some ((rcList rc).insertionSort (· ≤ ·))) C F =
      FR_to_XCN f rc C F := by
  rw [FR_to_XCN_eq _ _ C F hk, FR_to_XCN_eq f rc C F hk, npUnique_congr (perm_insertionSort _ f)]
  have : rcList (if rcList rc = [] then none else some ((rcList rc).insertionSort (· ≤ ·))) ~ rcList rc := by
    by_cases h : rcList rc = []
    · simp [h]
    · simpa [h] using perm_insertionSort _ (rcList rc)
  rw [npUnique_congr this]

/-- **C133** XCN format: every XCN data of the library (each converter ends with `FR_to_XCN`), written with any codes `C` and `F` that are both
strings or both numbers, that differ after upper-casing and that pandas reads back as they are, is read by `xlsx_to_XCN`, told these codes,
as the same event times and numbers, with the output codes asked for — provided those are of one kind and have their documented
meaning (as the defaults "C" and "F" do). -/
theorem C133_XCN [LinearOrder T] (readCode : Code → Option Code) (f : List T) (rc : Option (List T)) (C F cOut fOut : Code)
    (hk : SameKind F C) (hne : F.upper ≠ C.upper) (hC : readCode C = some C) (hF : readCode F = some F)
    (hk' : SameKind fOut cOut) (hfOut : Spec.MeansFailed none none fOut.upper) (hcOut : Spec.MeansCensored none none cOut.upper) :
    ∃ G, frameXCN (FR_to_XCN f rc C F) = .ok G ∧ readXCN readCode G (some C) (some F) cOut fOut = .ok (FR_to_XCN f rc cOut fOut) := by
  have hlen : (FR_to_XCN f rc C F).X.length = (FR_to_XCN f rc C F).C.length ∧ (FR_to_XCN f rc C F).X.length = (FR_to_XCN f rc C F).N.length := by
    rw [FR_to_XCN_eq f rc C F hk]
    simp [npUnique_length_eq]
  refine ⟨⟨(FR_to_XCN f rc C F).X, (FR_to_XCN f rc C F).C, (FR_to_XCN f rc C F).N⟩, ?_, ?_⟩
  · unfold frameXCN
    rw [if_neg (by simp [hlen.1.symm, hlen.2.symm])]
  · unfold readXCN
    have hcodes : (FR_to_XCN f rc C F).C.map readCode = (FR_to_XCN f rc C F).C.map some := by
      apply map_congr_left
      intro c hc
      rw [codes_mem f rc C F hk] at hc
      rcases mem_append.1 hc with h | h <;> obtain ⟨_, -, rfl⟩ := mem_map.1 h
      · exact hF
      · exact hC
    have e : ((FR_to_XCN f rc C F).N.map fun k : ℕ => some (k : ℚ)) = ((FR_to_XCN f rc C F).N.map fun k : ℕ => (k : ℚ)).map some := by simp
    simp only [hcodes, e]
    rw [C07_xlsx_to_XCN_partial _ _ _ _ _ _ _ _ hk' hfOut hcOut
      (FR_XCN_FR_core f rc C F (some C) (some F) hk (by simp [classify]) (by simp [classify, Ne.symm hne]))]
    simp only [FR_to_XCN_sorted f rc cOut fOut hk']

/-- **C133** With the default codes everywhere nothing has to be said: a file written by `FR_to_XCN` (or `FNRN_to_XCN`, or `xlsx_to_XCN`) with default
codes is read back by `xlsx_to_XCN` with default arguments as the same data. -/
theorem C133_XCN_default [LinearOrder T] (readCode : Code → Option Code) (f : List T) (rc : Option (List T))
    (hC : readCode (.str "C") = some (.str "C")) (hF : readCode (.str "F") = some (.str "F")) :
    ∃ G, frameXCN (FR_to_XCN f rc) = .ok G ∧ readXCN readCode G none none (.str "C") (.str "F") = .ok (FR_to_XCN f rc) := by
  have hk : SameKind (.str "F") (.str "C") := rfl
  obtain ⟨G, hG, -⟩ := C133_XCN readCode f rc (.str "C") (.str "F") (.str "C") (.str "F") hk (by decide) hC hF hk (by decide) (by decide)
  refine ⟨G, hG, ?_⟩
  have hG' : G = ⟨(FR_to_XCN f rc).X, (FR_to_XCN f rc).C, (FR_to_XCN f rc).N⟩ := by
    unfold frameXCN at hG
    split at hG
    · cases hG
    · cases hG; rfl
  subst hG'
  unfold readXCN
  have hcodes : (FR_to_XCN f rc).C.map readCode = (FR_to_XCN f rc).C.map some := by
    apply map_congr_left
    intro c hc
    rw [codes_mem f rc _ _ hk] at hc
    rcases mem_append.1 hc with h | h <;> obtain ⟨_, -, rfl⟩ := mem_map.1 h
    · exact hF
    · exact hC
  have e : ((FR_to_XCN f rc).N.map fun k : ℕ => some (k : ℚ)) = ((FR_to_XCN f rc).N.map fun k : ℕ => (k : ℚ)).map some := by simp
  simp only [hcodes, e]
  rw [C07_xlsx_to_XCN_partial _ _ _ _ _ _ _ _ hk (by decide) (by decide)
    (FR_XCN_FR_core f rc (.str "C") (.str "F") none none hk (by decide) (by decide))]
  simp only [FR_to_XCN_sorted f rc _ _ hk]

/-- **C133 (finding)** A failure code that pandas takes for a missing value (such as "NA") is written without complaint, but whatever the
data (with at least one failure) and whatever the codes given to it, `xlsx_to_XCN` cannot read the file: `ValueError`. -/
theorem C133_NA_finding [LinearOrder T] (readCode : Code → Option Code) (f : List T) (rc : Option (List T)) (C F cOut fOut : Code)
    (cIn fIn : Option Code) (hf : f ≠ []) (hk : SameKind F C) (hF : readCode F = none) :
    ∃ G, frameXCN (FR_to_XCN f rc C F) = .ok G ∧ readXCN readCode G cIn fIn cOut fOut = .error .valueError := by
  have hlen : (FR_to_XCN f rc C F).X.length = (FR_to_XCN f rc C F).C.length ∧ (FR_to_XCN f rc C F).X.length = (FR_to_XCN f rc C F).N.length := by
    rw [FR_to_XCN_eq f rc C F hk]
    simp [npUnique_length_eq]
  refine ⟨⟨(FR_to_XCN f rc C F).X, (FR_to_XCN f rc C F).C, (FR_to_XCN f rc C F).N⟩, ?_, ?_⟩
  · unfold frameXCN
    rw [if_neg (by simp [hlen.1.symm, hlen.2.symm])]
  · have short : (removeNaNs ((FR_to_XCN f rc C F).C.map readCode)).length < (FR_to_XCN f rc C F).X.length := by
      rw [hlen.1, codes_mem f rc C F hk]
      unfold removeNaNs
      rw [map_append, filterMap_append]
      have h1 : (((npUnique f).1.map fun _ => F).map readCode).filterMap id = [] := by
        simp [hF]
      rw [h1, nil_append, length_append]
      have h2 := length_filterMap_le id (((npUnique (rcList rc)).1.map fun _ => C).map readCode)
      have h3 : 0 < ((npUnique f).1.map fun _ => F).length := by
        rw [length_map]
        exact length_pos_iff.2 fun h => hf ((npUnique_nil_iff f).1 h)
      rw [length_map, length_map] at h2
      rw [length_map] at h3 ⊢
      rw [length_map]
      omega
    unfold readXCN xlsx_to_XCN
    simp only [removeNaNs_map_some]
    split
    · rfl
    · cases ht : translateCodes (fIn.map Code.upper) (cIn.map Code.upper) fOut cOut
          ((removeNaNs ((FR_to_XCN f rc C F).C.map readCode)).map Code.upper) with
      | error e =>
        have : e = .valueError := by
          clear short hlen
          generalize (removeNaNs ((FR_to_XCN f rc C F).C.map readCode)).map Code.upper = l at ht
          induction l with
          | nil => cases ht
          | cons c cs ih =>
            unfold translateCodes at ht
            split at ht
            · cases h' : translateCodes (fIn.map Code.upper) (cIn.map Code.upper) fOut cOut cs with
              | error e' => rw [h'] at ht; cases ht; exact ih h'
              | ok v => rw [h'] at ht; cases ht
            · cases h' : translateCodes (fIn.map Code.upper) (cIn.map Code.upper) fOut cOut cs with
              | error e' => rw [h'] at ht; cases ht; exact ih h'
              | ok v => rw [h'] at ht; cases ht
            · cases ht; rfl
        subst this
        rfl
      | ok v =>
        have hv : v.length = (removeNaNs ((FR_to_XCN f rc C F).C.map readCode)).length := by
          have gen : ∀ (l : List Code) v, translateCodes (fIn.map Code.upper) (cIn.map Code.upper) fOut cOut l = .ok v → v.length = l.length := by
            intro l
            induction l with
            | nil => intro v h; cases h; rfl
            | cons c cs ih =>
              intro v h
              unfold translateCodes at h
              split at h
              · cases h' : translateCodes (fIn.map Code.upper) (cIn.map Code.upper) fOut cOut cs with
                | error e' => rw [h'] at h; cases h
                | ok w => rw [h'] at h; cases h; simp [ih w h']
              · cases h' : translateCodes (fIn.map Code.upper) (cIn.map Code.upper) fOut cOut cs with
                | error e' => rw [h'] at h; cases h
                | ok w => rw [h'] at h; cases h; simp [ih w h']
              · cases h
          have := gen _ _ ht
          rwa [length_map] at this
        have hlv : (npArrayCodes v).length = v.length := by unfold npArrayCodes; split <;> simp
        simp only [bind, Except.bind]
        rw [if_pos]
        left; rw [hlv, hv]; omega

/-! ### concrete cases -/

example : frameFR (⟨[3, 1, 2], some [5]⟩ : FR ℕ) = .ok ⟨[some 3, some 1, some 2], some [some 5, none, none]⟩ := by rfl

example : (FR_to_XCN [3, 1, 3] (some [5]) (.num 1) (.num 0)).C = [.num 0, .num 0, .num 1] ∧ SameKind (.num 0) (.num 1) ∧
    (Code.num 0).upper ≠ (Code.num 1).upper ∧ Spec.MeansFailed none none (Code.str "F").upper ∧
    Spec.MeansCensored none none (Code.str "C").upper := by decide

end Reliability.Convert

import Verif.Props.Convert

/-!
# C79: grouped data and spreadsheets

`FNRN_to_FR`, `FNRN_to_XCN`, `XCN_to_FNRN`, `xlsx_to_FR`, `xlsx_to_FNRN` and blank cells.
-/

namespace Reliability.Convert

open List

variable {T : Type _}

/-- The cells of a column that are not blank, in sheet order. -/
def filled {α : Type _} (col : List (Option α)) : List α := col.filterMap id

theorem expandLoop_ok (rows : List (T × ℚ)) (acc : List T) (h : ∀ r ∈ rows, 0 ≤ pyInt r.2) :
    expandLoop rows acc = .ok (acc ++ rows.flatMap fun r => replicate (pyInt r.2).toNat r.1) := by
  induction rows generalizing acc with
  | nil => simp [expandLoop]
  | cons r rows ih =>
    have h0 := h r (by simp)
    simp only [expandLoop, onesTimes, if_neg (not_lt.2 h0), bind, Except.bind]
    rw [ih _ fun r hr => h r (mem_cons_of_mem _ hr)]
    simp [append_assoc]

theorem expandLoop_err (rows : List (T × ℚ)) (acc : List T) (h : ¬ ∀ r ∈ rows, 0 ≤ pyInt r.2) :
    expandLoop rows acc = valueErr := by
  induction rows generalizing acc with
  | nil => simp at h
  | cons r rows ih =>
    by_cases h0 : 0 ≤ pyInt r.2
    · have : ¬ ∀ r ∈ rows, 0 ≤ pyInt r.2 := by
        intro hh; apply h; simpa [h0] using hh
      simp only [expandLoop, onesTimes, if_neg (not_lt.2 h0), bind, Except.bind]
      exact ih _ this
    · simp [expandLoop, onesTimes, not_le.1 h0, bind, Except.bind, valueErr]

/-- With the code's truncation. -/
theorem FNRN_to_FR_spec (f : List T) (nf : List ℚ) (rc : Option (List T)) (nrc : Option (List ℚ)) :
    let good := f.length = nf.length ∧ (∀ n ∈ nf, 0 ≤ pyInt n) ∧
      ∀ l, rc = some l → ∃ m, nrc = some m ∧ l.length = m.length ∧ ∀ n ∈ m, 0 ≤ pyInt n
    let copies := fun (ts : List T) (ns : List ℚ) =>
      (ts.zip ns).flatMap fun r => replicate (pyInt r.2).toNat r.1
    (good → FNRN_to_FR f nf rc nrc =
      .ok ⟨copies f nf, rc.map fun l => copies l (nrc.getD [])⟩) ∧
    (¬ good → FNRN_to_FR f nf rc nrc = .error .valueError) := by
  have hz : ∀ (ts : List T) (ns : List ℚ), ts.length = ns.length →
      ((∀ r ∈ ts.zip ns, 0 ≤ pyInt r.2) ↔ ∀ n ∈ ns, 0 ≤ pyInt n) := by
    intro ts ns hl
    have : ns = (ts.zip ns).map Prod.snd := by rw [map_snd_zip]; omega
    constructor
    · intro h n hn
      rw [this] at hn
      obtain ⟨r, hr, rfl⟩ := mem_map.1 hn
      exact h r hr
    · intro h r hr
      exact h _ (of_mem_zip hr).2
  simp only
  constructor
  · rintro ⟨h1, h2, h3⟩
    unfold FNRN_to_FR
    rw [if_neg (by simpa using h1), expandLoop_ok _ _ ((hz f nf h1).2 h2)]
    cases rc with
    | none => simp [bind, Except.bind]
    | some l =>
      obtain ⟨m, rfl, h4, h5⟩ := h3 l rfl
      simp only [bind, Except.bind, if_neg (not_not.2 h4)]
      rw [expandLoop_ok _ _ ((hz l m h4).2 h5)]
      simp
  · intro h
    unfold FNRN_to_FR
    by_cases h1 : f.length = nf.length
    swap
    · rw [if_pos h1]
    rw [if_neg (by simpa using h1)]
    by_cases h2 : ∀ n ∈ nf, 0 ≤ pyInt n
    swap
    · rw [expandLoop_err _ _ (fun hh => h2 ((hz f nf h1).1 hh))]; rfl
    rw [expandLoop_ok _ _ ((hz f nf h1).2 h2)]
    cases rc with
    | none => exact absurd ⟨h1, h2, by simp⟩ h
    | some l =>
      cases nrc with
      | none => simp [bind, Except.bind, valueErr]
      | some m =>
        simp only [bind, Except.bind]
        by_cases h4 : l.length = m.length
        swap
        · rw [if_pos h4]
        rw [if_neg (not_not.2 h4)]
        by_cases h5 : ∀ n ∈ m, 0 ≤ pyInt n
        · exact absurd ⟨h1, h2, fun l' hl' => ⟨m, rfl, by cases hl'; exact ⟨h4, h5⟩⟩⟩ h
        · rw [expandLoop_err _ _ (fun hh => h5 ((hz l m h4).1 hh))]

/-- **C79** `FNRN_to_FR` succeeds exactly when the times and quantities have equal lengths, quantities are
given for the censored times, and no quantity (truncated to an integer) is negative; the lists then hold
each time as often as its quantity says, in order. Everything else is a ValueError. -/
theorem C79_FNRN_to_FR (f : List T) (nf : List ℚ) (rc : Option (List T)) (nrc : Option (List ℚ)) :
    let good := f.length = nf.length ∧ (∀ n ∈ nf, 0 ≤ Spec.trunc n) ∧
      ∀ l, rc = some l → ∃ m, nrc = some m ∧ l.length = m.length ∧ ∀ n ∈ m, 0 ≤ Spec.trunc n
    let copies := fun (ts : List T) (ns : List ℚ) =>
      (ts.zip ns).flatMap fun r => replicate (Spec.trunc r.2).toNat r.1
    (good → FNRN_to_FR f nf rc nrc =
      .ok ⟨copies f nf, rc.map fun l => copies l (nrc.getD [])⟩) ∧
    (¬ good → FNRN_to_FR f nf rc nrc = .error .valueError) := by
  rw [← pyInt_eq]
  exact FNRN_to_FR_spec f nf rc nrc

/-- **C79** `XCN_to_FNRN` groups exactly what `XCN_to_FR` lists: for every
time the total quantity equals its number of occurrences in the failures/right-censored lists, and it
refuses exactly the inputs `XCN_to_FR` refuses. -/
theorem C79_grouping [LinearOrder T] (X : List T) (C : List Code) (N : Option (List ℚ)) (cc fc : Option Code) :
    (∀ fr, XCN_to_FR X C N cc fc = .ok fr → ∃ g, XCN_to_FNRN X C N cc fc = .ok g ∧
      g.failures.Pairwise (· < ·) ∧ g.failures.length = g.num_failures.length ∧
      (∀ t, Spec.totalAt (g.failures.zip g.num_failures) t = fr.failures.count t) ∧
      (fr.right_censored = none ↔ g.right_censored = none) ∧
      (rcList g.right_censored).Pairwise (· < ·) ∧
      (rcList g.right_censored).length = (rcList g.num_right_censored).length ∧
      (∀ t, Spec.totalAt ((rcList g.right_censored).zip (rcList g.num_right_censored)) t =
        (rcList fr.right_censored).count t)) ∧
    (∀ e, XCN_to_FR X C N cc fc = .error e → XCN_to_FNRN X C N cc fc = .error e) := by
  have tot : ∀ (l : List T) (t : T), Spec.totalAt ((npUnique l).1.zip (npUnique l).2) t = l.count t := by
    intro l t
    have key : ∀ tb : List (T × Nat), Spec.totalAt tb t = (Spec.expand tb).count t := by
      intro tb
      induction tb with
      | nil => simp [Spec.totalAt, Spec.expand]
      | cons p tb ih =>
        obtain ⟨a, k⟩ := p
        have ih' : ((tb.filter fun p => p.1 = t).map Prod.snd).sum = (Spec.expand tb).count t := ih
        by_cases h : a = t
        · subst h
          simp only [Spec.totalAt, Spec.expand, filter_cons, decide_true, if_true, map_cons, sum_cons,
            flatMap_cons, count_append, count_replicate_self] at ih' ⊢
          rw [ih']
        · simp only [Spec.totalAt, Spec.expand, filter_cons, h, decide_false, flatMap_cons, count_append] at ih' ⊢
          rw [count_replicate]
          simp [h, ih']
    rw [key, expand_npUnique]
    exact (perm_insertionSort _ l).count_eq t
  constructor
  · intro fr h
    refine ⟨FR_to_FNRN fr.failures fr.right_censored, by unfold XCN_to_FNRN; rw [h]; rfl, ?_⟩
    unfold FR_to_FNRN
    cases fr.right_censored with
    | none => exact ⟨npUnique_sorted _, npUnique_length_eq _, tot _, by simp, by simp, by simp, by simp [Spec.totalAt]⟩
    | some l =>
      exact ⟨npUnique_sorted _, npUnique_length_eq _, tot _, by simp,
        by simpa using npUnique_sorted l, by simpa using npUnique_length_eq l, by simpa using tot l⟩
  · intro e h
    unfold XCN_to_FNRN
    rw [h]; rfl

example : XCN_to_FNRN [5, 2, 5] [.str "F", .str "C", .str "F"] (some [2, 3, 1]) none none =
    .ok (⟨[5], [3], some [2], some [3]⟩ : FNRN Nat) := by rfl

/-- **C79** `xlsx_to_FR` reports the non-blank cells of the two columns in sheet order. -/
theorem C79_xlsx_to_FR (F : List (Option T)) (R : Option (List (Option T))) :
    (xlsx_to_FR F R).failures = filled F ∧ (xlsx_to_FR F R).right_censored = R.map filled := ⟨rfl, rfl⟩

/-- **C79** Blank cells are ignored by all three readers: a column with blanks reads like the same column
without them. -/
theorem C79_blanks [LinearOrder T] (X : List (Option T)) (C : List (Option Code)) (N : Option (List (Option ℚ)))
    (cIn fIn : Option Code) (cOut fOut : Code) (NF : List (Option ℚ))
    (RC : Option (List (Option T) × List (Option ℚ))) :
    xlsx_to_FR X (RC.map Prod.fst) =
      xlsx_to_FR ((filled X).map some) (RC.map fun r => (filled r.1).map some) ∧
    xlsx_to_FNRN X NF RC = xlsx_to_FNRN ((filled X).map some) ((filled NF).map some)
      (RC.map fun r => ((filled r.1).map some, (filled r.2).map some)) ∧
    xlsx_to_XCN X C N cIn fIn cOut fOut =
      xlsx_to_XCN ((filled X).map some) ((filled C).map some) (N.map fun n => (filled n).map some)
        cIn fIn cOut fOut := by
  have e : ∀ {α : Type _} (l : List (Option α)), removeNaNs ((filled l).map some) = removeNaNs l := by
    intro α l; rw [removeNaNs_map_some]; rfl
  refine ⟨?_, ?_, ?_⟩
  · unfold xlsx_to_FR
    rw [e]
    cases RC <;> simp [removeNaNs_map_some, filled, removeNaNs]
  · unfold xlsx_to_FNRN
    rw [e, e]
    cases RC with
    | none => rfl
    | some r =>
      obtain ⟨a, b⟩ := r
      simp only [Option.map_some]
      rw [e, e]
  · unfold xlsx_to_XCN
    rw [e, e]
    cases N with
    | none => rfl
    | some n =>
      simp only [Option.map_some]
      rw [e]

/-- **C79** `xlsx_to_FNRN`: for a sheet whose non-blank cells are the given (time, quantity) rows, the answer
lists each time once, ascending, and for every time the total quantity of the sheet's rows; quantities 0
disappear. -/
theorem C79_xlsx_to_FNRN [LinearOrder T] (F : List (Option T)) (NF : List (Option ℚ)) (f : List (T × Nat))
    (hF : filled F = f.map Prod.fst) (hNF : filled NF = f.map fun p => (p.2 : ℚ))
    (RC : Option (List (Option T) × List (Option ℚ))) (rc : Option (List (T × Nat)))
    (hRC : RC.map (fun r => (filled r.1, filled r.2)) =
      rc.map fun l => (l.map Prod.fst, l.map fun p => (p.2 : ℚ))) :
    ∃ g, xlsx_to_FNRN F NF RC = .ok g ∧
      g.failures.Pairwise (· < ·) ∧ g.failures.length = g.num_failures.length ∧
      (∀ k ∈ g.num_failures, 1 ≤ k) ∧
      (∀ t, Spec.totalAt (g.failures.zip g.num_failures) t = Spec.totalAt f t) ∧
      (RC = none ↔ g.right_censored = none) ∧
      (rcList g.right_censored).Pairwise (· < ·) ∧
      (rcList g.right_censored).length = (rcList g.num_right_censored).length ∧
      (∀ t, Spec.totalAt ((rcList g.right_censored).zip (rcList g.num_right_censored)) t =
        Spec.totalAt (rcList rc) t) := by
  have hz : ∀ l : List (T × Nat), (l.map Prod.fst).zip (l.map fun p => (p.2 : ℚ)) =
      l.map fun p => (p.1, (p.2 : ℚ)) := by
    intro l
    induction l with
    | nil => rfl
    | cons a b ih => simpa using ih
  have key : ∀ (tb : List (T × Nat)) (t : T), Spec.totalAt tb t = (Spec.expand tb).count t := by
    intro tb t
    induction tb with
    | nil => simp [Spec.totalAt, Spec.expand]
    | cons p tb ih =>
      obtain ⟨a, k⟩ := p
      have ih' : ((tb.filter fun p => p.1 = t).map Prod.snd).sum = (Spec.expand tb).count t := ih
      by_cases h : a = t
      · subst h
        simp only [Spec.totalAt, Spec.expand, filter_cons, decide_true, if_true, map_cons, sum_cons,
          flatMap_cons, count_append, count_replicate_self] at ih' ⊢
        rw [ih']
      · simp only [Spec.totalAt, Spec.expand, filter_cons, h, decide_false, flatMap_cons, count_append] at ih' ⊢
        rw [count_replicate]
        simp [h, ih']
  have tot : ∀ (l : List T) (t : T), Spec.totalAt ((npUnique l).1.zip (npUnique l).2) t = l.count t := by
    intro l t
    rw [key, expand_npUnique]
    exact (perm_insertionSort _ l).count_eq t
  have pos : ∀ (l : List T), ∀ k ∈ (npUnique l).2, 1 ≤ k := by
    intro l k hk
    rw [npUnique_snd] at hk
    obtain ⟨p, hp, rfl⟩ := mem_map.1 hk
    exact runLength_pos _ p hp
  have e1 : removeNaNs F = f.map Prod.fst := hF
  have e2 : removeNaNs NF = f.map fun p => (p.2 : ℚ) := hNF
  cases RC with
  | none =>
    cases rc with
    | some => simp at hRC
    | none =>
      refine ⟨FR_to_FNRN (Spec.expand f) none, ?_, npUnique_sorted _, npUnique_length_eq _, pos _, ?_, ?_, ?_, ?_, ?_⟩
      · unfold xlsx_to_FNRN
        simp only [e1, e2]
        unfold FNRN_to_FR
        simp only [hz, expandLoop_nat]
        simp [bind, Except.bind]
      · intro t; rw [key f t]; exact tot _ t
      · simp [FR_to_FNRN]
      · simp [FR_to_FNRN]
      · simp [FR_to_FNRN]
      · simp [FR_to_FNRN, Spec.totalAt]
  | some r =>
    obtain ⟨a, b⟩ := r
    cases rc with
    | none => simp at hRC
    | some l =>
      simp only [Option.map_some, Option.some.injEq, Prod.mk.injEq] at hRC
      have e3 : removeNaNs a = l.map Prod.fst := hRC.1
      have e4 : removeNaNs b = l.map fun p => (p.2 : ℚ) := hRC.2
      refine ⟨FR_to_FNRN (Spec.expand f) (some (Spec.expand l)), ?_, npUnique_sorted _, npUnique_length_eq _, pos _, ?_, ?_, ?_, ?_, ?_⟩
      · unfold xlsx_to_FNRN
        simp only [e1, e2, e3, e4]
        unfold FNRN_to_FR
        simp only [hz, expandLoop_nat]
        simp [bind, Except.bind]
      · intro t; rw [key f t]; exact tot _ t
      · simp [FR_to_FNRN]
      · simpa [FR_to_FNRN] using npUnique_sorted _
      · simpa [FR_to_FNRN] using npUnique_length_eq _
      · intro t
        simp only [FR_to_FNRN]
        rw [show rcList (some l) = l from rfl, key l t]
        exact tot _ t

/-- With the code's truncation. -/
theorem xlsx_to_FNRN_errors_spec [LinearOrder T] (F : List (Option T)) (NF : List (Option ℚ))
    (RC : Option (List (Option T) × List (Option ℚ))) :
    xlsx_to_FNRN F NF RC = .error .valueError ↔
      (filled F).length ≠ (filled NF).length ∨ (∃ n ∈ filled NF, pyInt n < 0) ∨
      ∃ a b, RC = some (a, b) ∧ ((filled a).length ≠ (filled b).length ∨ ∃ n ∈ filled b, pyInt n < 0) := by
  have spec := FNRN_to_FR_spec (filled F) (filled NF) (RC.map fun r => filled r.1) (RC.map fun r => filled r.2)
  simp only at spec
  have hx : xlsx_to_FNRN F NF RC =
      (FNRN_to_FR (filled F) (filled NF) (RC.map fun r => filled r.1) (RC.map fun r => filled r.2)).bind
        fun fr => .ok (FR_to_FNRN fr.failures fr.right_censored) := by
    unfold xlsx_to_FNRN
    change (if (filled F).length ≠ (filled NF).length then _ else _) = _
    by_cases h1 : (filled F).length = (filled NF).length
    · rw [if_neg (not_not.2 h1)]
      cases RC with
      | none => rfl
      | some r =>
        obtain ⟨a, b⟩ := r
        change (do
          let fr ← if (filled a).length ≠ (filled b).length then valueErr
            else FNRN_to_FR (filled F) (filled NF) (some (filled a)) (some (filled b))
          .ok (FR_to_FNRN fr.failures fr.right_censored)) = _
        by_cases h2 : (filled a).length = (filled b).length
        · rw [if_neg (not_not.2 h2)]; rfl
        · rw [if_pos h2]
          have : FNRN_to_FR (filled F) (filled NF) (some (filled a)) (some (filled b)) = .error .valueError := by
            apply (FNRN_to_FR_spec _ _ _ _).2
            rintro ⟨-, -, h⟩
            obtain ⟨m, hm, hl, -⟩ := h _ rfl
            cases hm
            exact h2 hl
          simp only [Option.map_some, this]
          rfl
    · rw [if_pos h1]
      unfold FNRN_to_FR
      rw [if_pos h1]; rfl
  constructor
  · intro h
    by_contra hc
    push Not at hc
    obtain ⟨h1, h2, h3⟩ := hc
    rw [hx, spec.1 ⟨h1, h2, ?_⟩] at h
    · cases h
    · intro l hl
      cases RC with
      | none => simp at hl
      | some r =>
        simp only [Option.map_some, Option.some.injEq] at hl
        subst hl
        exact ⟨_, rfl, h3 r.1 r.2 rfl⟩
  · intro h
    rw [hx, spec.2 ?_]
    · rfl
    · rintro ⟨h1, h2, h3⟩
      rcases h with h | ⟨n, hn, h⟩ | ⟨a, b, rfl, h⟩
      · exact h h1
      · exact absurd (h2 n hn) (not_le.2 h)
      · obtain ⟨m, hm, hl, hp⟩ := h3 _ rfl
        simp only [Option.map_some, Option.some.injEq] at hm
        subst hm
        rcases h with h | ⟨n, hn, h⟩
        · exact h hl
        · exact absurd (hp n hn) (not_le.2 h)

/-- **C79** Refusals of `xlsx_to_FNRN`: different numbers of non-blank times and quantities, or a quantity
that truncates to a negative number. -/
theorem C79_xlsx_to_FNRN_errors [LinearOrder T] (F : List (Option T)) (NF : List (Option ℚ))
    (RC : Option (List (Option T) × List (Option ℚ))) :
    xlsx_to_FNRN F NF RC = .error .valueError ↔
      (filled F).length ≠ (filled NF).length ∨ (∃ n ∈ filled NF, Spec.trunc n < 0) ∨
      ∃ a b, RC = some (a, b) ∧ ((filled a).length ≠ (filled b).length ∨ ∃ n ∈ filled b, Spec.trunc n < 0) := by
  rw [← pyInt_eq]
  exact xlsx_to_FNRN_errors_spec F NF RC

example : xlsx_to_FNRN [some 5, none, some 2, some 5] [some 1, some 2, some 4, none] none =
    .ok (⟨[2, 5], [2, 5], none, none⟩ : FNRN Nat) := by rfl

/-- **C79, finding.** The blanks are dropped column by column, not row by row: in this sheet the row
`(7, blank)` and the row `(blank, 3)` are silently combined into "3 failures at time 7". -/
theorem C79_blank_pairing_finding :
    xlsx_to_FNRN [some 7, none] [none, some 3] none = .ok (⟨[7], [3], none, none⟩ : FNRN Nat) := by rfl

end Reliability.Convert

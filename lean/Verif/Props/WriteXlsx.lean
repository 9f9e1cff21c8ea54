import Verif.Lemmas.WriteXlsx
import Verif.Spec.WriteXlsx

/-!
# C132 — writing a dataframe to an xlsx file
-/

namespace Reliability.WriteXlsx

open List

variable {S D : Type}

theorem opens_iff (fs : FS S) (p : Path) : opens fs p = true ↔ Spec.Readable fs p := by
  unfold opens Spec.Readable
  split
  · next h => exact ⟨fun _ => ⟨_, _, h⟩, fun _ => rfl⟩
  · next h =>
    constructor
    · intro h'; cases h'
    · rintro ⟨w, c, h'⟩; exact absurd h' (h w c)

theorem opens_false (fs : FS S) (p : Path) : opens fs p = false ↔ ¬ Spec.Readable fs p := by
  rw [← opens_iff]; simp

/-! ## fuel -/

theorem choose_mono {os : OS} {fs : FS S} : ∀ {n m : ℕ} {ask : Bool} {t : Target} {ans : List String} {r : Except Fail Target},
    choose os fs n ask t ans = some r → n ≤ m → choose os fs m ask t ans = some r
  | 0, _, _, _, _, _, h, _ => by cases h
  | n + 1, 0, _, _, _, _, _, h => absurd h (by omega)
  | n + 1, m + 1, ask, t, ans, r, h, hle => by
    have hle' : n ≤ m := by omega
    unfold choose at h ⊢
    by_cases ho : opens fs t.path = true
    · rw [if_pos ho] at h ⊢
      match ask, ans, h with
      | true, [], h => exact h
      | true, a :: rest, h =>
        simp only at h ⊢
        by_cases h1 : Convert.upperStr a = "N"
        · rw [if_pos h1] at h ⊢
          cases hr : rename os t.path with
          | none => rw [hr] at h; exact h
          | some p => rw [hr] at h; exact choose_mono h hle'
        · rw [if_neg h1] at h ⊢
          by_cases h2 : Convert.upperStr a = "Y"
          · rw [if_pos h2] at h ⊢; exact h
          · rw [if_neg h2] at h ⊢; exact choose_mono h hle'
      | false, ans, h =>
        simp only at h ⊢
        cases hr : rename os t.path with
        | none => rw [hr] at h; exact h
        | some p => rw [hr] at h; exact choose_mono h hle'
    · rw [if_neg ho] at h ⊢; exact h

/-- `choose` ends with `r`. -/
def Ends (os : OS) (fs : FS S) (ask : Bool) (t : Target) (ans : List String) (r : Except Fail Target) : Prop :=
  ∃ n, choose os fs n ask t ans = some r

theorem Ends.unique {os : OS} {fs : FS S} {ask : Bool} {t : Target} {ans : List String} {r r' : Except Fail Target}
    (h : Ends os fs ask t ans r) (h' : Ends os fs ask t ans r') : r = r' := by
  obtain ⟨n, h⟩ := h
  obtain ⟨m, h'⟩ := h'
  have h1 := choose_mono h (le_max_left n m)
  have h2 := choose_mono h' (le_max_right n m)
  rw [h1] at h2
  exact Option.some.inj h2

theorem ends_closed {os : OS} {fs : FS S} {t : Target} (h : opens fs t.path = false) (ask : Bool) (ans : List String) :
    Ends os fs ask t ans (.ok t) := ⟨1, by unfold choose; rw [if_neg (by simp [h])]⟩

theorem upper_char (c : Char) : Char.toUpper c = 'N' ↔ c = 'n' ∨ c = 'N' := by
  constructor
  · intro h
    unfold Char.toUpper at h
    split at h
    · left
      rename_i hc
      have h2 := congrArg Char.val h
      simp only at h2
      ext
      have h3 := congrArg UInt32.toNat h2
      rw [UInt32.toNat_add] at h3
      have hb : c.val.toNat < 2 ^ 32 := c.val.toNat_lt
      obtain ⟨h4, h5⟩ := hc
      have h4' := UInt32.le_iff_toNat_le.1 h4
      have h5' := UInt32.le_iff_toNat_le.1 h5
      simp at h3 h4' h5' ⊢
      omega
    · exact Or.inr h
  · rintro (rfl | rfl) <;> decide

theorem upper_charY (c : Char) : Char.toUpper c = 'Y' ↔ c = 'y' ∨ c = 'Y' := by
  constructor
  · intro h
    unfold Char.toUpper at h
    split at h
    · left
      rename_i hc
      have h2 := congrArg Char.val h
      simp only at h2
      ext
      have h3 := congrArg UInt32.toNat h2
      rw [UInt32.toNat_add] at h3
      have hb : c.val.toNat < 2 ^ 32 := c.val.toNat_lt
      obtain ⟨h4, h5⟩ := hc
      have h4' := UInt32.le_iff_toNat_le.1 h4
      have h5' := UInt32.le_iff_toNat_le.1 h5
      simp at h3 h4' h5' ⊢
      omega
    · exact Or.inr h
  · rintro (rfl | rfl) <;> decide

theorem upperStr_eq (s : String) (u : Char) :
    Convert.upperStr s = String.ofList [u] ↔ ∃ c, s = String.ofList [c] ∧ c.toUpper = u := by
  unfold Convert.upperStr
  rw [String.ofList_inj]
  constructor
  · intro h
    match hs : s.toList, h with
    | [c], h =>
      simp at h
      exact ⟨c, by rw [← hs, String.ofList_toList], h⟩
  · rintro ⟨c, rfl, hc⟩
    simp [hc]

theorem upper_N (s : String) : Convert.upperStr s = "N" ↔ Spec.answer s = some false := by
  have h := upperStr_eq s 'N'
  have e : String.ofList ['N'] = "N" := rfl
  rw [e] at h
  rw [h]
  unfold Spec.answer
  constructor
  · rintro ⟨c, rfl, hc⟩
    rcases (upper_char c).1 hc with rfl | rfl <;> decide
  · intro h
    split at h
    · cases h
    · split at h
      · rename_i h2
        rcases h2 with rfl | rfl
        · exact ⟨'n', rfl, by decide⟩
        · exact ⟨'N', rfl, by decide⟩
      · cases h

theorem upper_Y (s : String) : Convert.upperStr s = "Y" ↔ Spec.answer s = some true := by
  have h := upperStr_eq s 'Y'
  have e : String.ofList ['Y'] = "Y" := rfl
  rw [e] at h
  rw [h]
  unfold Spec.answer
  constructor
  · rintro ⟨c, rfl, hc⟩
    rcases (upper_charY c).1 hc with rfl | rfl <;> decide
  · intro h
    split at h
    · rename_i h2
      rcases h2 with rfl | rfl
      · exact ⟨'y', rfl, by decide⟩
      · exact ⟨'Y', rfl, by decide⟩
    · split at h <;> cases h

/-! ## renaming until a name is free -/

/-- The name is changed until there is no readable file: the result after `k` changes. -/
inductive Renamed (os : OS) (fs : FS S) (p : Path) : Except Fail Target → Prop
  | free (k : ℕ) (q : Path) (hk : 0 < k) (hopen : ∀ j < k, ∃ r, renames os j p = some r ∧ opens fs r = true)
      (hq : renames os k p = some q) (hfree : opens fs q = false) : Renamed os fs p (.ok ⟨q, true⟩)
  | stuck (k : ℕ) (hopen : ∀ j ≤ k, ∃ r, renames os j p = some r ∧ opens fs r = true)
      (hq : renames os (k + 1) p = none) : Renamed os fs p (.error .index)

theorem renames_succ' (os : OS) (k : ℕ) (p : Path) : renames os (k + 1) p = (renames os k p).bind (rename os) := by
  rw [renames_add]
  congr 1
  funext q
  simp only [renames]
  cases rename os q <;> rfl

theorem Renamed.step {os : OS} {fs : FS S} {p q : Path} (hp : opens fs p = true) (hr : rename os p = some q)
    {r : Except Fail Target} (h : Renamed os fs q r) : Renamed os fs p r := by
  have sh : ∀ k, renames os (k + 1) p = renames os k q := fun k => by simp [renames, hr]
  cases h with
  | free k q' hk ho hq hf =>
    refine .free (k + 1) q' (by omega) ?_ (by rw [sh]; exact hq) hf
    intro j hj
    cases j with
    | zero => exact ⟨p, rfl, hp⟩
    | succ j => rw [sh]; exact ho j (by omega)
  | stuck k ho hq =>
    refine .stuck (k + 1) ?_ (by rw [sh]; exact hq)
    intro j hj
    cases j with
    | zero => exact ⟨p, rfl, hp⟩
    | succ j => rw [sh]; exact ho j (by omega)

/-- One pass in which the name is changed. -/
theorem renamed_of_ends {os : OS} {fs : FS S} : ∀ {n : ℕ} {p p' : Path} {ans : List String} {r : Except Fail Target},
    opens fs p = true → rename os p = some p' → choose os fs n false ⟨p', true⟩ ans = some r → Renamed os fs p r
  | 0, _, _, _, _, _, _, h => by cases h
  | n + 1, p, p', ans, r, hp, hr, h => by
    unfold choose at h
    by_cases ho : opens fs p' = true
    · rw [if_pos ho] at h
      simp only at h
      cases hr' : rename os p' with
      | none =>
        rw [hr'] at h
        cases h
        refine .stuck 1 ?_ (by simp [renames, hr, hr'])
        intro j hj
        match j, hj with
        | 0, _ => exact ⟨p, rfl, hp⟩
        | 1, _ => exact ⟨p', by simp [renames, hr], ho⟩
      | some p'' =>
        rw [hr'] at h
        exact (renamed_of_ends ho hr' h).step hp hr
    · rw [if_neg ho] at h
      cases h
      refine .free 1 p' (by omega) ?_ (by simp [renames, hr]) (by simpa using ho)
      intro j hj
      have : j = 0 := by omega
      subst this
      exact ⟨p, rfl, hp⟩

theorem ends_of_escapes {os : OS} {fs : FS S} (hfin : {p | opens fs p = true}.Finite) (p : Path) (ch : Bool) (ans : List String) :
    ∃ r, Ends os fs false ⟨p, ch⟩ ans r := by
  obtain ⟨k, hk⟩ := escapes os p {p | opens fs p = true} hfin
  induction k generalizing p ch with
  | zero =>
    refine ⟨_, ends_closed ?_ false ans⟩
    simpa using hk p rfl
  | succ k ih =>
    by_cases ho : opens fs p = true
    · cases hr : rename os p with
      | none => exact ⟨.error .index, 1, by unfold choose; rw [if_pos ho]; simp [hr]⟩
      | some p' =>
        obtain ⟨r, n, h⟩ := ih p' true (fun q hq => hk q (by simp [renames, hr, hq]))
        refine ⟨r, n + 1, ?_⟩
        unfold choose
        rw [if_pos ho]
        simp only [hr]
        exact h
    · exact ⟨_, ends_closed (by simpa using ho) false ans⟩

/-- The whole loop: where the file will be written. -/
theorem ends_spec {os : OS} {fs : FS S} (hfin : {p | opens fs p = true}.Finite) (p : Path) (ans : List String) :
    ∃ r, Ends os fs true ⟨p, false⟩ ans r ∧
      ((opens fs p = false ∧ r = .ok ⟨p, false⟩) ∨
       (opens fs p = true ∧ Spec.decision ans = none ∧ r = .error .eof) ∨
       (opens fs p = true ∧ Spec.decision ans = some true ∧ r = .ok ⟨p, false⟩) ∨
       (opens fs p = true ∧ Spec.decision ans = some false ∧ Renamed os fs p r)) := by
  by_cases ho : opens fs p = true
  swap
  · exact ⟨_, ends_closed (by simpa using ho) true ans, Or.inl ⟨by simpa using ho, rfl⟩⟩
  induction ans with
  | nil =>
    refine ⟨.error .eof, ⟨1, by unfold choose; rw [if_pos ho]⟩, Or.inr (Or.inl ⟨ho, rfl, rfl⟩)⟩
  | cons a rest ih =>
    cases ha : Spec.answer a with
    | none =>
      obtain ⟨r, ⟨n, hn⟩, hr⟩ := ih
      have e : Spec.decision (a :: rest) = Spec.decision rest := by unfold Spec.decision; simp [ha]
      refine ⟨r, ⟨n + 1, ?_⟩, by rw [e]; exact hr⟩
      have h1 : ¬ Convert.upperStr a = "N" := by rw [upper_N, ha]; simp
      have h2 : ¬ Convert.upperStr a = "Y" := by rw [upper_Y, ha]; simp
      unfold choose
      rw [if_pos ho]
      simp only [if_neg h1, if_neg h2]
      exact hn
    | some b =>
      have e : Spec.decision (a :: rest) = some b := by unfold Spec.decision; simp [ha]
      cases b with
      | true =>
        have h2 : Convert.upperStr a = "Y" := by rw [upper_Y, ha]
        have h1 : ¬ Convert.upperStr a = "N" := by rw [h2]; decide
        refine ⟨.ok ⟨p, false⟩, ⟨1, ?_⟩, Or.inr (Or.inr (Or.inl ⟨ho, e, rfl⟩))⟩
        unfold choose
        rw [if_pos ho]
        simp only [if_neg h1, if_pos h2]
      | false =>
        have h1 : Convert.upperStr a = "N" := by rw [upper_N, ha]
        cases hr : rename os p with
        | none =>
          refine ⟨.error .index, ⟨1, ?_⟩, Or.inr (Or.inr (Or.inr ⟨ho, e, .stuck 0 ?_ (by simp [renames, hr])⟩))⟩
          · unfold choose
            rw [if_pos ho]
            simp only [if_pos h1, hr]
          · intro j hj
            have : j = 0 := by omega
            subst this
            exact ⟨p, rfl, ho⟩
        | some p' =>
          obtain ⟨r, n, hn⟩ := ends_of_escapes (os := os) hfin p' true rest
          refine ⟨r, ⟨n + 1, ?_⟩, Or.inr (Or.inr (Or.inr ⟨ho, e, renamed_of_ends ho hr hn⟩))⟩
          unfold choose
          rw [if_pos ho]
          simp only [if_pos h1, hr]
          exact hn

/-! ## closed forms of the new name -/

theorem news_succ (k : ℕ) : Spec.news (k + 1) = Spec.news k ++ "(new)".toList := by
  induction k with
  | zero => rfl
  | succ k ih => conv_lhs => rw [Spec.news, ih, ← append_assoc]; 
                 rw [Spec.news]

theorem news_noDot (k : ℕ) : NoDot (Spec.news k) := by
  induction k with
  | zero => intro c hc; cases hc
  | succ k ih =>
    intro c hc
    rw [Spec.news] at hc
    rcases mem_append.1 hc with h | h
    · have : ∀ c ∈ "(new)".toList, c ≠ '.' := by decide
      exact this c h
    · exact ih c h

theorem news_noSep (os : OS) (k : ℕ) : NoSep os (Spec.news k) := by
  induction k with
  | zero => intro c hc; cases hc
  | succ k ih =>
    intro c hc
    rw [Spec.news] at hc
    rcases mem_append.1 hc with h | h
    · have : ∀ c ∈ "(new)".toList, os.isSep c = false := by cases os <;> decide
      exact this c h
    · exact ih c h

/-- A folder: not empty, not ending with a separator, not only a drive. -/
def Folder (os : OS) (d : Path) : Prop := ∃ u c, d = u ++ [c] ∧ os.isSep c = false ∧ (os = .windows → ∀ x, d ≠ [x, ':'])

theorem split_folder {d Z : Path} (hd : Folder .windows d) (hZ : NoSep .windows Z) : split .windows (d ++ '\\' :: Z) = (d, Z) := by
  obtain ⟨u, c, rfl, hc, hdr⟩ := hd
  have plain : ∀ v : Path, stripSeps .windows (headOf .windows ((v ++ [c]) ++ '\\' :: Z)) = v ++ [c] ∧
      tailOf .windows ((v ++ [c]) ++ '\\' :: Z) = Z := by
    intro v
    obtain ⟨h1, h2⟩ := tailOf_append bs_sep (v ++ [c]) hZ
    exact ⟨by rw [h2, stripSeps_snoc hc bs_sep], h1⟩
  have nodrive : splitDrive .windows ((u ++ [c]) ++ '\\' :: Z) = ([], (u ++ [c]) ++ '\\' :: Z) →
      split .windows ((u ++ [c]) ++ '\\' :: Z) = (u ++ [c], Z) := by
    intro h
    unfold split
    simp only [h, nil_append, (plain u).1, (plain u).2]
  match u, hdr with
  | [], _ => exact nodrive rfl
  | [x], hdr =>
    refine nodrive ?_
    have hne : c ≠ ':' := fun h => hdr rfl x (by rw [h]; rfl)
    show splitDrive .windows (x :: c :: '\\' :: Z) = _
    unfold splitDrive
    split
    · rename_i h; cases h; exact absurd rfl hne
    · rfl
  | x :: y :: r, hdr =>
    by_cases hy : y = ':'
    · subst hy
      have : splitDrive .windows (((x :: ':' :: r) ++ [c]) ++ '\\' :: Z) = ([x, ':'], (r ++ [c]) ++ '\\' :: Z) := rfl
      unfold split
      simp only [this, (plain r).1, (plain r).2]
      rfl
    · refine nodrive ?_
      show splitDrive .windows (x :: y :: (r ++ [c] ++ '\\' :: Z)) = _
      unfold splitDrive
      split
      · rename_i h; cases h; exact absurd rfl hy
      · rfl

theorem noSep_dot (os : OS) {a b : Path} (ha : NoSep os a) (hb : NoSep os b) : NoSep os (a ++ '.' :: b) := by
  intro c hc
  rcases mem_append.1 hc with h | h
  · exact ha c h
  · rcases mem_cons.1 h with rfl | h
    · cases os <;> decide
    · exact hb c h

theorem noSep_append {os : OS} {a b : Path} (ha : NoSep os a) (hb : NoSep os b) : NoSep os (a ++ b) := by
  intro c hc
  rcases mem_append.1 hc with h | h
  · exact ha c h
  · exact hb c h

theorem noDot_append {a b : Path} (ha : NoDot a) (hb : NoDot b) : NoDot (a ++ b) := by
  intro c hc
  rcases mem_append.1 hc with h | h
  · exact ha c h
  · exact hb c h

/-- On Windows the name after `k` changes. -/
theorem renames_windows {d a b : Path} (hd : Folder .windows d) (ha : NoSep .windows a ∧ NoDot a) (hb : NoSep .windows b ∧ NoDot b) (k : ℕ) :
    renames .windows k (d ++ '\\' :: (a ++ '.' :: b)) = some (d ++ '\\' :: ((a ++ Spec.news k) ++ '.' :: b)) := by
  induction k with
  | zero => simp [renames, Spec.news]
  | succ k ih =>
    rw [renames_succ', ih, Option.bind_some]
    have hs : split .windows (d ++ '\\' :: ((a ++ Spec.news k) ++ '.' :: b)) = (d, (a ++ Spec.news k) ++ '.' :: b) :=
      split_folder hd (noSep_dot _ (noSep_append ha.1 (news_noSep _ k)) hb.1)
    rw [rename_dot (a := a ++ Spec.news k) (b := b) (by rw [hs]) (noDot_append ha.2 (news_noDot k)) hb.2, hs, news_succ]
    simp

/-! ## C132 -/

/-- `write_df_to_xlsx` ends with `r`: from some number of passes of its loop on, the result is `r`. -/
def Result (render : D → Path → Arg → List (String × Arg) → Except Err S) (os : OS) (fs : FS S) (df : D) (path : Path)
    (answers : List String) (kwargs : List (String × Arg)) (r : Except Fail (FS S × Target)) : Prop :=
  ∃ N, ∀ n, N ≤ n → writeDf render os fs n df path answers kwargs = some r

variable (render : D → Path → Arg → List (String × Arg) → Except Err S) (os : OS) (fs : FS S) (df : D) (path : Path)
  (answers : List String) (kwargs : List (String × Arg))

/-- Writing at a chosen place. -/
def put (t : Target) : Except Fail (FS S × Target) :=
  match toExcel render df t.path (pandasArgs kwargs) fs with
  | .error e => .error e
  | .ok fs' => .ok (fs', t)

theorem writeDf_of_choose {n : ℕ} {r : Except Fail Target} (h : choose os fs n true ⟨path, false⟩ answers = some r) :
    writeDf render os fs n df path answers kwargs = some (r.bind (put render fs df kwargs)) := by
  unfold writeDf
  rw [h]
  cases r with
  | error e => rfl
  | ok t =>
    simp only [Except.bind, put]
    cases toExcel render df t.path (pandasArgs kwargs) fs <;> rfl

theorem result_of_ends {r : Except Fail Target} (h : Ends os fs true ⟨path, false⟩ answers r) :
    Result render os fs df path answers kwargs (r.bind (put render fs df kwargs)) := by
  obtain ⟨N, h⟩ := h
  exact ⟨N, fun n hn => writeDf_of_choose _ _ _ _ _ _ _ (choose_mono h hn)⟩

theorem ends_of_write {n : ℕ} {r : Except Fail (FS S × Target)} (h : writeDf render os fs n df path answers kwargs = some r) :
    ∃ r0, Ends os fs true ⟨path, false⟩ answers r0 ∧ r = r0.bind (put render fs df kwargs) := by
  cases hc : choose os fs n true ⟨path, false⟩ answers with
  | none => unfold writeDf at h; rw [hc] at h; cases h
  | some r0 =>
    refine ⟨r0, ⟨n, hc⟩, ?_⟩
    rw [writeDf_of_choose _ _ _ _ _ _ _ hc] at h
    exact (Option.some.inj h).symm

theorem terminates_aux (hfin : {p | opens fs p = true}.Finite) :
    ∃! r, Result render os fs df path answers kwargs r := by
  obtain ⟨r, h, -⟩ := ends_spec (os := os) hfin path answers
  refine ⟨_, result_of_ends render os fs df path answers kwargs h, ?_⟩
  rintro r' ⟨N, hN⟩
  obtain ⟨M, hM⟩ := result_of_ends render os fs df path answers kwargs h
  have := (hN (max N M) (le_max_left _ _)).symm.trans (hM (max N M) (le_max_right _ _))
  exact Option.some.inj this

/-- **C132** As long as there are finitely many readable files, `write_df_to_xlsx` ends, whatever the path, the answers and the
operating system, and always with the same result: no number of existing `(new)` files makes it loop for ever. -/
theorem C132_terminates (hfin : {p | Spec.Readable fs p}.Finite) :
    ∃! r, Result render os fs df path answers kwargs r := by
  have := terminates_aux render os fs df path answers kwargs (by simpa only [opens_iff] using hfin)
  simpa only [opens_iff, opens_false] using this

theorem where_aux (hfin : {p | opens fs p = true}.Finite) :
    (opens fs path = false → Result render os fs df path answers kwargs (put render fs df kwargs ⟨path, false⟩)) ∧
    (opens fs path = true → Spec.decision answers = none → Result render os fs df path answers kwargs (.error .eof)) ∧
    (opens fs path = true → Spec.decision answers = some true →
      Result render os fs df path answers kwargs (put render fs df kwargs ⟨path, false⟩)) ∧
    (opens fs path = true → Spec.decision answers = some false →
      (∃ k q, 0 < k ∧ (∀ j < k, ∃ r, renames os j path = some r ∧ opens fs r = true) ∧ renames os k path = some q ∧ opens fs q = false ∧
        Result render os fs df path answers kwargs (put render fs df kwargs ⟨q, true⟩)) ∨
      (∃ k, (∀ j ≤ k, ∃ r, renames os j path = some r ∧ opens fs r = true) ∧ renames os (k + 1) path = none ∧
        Result render os fs df path answers kwargs (.error .index))) := by
  obtain ⟨r, h, hr⟩ := ends_spec (os := os) hfin path answers
  have res := result_of_ends render os fs df path answers kwargs h
  refine ⟨?_, ?_, ?_, ?_⟩
  · intro h0
    rcases hr with ⟨-, rfl⟩ | ⟨h1, -⟩ | ⟨h1, -⟩ | ⟨h1, -⟩
    · exact res
    all_goals rw [h0] at h1; cases h1
  · intro h0 hd
    rcases hr with ⟨h1, -⟩ | ⟨-, -, rfl⟩ | ⟨-, h1, -⟩ | ⟨-, h1, -⟩
    · rw [h0] at h1; cases h1
    · exact res
    all_goals rw [hd] at h1; cases h1
  · intro h0 hd
    rcases hr with ⟨h1, -⟩ | ⟨-, h1, -⟩ | ⟨-, -, rfl⟩ | ⟨-, h1, -⟩
    · rw [h0] at h1; cases h1
    · rw [hd] at h1; cases h1
    · exact res
    · rw [hd] at h1; cases h1
  · intro h0 hd
    rcases hr with ⟨h1, -⟩ | ⟨-, h1, -⟩ | ⟨-, h1, -⟩ | ⟨-, -, hren⟩
    · rw [h0] at h1; cases h1
    · rw [hd] at h1; cases h1
    · rw [hd] at h1; cases h1
    · cases hren with
      | free k q hk ho hq hf => exact Or.inl ⟨k, q, hk, ho, hq, hf, res⟩
      | stuck k ho hq => exact Or.inr ⟨k, ho, hq, res⟩

/-- **C132** Where it writes: without asking when the path cannot be opened; else the first answer that is y or n (in either case)
decides. Yes: at the path. No: at the first of the new names that cannot be opened (or `IndexError` when a name without a dot has to be
changed). No decision before the input ends: `EOFError`. -/
theorem C132_where (hfin : {p | Spec.Readable fs p}.Finite) :
    (¬ Spec.Readable fs path → Result render os fs df path answers kwargs (put render fs df kwargs ⟨path, false⟩)) ∧
    (Spec.Readable fs path → Spec.decision answers = none → Result render os fs df path answers kwargs (.error .eof)) ∧
    (Spec.Readable fs path → Spec.decision answers = some true →
      Result render os fs df path answers kwargs (put render fs df kwargs ⟨path, false⟩)) ∧
    (Spec.Readable fs path → Spec.decision answers = some false →
      (∃ k q, 0 < k ∧ (∀ j < k, ∃ r, renames os j path = some r ∧ Spec.Readable fs r) ∧ renames os k path = some q ∧ ¬ Spec.Readable fs q ∧
        Result render os fs df path answers kwargs (put render fs df kwargs ⟨q, true⟩)) ∨
      (∃ k, (∀ j ≤ k, ∃ r, renames os j path = some r ∧ Spec.Readable fs r) ∧ renames os (k + 1) path = none ∧
        Result render os fs df path answers kwargs (.error .index))) := by
  have := where_aux render os fs df path answers kwargs (by simpa only [opens_iff] using hfin)
  simpa only [opens_iff, opens_false] using this

/-- **C132** What writing does: pandas is called with `index` as given (`False` when not given) and with all other keyword arguments
but `excel_writer`; the file gets what pandas makes of it, every other path keeps what it had. A directory or a write protected file
is an `OSError`, and an error of pandas is passed on. -/
theorem C132_write (t : Target) :
    (∀ i a, pandasArgs kwargs = (i, a) → i = ((kwargs.lookup "index").getD (.bool false)) ∧
      ∀ p, p ∈ a ↔ p ∈ kwargs ∧ p.1 ≠ "excel_writer" ∧ p.1 ≠ "index") ∧
    (∀ e, render df t.path (pandasArgs kwargs).1 (pandasArgs kwargs).2 = .error e → put render fs df kwargs t = .error (.pandas e)) ∧
    (∀ s, render df t.path (pandasArgs kwargs).1 (pandasArgs kwargs).2 = .ok s →
      (∀ r c, fs t.path = .file r false c → put render fs df kwargs t = .error .io) ∧
      (fs t.path = .directory → put render fs df kwargs t = .error .io) ∧
      ((fs t.path = .absent ∨ ∃ r c, fs t.path = .file r true c) → ∃ fs', put render fs df kwargs t = .ok (fs', t) ∧
        (∃ r, fs' t.path = .file r true s ∧ ((∀ r' w c, fs t.path = .file r' w c → r = r') ∧ (fs t.path = .absent → r = true))) ∧
        ∀ q, q ≠ t.path → fs' q = fs q)) := by
  refine ⟨?_, ?_, ?_⟩
  · rintro i a h
    cases h
    refine ⟨rfl, fun p => ?_⟩
    simp [pandasArgs]
  · intro e h
    simp only [put, toExcel, h]
  · intro s h
    refine ⟨?_, ?_, ?_⟩
    · intro r c hf; simp only [put, toExcel, h, hf]
    · intro hf; simp only [put, toExcel, h, hf]
    · rintro (hf | ⟨r, c, hf⟩)
      · refine ⟨Function.update fs t.path (.file true true s), by simp only [put, toExcel, h, hf], ?_, ?_⟩
        · exact ⟨true, by simp, ⟨fun r' w c h' => (by rw [hf] at h'; cases h'), fun _ => rfl⟩⟩
        · intro q hq; exact Function.update_of_ne hq _ _
      · refine ⟨Function.update fs t.path (.file r true s), by simp only [put, toExcel, h, hf], ?_, ?_⟩
        · exact ⟨r, by simp, ⟨fun r' w c h' => (by rw [hf] at h'; cases h'; rfl), fun h' => by rw [hf] at h'; cases h'⟩⟩
        · intro q hq; exact Function.update_of_ne hq _ _

theorem put_ok {t t' : Target} {fs' : FS S} (h : put render fs df kwargs t = .ok (fs', t')) :
    t' = t ∧ ∀ q, q ≠ t.path → fs' q = fs q := by
  unfold put at h
  cases ht : toExcel render df t.path (pandasArgs kwargs) fs with
  | error e => rw [ht] at h; cases h
  | ok f =>
    rw [ht] at h
    cases h
    refine ⟨rfl, fun q hq => ?_⟩
    unfold toExcel at ht
    split at ht
    · cases ht
    · split at ht
      · cases ht; exact Function.update_of_ne hq _ _
      · cases ht; exact Function.update_of_ne hq _ _
      · cases ht
      · cases ht

theorem never_overwrites_aux {n : ℕ} {fs' : FS S} {t : Target}
    (h : writeDf render os fs n df path answers kwargs = some (.ok (fs', t))) :
    (∀ q, q ≠ t.path → fs' q = fs q) ∧
    (∀ q, opens fs q = true → fs' q ≠ fs q → q = path ∧ Spec.decision answers = some true) ∧
    (t.changed = false → t.path = path) := by
  obtain ⟨r0, ⟨m, hm⟩, e⟩ := ends_of_write render os fs df path answers kwargs h
  cases r0 with
  | error e' => cases e
  | ok t0 =>
    obtain ⟨rfl, hq⟩ := put_ok render fs df kwargs e.symm
    have key : (t.path = path ∧ t.changed = false ∧ (opens fs path = true → Spec.decision answers = some true)) ∨
        (opens fs t.path = false ∧ t.changed = true) := by
      have gen : ∀ m ask (t0 : Target) ans, choose os fs m ask t0 ans = some (.ok t) →
          (ask = true ∧ t = t0 ∧ (opens fs t0.path = true → Spec.decision ans = some true)) ∨
          (opens fs t.path = false ∧ (t.changed = true ∨ ask = false ∧ t = t0)) := by
        intro m
        induction m with
        | zero => intro _ _ _ h; cases h
        | succ m ih =>
          intro ask t0 ans h
          unfold choose at h
          by_cases ho : opens fs t0.path = true
          · rw [if_pos ho] at h
            match ask, ans, h with
            | true, [], h => cases h
            | true, a :: rest, h =>
              simp only at h
              by_cases h1 : Convert.upperStr a = "N"
              · rw [if_pos h1] at h
                cases hr : rename os t0.path with
                | none => rw [hr] at h; cases h
                | some p =>
                  rw [hr] at h
                  rcases ih _ _ _ h with ⟨h', -⟩ | ⟨h2, h3 | ⟨-, h3⟩⟩
                  · cases h'
                  · exact Or.inr ⟨h2, Or.inl h3⟩
                  · exact Or.inr ⟨h2, Or.inl (by rw [h3])⟩
              · rw [if_neg h1] at h
                by_cases h2 : Convert.upperStr a = "Y"
                · rw [if_pos h2] at h
                  cases h
                  refine Or.inl ⟨rfl, rfl, fun _ => ?_⟩
                  unfold Spec.decision
                  simp [(upper_Y a).1 h2]
                · rw [if_neg h2] at h
                  have hn : Spec.answer a = none := by
                    cases ha : Spec.answer a with
                    | none => rfl
                    | some b =>
                      cases b
                      · exact absurd ((upper_N a).2 ha) h1
                      · exact absurd ((upper_Y a).2 ha) h2
                  rcases ih _ _ _ h with ⟨-, h3, h4⟩ | ⟨h3, h4 | ⟨h4, -⟩⟩
                  · refine Or.inl ⟨rfl, h3, fun _ => ?_⟩
                    have := h4 ho
                    unfold Spec.decision at this ⊢
                    simpa [hn] using this
                  · exact Or.inr ⟨h3, Or.inl h4⟩
                  · cases h4
            | false, ans, h =>
              simp only at h
              cases hr : rename os t0.path with
              | none => rw [hr] at h; cases h
              | some p =>
                rw [hr] at h
                rcases ih _ _ _ h with ⟨h', -⟩ | ⟨h2, h3 | ⟨-, h3⟩⟩
                · cases h'
                · exact Or.inr ⟨h2, Or.inl h3⟩
                · exact Or.inr ⟨h2, Or.inl (by rw [h3])⟩
          · rw [if_neg ho] at h
            cases h
            cases ask
            · exact Or.inr ⟨by simpa using ho, Or.inr ⟨rfl, rfl⟩⟩
            · exact Or.inl ⟨rfl, rfl, fun h => absurd h ho⟩
      rcases gen _ _ _ _ hm with ⟨-, rfl, h2⟩ | ⟨h2, h3 | ⟨h3, -⟩⟩
      · exact Or.inl ⟨rfl, rfl, h2⟩
      · exact Or.inr ⟨h2, h3⟩
      · cases h3
    refine ⟨hq, ?_, ?_⟩
    · intro q hopen hne
      have hqt : q = t.path := by
        by_contra hne'
        exact hne (hq q hne')
      subst hqt
      rcases key with ⟨h1, -, h3⟩ | ⟨h1, -⟩
      · rw [h1] at hopen
        exact ⟨h1, h3 hopen⟩
      · rw [h1] at hopen; cases hopen
    · intro hch
      rcases key with ⟨h1, -, -⟩ | ⟨-, h1⟩
      · exact h1
      · rw [h1] at hch; cases hch

/-- **C132** Nothing readable is lost without consent: whatever the file system (even one with infinitely many files), a readable file
that is there before has the same content after, unless it is the given path and the first meaningful answer was yes. The path
reported is the one written; if it is not the given path, the change is announced. -/
theorem C132_never_overwrites {n : ℕ} {fs' : FS S} {t : Target}
    (h : writeDf render os fs n df path answers kwargs = some (.ok (fs', t))) :
    (∀ q, q ≠ t.path → fs' q = fs q) ∧
    (∀ q, Spec.Readable fs q → fs' q ≠ fs q → q = path ∧ Spec.decision answers = some true) ∧
    (t.changed = false → t.path = path) := by
  have := never_overwrites_aux render os fs df path answers kwargs h
  simpa only [opens_iff, opens_false] using this

theorem windows_aux (hfin : {p | opens fs p = true}.Finite) {d a b : Path} (hd : Folder .windows d)
    (ha : NoSep .windows a ∧ NoDot a) (hb : NoSep .windows b ∧ NoDot b)
    (ho : opens fs (d ++ '\\' :: (a ++ '.' :: b)) = true) (hdec : Spec.decision answers = some false) :
    ∃ k, 0 < k ∧ (∀ j < k, opens fs (d ++ '\\' :: (a ++ Spec.news j ++ '.' :: b)) = true) ∧
      opens fs (d ++ '\\' :: (a ++ Spec.news k ++ '.' :: b)) = false ∧
      Result render .windows fs df (d ++ '\\' :: (a ++ '.' :: b)) answers kwargs
        (put render fs df kwargs ⟨d ++ '\\' :: (a ++ Spec.news k ++ '.' :: b), true⟩) := by
  rcases (where_aux render .windows fs df _ answers kwargs hfin).2.2.2 ho hdec with ⟨k, q, hk, hopen, hq, hfree, res⟩ | ⟨k, -, hq, -⟩
  · rw [renames_windows hd ha hb] at hq
    cases hq
    refine ⟨k, hk, fun j hj => ?_, hfree, res⟩
    obtain ⟨r, hr, hr'⟩ := hopen j hj
    rw [renames_windows hd ha hb] at hr
    cases hr
    exact hr'
  · rw [renames_windows hd ha hb] at hq
    cases hq

/-- **C132** On Windows, for `folder\\name.ext` with one dot in the file name, a "no" never fails to find a place: the file is written in
the same folder with the same extension, as `name(new).ext`, `name(new)(new).ext`, ... — the first of these that cannot be opened. -/
theorem C132_windows (hfin : {p | Spec.Readable fs p}.Finite) {d a b : Path} (hd : Folder .windows d)
    (ha : NoSep .windows a ∧ NoDot a) (hb : NoSep .windows b ∧ NoDot b)
    (ho : Spec.Readable fs (d ++ '\\' :: (a ++ '.' :: b))) (hdec : Spec.decision answers = some false) :
    ∃ k, 0 < k ∧ (∀ j < k, Spec.Readable fs (d ++ '\\' :: (a ++ Spec.news j ++ '.' :: b))) ∧
      ¬ Spec.Readable fs (d ++ '\\' :: (a ++ Spec.news k ++ '.' :: b)) ∧
      Result render .windows fs df (d ++ '\\' :: (a ++ '.' :: b)) answers kwargs
        (put render fs df kwargs ⟨d ++ '\\' :: (a ++ Spec.news k ++ '.' :: b), true⟩) := by
  have := windows_aux render fs df answers kwargs (by simpa only [opens_iff] using hfin) hd ha hb ((opens_iff fs _).2 ho) hdec
  simpa only [opens_iff, opens_false] using this

/-! ### What the code gets wrong -/

theorem headOf_le (os : OS) {u : Path} {c : Char} {Z : Path} (hc : os.isSep c = false) (hZ : NoSep os Z) :
    (headOf os (u ++ [c] ++ Z)).length ≤ u.length := by
  unfold headOf
  have h1 : (u ++ [c] ++ Z).reverse = (Z.reverse ++ [c]) ++ u.reverse := by simp
  have h2 : ∀ x ∈ Z.reverse ++ [c], (!os.isSep x) = true := by
    intro x hx
    rcases mem_append.1 hx with h | h
    · rw [hZ x (mem_reverse.1 h)]; rfl
    · rw [mem_singleton] at h; rw [h, hc]; rfl
  rw [h1, dropWhile_append_of_pos h2, length_reverse]
  exact le_trans (dropWhile_sublist _).length_le (by simp)

theorem stripSeps_le (os : OS) (h : Path) : (stripSeps os h).length ≤ h.length := by
  unfold stripSeps
  simp only
  split
  · exact le_rfl
  · rw [length_reverse]
    exact le_trans (dropWhile_sublist _).length_le (by simp)

/-- **C132 (finding)** Everywhere but on Windows, for every `folder/name.ext`, the renamed file is not in the folder: the backslash is
part of its file name, which is `last-component-of-folder\\name(new).ext` in the parent folder. -/
theorem C132_posix_finding {d a b : Path} (hd : Folder .posix d) (ha : NoSep .posix a ∧ NoDot a) (hb : NoSep .posix b ∧ NoDot b) :
    (split .posix (d ++ '/' :: (a ++ '.' :: b))).1 = d ∧
    ∃ q, rename .posix (d ++ '/' :: (a ++ '.' :: b)) = some q ∧ q = d ++ '\\' :: (a ++ "(new)".toList ++ '.' :: b) ∧ (split .posix q).1 ≠ d := by
  obtain ⟨u, c, rfl, hc, -⟩ := hd
  have hsl : OS.posix.isSep '/' = true := by decide
  have hs : split .posix ((u ++ [c]) ++ '/' :: (a ++ '.' :: b)) = (u ++ [c], a ++ '.' :: b) := by
    rw [split_posix]
    obtain ⟨h1, h2⟩ := tailOf_append hsl (u ++ [c]) (noSep_dot _ ha.1 hb.1)
    rw [h1, h2, stripSeps_snoc hc hsl]
  refine ⟨by rw [hs], (u ++ [c]) ++ '\\' :: (a ++ "(new)".toList ++ '.' :: b), ?_, rfl, ?_⟩
  · rw [rename_dot (by rw [hs]) ha.2 hb.2, hs]
  · intro h
    have hn : NoSep .posix ('\\' :: (a ++ "(new)".toList ++ '.' :: b)) := by
      intro x hx
      rcases mem_cons.1 hx with rfl | hx
      · exact bs_posix
      · exact noSep_dot _ (noSep_append ha.1 (news_noSep .posix 1)) hb.1 x hx
    have h1 := headOf_le .posix (u := u) hc hn
    have h2 := stripSeps_le .posix (headOf .posix (u ++ [c] ++ '\\' :: (a ++ "(new)".toList ++ '.' :: b)))
    rw [split_posix] at h
    simp only at h
    rw [h] at h2
    simp at h1 h2
    omega

/-- **C132 (finding)** A file name with two dots or more loses everything after the second: `a.b.c` becomes `a(new).b`, on every system;
with it goes the extension `xlsx`. A name without a dot is an `IndexError`. -/
theorem C132_dots_finding (p a b c : Path) (hp : (split os p).2 = a ++ '.' :: (b ++ '.' :: c)) (ha : NoDot a) (hb : NoDot b) :
    rename os p = some ((split os p).1 ++ '\\' :: (a ++ "(new).".toList ++ b)) ∧
    ∀ p', NoDot (split os p').2 → rename os p' = none := by
  constructor
  · unfold rename
    simp only [hp, (takeWhile_dot ha).1, (takeWhile_dot ha).2, (takeWhile_dot hb).1]
  · intro p' h
    unfold rename
    have : (split os p').2.dropWhile (· ≠ '.') = [] := dropWhile_eq_nil_iff.2 fun c hc => by simpa using h c hc
    simp only [this]

/-- **C132 (finding)** A file that exists and may be written but not read is replaced without asking. -/
theorem C132_unreadable_finding (c s : S) (hf : fs path = .file false true c)
    (hr : render df path (pandasArgs kwargs).1 (pandasArgs kwargs).2 = .ok s) :
    ∀ n, writeDf render os fs (n + 1) df path [] kwargs = some (.ok (Function.update fs path (.file false true s), ⟨path, false⟩)) := by
  intro n
  have ho : opens fs path = false := by simp [opens, hf]
  have hc : choose os fs (n + 1) true ⟨path, false⟩ [] = some (.ok ⟨path, false⟩) := by
    unfold choose
    rw [if_neg (by simp [ho])]
  rw [writeDf_of_choose _ _ _ _ _ _ _ hc]
  simp only [Except.bind, put, toExcel, hr, hf]

/-! ### concrete cases -/

/-- The folder `C:\\data` on Windows. -/
theorem folder_example : Folder .windows "C:\\data".toList :=
  ⟨"C:\\dat".toList, 'a', rfl, by decide, fun _ x h => by
    have := congrArg List.length h
    simp at this⟩

/-- Two existing files; the user answers nonsense, then no: the third name is taken and both files stay. -/
example : ∃ fs' : FS String,
    let fs : FS String := fun p => if p = "C:\\data\\a.xlsx".toList then .file true true "one" else
      if p = "C:\\data\\a(new).xlsx".toList then .file true true "two" else .absent
    writeDf (fun (d : String) _ _ _ => .ok d) .windows fs 9 "three" "C:\\data\\a.xlsx".toList ["maybe", "n"] [] =
      some (.ok (fs', ⟨"C:\\data\\a(new)(new).xlsx".toList, true⟩)) :=
  ⟨_, by rfl⟩

example : Spec.decision ["maybe", "n", "y"] = some false := by decide

/-- From `/tmp/a.xlsx`, the renamed file is `tmp\\a(new).xlsx` in the root folder. -/
example : rename .posix "/tmp/a.xlsx".toList = some "/tmp\\a(new).xlsx".toList ∧
    split .posix "/tmp\\a(new).xlsx".toList = ("/".toList, "tmp\\a(new).xlsx".toList) := by decide

/-- Without a folder, the renamed file goes to the root of the drive on Windows. -/
example : rename .windows "a.xlsx".toList = some "\\a(new).xlsx".toList := by decide

end Reliability.WriteXlsx

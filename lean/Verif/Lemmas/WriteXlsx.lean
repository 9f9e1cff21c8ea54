import Mathlib.Data.Set.Finite.Lattice
import Mathlib.Data.List.TakeWhile
import Mathlib.Data.Finset.Lattice.Fold
import Mathlib.Tactic.Linarith
import Verif.Model.WriteXlsx

/-!
# Lemmas about paths and renaming
-/

namespace Reliability.WriteXlsx

open List

/-! ## splitting -/

def NoSep (os : OS) (t : Path) : Prop := ∀ c ∈ t, os.isSep c = false

def NoDot (t : Path) : Prop := ∀ c ∈ t, c ≠ '.'

theorem head_tail (os : OS) (p : Path) : headOf os p ++ tailOf os p = p := by
  unfold headOf tailOf
  rw [← reverse_append, takeWhile_append_dropWhile, reverse_reverse]

theorem tailOf_noSep (os : OS) (p : Path) : NoSep os (tailOf os p) := by
  intro c hc
  unfold tailOf at hc
  rw [mem_reverse] at hc
  simpa using mem_takeWhile_imp hc

theorem tailOf_append {os : OS} {s : Char} (hs : os.isSep s = true) (u : Path) {Z : Path} (hZ : NoSep os Z) :
    tailOf os (u ++ s :: Z) = Z ∧ headOf os (u ++ s :: Z) = u ++ [s] := by
  have h1 : (u ++ s :: Z).reverse = Z.reverse ++ (s :: u.reverse) := by simp
  have h2 : ∀ c ∈ Z.reverse, (!os.isSep c) = true := by
    intro c hc
    rw [hZ c (mem_reverse.1 hc)]
    rfl
  unfold tailOf headOf
  rw [h1, takeWhile_append_of_pos h2, dropWhile_append_of_pos h2, takeWhile_cons, dropWhile_cons]
  simp [hs]

theorem tailOf_self {os : OS} {Z : Path} (hZ : NoSep os Z) : tailOf os Z = Z ∧ headOf os Z = [] := by
  have h2 : ∀ c ∈ Z.reverse, (!os.isSep c) = true := by
    intro c hc
    rw [hZ c (mem_reverse.1 hc)]
    rfl
  unfold tailOf headOf
  rw [takeWhile_eq_self_iff.2 h2, dropWhile_eq_nil_iff.2 h2]
  simp

theorem stripSeps_snoc {os : OS} {u : Path} {c s : Char} (hc : os.isSep c = false) (hs : os.isSep s = true) :
    stripSeps os (u ++ [c] ++ [s]) = u ++ [c] := by
  unfold stripSeps
  simp [hs, hc]

theorem stripSeps_all {os : OS} {h : Path} (hh : ∀ c ∈ h, os.isSep c = true) : stripSeps os h = h := by
  unfold stripSeps
  have : h.reverse.dropWhile os.isSep = [] := dropWhile_eq_nil_iff.2 fun c hc => hh c (mem_reverse.1 hc)
  simp [this]

theorem isSep_colon (os : OS) : os.isSep ':' = false := by cases os <;> decide

/-! ## renaming -/

theorem rename_eq {os : OS} {p p' : Path} (h : rename os p = some p') :
    ∃ a b, (split os p).2.takeWhile (· ≠ '.') = a ∧ NoDot a ∧ NoDot b ∧ (∀ c ∈ a, c ∈ (split os p).2) ∧ (∀ c ∈ b, c ∈ (split os p).2) ∧
      p' = (split os p).1 ++ '\\' :: (a ++ "(new).".toList ++ b) ∧
      ∀ b', NoDot b' → (split os p).2 = a ++ '.' :: b' → b = b' := by
  unfold rename at h
  simp only at h
  split at h
  · cases h
  · rename_i d rest hd
    simp only [Option.some.injEq] at h
    have hdr : d :: rest = (split os p).2.dropWhile (· ≠ '.') := hd.symm
    have hmem : ∀ c ∈ d :: rest, c ∈ (split os p).2 := by
      intro c hc
      rw [hdr] at hc
      exact (dropWhile_sublist _).subset hc
    refine ⟨_, rest.takeWhile (· ≠ '.'), rfl, ?_, ?_, ?_, ?_, h.symm, ?_⟩
    · intro c hc; simpa using mem_takeWhile_imp hc
    · intro c hc; simpa using mem_takeWhile_imp hc
    · intro c hc; exact (takeWhile_sublist _).subset hc
    · intro c hc; exact hmem c (mem_cons_of_mem _ ((takeWhile_sublist _).subset hc))
    · intro b' hb' e
      have : (split os p).2 = (split os p).2.takeWhile (· ≠ '.') ++ (d :: rest) := by
        rw [hdr, takeWhile_append_dropWhile]
      have e2 := this.symm.trans e
      rw [append_cancel_left_eq] at e2
      cases e2
      exact takeWhile_eq_self_iff.2 fun c hc => by simpa using hb' c hc

def OneDot (t : Path) : Prop := ∃ a b, t = a ++ '.' :: b ∧ NoDot a ∧ NoDot b

theorem takeWhile_dot {a b : Path} (ha : NoDot a) : (a ++ '.' :: b).takeWhile (· ≠ '.') = a ∧ (a ++ '.' :: b).dropWhile (· ≠ '.') = '.' :: b := by
  have h : ∀ c ∈ a, decide (c ≠ '.') = true := fun c hc => by simpa using ha c hc
  rw [takeWhile_append_of_pos h, dropWhile_append_of_pos h]
  simp

/-- The new name of a path whose file name is `a.b`. -/
theorem rename_dot {os : OS} {p a b : Path} (h : (split os p).2 = a ++ '.' :: b) (ha : NoDot a) (hb : NoDot b) :
    rename os p = some ((split os p).1 ++ '\\' :: ((a ++ "(new)".toList) ++ '.' :: b)) := by
  unfold rename
  simp only [h, (takeWhile_dot ha).1, (takeWhile_dot ha).2]
  rw [takeWhile_eq_self_iff.2 fun c hc => by simpa using hb c hc]
  congr 3
  simp

/-! ### windows -/

theorem bs_sep : OS.windows.isSep '\\' = true := by decide

theorem split_windows {x Z : Path} (hx : x ≠ []) (hZ : NoSep .windows Z) :
    (split .windows (x ++ '\\' :: Z)).2 = Z ∧ (split .windows (x ++ '\\' :: Z)).1 ≠ [] := by
  have key : ∀ u : Path, stripSeps .windows (headOf .windows (u ++ '\\' :: Z)) ≠ [] := by
    intro u
    rw [(tailOf_append bs_sep u hZ).2]
    unfold stripSeps
    simp only
    split
    · simp
    · assumption
  unfold split
  simp only
  match x, hx with
  | [c], _ =>
    refine ⟨(tailOf_append bs_sep [c] hZ).1, ?_⟩
    exact key [c]
  | c :: d :: r, _ =>
    by_cases hd : d = ':'
    · subst hd
      exact ⟨(tailOf_append bs_sep r hZ).1, by simp [splitDrive]⟩
    · have : splitDrive .windows ((c :: d :: r) ++ '\\' :: Z) = ([], (c :: d :: r) ++ '\\' :: Z) := by
        simp only [cons_append]
        unfold splitDrive
        split
        · rename_i h; cases h; exact absurd rfl hd
        · rfl
      rw [this]
      exact ⟨(tailOf_append bs_sep (c :: d :: r) hZ).1, by simpa using key (c :: d :: r)⟩

theorem split_noSep (os : OS) (p : Path) : NoSep os (split os p).2 := tailOf_noSep os _

theorem new_noSep {os : OS} {a b : Path} (ha : NoSep os a) (hb : NoSep os b) : NoSep os (a ++ "(new).".toList ++ b) := by
  intro c hc
  rw [append_assoc, mem_append, mem_append] at hc
  rcases hc with hc | hc | hc
  · exact ha c hc
  · have : ∀ c ∈ "(new).".toList, os.isSep c = false := by cases os <;> decide
    exact this c hc
  · exact hb c hc

theorem rename_tail {os : OS} {p p' : Path} (h : rename os p = some p') :
    ∃ Z, p' = (split os p).1 ++ '\\' :: Z ∧ NoSep os Z ∧ OneDot Z ∧
      (OneDot (split os p).2 → Z.length = (split os p).2.length + 5) := by
  obtain ⟨a, b, ha, hda, hdb, ma, mb, e, hb⟩ := rename_eq h
  have hs := split_noSep os p
  refine ⟨_, e, new_noSep (fun c hc => hs c (ma c hc)) (fun c hc => hs c (mb c hc)), ?_, ?_⟩
  · refine ⟨a ++ "(new)".toList, b, by simp, ?_, hdb⟩
    intro c hc
    rcases mem_append.1 hc with hc | hc
    · exact hda c hc
    · have : ∀ c ∈ "(new)".toList, c ≠ '.' := by decide
      exact this c hc
  · rintro ⟨a', b', e', ha', hb'⟩
    have : a = a' := by rw [← ha, e', (takeWhile_dot ha').1]
    subst this
    rw [hb b' hb' e', e']
    simp
    omega

/-! ### iterating -/

/-- The name after `k` renamings (`none`: one of them is impossible). -/
def renames (os : OS) : ℕ → Path → Option Path
  | 0, p => some p
  | k + 1, p => (rename os p).bind (renames os k)

theorem renames_add (os : OS) (j k : ℕ) (p : Path) : renames os (j + k) p = (renames os j p).bind (renames os k) := by
  induction j generalizing p with
  | zero => simp [renames]
  | succ j ih =>
    rw [Nat.succ_add]
    simp only [renames]
    cases rename os p with
    | none => rfl
    | some q => exact ih q

/-- Renaming leaves every finite set of paths. -/
def Escapes (os : OS) (p : Path) : Prop := ∀ S : Set Path, S.Finite → ∃ k, ∀ q, renames os k p = some q → q ∉ S

theorem escapes_step {os : OS} {p : Path} (h : ∀ p', rename os p = some p' → Escapes os p') : Escapes os p := by
  intro S hS
  cases hr : rename os p with
  | none => exact ⟨1, fun q hq => by simp [renames, hr] at hq⟩
  | some p' =>
    obtain ⟨k, hk⟩ := h p' hr S hS
    refine ⟨k + 1, fun q hq => hk q ?_⟩
    simpa [renames, hr] using hq

theorem escapes_of_measure {os : OS} (Good : Path → Prop) (m : Path → ℕ)
    (step : ∀ p p', Good p → rename os p = some p' → Good p' ∧ m p < m p') {p : Path} (hp : Good p) : Escapes os p := by
  intro S hS
  have grow : ∀ k q, renames os k p = some q → k ≤ m q ∧ Good q := by
    intro k
    induction k with
    | zero =>
      intro q hq
      cases hq
      exact ⟨Nat.zero_le _, hp⟩
    | succ k ih =>
      intro q hq
      rw [renames_add] at hq
      obtain ⟨r, hr, hq⟩ := Option.bind_eq_some_iff.1 hq
      obtain ⟨h1, h2⟩ := ih r hr
      have hq' : rename os r = some q := by
        simp only [renames] at hq
        obtain ⟨x, hx, e⟩ := Option.bind_eq_some_iff.1 hq
        cases e
        exact hx
      obtain ⟨g, hlt⟩ := step r q h2 hq'
      exact ⟨by omega, g⟩
  obtain ⟨B, hB⟩ := (hS.image m).bddAbove
  refine ⟨B + 1, fun q hq hqS => ?_⟩
  have := (grow _ q hq).1
  have h2 := hB (Set.mem_image_of_mem m hqS)
  omega

theorem escapes_windows (p : Path) : Escapes .windows p := by
  have good : ∀ p : Path, (split .windows p).1 ≠ [] ∧ OneDot (split .windows p).2 → Escapes .windows p := by
    intro p hp
    refine escapes_of_measure (fun p => (split .windows p).1 ≠ [] ∧ OneDot (split .windows p).2)
      (fun p => (split .windows p).2.length) ?_ hp
    rintro p p' ⟨h1, h2⟩ hr
    obtain ⟨Z, e, hZ, hd, hl⟩ := rename_tail hr
    obtain ⟨s1, s2⟩ := split_windows h1 hZ
    rw [← e] at s1 s2
    refine ⟨⟨s2, by rw [s1]; exact hd⟩, ?_⟩
    rw [s1, hl h2]
    omega
  refine escapes_step fun p1 h1 => escapes_step fun p2 h2 => good p2 ?_
  obtain ⟨Z, e, hZ, hd, -⟩ := rename_tail h1
  have hne : (split .windows p1).1 ≠ [] := by
    by_cases hx : (split .windows p).1 = []
    · rw [hx, nil_append] at e
      subst e
      unfold split
      simp only
      unfold splitDrive
      split
      · simp
      · simp only [nil_append]
        rw [(tailOf_append bs_sep [] hZ).2 |> fun h => (by simpa using h : headOf .windows ('\\' :: Z) = ['\\'])]
        decide
    · rw [e]; exact (split_windows hx hZ).2
  obtain ⟨Z2, e2, hZ2, hd2, -⟩ := rename_tail h2
  obtain ⟨s1, s2⟩ := split_windows hne hZ2
  rw [← e2] at s1 s2
  exact ⟨s2, by rw [s1]; exact hd2⟩

/-! ### posix -/

theorem split_posix (p : Path) : split .posix p = (stripSeps .posix (headOf .posix p), tailOf .posix p) := by
  unfold split
  have : splitDrive .posix p = ([], p) := by
    unfold splitDrive
    split
    · rename_i h; cases h
    · rfl
  rw [this]
  rfl

theorem bs_posix : OS.posix.isSep '\\' = false := by decide

/-- No directory in front of the file name but the root. -/
def Rooted (p : Path) : Prop := ∀ c ∈ headOf .posix p, OS.posix.isSep c = true

theorem rooted_step {p p' : Path} (hp : Rooted p) (hr : rename .posix p = some p') :
    ∃ Z, OneDot Z ∧ headOf .posix p' = headOf .posix p ∧ tailOf .posix p' = '\\' :: Z ∧
      (OneDot (tailOf .posix p) → Z.length = (tailOf .posix p).length + 5) := by
  obtain ⟨Z, e, hZ, hd, hl⟩ := rename_tail hr
  rw [split_posix] at e hl
  simp only at e hl
  rw [stripSeps_all hp] at e
  refine ⟨Z, hd, ?_, ?_, hl⟩
  all_goals
    have hZ' : NoSep .posix ('\\' :: Z) := by
      intro c hc
      rcases mem_cons.1 hc with rfl | hc
      · exact bs_posix
      · exact hZ c hc
    rcases eq_nil_or_concat (headOf .posix p) with h0 | ⟨u, s, h0⟩
    · rw [h0, nil_append] at e
      rw [e]
      first
        | rw [(tailOf_self hZ').2, h0]
        | rw [(tailOf_self hZ').1]
    · rw [concat_eq_append] at h0
      have hs : OS.posix.isSep s = true := hp s (by rw [h0]; simp)
      rw [h0] at e
      have e' : p' = u ++ s :: ('\\' :: Z) := by rw [e]; simp
      rw [e']
      first
        | rw [(tailOf_append hs u hZ').2, h0]
        | rw [(tailOf_append hs u hZ').1]

theorem escapes_rooted {p : Path} (hp : Rooted p) : Escapes .posix p := by
  have one : ∀ {p p' : Path}, Rooted p → rename .posix p = some p' → Rooted p' ∧ OneDot (tailOf .posix p') := by
    intro p p' hp hr
    obtain ⟨Z, ⟨a, b, e, ha, hb⟩, h1, h2, -⟩ := rooted_step hp hr
    refine ⟨by unfold Rooted; rw [h1]; exact hp, ?_⟩
    rw [h2, e]
    refine ⟨'\\' :: a, b, rfl, ?_, hb⟩
    intro c hc
    rcases mem_cons.1 hc with rfl | hc
    · decide
    · exact ha c hc
  refine escapes_step fun p1 h1 => ?_
  refine escapes_of_measure (fun p => Rooted p ∧ OneDot (tailOf .posix p)) (fun p => (tailOf .posix p).length) ?_ (one hp h1)
  rintro p p' ⟨g1, g2⟩ hr
  obtain ⟨Z, -, -, h2, h3⟩ := rooted_step g1 hr
  refine ⟨one g1 hr, ?_⟩
  rw [h2, length_cons, h3 g2]
  omega

theorem escapes_posix (p : Path) : Escapes .posix p := by
  generalize hn : p.count '/' = n
  induction n using Nat.strong_induction_on generalizing p with
  | _ n ih =>
    by_cases hp : Rooted p
    · exact escapes_rooted hp
    · refine escapes_step fun p' hr => ih _ ?_ p' rfl
      obtain ⟨Z, e, hZ, -, -⟩ := rename_tail hr
      rw [split_posix] at e
      simp only at e
      have isSl : ∀ c, OS.posix.isSep c = true ↔ c = '/' := by intro c; simp [OS.isSep]
      have hZ0 : ('\\' :: Z).count '/' = 0 := by
        rw [count_eq_zero]
        intro hm
        rcases mem_cons.1 hm with h | h
        · exact absurd h (by decide)
        · have := hZ _ h; simp [OS.isSep] at this
      rw [e, count_append, hZ0, ← hn]
      have hlt : (stripSeps .posix (headOf .posix p)).count '/' < (headOf .posix p).count '/' := by
        unfold stripSeps
        simp only
        have hne : ((headOf .posix p).reverse.dropWhile OS.posix.isSep).reverse ≠ [] := by
          intro h
          apply hp
          rw [reverse_eq_nil_iff, dropWhile_eq_nil_iff] at h
          exact fun c hc => h c (mem_reverse.2 hc)
        rw [if_neg hne, count_reverse]
        have hd := takeWhile_append_dropWhile (p := OS.posix.isSep) (l := (headOf .posix p).reverse)
        have hc : (headOf .posix p).count '/' = ((headOf .posix p).reverse.takeWhile OS.posix.isSep).count '/' +
            ((headOf .posix p).reverse.dropWhile OS.posix.isSep).count '/' := by
          rw [← count_append, hd, count_reverse]
        have hpos : 0 < ((headOf .posix p).reverse.takeWhile OS.posix.isSep).count '/' := by
          have hh : (headOf .posix p).reverse = p.reverse.dropWhile fun c => !OS.posix.isSep c := by
            unfold headOf; rw [reverse_reverse]
          rw [hh]
          cases hx : p.reverse.dropWhile fun c => !OS.posix.isSep c with
          | nil =>
            exfalso
            apply hp
            intro c hc
            unfold headOf at hc
            rw [hx] at hc
            simp at hc
          | cons c l =>
            have hcs : OS.posix.isSep c = true := by
              have := head_dropWhile_not (l := p.reverse) (fun c => !OS.posix.isSep c) (by rw [hx]; simp)
              simp only [hx, head_cons] at this
              simpa using this
            rw [takeWhile_cons, if_pos hcs, (isSl c).1 hcs]
            simp
        omega
      have hle : (headOf .posix p).count '/' ≤ p.count '/' := by
        conv_rhs => rw [← head_tail .posix p]
        rw [count_append]; omega
      omega

theorem escapes (os : OS) (p : Path) : Escapes os p := by
  cases os
  · exact escapes_windows p
  · exact escapes_posix p

end Reliability.WriteXlsx

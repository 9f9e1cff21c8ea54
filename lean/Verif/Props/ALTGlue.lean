import Mathlib.Data.List.GetD
import Verif.Lemmas.ALTClasses
import Verif.Lemmas.FitGlue
import Verif.Props.ALTCheck
import Verif.Props.ALTLeastSquares
import Verif.Props.FitGlueReturns

/-! # C110: what the ALT fitters report -/

namespace Reliability.Props.ALTGlue

open Reliability Reliability.ALT Reliability.ALTGlue Reliability.InputCheck Reliability.FitGlue
open Reliability.Fitters (OptResult mleOptimization Bound MLEOut)
open Reliability.FunctionCI (Jac zOf Two)
open Reliability.ALTLeastSquares (altLeastSquares altBounds)
open Reliability.Spec Reliability.Spec.InputCheck Reliability.Spec.ALTGlue
open Reliability.Spec.FitGlue (Scale Interval stdErr secondPartials)
open Reliability.Likelihood (ciPositive ciReal)

/-! ## The groups -/

/-- How a kind of stress represents the stresses. -/
structure KindLaw {σ κ : Type} (k : Kind σ κ) (dual : Bool) (tos : ℝ × Option ℝ → σ) : Prop where
  keyInj : KeyInj dual k.key
  stress : ∀ s : ℝ × Option ℝ, s.2.isSome = dual → k.stress (k.key s.1 s.2) = tos s
  inj : ∀ s s' : ℝ × Option ℝ, s.2.isSome = dual → s'.2.isSome = dual → tos s = tos s' → s = s'
  join : ∀ A B F : List ℝ, A.length = F.length → (dual = true → B.length = F.length) →
    F.zip (k.join A B) = (stressRows dual A B F).map (fun r => (r.2, tos r.1)) ∧ (k.join A B).length = F.length

theorem padGroups_length {κ : Type} [DecidableEq κ] (ck : List κ) (ks : List κ) (i : ℕ) (g : List (List ℝ)) :
    (padGroups ck i ks g).length = g.length + (ks.filter fun s => decide (s ∉ ck)).length := by
  induction ks generalizing i g with
  | nil => simp [padGroups]
  | cons s ss ih =>
    rw [padGroups, ih]
    by_cases hs : s ∈ ck
    · simp [hs]
    · have : (pyInsert g i ([] : List ℝ)).length = g.length + 1 := by
        simp only [pyInsert, List.length_append, List.length_cons, List.length_take, List.length_drop]
        omega
      simp only [hs, not_false_eq_true, if_true, this, decide_true, List.filter_cons_of_pos, List.length_cons]
      omega

theorem groupData_lengths {κ : Type} [LinearOrder κ] {strict : Bool} {m : ℕ} {fRows cRows : List (κ × ℝ)} {fg cg keys}
    (h : groupData strict m fRows cRows = .ok (fg, cg, keys)) :
    fg.length = keys.length ∧ (∀ g, cg = some g → keys.length ≤ g.length) ∧
      groupData strict m fRows [] = .ok (fg, none, keys) := by
  unfold groupData at h ⊢
  simp only at h ⊢
  by_cases h1 : totalUnique ((groupby fRows).map (·.2)) < m
  · rw [if_pos h1] at h; cases h
  rw [if_neg h1] at h ⊢
  by_cases h2 : 0 < cRows.length
  · rw [if_pos h2] at h
    by_cases h3 : strict = true ∧ ((groupby cRows).map (·.1)).any (fun k => decide (k ∉ (groupby fRows).map (·.1))) = true
    · rw [if_pos h3] at h; cases h
    rw [if_neg h3] at h
    cases h
    refine ⟨by simp, ?_, by simp⟩
    rintro g hg
    have hg : padGroups ((groupby cRows).map (·.1)) 0 ((groupby fRows).map (·.1)) ((groupby cRows).map (·.2)) = g :=
      Option.some.inj hg
    rw [← hg, padGroups_length]
    have hk := groupby_keys fRows
    have hc := groupby_keys cRows
    have hnd : ((groupby fRows).map (·.1)).Nodup := by
      rw [hk]; exact (sortedKeys_strict _).imp fun h => ne_of_lt h
    have hle : (((groupby fRows).map (·.1)).filter fun s => decide (s ∈ (groupby cRows).map (·.1))).length ≤
        ((groupby cRows).map (·.1)).length := by
      apply List.Subperm.length_le
      apply List.subperm_of_subset (hnd.filter _)
      intro x hx
      simpa using (List.mem_filter.1 hx).2
    have hsum := List.length_eq_length_filter_add (l := (groupby fRows).map (·.1))
      (fun s => decide (s ∈ (groupby cRows).map (·.1)))
    have e : (((groupby fRows).map (·.1)).filter fun x => !decide (x ∈ (groupby cRows).map (·.1))) =
        ((groupby fRows).map (·.1)).filter fun s => decide (s ∉ (groupby cRows).map (·.1)) := by
      apply List.filter_congr; intro x _; simp
    rw [e] at hsum
    have e2 : ((groupby cRows).map (·.2)).length = ((groupby cRows).map (·.1)).length := by simp
    rw [e2]
    omega
  · rw [if_neg h2] at h
    cases h
    exact ⟨by simp, by simp, by simp⟩

/-- The stresses of an accepted input, whatever the censored data. -/
theorem stresses_ok {κ : Type} [LinearOrder κ] (key : ℝ → Option ℝ → κ) (dist model : String)
    (f fs1 fs2 c cs1 cs2 : DataArg ℝ) (hkey : ∀ dual, (dual = true ↔ DualStress model fs2) → KeyInj dual key)
    (CI : CIArg ℝ) (use : UseArg ℝ) (optimizer : StrArg) (r : ALTChecked ℝ κ)
    (h : altCheck key dist model f fs1 fs2 c cs1 cs2 CI use optimizer = .ok r) (dual : Bool)
    (hdual : dual = true ↔ DualStress model fs2) :
    (∃ S : List (ℝ × Option ℝ), S.Nodup ∧
      (∀ s, s ∈ S ↔ ∃ x, (s, x) ∈ stressRows dual r.failure_stress_1 r.failure_stress_2 r.failures) ∧
      r.stresses_for_groups = S.map fun s => key s.1 s.2) ∧
    r.failure_groups.length = r.stresses_for_groups.length ∧
    ∀ g, r.right_censored_groups = some g → r.stresses_for_groups.length ≤ g.length := by
  rw [altCheck_iff] at h
  obtain ⟨h1, h2, t1, t2, t3, t4, t5, t6, ⟨fg, cg, keys, t7, e1, e2, e3⟩, t8⟩ := h
  obtain ⟨l1, l2, l3⟩ := groupData_lengths t7
  refine ⟨?_, by rw [e1, e3]; simpa using l1, ?_⟩
  · have hc : altCheck key dist model f fs1 fs2 .none .none .none CI use optimizer =
        .ok ⟨r.failures, r.failure_stress_1, r.failure_stress_2, [], [], [], r.CI, r.optimizer, r.use_level_stress,
          r.failure_groups, none, r.stresses_for_groups⟩ := by
      rw [altCheck_iff]
      rw [altTypes_iff] at t1
      rw [altLengths_iff] at t2
      rw [altPositive_iff] at t3
      refine ⟨h1, h2, ?_, ?_, ?_, t4, t5, t6, ⟨fg, none, keys, ?_, e1, rfl, e3⟩, t8⟩
      · rw [altTypes_iff]
        exact ⟨t1.1, .inl ⟨rfl, rfl, rfl, rfl⟩⟩
      · rw [altLengths_iff]
        exact ⟨t2.1, rfl, fun hd => ⟨(t2.2.2 hd).1, rfl⟩⟩
      · rw [altPositive_iff]
        refine ⟨?_, t3.2.1, by simp⟩
        intro hn
        have hF : r.failures = [] := by simpa using hn
        have h6 := (altStresses_iff _ _ _ _).1 t6
        have := t2.1
        rw [hF] at this
        have : r.failure_stress_1 = [] := by simpa using this
        rw [this] at h6
        simp at h6
      · rw [← l3]
        congr 1
        unfold stressRows
        simp
    obtain ⟨dual', q, -, -, -, hg⟩ := C74_groups key dist model f fs1 fs2 .none .none .none hkey CI use optimizer _ hc
    have hdd : dual = dual' := by
      have := hdual.trans q.is_dual.symm
      cases dual <;> cases dual' <;> simp_all
    subst hdd
    obtain ⟨S, g⟩ := hg (.inr (by simp))
    exact ⟨S, g.nodup, g.stresses_iff, g.reported⟩
  · intro g hg
    rw [e2] at hg
    cases cg with
    | none => cases hg
    | some g' =>
      cases hg
      rw [e3]
      simpa using l2 g' rfl

theorem groupFits_spec {dist : String} {argsort : List ℝ → List ℕ} {J : Jac} {num : ℕ → Option ℝ → Num2} {i : ℕ}
    {gs : List (List ℝ × Option (List ℝ))} {rs : List (Option (ℝ × ℝ))} (h : groupFits dist argsort J num i gs = .ok rs) :
    ∃ os : List (Option (FitRes Two)), rs = os.map (fun o => o.map fun r => (r.dist.a, r.dist.b)) ∧
      List.Forall₂ (fun g o => (¬ 1 < g.1.length → o = none) ∧
        (1 < g.1.length → ∃ j r, o = some r ∧ groupFit dist argsort J (num j) g.1 g.2 = .ok r)) gs os := by
  induction gs generalizing i rs with
  | nil =>
    rw [groupFits] at h
    cases h
    exact ⟨[], rfl, .nil⟩
  | cons g gs ih =>
    rw [groupFits] at h
    simp only [bind_ok] at h
    obtain ⟨r, h1, rs', h2, h3⟩ := h
    unfold groupParams at h1
    obtain ⟨os, e, hos⟩ := ih h2
    have h3 : rs = r :: rs' := (Except.ok.inj h3).symm
    by_cases hg : 1 < g.1.length
    · rw [if_pos hg] at h1
      cases hq : groupFit dist argsort J (num i) g.1 g.2 with
      | error e => rw [hq] at h1; cases h1
      | ok q =>
        rw [hq] at h1
        have h1 : some (q.dist.a, q.dist.b) = r := Except.ok.inj h1
        refine ⟨some q :: os, ?_, .cons ⟨fun h => absurd hg h, fun _ => ⟨i, q, rfl, hq⟩⟩ hos⟩
        rw [h3, e, ← h1]; rfl
    · rw [if_neg hg] at h1
      have h1 : none = r := Except.ok.inj h1
      refine ⟨none :: os, ?_, .cons ⟨fun _ => rfl, fun h => absurd h hg⟩ hos⟩
      rw [h3, e, ← h1]; rfl

theorem groupFit_fitOf {dist : String} {argsort : List ℝ → List ℕ} {J : Jac} {num : Option ℝ → Num2} {f : List ℝ}
    {rc : Option (List ℝ)} {r : FitRes Two} (h : groupFit dist argsort J num f rc = .ok r) :
    FitOf dist argsort J num f (rcArg rc) r := by
  unfold groupFit at h
  unfold FitOf
  dsimp only at h
  split_ifs at h with h1 h2
  · subst h1; exact h
  · subst h2; exact h
  · split
    · exact absurd rfl h1
    · exact absurd rfl h2
    · exact h

theorem commonShape_eq (os : List (Option (FitRes Two))) :
    commonShape (os.map fun o => o.map fun r => (r.dist.a, r.dist.b)) =
      meanOr1 (os.filterMap fun o => o.map fun r => r.dist.b) := by
  unfold commonShape meanOr1
  have e : (os.map fun o => o.map fun r => (r.dist.a, r.dist.b)).filterMap (fun g => g.map Prod.snd) =
      os.filterMap fun o => o.map fun r => r.dist.b := by
    rw [List.filterMap_map]
    apply List.filterMap_congr
    intro o _
    cases o <;> rfl
  dsimp only
  rw [e]
  by_cases h : (os.filterMap fun o => o.map fun r => r.dist.b) = []
  · simp [h]
  · rw [if_neg h, if_pos (List.length_pos_iff.2 h)]

/-! ## The table of changes -/

theorem filterMap_get {α : Type} (l : List α) : (List.range l.length).filterMap (fun i => l[i]?) = l := by
  induction l with
  | nil => rfl
  | cons a l ih =>
    rw [List.length_cons, List.range_succ_eq_map, List.filterMap_cons_some (b := a) (by simp), List.filterMap_map]
    congr 1

theorem changeTable_eq {σ : Type} (stresses : List σ) (gs : List (Option (ℝ × ℝ))) (fit : Fit) (common : ℝ)
    (hg : stresses.length ≤ gs.length) (f : σ → ℝ) (g : σ → Option ℝ) (hn : fit.newScale = stresses.map f)
    (ha : ∀ i (h : i < stresses.length), fit.AF[i]? = g stresses[i]) :
    changeTable stresses gs fit common = List.zipWith (fun s o => changeRow s o (f s) common (g s)) stresses gs := by
  unfold changeTable
  have e : ∀ i ∈ List.range stresses.length, changeAt stresses gs fit common i =
      (List.zipWith (fun s o => changeRow s o (f s) common (g s)) stresses gs)[i]? := by
    intro i hi
    have hi := List.mem_range.1 hi
    unfold changeAt
    rw [List.getElem?_zipWith, hn, List.getElem?_map, List.getElem?_eq_getElem hi,
      List.getElem?_eq_getElem (lt_of_lt_of_le hi hg), ha i hi]
    rfl
  rw [List.filterMap_congr e]
  have hl : (List.zipWith (fun s o => changeRow s o (f s) common (g s)) stresses gs).length = stresses.length := by
    rw [List.length_zipWith]; omega
  generalize List.zipWith (fun s o => changeRow s o (f s) common (g s)) stresses gs = l at hl ⊢
  rw [← hl]
  exact filterMap_get l

/-! ## The rows -/

/-- Standard errors from the inverse of the information. -/
noncomputable def ses {n : ℕ} (V : Option (Matrix (Fin n) (Fin n) ℝ)) : Option (List ℝ) :=
  V.map fun V => List.ofFn fun i => seOf (V i i)

theorem orWarn_ok {α : Type} {s s' : Option α} {o : Option String} (h : orWarn s o = .ok s') : s' = s := by
  unfold orWarn at h
  cases s with
  | some a => exact (Except.ok.inj h).symm
  | none =>
    unfold warned at h
    cases o with
    | none => cases h
    | some _ => exact (Except.ok.inj h).symm

theorem rows_points {n : ℕ} (names : List String) (hn : names.length = n) (p : Fin n → ℝ) (SE : Option (List ℝ))
    (b : List (ℝ × ℝ)) :
    (resultRows names p SE b).map (fun w => (w.name, w.point)) = names.zip (List.ofFn p) := by
  unfold resultRows
  rw [List.map_ofFn]
  apply List.ext_getElem
  · simp [hn]
  · intro i h1 h2
    have hi : i < n := by simpa using h1
    simp only [List.getElem_ofFn, List.getElem_zip, Function.comp_apply]
    rw [List.getD_eq_getElem _ _ (by rw [hn]; exact hi)]

theorem rows_SE {n : ℕ} (names : List String) (p : Fin n → ℝ) (V : Option (Matrix (Fin n) (Fin n) ℝ))
    (b : List (ℝ × ℝ)) : (resultRows names p (ses V) b).map Row.SE = List.ofFn (fun i => stdErr V i) := by
  unfold resultRows
  rw [List.map_ofFn]
  congr 1
  funext i
  simp only [Function.comp_apply]
  cases V with
  | none => rfl
  | some V =>
    simp only [ses, Option.map_some, Option.getD_some, stdErr]
    rw [List.getD_eq_getElem _ _ (by simp)]
    simp [seOf]

theorem rows_interval {n : ℕ} (names : List String) (p : Fin n → ℝ) (V : Option (Matrix (Fin n) (Fin n) ℝ))
    (scales : List Scale) (hs : scales.length = n) {Z : ℝ} (hZ : 0 ≤ Z) :
    List.Forall₂ (Interval Z) (resultRows names p (ses V) (ciBounds (scales.map isLog) (List.ofFn p) (ses V) Z)) scales := by
  unfold resultRows
  rw [List.forall₂_iff_get]
  refine ⟨by simp [hs], ?_⟩
  intro i h1 h2
  have hi : i < n := by simpa using h1
  simp only [List.get_eq_getElem, List.getElem_ofFn]
  cases V with
  | none =>
    have e : (ciBounds (scales.map isLog) (List.ofFn p) (ses (n := n) none) Z).getD i (0, 0) = (p ⟨i, hi⟩, p ⟨i, hi⟩) := by
      simp only [ciBounds, ses, Option.map_none]
      rw [List.getD_eq_getElem _ _ (by simp [hi])]
      simp
    rw [e]
    exact interval_fixed Z _ _ _
  | some V =>
    have e : (ciBounds (scales.map isLog) (List.ofFn p) (ses (some V)) Z).getD i (0, 0) =
        if isLog scales[i] then ciPositive (p ⟨i, hi⟩) (seOf (V ⟨i, hi⟩ ⟨i, hi⟩)) Z
        else ciReal (p ⟨i, hi⟩) (seOf (V ⟨i, hi⟩ ⟨i, hi⟩)) Z := by
      simp only [ciBounds, ses, Option.map_some]
      rw [List.getD_eq_getElem _ _ (by simp [hi, hs])]
      simp
    rw [e]
    have e2 : (((ses (some V)).getD []).getD i 0) = seOf (V ⟨i, hi⟩ ⟨i, hi⟩) := by
      simp only [ses, Option.map_some, Option.getD_some]
      rw [List.getD_eq_getElem _ _ (by simp [hi])]
      simp
    rw [e2]
    cases hsc : scales[i] with
    | log =>
      simp only [isLog, if_true]
      exact interval_log _ hZ (seOf_nonneg _)
    | linear =>
      simp only [isLog, Bool.false_eq_true, if_false]
      exact interval_linear _ hZ (seOf_nonneg _)

/-! ## The theorem -/

theorem mem_rows {σ κ : Type} {k : Kind σ κ} {dual : Bool} {tos : ℝ × Option ℝ → σ} (hk : KindLaw k dual tos)
    {A B F : List ℝ} (h1 : A.length = F.length) (h2 : dual = true → B.length = F.length) (s : ℝ × Option ℝ)
    (hs : s.2.isSome = dual) (x : ℝ) :
    (s, x) ∈ stressRows dual A B F ↔ (x, tos s) ∈ F.zip (k.join A B) := by
  rw [(hk.join A B F h1 h2).1, List.mem_map]
  constructor
  · intro h; exact ⟨_, h, rfl⟩
  · rintro ⟨⟨s', x'⟩, h, e⟩
    simp only [Prod.mk.injEq] at e
    obtain ⟨rfl, e⟩ := e
    rw [← hk.inj _ _ (stressRows_isSome h) hs e]
    exact h

theorem unitsAt_eq {σ κ : Type} [DecidableEq σ] {k : Kind σ κ} {dual : Bool} {tos : ℝ × Option ℝ → σ} (hk : KindLaw k dual tos)
    {A B F : List ℝ} (h1 : A.length = F.length) (h2 : dual = true → B.length = F.length) (s : ℝ × Option ℝ)
    (hs : s.2.isSome = dual) :
    unitsAt (F.zip (k.join A B)) (tos s) = valuesAt (stressRows dual A B F) s := by
  unfold unitsAt valuesAt
  rw [(hk.join A B F h1 h2).1, List.filter_map, List.map_map]
  congr 1
  apply List.filter_congr
  intro r hr
  simp only [Function.comp_apply]
  congr 1
  rw [eq_iff_iff]
  exact ⟨fun h => hk.inj _ _ (stressRows_isSome hr) hs h, fun h => by rw [h]⟩

theorem zip_fst {α : Type} (F : List ℝ) (S : List α) (h : S.length = F.length) : (F.zip S).map Prod.fst = F :=
  List.map_fst_zip h.ge

theorem zip_snd {α : Type} (F : List ℝ) (S : List α) (h : S.length = F.length) : (F.zip S).map Prod.snd = S :=
  List.map_snd_zip h.le

theorem mle_fail {P : Type} {minimize : String → P → OptResult P} {obj : P → ℝ} {g : P} {o : Option String} {r : MLEOut P}
    (h : mleOptimization minimize obj g o = .ok r) :
    (r.success = false → r.optimizer = none ∧ r.params = g) ∧ (r.success = true → r.optimizer ≠ none) := by
  unfold mleOptimization at h
  split at h
  · cases h
  · split at h
    · cases h; simp
    · cases h; simp

theorem ls_length {noise : Matrix (Fin 3) (Fin 3) ℝ} {model : String} {L S1 S2 ls : List ℝ}
    (h : altLeastSquares noise model L S1 S2 = .ok ls) : ls.length = (stressParameters model).length := by
  unfold altLeastSquares at h
  split_ifs at h with h1 h2 h3 h4 h5 h6
  · subst h1; split at h
    · cases h
    · cases h; rfl
  · subst h2; split at h
    · cases h
    · cases h; rfl
  · subst h3; split at h
    · cases h
    · cases h; rfl
  · subst h4; cases h; rfl
  · subst h5; cases h; rfl
  · subst h6; cases h; rfl

theorem forall₂_zipWith {α β γ δ : Type} {R : α → β → Prop} {Q : γ → β → Prop} (g : δ → ε → γ) (t : α → δ) (f : β → ε)
    {l : List α} {os : List β} (h : List.Forall₂ R l os) (hQ : ∀ s ∈ l, ∀ o, R s o → Q (g (t s) (f o)) o) :
    List.Forall₂ Q (List.zipWith g (l.map t) (os.map f)) os := by
  induction h with
  | nil => exact .nil
  | cons h _ ih =>
    exact .cons (hQ _ List.mem_cons_self _ h) (ih fun s hs => hQ s (List.mem_cons_of_mem _ hs))

/-- The groups of an accepted input, when every censored stress has failures. -/
theorem groups_eq {σ κ : Type} [LinearOrder κ] [DecidableEq σ] {k : Kind σ κ} {dual' : Bool} {tos : ℝ × Option ℝ → σ}
    (hk : KindLaw k dual' tos) {inp : ALTChecked ℝ κ}
    (hA : inp.failure_stress_1.length = inp.failures.length) (hD : inp.right_censored_stress_1.length = inp.right_censored.length)
    (hBE : dual' = true → inp.failure_stress_2.length = inp.failures.length ∧
      inp.right_censored_stress_2.length = inp.right_censored.length)
    (hgr : (dual' = true ∨ ∀ s ∈ inp.right_censored_stress_1, s ∈ inp.failure_stress_1) →
        ∃ S, GroupedByStress k.key dual' inp.failures inp.failure_stress_1 inp.failure_stress_2 inp.right_censored
          inp.right_censored_stress_1 inp.right_censored_stress_2 inp S)
    (hCF : ∀ i ∈ inp.right_censored.zip (k.join inp.right_censored_stress_1 inp.right_censored_stress_2),
      ∃ t, (t, i.2) ∈ inp.failures.zip (k.join inp.failure_stress_1 inp.failure_stress_2)) :
    ∃ S' : List (ℝ × Option ℝ), (∀ s ∈ S', s.2.isSome = dual') ∧
      inp.stresses_for_groups = S'.map (fun s => k.key s.1 s.2) ∧
      (∀ s, s ∈ S' ↔ ∃ x, (s, x) ∈ stressRows dual' inp.failure_stress_1 inp.failure_stress_2 inp.failures) ∧
      groupsOf inp.failure_groups inp.right_censored_groups = S'.map (fun s =>
          (unitsAt (inp.failures.zip (k.join inp.failure_stress_1 inp.failure_stress_2)) (tos s),
            if inp.right_censored = [] then none
            else some (unitsAt (inp.right_censored.zip (k.join inp.right_censored_stress_1 inp.right_censored_stress_2))
              (tos s)))) ∧
      inp.failure_groups = S'.map (fun s =>
        unitsAt (inp.failures.zip (k.join inp.failure_stress_1 inp.failure_stress_2)) (tos s)) := by
  set Fs := k.join inp.failure_stress_1 inp.failure_stress_2 with hFs
  set Cs := k.join inp.right_censored_stress_1 inp.right_censored_stress_2 with hCs
  have hmatch : dual' = true ∨ ∀ s ∈ inp.right_censored_stress_1, s ∈ inp.failure_stress_1 := by
    cases hd : dual' with
    | true => exact .inl rfl
    | false =>
      right
      intro s hs
      obtain ⟨i, hi, rfl⟩ := List.getElem_of_mem hs
      have hi' : i < inp.right_censored.length := hD ▸ hi
      have hr : ((inp.right_censored_stress_1[i], (none : Option ℝ)), inp.right_censored[i]) ∈
          stressRows dual' inp.right_censored_stress_1 inp.right_censored_stress_2 inp.right_censored := by
        rw [hd]
        unfold stressRows
        simp only [Bool.false_eq_true, if_false]
        rw [List.mem_iff_getElem]
        exact ⟨i, by simp [hi, hi'], by simp⟩
      have hn : (none : Option ℝ).isSome = dual' := by rw [hd]; rfl
      obtain ⟨t, ht⟩ := hCF _ ((mem_rows hk hD (fun hd => (hBE hd).2) _ hn _).1 hr)
      have := (mem_rows hk hA (fun hd => (hBE hd).1) (inp.right_censored_stress_1[i], none) hn t).2 ht
      rw [hd] at this
      unfold stressRows at this
      simp only [Bool.false_eq_true, if_false] at this
      have := (List.of_mem_zip this).1
      simp only [List.mem_map, Prod.mk.injEq, and_true, exists_eq_right] at this
      exact this
  obtain ⟨S', gr⟩ := hgr hmatch
  have hS's : ∀ s ∈ S', s.2.isSome = dual' := by
    intro s hs
    obtain ⟨y, hy⟩ := (gr.stresses_iff s).1 hs
    exact stressRows_isSome hy
  have hgroups : groupsOf inp.failure_groups inp.right_censored_groups = S'.map fun s =>
      (unitsAt (inp.failures.zip Fs) (tos s), if inp.right_censored = [] then none
        else some (unitsAt (inp.right_censored.zip Cs) (tos s))) := by
    unfold groupsOf
    rw [gr.failures, gr.censored]
    have eu : ∀ s ∈ S', valuesAt (stressRows dual' inp.failure_stress_1 inp.failure_stress_2 inp.failures) s =
        unitsAt (inp.failures.zip Fs) (tos s) := fun s hs =>
      (unitsAt_eq hk hA (fun hd => (hBE hd).1) s (hS's s hs)).symm
    have ev : ∀ s ∈ S', valuesAt (stressRows dual' inp.right_censored_stress_1 inp.right_censored_stress_2
        inp.right_censored) s = unitsAt (inp.right_censored.zip Cs) (tos s) := fun s hs =>
      (unitsAt_eq hk hD (fun hd => (hBE hd).2) s (hS's s hs)).symm
    by_cases hC0 : inp.right_censored = []
    · simp only [hC0, if_true, List.map_map]
      apply List.map_congr_left
      intro s hs
      simp only [Function.comp_apply, eu s hs]
    · simp only [hC0, if_false, List.zipWith_map, List.zipWith_self]
      apply List.map_congr_left
      intro s hs
      simp only [eu s hs, ev s hs]
  refine ⟨S', hS's, gr.reported, gr.stresses_iff, hgroups, ?_⟩
  rw [gr.failures]
  apply List.map_congr_left
  intro s hs
  exact (unitsAt_eq hk hA (fun hd => (hBE hd).1) s (hS's s hs)).symm

/-- C110 for any lawful class. -/
theorem report {σ κ : Type} [LinearOrder κ] [DecidableEq σ] {c : Cls σ} {k : Kind σ κ} {lifeAt : LifeStress → σ → ℝ}
    {pos : σ → Prop} (hc : Lawful c lifeAt pos) {dual : Bool} {tos : ℝ × Option ℝ → σ} (hk : KindLaw k dual tos)
    (argsort : List ℝ → List ℕ) (J : Jac) (num : ℕ → Option ℝ → Num2) (noise : Matrix (Fin 3) (Fin 3) ℝ)
    (minimize : Minimizer (Fin c.n → ℝ)) (x : ALTArgs)
    (hdual : dual = true ↔ DualStress c.model x.failure_stress_2) (res : ALTRes σ)
    (h : fitALT c k argsort J num noise minimize x = .ok res) :
    ∃ F A B C D E CI ls, ALTRequirements c.dist c.model x.failures x.failure_stress_1 x.failure_stress_2 x.right_censored
        x.right_censored_stress_1 x.right_censored_stress_2 x.CI x.use_level_stress x.optimizer dual F A B C D E ∧
      x.CI = .float CI ∧ altLeastSquares noise c.model F A B = .ok ls ∧
      ALTReport c.dist c.model lifeAt pos argsort J num ls (F.zip (k.join A B)) (C.zip (k.join D E))
        (k.use x.use_level_stress) CI res := by
  unfold fitALT at h
  simp only [bind_ok] at h
  obtain ⟨inp, h1, ls, h2, gs, h3, bounds, h4, o, h5, SE, h6, h7⟩ := h
  have h7 := (Except.ok.inj h7).symm
  have hkey : ∀ dual, (dual = true ↔ DualStress c.model x.failure_stress_2) → KeyInj dual k.key := by
    intro d hd
    have : d = dual := by
      have := hd.trans hdual.symm
      cases d <;> cases dual <;> simp_all
    rw [this]; exact hk.keyInj
  obtain ⟨dual', q, hCI, hopt, huse, hgr⟩ := C74_groups k.key c.dist c.model _ _ _ _ _ _ hkey _ _ _ _ h1
  have hdd : dual' = dual := by
    have := q.is_dual.trans hdual.symm
    cases dual' <;> cases dual <;> simp_all
  subst hdd
  refine ⟨_, _, _, _, _, _, inp.CI, ls, q, hCI, h2, ?_⟩
  obtain ⟨⟨S, hSn, hSm, hSr⟩, hl1, hl2⟩ := stresses_ok k.key c.dist c.model _ _ _ _ _ _ hkey _ _ _ _ h1 dual' hdual
  obtain ⟨hA, hD, hBE⟩ := q.one_stress_each
  have hSsome : ∀ s ∈ S, s.2.isSome = dual' := by
    intro s hs
    obtain ⟨y, hy⟩ := (hSm s).1 hs
    exact stressRows_isSome hy
  have hstress : inp.stresses_for_groups.map k.stress = S.map tos := by
    rw [hSr, List.map_map]
    apply List.map_congr_left
    intro s hs
    exact hk.stress s (hSsome s hs)
  have hjF := hk.join inp.failure_stress_1 inp.failure_stress_2 inp.failures hA fun hd => (hBE hd).1
  have hjC := hk.join inp.right_censored_stress_1 inp.right_censored_stress_2 inp.right_censored hD fun hd => (hBE hd).2
  set Fs := k.join inp.failure_stress_1 inp.failure_stress_2 with hFs
  set Cs := k.join inp.right_censored_stress_1 inp.right_censored_stress_2 with hCs
  have eF1 := zip_fst _ _ hjF.2
  have eF2 := zip_snd _ _ hjF.2
  have eC1 := zip_fst _ _ hjC.2
  have eC2 := zip_snd _ _ hjC.2
  have hSE := orWarn_ok h6
  change SE = ses (npInv (hessian (fun p => c.LL p inp.failures inp.right_censored Fs Cs) o.params)) at hSE
  set V := npInv (hessian (fun p => c.LL p inp.failures inp.right_censored Fs Cs) o.params) with hV
  obtain ⟨m, d, hm1, hm2, hm3, hm4⟩ := hc.model o.params
  have hm3' := hm3 SE (zOf inp.CI) inp.failures inp.right_censored Fs Cs (k.use inp.use_level_stress)
    (inp.stresses_for_groups.map k.stress)
  obtain ⟨f1, f2, f3, f4, f5⟩ := hm3'
  obtain ⟨os, hgs, hos⟩ := groupFits_spec h3
  have hglen : (inp.stresses_for_groups.map k.stress).length ≤ gs.length := by
    rw [hgs, List.length_map, List.length_map, ← hos.length_eq]
    unfold groupsOf
    cases hcg : inp.right_censored_groups with
    | none => simp [hl1]
    | some g => simp only [List.length_zipWith]; have := hl2 g hcg; omega
  have hchange : res.change = List.zipWith (fun s o' => changeRow s o' (d.scale (lifeAt m s)) (c.shape o.params)
      ((k.use x.use_level_stress).map fun u => lifeAt m u / lifeAt m s)) (S.map tos) gs := by
    rw [h7, ← hstress]
    apply changeTable_eq _ _ _ _ hglen _ _ f3
    intro i hi
    rw [← huse]
    cases hu : k.use inp.use_level_stress with
    | none => rw [hu] at f5; rw [f5 rfl]; rfl
    | some u =>
      rw [hu] at f4
      rw [f4 u rfl, List.getElem?_map, List.getElem?_eq_getElem hi]; rfl
  have hslen : S.length ≤ gs.length := by
    have := hglen
    rw [hstress, List.length_map] at this
    exact this
  have hcs : res.change.map Change.stress = S.map tos := by
    rw [hchange]
    apply List.ext_getElem
    · simp [hslen]
    · intro i _ _
      simp [changeRow]
  have hrows : res.rows = resultRows c.names o.params (ses V) (ciBounds ((parameters c.dist c.model).map fun x => isLog x.2)
      (List.ofFn o.params) (ses V) (zOf inp.CI)) := by
    rw [h7]
    dsimp only
    rw [f2, hSE]
  obtain ⟨ci, hci1, hci2, hci3⟩ := q.ci
  have hcie : ci = inp.CI := by rw [hci1] at hCI; cases hCI; rfl
  subst hcie
  have hz := FunctionCI.zOf_spec hci2 hci3
  have hnl : c.names.length = c.n := by rw [hc.names, hc.count, List.length_map]
  have hfit : res.fit = c.fit o.params SE (zOf inp.CI) inp.failures inp.right_censored Fs Cs (k.use inp.use_level_stress)
    (inp.stresses_for_groups.map k.stress) := by rw [h7]
  have hinjS : (S.map tos).Nodup := by
    rw [List.nodup_map_iff_inj_on hSn]
    intro s hs s' hs' e
    exact hk.inj _ _ (hSsome s hs) (hSsome s' hs') e
  refine ⟨c.n, o.params, m, d, V, hm1, ?_, hc.count, ⟨_, hz, ?_⟩, ?_, ?_, ?_, ?_, ?_, ?_, ?_, ?_⟩
  · rw [hrows, rows_points _ hnl, hc.names]
  · rw [hrows, show (parameters c.dist c.model).map (fun x => isLog x.2) = ((parameters c.dist c.model).map Prod.snd).map isLog
      by rw [List.map_map]; rfl]
    exact rows_interval _ _ _ _ (by rw [List.length_map, hc.count]) hz.1.le
  · rw [hrows, rows_SE]
  · rw [hfit, f1, h7]
    dsimp only
    ring
  · intro hmv hdv hpF hpC
    have pF : ∀ i ∈ inp.failures.zip Fs, 0 < i.1 ∧ pos i.2 :=
      fun i hi => ⟨q.positive.1 _ (List.of_mem_zip hi).1, hpF i hi⟩
    have pC : ∀ i ∈ inp.right_censored.zip Cs, 0 < i.1 ∧ pos i.2 :=
      fun i hi => ⟨q.positive.2 _ (List.of_mem_zip hi).1, hpC i hi⟩
    constructor
    · intro ℓ hℓ
      have e : hessian (fun p => c.LL p inp.failures inp.right_censored Fs Cs) o.params =
          secondPartials (fun v => -ℓ v) o.params := by
        apply hessian_congr hc.isOpen ⟨m, d, hm1, hmv, hdv⟩
        rintro v ⟨m', d', e1, e2, e3⟩
        obtain ⟨m'', d'', e4, -, e5, e6⟩ := hc.model v
        rw [e1] at e4
        cases e4
        have l1 := (e6 e2 e3 none 0 _ _ none [] pF pC (by simp)).loglik
        rw [(e5 _ _ _ _ _ _ _ _).1, eF1, eF2, eC1, eC2] at l1
        have := Real.exp_injective (l1.trans (hℓ v m' d' e1 e2 e3).symm)
        linarith
      rw [hV]
      cases hi : npInv (hessian (fun p => c.LL p inp.failures inp.right_censored Fs Cs) o.params) with
      | none => simpa only [e] using npInv_none hi
      | some W => simpa only [e] using npInv_some hi
    · rw [hfit, hcs, hstress]
      have := hm4 hmv hdv SE (zOf inp.CI) (inp.failures.zip Fs) (inp.right_censored.zip Cs) (k.use inp.use_level_stress)
        (S.map tos) pF pC ?_
      · rw [eF1, eF2, eC1, eC2] at this
        rw [← huse]
        exact this
      · intro g hg
        obtain ⟨s, hs, rfl⟩ := List.mem_map.1 hg
        obtain ⟨y, hy⟩ := (hSm s).1 hs
        exact hpF _ ((mem_rows hk hA (fun hd => (hBE hd).1) s (hSsome s hs) y).1 hy)
  · rw [hcs]; exact hinjS
  · intro i hi
    rw [hcs, List.mem_map]
    rw [hjF.1, List.mem_map] at hi
    obtain ⟨r, hr, rfl⟩ := hi
    exact ⟨r.1, (hSm _).2 ⟨_, hr⟩, rfl⟩
  · intro w hw
    rw [hchange] at hw
    rw [← List.map_uncurry_zip_eq_zipWith, List.mem_map] at hw
    obtain ⟨⟨s, o'⟩, hz', rfl⟩ := hw
    refine ⟨?_, rfl, hm2, rfl⟩
    obtain ⟨s', hs', rfl⟩ := List.mem_map.1 (List.of_mem_zip hz').1
    obtain ⟨y, hy⟩ := (hSm s').1 hs'
    exact ⟨y, (mem_rows hk hA (fun hd => (hBE hd).1) s' (hSsome s' hs') y).1 hy⟩
  · intro hCF
    obtain ⟨S', hS's, hSrep, hSiff, hgroups, -⟩ := groups_eq hk hA hD hBE hgr hCF
    rw [← hFs, ← hCs] at hgroups
    have hS' : S'.map tos = S.map tos := by
      rw [← hstress, hSrep, List.map_map]
      apply List.map_congr_left
      intro s hs
      exact (hk.stress s (hS's s hs)).symm
    refine ⟨os, ?_, ?_⟩
    · rw [hgroups, List.forall₂_map_left_iff] at hos
      rw [hchange, ← hS', hgs]
      refine forall₂_zipWith _ tos _ hos ?_
      intro s hs o' ho
      have h1len : 1 ≤ (unitsAt (inp.failures.zip Fs) (tos s)).length := by
        obtain ⟨y, hy⟩ := (hSiff s).1 hs
        have := (mem_rows hk hA (fun hd => (hBE hd).1) s (hS's s hs) y).1 hy
        apply List.length_pos_of_mem (a := y)
        unfold unitsAt
        rw [List.mem_map]
        exact ⟨_, List.mem_filter.2 ⟨this, by simp⟩, rfl⟩
      have hst : (changeRow (tos s) (o'.map fun r => (r.dist.a, r.dist.b)) (d.scale (lifeAt m (tos s))) (c.shape o.params)
          ((k.use x.use_level_stress).map fun u => lifeAt m u / lifeAt m (tos s))).stress = tos s := rfl
      rw [hst]
      dsimp only at ho
      refine ⟨fun hl => ho.1 (by omega), fun hl => ?_, ?_, ?_, ?_⟩
      · obtain ⟨j, r, e1, e2⟩ := ho.2 (by omega)
        refine ⟨j, r, e1, ?_⟩
        have := groupFit_fitOf e2
        have e3 : (inp.right_censored.zip Cs = []) ↔ inp.right_censored = [] := by
          rw [← List.length_eq_zero_iff, List.length_zip, hjC.2, min_self, List.length_eq_zero_iff]
        by_cases hC0 : inp.right_censored = []
        · rw [if_pos (e3.2 hC0)]
          simp only [hC0, if_true, rcArg] at this
          exact this
        · rw [if_neg (fun h => hC0 (e3.1 h))]
          simp only [hC0, if_false, rcArg] at this
          exact this
      · cases o' <;> rfl
      · rintro r rfl hb
        simp only [changeRow, Option.map_some, Option.bind_some, if_neg hb, and_self]
      · rintro rfl
        exact ⟨rfl, rfl⟩
    · intro hs
      have e : res.success = o.success ∧ res.optimizer = o.optimizer := by rw [h7]; exact ⟨rfl, rfl⟩
      rw [e.1] at hs
      rw [e.2]
      have := (mle_fail h5).1 hs
      refine ⟨this.1, ?_⟩
      rw [this.2, hc.guess _ _ (ls_length h2), hgs, commonShape_eq]
  · intro hs
    have : res.success = o.success ∧ res.optimizer = o.optimizer := by rw [h7]; exact ⟨rfl, rfl⟩
    rw [this.1] at hs
    rw [this.2]
    rcases mle_optimizer h5 with h | h
    · exact absurd h ((mle_fail h5).2 hs)
    · exact h

theorem singleLaw : KindLaw singleKind false (fun s => s.1) where
  keyInj := by
    rintro ⟨a, b⟩ ⟨a', b'⟩ h h' e
    cases b <;> cases b' <;> simp_all [singleKind]
  stress := fun _ _ => rfl
  inj := by
    rintro ⟨a, b⟩ ⟨a', b'⟩ h h' e
    cases b <;> cases b' <;> simp_all
  join := by
    intro A B F h _
    refine ⟨?_, h⟩
    unfold stressRows singleKind
    simp only [Bool.false_eq_true, if_false]
    rw [List.zip_map_left, List.map_map, ← List.zip_swap, List.map_congr_left]
    intro a _; rfl

/-- The pair of two stresses. -/
def pairOf (s : ℝ × Option ℝ) : ℝ × ℝ := (s.1, s.2.getD 0)

theorem dualLaw {κ : Type} {key : ℝ → Option ℝ → κ} {stress : κ → ℝ × ℝ} (h : ∀ a b, stress (key a (some b)) = (a, b)) :
    KindLaw (dualKind key stress) true pairOf where
  keyInj := by
    rintro ⟨a, b⟩ ⟨a', b'⟩ h1 h2 e
    obtain ⟨b, rfl⟩ := Option.isSome_iff_exists.1 h1
    obtain ⟨b', rfl⟩ := Option.isSome_iff_exists.1 h2
    have := congrArg stress e
    simp only [dualKind, h, Prod.mk.injEq] at this
    rw [this.1, this.2]
  stress := by
    rintro ⟨a, b⟩ h1
    obtain ⟨b, rfl⟩ := Option.isSome_iff_exists.1 h1
    exact h a b
  inj := by
    rintro ⟨a, b⟩ ⟨a', b'⟩ h1 h2 e
    obtain ⟨b, rfl⟩ := Option.isSome_iff_exists.1 h1
    obtain ⟨b', rfl⟩ := Option.isSome_iff_exists.1 h2
    simp only [pairOf, Option.getD_some, Prod.mk.injEq] at e
    rw [e.1, e.2]
  join := by
    intro A B F h1 h2
    have h2 := h2 rfl
    refine ⟨?_, by simp [dualKind, h1, h2]⟩
    unfold stressRows dualKind
    simp only [if_true]
    rw [← List.map_uncurry_zip_eq_zipWith, List.zip_map_left, List.map_map, ← List.zip_swap, List.map_congr_left]
    intro a _; rfl

theorem models_single {c : Cls ℝ} (hc : c ∈ singleClasses) :
    c.model ∈ ["Exponential", "Eyring", "Power"] ∧ c.dist ∈ ["Weibull", "Lognormal", "Normal", "Exponential"] := by
  simp only [singleClasses, List.mem_cons, List.not_mem_nil, or_false] at hc
  rcases hc with rfl | rfl | rfl | rfl | rfl | rfl | rfl | rfl | rfl | rfl | rfl | rfl <;>
    exact ⟨by decide +revert, by decide +revert⟩

theorem models_dual {c : Cls (ℝ × ℝ)} (hc : c ∈ dualClasses) :
    c.model ∈ ["Dual_Exponential", "Power_Exponential", "Dual_Power"] ∧
      c.dist ∈ ["Weibull", "Lognormal", "Normal", "Exponential"] := by
  simp only [dualClasses, List.mem_cons, List.not_mem_nil, or_false] at hc
  rcases hc with rfl | rfl | rfl | rfl | rfl | rfl | rfl | rfl | rfl | rfl | rfl | rfl <;>
    exact ⟨by decide +revert, by decide +revert⟩

theorem single_not_dual {c : Cls ℝ} (hc : c ∈ singleClasses) (fs2 : DataArg ℝ) :
    (false = true) ↔ DualStress c.model fs2 := by
  have := (models_single hc).1
  simp only [List.mem_cons, List.not_mem_nil, or_false] at this
  unfold DualStress
  rcases this with h | h | h <;> rw [h] <;> simp

theorem dual_dual {c : Cls (ℝ × ℝ)} (hc : c ∈ dualClasses) (fs2 : DataArg ℝ) :
    (true = true) ↔ DualStress c.model fs2 := by
  have := (models_dual hc).1
  simp only [List.mem_cons, List.not_mem_nil, or_false] at this
  unfold DualStress
  rcases this with h | h | h <;> rw [h] <;> simp

theorem used_single {dist model : String} {x : ALTArgs} {F A B C D E : List ℝ}
    (q : ALTRequirements dist model x.failures x.failure_stress_1 x.failure_stress_2 x.right_censored
        x.right_censored_stress_1 x.right_censored_stress_2 x.CI x.use_level_stress x.optimizer false F A B C D E) :
    UsedSingle x (F.zip A) (C.zip D) := by
  obtain ⟨q1, q2, q3, q4⟩ := q.failures
  obtain ⟨l1, l2, -⟩ := q.one_stress_each
  refine ⟨?_, ?_, ?_⟩
  · rw [zip_fst _ _ (show A.length = F.length from l1)]; exact q1
  · rw [zip_snd _ _ (show A.length = F.length from l1)]; exact q2
  · rcases q.censored with ⟨c1, c2, c3, c4⟩ | ⟨c1, c2, c3, c4⟩
    · left
      refine ⟨c1, ?_⟩
      rw [c2]; rfl
    · right
      rw [zip_fst _ _ (show D.length = C.length from l2), zip_snd _ _ (show D.length = C.length from l2)]
      exact ⟨c1, c2⟩

theorem used_dual {κ : Type} {key : ℝ → Option ℝ → κ} {stress : κ → ℝ × ℝ} (hkey : ∀ a b, stress (key a (some b)) = (a, b))
    {dist model : String} {x : ALTArgs} {F A B C D E : List ℝ}
    (q : ALTRequirements dist model x.failures x.failure_stress_1 x.failure_stress_2 x.right_censored
        x.right_censored_stress_1 x.right_censored_stress_2 x.CI x.use_level_stress x.optimizer true F A B C D E) :
    UsedDual x (F.zip ((dualKind key stress).join A B)) (C.zip ((dualKind key stress).join D E)) := by
  obtain ⟨q1, q2, q3, q4⟩ := q.failures
  obtain ⟨l1, l2, l3⟩ := q.one_stress_each
  have jF : ((dualKind key stress).join A B).length = F.length := ((dualLaw hkey).join A B F l1 fun _ => (l3 rfl).1).2
  have jC : ((dualKind key stress).join D E).length = C.length := ((dualLaw hkey).join D E C l2 fun _ => (l3 rfl).2).2
  have e1 : ((F.zip ((dualKind key stress).join A B)).map fun i => i.2.1) = A := by
    rw [← map_snd1, zip_snd _ _ jF]
    exact List.map_fst_zip (by rw [l1, (l3 rfl).1])
  have e2 : ((F.zip ((dualKind key stress).join A B)).map fun i => i.2.2) = B := by
    rw [← map_snd2, zip_snd _ _ jF]
    exact List.map_snd_zip (by rw [l1, (l3 rfl).1])
  refine ⟨?_, ?_, ?_, ?_⟩
  · rw [zip_fst _ _ jF]; exact q1
  · rw [e1]; exact q2
  · rw [e2]; exact q3 rfl
  · rcases q.censored with ⟨c1, c2, c3, c4⟩ | ⟨c1, c2, c3, c4⟩
    · left
      refine ⟨c1, ?_⟩
      rw [c2]; rfl
    · right
      rw [zip_fst _ _ jC, ← map_snd1, ← map_snd2, zip_snd _ _ jC]
      refine ⟨c1, ?_, ?_⟩
      · rw [c2]; congr 1
        exact (List.map_fst_zip (by rw [l2, (l3 rfl).2])).symm
      · rw [c3 rfl]; congr 1
        exact (List.map_snd_zip (by rw [l2, (l3 rfl).2])).symm

/-- **C110, one stress.** When `Fit_<distribution>_<model>` with one stress returns, the object reports the fit of the caller's
data: see `ALTReport`. -/
theorem C110_single (c : Cls ℝ) (hc : c ∈ singleClasses) (argsort : List ℝ → List ℕ) (J : Jac)
    (num : ℕ → Option ℝ → Num2) (noise : Matrix (Fin 3) (Fin 3) ℝ)
    (minimize : Minimizer (Fin c.n → ℝ)) (x : ALTArgs) (res : ALTRes ℝ)
    (h : fitALT c singleKind argsort J num noise minimize x = .ok res) :
    ∃ F C use CI ls, UsedSingle x F C ∧ UseSingle x use ∧ x.CI = .float CI ∧
      altLeastSquares noise c.model (F.map Prod.fst) (F.map Prod.snd) [] = .ok ls ∧
      ALTReport c.dist c.model lifeAt1 (fun s => 0 < s) argsort J num ls F C use CI res := by
  obtain ⟨F, A, B, C, D, E, CI, ls, q, h1, h2, h3⟩ := report (lawful_single c hc) singleLaw argsort J num noise minimize x
    (single_not_dual hc _) res h
  obtain ⟨q1, q2, q3, q4⟩ := q.failures
  obtain ⟨l1, l2, -⟩ := q.one_stress_each
  change ALTReport _ _ _ _ _ _ _ _ (F.zip A) (C.zip D) _ _ _ at h3
  refine ⟨_, _, _, CI, ls, used_single q, ?_, h1, ?_, h3⟩
  · rcases q.use_ok with hu | ⟨-, u, hu⟩ | ⟨hd, -⟩
    · left; rw [hu]; exact ⟨rfl, rfl⟩
    · right; rw [hu]; exact ⟨u, rfl, rfl⟩
    · cases hd
  · rw [zip_fst _ _ (show A.length = F.length from l1), zip_snd _ _ (show A.length = F.length from l1), ← q4 rfl]
    exact h2

/-- **C110, two stresses.** The same for the dual-stress fitters; `key` is any representation of the pairs of stresses from
which they can be read back (the code uses strings). -/
theorem C110_dual {κ : Type} [LinearOrder κ] (key : ℝ → Option ℝ → κ) (stress : κ → ℝ × ℝ)
    (hkey : ∀ a b, stress (key a (some b)) = (a, b)) (c : Cls (ℝ × ℝ)) (hc : c ∈ dualClasses)
    (argsort : List ℝ → List ℕ) (J : Jac) (num : ℕ → Option ℝ → Num2) (noise : Matrix (Fin 3) (Fin 3) ℝ)
    (minimize : Minimizer (Fin c.n → ℝ)) (x : ALTArgs) (res : ALTRes (ℝ × ℝ))
    (h : fitALT c (dualKind key stress) argsort J num noise minimize x = .ok res) :
    ∃ F C use CI ls, UsedDual x F C ∧ UseDual x use ∧ x.CI = .float CI ∧
      altLeastSquares noise c.model (F.map Prod.fst) (F.map fun i => i.2.1) (F.map fun i => i.2.2) = .ok ls ∧
      ALTReport c.dist c.model lifeAt2 (fun s => 0 < s.1 ∧ 0 < s.2) argsort J num ls F C use CI res := by
  obtain ⟨F, A, B, C, D, E, CI, ls, q, h1, h2, h3⟩ := report (lawful_dual c hc) (dualLaw hkey) argsort J num noise minimize x
    (dual_dual hc _) res h
  obtain ⟨q1, q2, q3, q4⟩ := q.failures
  obtain ⟨l1, l2, l3⟩ := q.one_stress_each
  have jF : ((dualKind key stress).join A B).length = F.length := ((dualLaw hkey).join A B F l1 fun _ => (l3 rfl).1).2
  have jC : ((dualKind key stress).join D E).length = C.length := ((dualLaw hkey).join D E C l2 fun _ => (l3 rfl).2).2
  have e1 : ((F.zip ((dualKind key stress).join A B)).map fun i => i.2.1) = A := by
    rw [← map_snd1, zip_snd _ _ jF]
    exact List.map_fst_zip (by rw [l1, (l3 rfl).1])
  have e2 : ((F.zip ((dualKind key stress).join A B)).map fun i => i.2.2) = B := by
    rw [← map_snd2, zip_snd _ _ jF]
    exact List.map_snd_zip (by rw [l1, (l3 rfl).1])
  refine ⟨_, _, _, CI, ls, used_dual hkey q, ?_, h1, ?_, h3⟩
  · rcases q.use_ok with hu | ⟨hd, -⟩ | ⟨-, u, v, hu⟩
    · left; rw [hu]; exact ⟨rfl, rfl⟩
    · cases hd
    · right; rw [hu]; exact ⟨u, v, rfl, rfl⟩
  · rw [zip_fst _ _ jF, e1, e2]
    exact h2

end Reliability.Props.ALTGlue

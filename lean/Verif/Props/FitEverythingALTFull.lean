import Verif.Spec.FitEverythingALTFull
import Verif.Lemmas.FitEverythingFull
import Verif.Props.FitEverythingALT
import Verif.Props.ALTGlue
import Verif.Props.ALTGlueReturns
import Verif.Props.ALTGlueExamples

/-! # C123: Fit_Everything_ALT with the classes it calls -/

namespace Reliability.Props.FEAFull

open Reliability Reliability.InputCheck Reliability.FitGlue Reliability.ALTGlue Reliability.FEAFull
open Reliability.FitSpecial (optArg)
open Reliability.Fitters (up Item)
open Reliability.FunctionCI (Jac)
open Reliability.Spec Reliability.Spec.FEAFull Reliability.Spec.InputCheck Reliability.Spec.ALTGlue
open Reliability.Props (bind_ok)
open Reliability.Props.FEA (Asked)
open Reliability.Props.ALTGlue

/-! ## Checked arguments -/

/-- The arguments of a class that was given the checked inputs mean the same as the caller's. -/
theorem check_again {κ : Type} [LinearOrder κ] {key : ℝ → Option ℝ → κ} {x : ALTArgs} {inp : ALTChecked ℝ κ} {dual : Bool}
    (hd : isDual "Everything" x.failure_stress_2 = dual)
    (h : altCheck key "Everything" "Everything" x.failures x.failure_stress_1 x.failure_stress_2 x.right_censored
      x.right_censored_stress_1 x.right_censored_stress_2 x.CI x.use_level_stress x.optimizer = .ok inp)
    {dist model : String} (hdist : dist ∈ ["Exponential", "Weibull", "Lognormal", "Normal", "Everything"])
    (hmodel : model ∈ ["Exponential", "Eyring", "Power", "Dual_Exponential", "Power_Exponential", "Dual_Power", "Everything"])
    (hm : ∀ fs2, isDual (K := ℝ) model fs2 = dual) :
    altCheck key dist model x.failures x.failure_stress_1 x.failure_stress_2 x.right_censored
      x.right_censored_stress_1 x.right_censored_stress_2 x.CI x.use_level_stress x.optimizer = .ok inp ∧
    altCheck key dist model (checkedArgs dual inp).failures (checkedArgs dual inp).failure_stress_1
      (checkedArgs dual inp).failure_stress_2 (checkedArgs dual inp).right_censored (checkedArgs dual inp).right_censored_stress_1
      (checkedArgs dual inp).right_censored_stress_2 (checkedArgs dual inp).CI (checkedArgs dual inp).use_level_stress
      (checkedArgs dual inp).optimizer = .ok inp := by
  rw [altCheck_iff] at h
  rw [hd] at h
  obtain ⟨-, -, t1, t2, t3, t4, t5, t6, t7, t8⟩ := h
  rw [altCheck_iff, altCheck_iff, hm, hm]
  refine ⟨⟨hdist, hmodel, t1, t2, t3, t4, t5, t6, t7, t8⟩, ⟨hdist, hmodel, ?_, t2, t3, ?_, ?_, t6, t7, ?_⟩⟩
  · rw [altTypes_iff] at t1 ⊢
    refine ⟨⟨rfl, rfl, fun h => by simp [checkedArgs, h], t1.1.2.2.2⟩, .inr ⟨rfl, rfl, fun h => by simp [checkedArgs, h], fun h => ?_⟩⟩
    rcases t1.2 with ⟨-, -, -, e⟩ | ⟨-, -, -, e⟩
    · exact e
    · exact e h
  · rw [checkCI_iff] at t4 ⊢
    exact ⟨rfl, t4.2⟩
  · exact FitEverythingFull.checkOptimizer_idem t5
  · rw [altUse_iff] at t8 ⊢
    rw [← t8.1] at t8
    exact ⟨rfl, t8.2⟩

theorem fitALT_congr {σ κ : Type} [LinearOrder κ] (c : Cls σ) (k : Kind σ κ) (argsort : List ℝ → List ℕ) (J : Jac)
    (num : ℕ → Option ℝ → Num2) (noise : Matrix (Fin 3) (Fin 3) ℝ) (minimize : Minimizer (Fin c.n → ℝ)) {x y : ALTArgs}
    (h : altCheck k.key c.dist c.model x.failures x.failure_stress_1 x.failure_stress_2 x.right_censored
      x.right_censored_stress_1 x.right_censored_stress_2 x.CI x.use_level_stress x.optimizer =
      altCheck k.key c.dist c.model y.failures y.failure_stress_1 y.failure_stress_2 y.right_censored
      y.right_censored_stress_1 y.right_censored_stress_2 y.CI y.use_level_stress y.optimizer) :
    fitALT c k argsort J num noise minimize x = fitALT c k argsort J num noise minimize y := by
  unfold fitALT
  rw [h]

theorem stress_2_length {κ : Type} [LinearOrder κ] {key : ℝ → Option ℝ → κ} {x : ALTArgs} {inp : ALTChecked ℝ κ} {dual : Bool}
    (hd : isDual "Everything" x.failure_stress_2 = dual)
    (h : altCheck key "Everything" "Everything" x.failures x.failure_stress_1 x.failure_stress_2 x.right_censored
      x.right_censored_stress_1 x.right_censored_stress_2 x.CI x.use_level_stress x.optimizer = .ok inp) :
    decide (0 < inp.failure_stress_2.length) = dual := by
  rw [altCheck_iff] at h
  rw [hd] at h
  obtain ⟨-, -, t1, -, -, -, -, t6, -⟩ := h
  rw [altTypes_iff] at t1
  cases dual with
  | false => rw [t1.1.2.2.2 rfl]; rfl
  | true =>
    rw [altStresses_iff] at t6
    have := t6.2 rfl
    rw [decide_eq_true_eq]
    rw [List.length_pos_iff]
    rintro e
    rw [e] at this
    simp at this

/-! ## The frame -/

theorem frame_ok {σ κ : Type} [LinearOrder κ] {k : Kind σ κ} {argsort : List ℝ → List ℕ} {J : Jac} {O : Oracle σ} {x : ALTArgs} :
    ∀ {cs : List (Cls σ)} {rows : List ALT.Row}, frame k argsort J O x cs = .ok rows ↔
      List.Forall₂ (fun c row => ∃ r, call k argsort J O x c = .ok r ∧ row = rowOf c r) cs rows
  | [], rows => by
    constructor
    · intro h; cases h; exact .nil
    · intro h; cases h; rfl
  | c :: cs, rows => by
    simp only [frame, bind_ok]
    constructor
    · rintro ⟨r, hr, rs, hrs, h⟩
      cases h
      exact .cons ⟨r, hr, rfl⟩ (frame_ok.1 hrs)
    · intro h
      cases h with
      | cons h1 h2 =>
        obtain ⟨r, hr, rfl⟩ := h1
        exact ⟨r, hr, _, frame_ok.2 h2, rfl⟩

theorem forall₂_models {σ κ : Type} [LinearOrder κ] {k : Kind σ κ} {argsort : List ℝ → List ℕ} {J : Jac} {O : Oracle σ} {x : ALTArgs}
    {cs : List (Cls σ)} {rows : List ALT.Row}
    (h : List.Forall₂ (fun c row => ∃ r, call k argsort J O x c = .ok r ∧ row = rowOf c r) cs rows) :
    rows.map ALT.Row.model = cs.map clsName := by
  induction h with
  | nil => rfl
  | cons h1 _ ih =>
    obtain ⟨r, -, rfl⟩ := h1
    rw [List.map_cons, List.map_cons, ih]
    rfl

theorem lookup_rows {rows : List ALT.Row} (hn : (rows.map ALT.Row.model).Nodup) {d : ALT.Row} :
    (rows.map ALT.Row.model).map (fun m => { (rows.find? (fun r => r.model = m)).getD d with model := m }) = rows ∧
      ∀ r ∈ rows, (rows.find? (fun r' => r'.model = r.model)).getD d = r := by
  have key : ∀ r ∈ rows, (rows.find? (fun r' => r'.model = r.model)).getD d = r := by
    intro r hr
    cases hf : rows.find? (fun r' => r'.model = r.model) with
    | none => exact absurd (List.find?_eq_none.1 hf r hr) (by simp)
    | some r' =>
      have h1 := List.find?_some hf
      have h2 := List.mem_of_find?_eq_some hf
      simp only [decide_eq_true_eq] at h1
      exact List.inj_on_of_nodup_map hn h2 hr h1
  refine ⟨?_, key⟩
  rw [List.map_map]
  refine (List.map_congr_left fun r hr => ?_).trans (List.map_id rows)
  simp only [Function.comp, key r hr, id]

/-- The run of `Fit_Everything_ALT` for one kind of stresses. -/
structure Run {σ κ : Type} [LinearOrder κ] (k : Kind σ κ) (cs : List (Cls σ)) (dual : Bool) (argsort : List ℝ → List ℕ) (J : Jac)
    (O : Oracle σ) (x : FEAArgs) (res : ALT.FEAResult) (inp : ALTChecked ℝ κ) (rows : List ALT.Row) : Prop where
  check : altCheck k.key "Everything" "Everything" x.failures x.failure_stress_1 x.failure_stress_2 x.right_censored
    x.right_censored_stress_1 x.right_censored_stress_2 x.CI x.use_level_stress x.optimizer = .ok inp
  ex : ALT.excludedModels x.exclude dual = .ok res.excluded
  frame : List.Forall₂ (fun c row => ∃ r, call k argsort J O (checkedArgs dual inp) c = .ok r ∧ row = rowOf c r)
    (cs.filter fun c => clsName c ∉ res.excluded) rows
  fin : finish argsort x.sort_by (useOf inp.use_level_stress) res.excluded rows = .ok res

theorem finish_excluded {argsort : List ℝ → List ℕ} {s : Option String} {u : Option (ℝ × ℝ)} {ex : List String}
    {rows : List ALT.Row} {res : ALT.FEAResult} (h : finish argsort s u ex rows = .ok res) : res.excluded = ex := by
  unfold finish at h
  split at h
  · cases h
  · cases h
  · cases h; rfl

theorem run {σ κ : Type} [LinearOrder κ] {k : Kind σ κ} {cs : List (Cls σ)} {dual : Bool} {argsort : List ℝ → List ℕ} {J : Jac}
    {O : Oracle σ} {x : FEAArgs} {res : ALT.FEAResult} (hd : isDual "Everything" x.failure_stress_2 = dual)
    (h : everything k cs dual argsort J O x = .ok res) : ∃ inp rows, Run k cs dual argsort J O x res inp rows := by
  simp only [everything, bind_ok] at h
  obtain ⟨inp, h1, ex, h2, rows, h3, h4⟩ := h
  have he := finish_excluded h4
  subst he
  rw [stress_2_length hd h1] at h2
  exact ⟨inp, rows, h1, h2, frame_ok.1 h3, h4⟩

/-- The classes of a kind are those named in the documentation. -/
structure Family {σ : Type} (cs : List (Cls σ)) (dual : Bool) : Prop where
  names : cs.map clsName = if dual then ALT.dualModels else ALT.singleModels
  dists : ∀ c ∈ cs, c.dist ∈ ["Exponential", "Weibull", "Lognormal", "Normal", "Everything"]
  models : ∀ c ∈ cs, c.model ∈ ["Exponential", "Eyring", "Power", "Dual_Exponential", "Power_Exponential", "Dual_Power", "Everything"]
  kind : ∀ c ∈ cs, ∀ fs2, isDual (K := ℝ) c.model fs2 = dual
  params : ∀ c ∈ cs, c.names.length = c.n ∧ c.names.Nodup ∧
    ∀ n ∈ c.names, n ∈ ["a", "b", "c", "m", "n", "beta", "sigma"]

theorem single_family : Family singleClasses false where
  names := by simp only [singleClasses, List.map_cons, List.map_nil]; decide
  dists c hc := by have := (models_single hc).2; simp at this ⊢; tauto
  models c hc := by have := (models_single hc).1; simp at this ⊢; tauto
  kind c hc fs2 := by
    have := single_not_dual hc fs2
    rw [← isDual_iff] at this
    simpa using this
  params c hc := by
    simp only [singleClasses, List.mem_cons, List.not_mem_nil, or_false] at hc
    rcases hc with rfl | rfl | rfl | rfl | rfl | rfl | rfl | rfl | rfl | rfl | rfl | rfl <;>
      exact ⟨rfl, by decide +revert, by decide +revert⟩

theorem dual_family : Family dualClasses true where
  names := by simp only [dualClasses, List.map_cons, List.map_nil]; decide
  dists c hc := by have := (models_dual hc).2; simp at this ⊢; tauto
  models c hc := by have := (models_dual hc).1; simp at this ⊢; tauto
  kind c hc fs2 := by
    have := dual_dual hc fs2
    rw [← isDual_iff] at this
    simpa using this
  params c hc := by
    simp only [dualClasses, List.mem_cons, List.not_mem_nil, or_false] at hc
    rcases hc with rfl | rfl | rfl | rfl | rfl | rfl | rfl | rfl | rfl | rfl | rfl | rfl <;>
      exact ⟨rfl, by decide +revert, by decide +revert⟩

/-- The classes are called as the caller would call them. -/
theorem call_direct {σ κ : Type} [LinearOrder κ] {k : Kind σ κ} {cs : List (Cls σ)} {dual : Bool} (hf : Family cs dual)
    {argsort : List ℝ → List ℕ} {J : Jac} {O : Oracle σ} {x : ALTArgs} {inp : ALTChecked ℝ κ}
    (hd : isDual "Everything" x.failure_stress_2 = dual)
    (h : altCheck k.key "Everything" "Everything" x.failures x.failure_stress_1 x.failure_stress_2 x.right_censored
      x.right_censored_stress_1 x.right_censored_stress_2 x.CI x.use_level_stress x.optimizer = .ok inp) {c : Cls σ}
    (hc : c ∈ cs) : call k argsort J O (checkedArgs dual inp) c = call k argsort J O x c := by
  obtain ⟨h1, h2⟩ := check_again hd h (hf.dists c hc) (hf.models c hc) (hf.kind c hc)
  exact fitALT_congr c k argsort J _ _ _ (h2.trans h1.symm)

theorem filter_models (ex : List String) (dual : Bool) (h : ∀ m ∈ (if dual then ALT.singleModels else ALT.dualModels), m ∈ ex) :
    (ALT.singleModels ++ ALT.dualModels).filter (fun m => decide (m ∉ ex)) =
      (if dual then ALT.dualModels else ALT.singleModels).filter fun m => decide (m ∉ ex) := by
  rw [List.filter_append]
  cases dual with
  | false =>
    have : ALT.dualModels.filter (fun m => decide (m ∉ ex)) = [] := by
      rw [List.filter_eq_nil_iff]; intro m hm; simpa using h m hm
    rw [this, List.append_nil]; rfl
  | true =>
    have : ALT.singleModels.filter (fun m => decide (m ∉ ex)) = [] := by
      rw [List.filter_eq_nil_iff]; intro m hm; simpa using h m hm
    rw [this, List.nil_append]; rfl

theorem excluded_other {e : Option (List Item)} {dual : Bool} {ex : List String} (h : ALT.excludedModels e dual = .ok ex) :
    ∀ m ∈ (if dual then ALT.singleModels else ALT.dualModels), m ∈ ex := by
  unfold ALT.excludedModels at h
  split at h
  · cases h
  · cases h
    intro m hm
    exact List.mem_append_right _ hm

theorem rows_models {σ κ : Type} [LinearOrder κ] {k : Kind σ κ} {cs : List (Cls σ)} {dual : Bool} (hf : Family cs dual)
    {argsort : List ℝ → List ℕ} {J : Jac} {O : Oracle σ} {x : FEAArgs} {res : ALT.FEAResult} {inp : ALTChecked ℝ κ}
    {rows : List ALT.Row} (h : Run k cs dual argsort J O x res inp rows) :
    rows.map ALT.Row.model = (ALT.singleModels ++ ALT.dualModels).filter fun m => decide (m ∉ res.excluded) := by
  rw [filter_models _ dual (excluded_other h.ex), ← hf.names, forall₂_models h.frame, List.filter_map]
  rfl

/-- The refinement to the model of C77. -/
theorem refines {σ κ : Type} [LinearOrder κ] {k : Kind σ κ} {cs : List (Cls σ)} {dual : Bool} (hf : Family cs dual)
    {argsort : List ℝ → List ℕ} (ha : IsArgsort argsort) {J : Jac} {O : Oracle σ} {x : FEAArgs} {res : ALT.FEAResult}
    {inp : ALTChecked ℝ κ} {rows : List ALT.Row} (h : Run k cs dual argsort J O x res inp rows) :
    ∃ fit, ALT.fitEverythingALT argsort fit dual x.exclude x.sort_by (useOf inp.use_level_stress) = .ok res ∧
      res.results.Perm rows ∧ ∀ r ∈ rows, fit r.model = r := by
  have hm := rows_models hf h
  have hn : (rows.map ALT.Row.model).Nodup := by
    rw [hm]
    exact List.Nodup.filter _ (by decide)
  set d : ALT.Row := ⟨"", {}, 0, none, 0, none⟩
  obtain ⟨l1, l2⟩ := lookup_rows hn (d := d)
  have hfr : ALT.frameALT (fun m => (rows.find? (fun r => r.model = m)).getD d) res.excluded = rows := by
    unfold ALT.frameALT
    rw [← hm]
    exact l1
  have hfin := h.fin
  unfold finish at hfin
  cases hs : ALT.sortRowsALT argsort x.sort_by rows with
  | error e => rw [hs] at hfin; cases hfin
  | ok rows' =>
    rw [hs] at hfin
    cases rows' with
    | nil => cases hfin
    | cons r rs =>
      have hp := FEA.sortRowsALT_ok ha hs
      have hr : r ∈ rows := hp.mem_iff.1 List.mem_cons_self
      refine ⟨fun m => (rows.find? (fun r => r.model = m)).getD d, ?_, ?_, l2⟩
      · unfold ALT.fitEverythingALT
        rw [h.ex]
        dsimp only
        rw [hfr, hs]
        dsimp only
        rw [l2 r hr]
        exact hfin
      · injection hfin with hfin
        rw [← hfin]
        exact hp

theorem attr_ok {rows : List FitGlue.Row} (hn : (rows.map FitGlue.Row.name).Nodup) {w : FitGlue.Row} (hw : w ∈ rows) :
    attr rows w.name = w.point := by
  unfold attr
  cases hf : rows.find? (fun w' => w'.name = w.name) with
  | none => exact absurd (List.find?_eq_none.1 hf w hw) (by simp)
  | some w' =>
    have h1 := List.find?_some hf
    have h2 := List.mem_of_find?_eq_some hf
    simp only [decide_eq_true_eq] at h1
    rw [List.inj_on_of_nodup_map hn h2 hw h1]

theorem res_names {σ κ : Type} [LinearOrder κ] {k : Kind σ κ} {argsort : List ℝ → List ℕ} {J : Jac} {O : Oracle σ} {x : ALTArgs}
    {c : Cls σ} {r : ALTRes σ} (hl : c.names.length = c.n) (h : call k argsort J O x c = .ok r) :
    r.rows.map FitGlue.Row.name = c.names := by
  simp only [call, fitALT, bind_ok] at h
  obtain ⟨inp, -, ls, -, gs, -, bounds, -, o, -, SE, -, h⟩ := h
  cases h
  simp only [resultRows, List.map_ofFn]
  apply List.ext_getElem
  · simp [hl]
  · intro i h1 h2
    simp [List.getElem_ofFn, List.getD_eq_getElem?_getD, List.getElem?_eq_getElem h2]

theorem shows {σ κ : Type} [LinearOrder κ] {k : Kind σ κ} {cs : List (Cls σ)} {dual : Bool} (hf : Family cs dual)
    {argsort : List ℝ → List ℕ} {J : Jac} {O : Oracle σ} {x : ALTArgs} {c : Cls σ} (hc : c ∈ cs) {r : ALTRes σ}
    (h : call k argsort J O x c = .ok r) : Shows (rowOf c r) r := by
  obtain ⟨p1, p2, p3⟩ := hf.params c hc
  have hn := res_names p1 h
  refine ⟨rfl, rfl, rfl, rfl, fun w hw => ?_⟩
  have ha := attr_ok (rows := r.rows) (by rw [hn]; exact p2) hw
  have hm := p3 w.name (by rw [← hn]; exact List.mem_map_of_mem hw)
  simp only [List.mem_cons, List.not_mem_nil, or_false] at hm
  simp only [rowOf, cell]
  rcases hm with e | e | e | e | e | e | e <;> rw [e] at ha ⊢ <;> simp [ha]

theorem forall2_right {α β : Type} {R : α → β → Prop} {l : List α} {l' : List β} (h : List.Forall₂ R l l') {b : β}
    (hb : b ∈ l') : ∃ a ∈ l, R a b := by
  induction h with
  | nil => cases hb
  | cons h1 _ ih =>
    rcases List.mem_cons.1 hb with rfl | hb
    · exact ⟨_, List.mem_cons_self, h1⟩
    · obtain ⟨a, ha, hr⟩ := ih hb
      exact ⟨a, List.mem_cons_of_mem _ ha, hr⟩

/-- What the theorems say, for both kinds of stresses. -/
theorem main {σ κ : Type} [LinearOrder κ] {k : Kind σ κ} {cs : List (Cls σ)} {dual : Bool} (hf : Family cs dual)
    {argsort : List ℝ → List ℕ} (ha : IsArgsort argsort) {J : Jac} {O : Oracle σ} {x : FEAArgs} {res : ALT.FEAResult}
    (hd : isDual "Everything" x.failure_stress_2 = dual) (h : everything k cs dual argsort J O x = .ok res) :
    (res.results.map ALT.Row.model).Nodup ∧
    (∀ m, m ∈ res.results.map ALT.Row.model ↔ m ∈ altModelNames dual ∧ ¬ Asked x.exclude m) ∧
    ∀ row ∈ res.results, ∃ c ∈ cs, row.model = c.dist ++ "_" ++ c.model ∧
      ∃ r, fitALT c k argsort J (O.num c) (O.noise c) (O.minimize c) x.toALTArgs = .ok r ∧ Shows row r := by
  obtain ⟨inp, rows, hr⟩ := run hd h
  obtain ⟨fit, hfit, hp, -⟩ := refines hf ha hr
  obtain ⟨c1, c2, -⟩ := FEA.C77_contents ha hfit
  refine ⟨c1, c2, fun row hrow => ?_⟩
  have hmem := hp.mem_iff.1 hrow
  obtain ⟨c, hc, r, hcall, rfl⟩ := forall2_right hr.frame hmem
  rw [List.mem_filter] at hc
  exact ⟨c, hc.1, rfl, r, (call_direct hf hd hr.check hc.1).symm.trans hcall, shows hf hc.1 hcall⟩

theorem main_best {σ κ : Type} [LinearOrder κ] {k : Kind σ κ} {cs : List (Cls σ)} {dual : Bool} (hf : Family cs dual)
    {argsort : List ℝ → List ℕ} (ha : IsArgsort argsort) {J : Jac} {O : Oracle σ} {x : FEAArgs} {res : ALT.FEAResult}
    (hd : isDual "Everything" x.failure_stress_2 = dual) (h : everything k cs dual argsort J O x = .ok res)
    {s : String} (hs : x.sort_by = some s) :
    ∃ best rest, res.results = best :: rest ∧ best.model = res.best ∧
      ((up s = "BIC" ∨ (up s ∈ ["AIC", "AICC"] ∧ ∃ r ∈ res.results, r.AICc = none)) →
        res.results.Pairwise (fun a b => a.BIC ≤ b.BIC) ∧ ∀ r ∈ res.results, best.BIC ≤ r.BIC) ∧
      (up s ∈ ["AIC", "AICC"] → (∀ r ∈ res.results, r.AICc ≠ none) →
        ∀ r ∈ res.results, ∃ x y, best.AICc = some x ∧ r.AICc = some y ∧ x ≤ y) ∧
      (up s ∈ ["LOGLIK", "LOG LIK", "LOG-LIKELIHOOD", "LL", "LOGLIKELIHOOD", "LOG LIKELIHOOD"] →
        (∀ r ∈ res.results, r.loglik ≤ 0) → ∀ r ∈ res.results, r.loglik ≤ best.loglik) := by
  obtain ⟨inp, rows, hr⟩ := run hd h
  obtain ⟨fit, hfit, -, -⟩ := refines hf ha hr
  rw [hs] at hfit
  exact FEA.C77_sorted ha hfit

/-! ## The best model at the use stress -/

/-- The table and the numbers of a class come from the same parameters. -/
theorem call_fit {σ κ : Type} [LinearOrder κ] {k : Kind σ κ} {argsort : List ℝ → List ℕ} {J : Jac} {O : Oracle σ} {x : ALTArgs}
    {c : Cls σ} {r : ALTRes σ} (h : call k argsort J O x c = .ok r) :
    ∃ inp p SE Z F C Fs Cs G B, altCheck k.key c.dist c.model x.failures x.failure_stress_1 x.failure_stress_2 x.right_censored
        x.right_censored_stress_1 x.right_censored_stress_2 x.CI x.use_level_stress x.optimizer = .ok inp ∧
      r.rows = resultRows c.names p SE B ∧ r.fit = c.fit p SE Z F C Fs Cs (k.use inp.use_level_stress) G := by
  simp only [call, fitALT, bind_ok] at h
  obtain ⟨inp, h1, ls, -, gs, -, bounds, -, o, -, SE, -, h⟩ := h
  cases h
  exact ⟨inp, _, _, _, _, _, _, _, _, _, h1, rfl, rfl⟩

theorem use_single {c : Cls ℝ} (hc : c ∈ singleClasses) {r : ALTRes ℝ} {p : Fin c.n → ℝ} {SE : Option (List ℝ)} {B : List (ℝ × ℝ)}
    (h1 : r.rows = resultRows c.names p SE B) {Z : ℝ} {F C Fs Cs G : List ℝ} {u : Option ℝ}
    (h2 : r.fit = c.fit p SE Z F C Fs Cs u G) (v : ℝ) :
    (u.map fun u => (u, v)).bind (fun u => ALT.bestUse (clsName c) (rowOf c r).params u) = r.fit.useDist := by
  rw [h2]
  simp only [rowOf, h1]
  simp only [singleClasses, List.mem_cons, List.not_mem_nil, or_false] at hc
  rcases hc with rfl | rfl | rfl | rfl | rfl | rfl | rfl | rfl | rfl | rfl | rfl | rfl <;> cases u <;> rfl

theorem use_dual {c : Cls (ℝ × ℝ)} (hc : c ∈ dualClasses) (hw : clsName c ∉ FEA.wrong) {r : ALTRes (ℝ × ℝ)} {p : Fin c.n → ℝ}
    {SE : Option (List ℝ)} {B : List (ℝ × ℝ)} (h1 : r.rows = resultRows c.names p SE B) {Z : ℝ} {F C : List ℝ}
    {Fs Cs G : List (ℝ × ℝ)} {u : Option (ℝ × ℝ)} (h2 : r.fit = c.fit p SE Z F C Fs Cs u G) :
    u.bind (fun u => ALT.bestUse (clsName c) (rowOf c r).params u) = r.fit.useDist := by
  rw [h2]
  simp only [rowOf, h1]
  simp only [dualClasses, List.mem_cons, List.not_mem_nil, or_false] at hc
  rcases hc with rfl | rfl | rfl | rfl | rfl | rfl | rfl | rfl | rfl | rfl | rfl | rfl <;>
    first
    | exact absurd (by decide) hw
    | (cases u <;> rfl)

/-- The best model and its own object at the use stress, given that the two formulas agree for it. -/
theorem main_use {σ κ : Type} [LinearOrder κ] {k : Kind σ κ} {cs : List (Cls σ)} {dual : Bool} (hf : Family cs dual)
    {argsort : List ℝ → List ℕ} (ha : IsArgsort argsort) {J : Jac} {O : Oracle σ} {x : FEAArgs} {res : ALT.FEAResult}
    (hd : isDual "Everything" x.failure_stress_2 = dual) (h : everything k cs dual argsort J O x = .ok res)
    (P : String → Prop) (hP : P res.best)
    (hu : ∀ (inp : ALTChecked ℝ κ), altUse dual x.use_level_stress = .ok inp.use_level_stress → ∀ c ∈ cs, P (clsName c) →
      ∀ (r : ALTRes σ) (p : Fin c.n → ℝ) SE B Z F C Fs Cs G, r.rows = resultRows c.names p SE B →
        r.fit = c.fit p SE Z F C Fs Cs (k.use inp.use_level_stress) G →
        (useOf inp.use_level_stress).bind (fun u => ALT.bestUse (clsName c) (rowOf c r).params u) = r.fit.useDist) :
    ∃ c ∈ cs, c.dist ++ "_" ++ c.model = res.best ∧
      ∃ r, fitALT c k argsort J (O.num c) (O.noise c) (O.minimize c) x.toALTArgs = .ok r ∧ res.useDist = r.fit.useDist := by
  obtain ⟨inp, rows, hr⟩ := run hd h
  have hfin := hr.fin
  unfold finish at hfin
  cases hs : ALT.sortRowsALT argsort x.sort_by rows with
  | error e => rw [hs] at hfin; cases hfin
  | ok rows' =>
    rw [hs] at hfin
    cases rows' with
    | nil => cases hfin
    | cons row rs =>
      have hp := FEA.sortRowsALT_ok ha hs
      obtain ⟨c, hc, r, hcall, rfl⟩ := forall2_right hr.frame (hp.mem_iff.1 List.mem_cons_self)
      rw [List.mem_filter] at hc
      injection hfin with hfin
      have hb : res.best = clsName c := by rw [← hfin]; rfl
      have hcall' := (call_direct hf hd hr.check hc.1).symm.trans hcall
      refine ⟨c, hc.1, hb.symm, r, hcall', ?_⟩
      obtain ⟨inp', p, SE, Z, F, C, Fs, Cs, G, B, hi, q1, q2⟩ := call_fit hcall'
      have hi2 := (check_again hd hr.check (hf.dists c hc.1) (hf.models c hc.1) (hf.kind c hc.1)).1
      have := hi.symm.trans hi2
      injection this with this
      subst this
      have hchk := hr.check
      rw [altCheck_iff, hd] at hchk
      rw [← hu inp' hchk.2.2.2.2.2.2.2.2.2 c hc.1 (hb ▸ hP) r p SE B Z F C Fs Cs G q1 q2, ← hfin]
      rfl

/-! ## Raising and returning -/

theorem frame_raises {σ κ : Type} [LinearOrder κ] {k : Kind σ κ} {argsort : List ℝ → List ℕ} {J : Jac} {O : Oracle σ} {x : ALTArgs}
    {cs : List (Cls σ)} {rows : List ALT.Row}
    (h : List.Forall₂ (fun c row => ∃ r, call k argsort J O x c = .ok r ∧ row = rowOf c r) cs rows) {c : Cls σ} (hc : c ∈ cs) :
    ∃ r, call k argsort J O x c = .ok r := by
  obtain ⟨_, r, hr, -⟩ := ALTGlue.forall2_left h hc
  exact ⟨r, hr⟩

theorem frame_returns {σ κ : Type} [LinearOrder κ] {k : Kind σ κ} {argsort : List ℝ → List ℕ} {J : Jac} {O : Oracle σ} {x : ALTArgs} :
    ∀ {cs : List (Cls σ)}, (∀ c ∈ cs, ∃ r, call k argsort J O x c = .ok r) → ∃ rows, frame k argsort J O x cs = .ok rows
  | [], _ => ⟨_, rfl⟩
  | c :: cs, h => by
    obtain ⟨r, hr⟩ := h c List.mem_cons_self
    obtain ⟨rs, hrs⟩ := frame_returns fun c' hc' => h c' (List.mem_cons_of_mem _ hc')
    exact ⟨rowOf c r :: rs, by simp only [frame, bind_ok]; exact ⟨r, hr, rs, hrs, rfl⟩⟩

/-- A model that is not left out is fitted: if its class does not return, neither does `Fit_Everything_ALT`. -/
theorem main_raises {σ κ : Type} [LinearOrder κ] {k : Kind σ κ} {cs : List (Cls σ)} {dual : Bool} (hf : Family cs dual)
    {argsort : List ℝ → List ℕ} (ha : IsArgsort argsort) {J : Jac} {O : Oracle σ} {x : FEAArgs} {res : ALT.FEAResult}
    (hd : isDual "Everything" x.failure_stress_2 = dual) (h : everything k cs dual argsort J O x = .ok res) {c : Cls σ}
    (hc : c ∈ cs) (hx : ¬ Asked x.exclude (c.dist ++ "_" ++ c.model)) :
    ∃ r, fitALT c k argsort J (O.num c) (O.noise c) (O.minimize c) x.toALTArgs = .ok r := by
  obtain ⟨inp, rows, hr⟩ := run hd h
  obtain ⟨-, c2, -⟩ := main hf ha hd h
  obtain ⟨fit, hfit, hp, -⟩ := refines hf ha hr
  have hn : clsName c ∈ altModelNames dual := by
    rw [FEA.mem_altModelNames, ← hf.names]
    exact List.mem_map_of_mem hc
  have hm := (c2 (clsName c)).2 ⟨hn, hx⟩
  rw [(hp.map ALT.Row.model).mem_iff, rows_models hf hr, List.mem_filter] at hm
  obtain ⟨r, hcall⟩ := frame_raises hr.frame (List.mem_filter.2 ⟨hc, hm.2⟩)
  exact ⟨r, (call_direct hf hd hr.check hc).symm.trans hcall⟩

theorem excluded_returns (e : Option (List Item)) (dual : Bool) (he : Item.other ∉ e.getD []) :
    ∃ ex, ALT.excludedModels e dual = .ok ex := by
  have hloop : ∀ l : List Item, Item.other ∉ l → ∃ ex, ALT.excludedLoop l = .ok ex := by
    intro l hl
    induction l with
    | nil => exact ⟨_, rfl⟩
    | cons i l ih =>
      cases i with
      | other => exact absurd List.mem_cons_self hl
      | str s =>
        obtain ⟨ex, h⟩ := ih (fun h => hl (List.mem_cons_of_mem _ h))
        exact ⟨_, by rw [ALT.excludedLoop, h]⟩
  obtain ⟨ex, h⟩ := hloop _ he
  exact ⟨_, by rw [ALT.excludedModels, h]⟩

/-- What `sort_by` may be. -/
def sortNames : List String :=
  ["BIC", "AIC", "AICC", "LOGLIK", "LOG LIK", "LOG-LIKELIHOOD", "LL", "LOGLIKELIHOOD", "LOG LIKELIHOOD"]

theorem sort_returns (argsort : List ℝ → List ℕ) {s : String} (hs : up s ∈ sortNames) (rows : List ALT.Row) :
    ∃ rows', ALT.sortRowsALT argsort (some s) rows = .ok rows' := by
  unfold ALT.sortRowsALT
  simp only
  have hb : up "BIC" = "BIC" := by decide +kernel
  by_cases h : up s ∈ ["AIC", "AICC"] ∧ rows.any (fun r => r.AICc.isNone) = true
  · rw [if_pos h, if_pos hb]; exact ⟨_, rfl⟩
  · rw [if_neg h]
    by_cases h1 : up s = "BIC"
    · rw [if_pos h1]; exact ⟨_, rfl⟩
    · rw [if_neg h1]
      by_cases h2 : up s ∈ ["AICC", "AIC"]
      · rw [if_pos h2]; exact ⟨_, rfl⟩
      · rw [if_neg h2, if_pos]
        · exact ⟨_, rfl⟩
        · simp only [sortNames, List.mem_cons, List.not_mem_nil, or_false] at hs
          rw [List.mem_cons, List.mem_singleton, not_or] at h2
          rcases hs with e | e | e | e | e | e | e | e | e
          · exact absurd e h1
          · exact absurd e h2.2
          · exact absurd e h2.1
          all_goals rw [e]; simp

theorem main_returns {σ κ : Type} [LinearOrder κ] {k : Kind σ κ} {cs : List (Cls σ)} {dual : Bool} (hf : Family cs dual)
    {argsort : List ℝ → List ℕ} (ha : IsArgsort argsort) {J : Jac} {O : Oracle σ} {x : FEAArgs}
    (hd : isDual "Everything" x.failure_stress_2 = dual)
    (hchk : ∃ inp, altCheck k.key "Everything" "Everything" x.failures x.failure_stress_1 x.failure_stress_2 x.right_censored
      x.right_censored_stress_1 x.right_censored_stress_2 x.CI x.use_level_stress x.optimizer = .ok inp)
    (he : Item.other ∉ x.exclude.getD []) {s : String} (hs : x.sort_by = some s) (hn : up s ∈ sortNames)
    (hm : ∃ m ∈ altModelNames dual, ¬ Asked x.exclude m)
    (hcs : ∀ c ∈ cs, ¬ Asked x.exclude (c.dist ++ "_" ++ c.model) →
      ∃ r, fitALT c k argsort J (O.num c) (O.noise c) (O.minimize c) x.toALTArgs = .ok r) :
    ∃ res, everything k cs dual argsort J O x = .ok res := by
  obtain ⟨inp, hchk⟩ := hchk
  obtain ⟨ex, hex⟩ := excluded_returns x.exclude dual he
  obtain ⟨rows, hrows⟩ := frame_returns (k := k) (argsort := argsort) (J := J) (O := O) (x := checkedArgs dual inp)
    (cs := cs.filter fun c => clsName c ∉ ex) (fun c hc => by
      rw [List.mem_filter] at hc
      have hc3 : clsName c ∈ ALT.singleModels ++ ALT.dualModels := by
        have hn := List.mem_map_of_mem (f := clsName) hc.1
        rw [hf.names] at hn
        cases dual
        · exact List.mem_append_left _ (by simpa using hn)
        · exact List.mem_append_right _ (by simpa using hn)
      obtain ⟨r, hr⟩ := hcs c hc.1 fun ha => (by simpa using hc.2 : clsName c ∉ ex) ((FEA.mem_excluded hex hc3).2 (.inl ha))
      exact ⟨r, (call_direct hf hd hchk hc.1).trans hr⟩)
  obtain ⟨rows', hsort⟩ := sort_returns argsort hn rows
  have hp := FEA.sortRowsALT_ok ha hsort
  have hne : rows' ≠ [] := by
    rintro rfl
    have h0 : rows = [] := hp.symm.eq_nil
    have hmods := forall₂_models (frame_ok.1 hrows)
    rw [h0, List.map_nil] at hmods
    obtain ⟨m, hm1, hm2⟩ := hm
    rw [FEA.mem_altModelNames] at hm1
    have hx : m ∉ ex := by
      have hm3 : m ∈ ALT.singleModels ++ ALT.dualModels := by
        cases dual
        · exact List.mem_append_left _ (by simpa using hm1)
        · exact List.mem_append_right _ (by simpa using hm1)
      rw [FEA.mem_excluded hex hm3, not_or]
      refine ⟨hm2, ?_⟩
      cases dual
      · simpa using FEA.models_disjoint m (by simpa using hm1)
      · intro h'
        exact FEA.models_disjoint m (by simpa using h') (by simpa using hm1)
    rw [← hf.names, List.mem_map] at hm1
    obtain ⟨c, hc, rfl⟩ := hm1
    have : clsName c ∈ (cs.filter fun c => clsName c ∉ ex).map clsName :=
      List.mem_map_of_mem (List.mem_filter.2 ⟨hc, by simpa using hx⟩)
    rw [← hmods] at this
    cases this
  obtain ⟨r, rs, rfl⟩ := List.exists_cons_of_ne_nil hne
  refine ⟨⟨r :: rs, r.model, ex, (useOf inp.use_level_stress).bind fun u => ALT.bestUse r.model r.params u⟩, ?_⟩
  simp only [everything, bind_ok]
  refine ⟨inp, hchk, ex, by rw [stress_2_length hd hchk]; exact hex, rows, hrows, ?_⟩
  rw [hs]
  unfold finish
  rw [hsort]

/-! ## C123 -/

theorem single_eq {κ : Type} [LinearOrder κ] {key : ℝ → Option ℝ → κ} {stress : κ → ℝ × ℝ} {argsort : List ℝ → List ℕ} {J : Jac}
    {O₁ : Oracle ℝ} {O₂ : Oracle (ℝ × ℝ)} {x : FEAArgs} (h : x.failure_stress_2 = .none) :
    isDual "Everything" x.failure_stress_2 = false ∧
      fitEverythingALT key stress argsort J O₁ O₂ x = everything singleKind singleClasses false argsort J O₁ x := by
  have : isDual "Everything" x.failure_stress_2 = false := by rw [h]; rfl
  exact ⟨this, by unfold fitEverythingALT; rw [this]; rfl⟩

theorem dual_eq {κ : Type} [LinearOrder κ] {key : ℝ → Option ℝ → κ} {stress : κ → ℝ × ℝ} {argsort : List ℝ → List ℕ} {J : Jac}
    {O₁ : Oracle ℝ} {O₂ : Oracle (ℝ × ℝ)} {x : FEAArgs} (h : x.failure_stress_2 ≠ .none) :
    isDual "Everything" x.failure_stress_2 = true ∧
      fitEverythingALT key stress argsort J O₁ O₂ x = everything (dualKind key stress) dualClasses true argsort J O₂ x := by
  have : isDual "Everything" x.failure_stress_2 = true := by
    rw [isDual_iff]
    exact .inr (.inr (.inr ⟨rfl, h⟩))
  exact ⟨this, by unfold fitEverythingALT; rw [this]; rfl⟩

/-- **C123, one stress.** The table of `Fit_Everything_ALT` has exactly one row for each of the twelve single-stress models the
caller did not exclude, and the row of a model shows the log-likelihood, AICc, BIC, optimizer and parameters that the class of
that name returns when it is called directly with the caller's own arguments. -/
theorem C123_single {κ : Type} [LinearOrder κ] (key : ℝ → Option ℝ → κ) (stress : κ → ℝ × ℝ) {argsort : List ℝ → List ℕ}
    (ha : IsArgsort argsort) (J : Jac) (O₁ : Oracle ℝ) (O₂ : Oracle (ℝ × ℝ)) (x : FEAArgs) (h1 : x.failure_stress_2 = .none)
    (res : ALT.FEAResult) (h : fitEverythingALT key stress argsort J O₁ O₂ x = .ok res) :
    (res.results.map ALT.Row.model).Nodup ∧
    (∀ m, m ∈ res.results.map ALT.Row.model ↔ m ∈ altModelNames false ∧ ¬ Asked x.exclude m) ∧
    ∀ row ∈ res.results, ∃ c ∈ singleClasses, row.model = c.dist ++ "_" ++ c.model ∧
      ∃ r, fitALT c singleKind argsort J (O₁.num c) (O₁.noise c) (O₁.minimize c) x.toALTArgs = .ok r ∧ Shows row r := by
  obtain ⟨hd, e⟩ := single_eq (key := key) (stress := stress) (argsort := argsort) (J := J) (O₁ := O₁) (O₂ := O₂) h1
  rw [e] at h
  exact main single_family ha hd h

/-- **C123, two stresses.** The same for the twelve dual-stress models. -/
theorem C123_dual {κ : Type} [LinearOrder κ] (key : ℝ → Option ℝ → κ) (stress : κ → ℝ × ℝ) {argsort : List ℝ → List ℕ}
    (ha : IsArgsort argsort) (J : Jac) (O₁ : Oracle ℝ) (O₂ : Oracle (ℝ × ℝ)) (x : FEAArgs) (h1 : x.failure_stress_2 ≠ .none)
    (res : ALT.FEAResult) (h : fitEverythingALT key stress argsort J O₁ O₂ x = .ok res) :
    (res.results.map ALT.Row.model).Nodup ∧
    (∀ m, m ∈ res.results.map ALT.Row.model ↔ m ∈ altModelNames true ∧ ¬ Asked x.exclude m) ∧
    ∀ row ∈ res.results, ∃ c ∈ dualClasses, row.model = c.dist ++ "_" ++ c.model ∧
      ∃ r, fitALT c (dualKind key stress) argsort J (O₂.num c) (O₂.noise c) (O₂.minimize c) x.toALTArgs = .ok r ∧ Shows row r := by
  obtain ⟨hd, e⟩ := dual_eq (key := key) (stress := stress) (argsort := argsort) (J := J) (O₁ := O₁) (O₂ := O₂) h1
  rw [e] at h
  exact main dual_family ha hd h

/-- **C123 (the best model).** The first row is the best model: by BIC, or by AICc when every model has one, or by
log-likelihood when none is positive. -/
theorem C123_best {κ : Type} [LinearOrder κ] (key : ℝ → Option ℝ → κ) (stress : κ → ℝ × ℝ) {argsort : List ℝ → List ℕ}
    (ha : IsArgsort argsort) (J : Jac) (O₁ : Oracle ℝ) (O₂ : Oracle (ℝ × ℝ)) (x : FEAArgs)
    (res : ALT.FEAResult) (h : fitEverythingALT key stress argsort J O₁ O₂ x = .ok res) (s : String) (hs : x.sort_by = some s) :
    ∃ best rest, res.results = best :: rest ∧ best.model = res.best ∧
      ((up s = "BIC" ∨ (up s ∈ ["AIC", "AICC"] ∧ ∃ r ∈ res.results, r.AICc = none)) →
        res.results.Pairwise (fun a b => a.BIC ≤ b.BIC) ∧ ∀ r ∈ res.results, best.BIC ≤ r.BIC) ∧
      (up s ∈ ["AIC", "AICC"] → (∀ r ∈ res.results, r.AICc ≠ none) →
        ∀ r ∈ res.results, ∃ x y, best.AICc = some x ∧ r.AICc = some y ∧ x ≤ y) ∧
      (up s ∈ ["LOGLIK", "LOG LIK", "LOG-LIKELIHOOD", "LL", "LOGLIKELIHOOD", "LOG LIKELIHOOD"] →
        (∀ r ∈ res.results, r.loglik ≤ 0) → ∀ r ∈ res.results, r.loglik ≤ best.loglik) := by
  by_cases h1 : x.failure_stress_2 = .none
  · obtain ⟨hd, e⟩ := single_eq (key := key) (stress := stress) (argsort := argsort) (J := J) (O₁ := O₁) (O₂ := O₂) h1
    rw [e] at h
    exact main_best single_family ha hd h hs
  · obtain ⟨hd, e⟩ := dual_eq (key := key) (stress := stress) (argsort := argsort) (J := J) (O₁ := O₁) (O₂ := O₂) h1
    rw [e] at h
    exact main_best dual_family ha hd h hs

/-- **C123 (the best model at the use stress, one stress).** `best_model_at_use_stress` is the object
`distribution_at_use_stress` of the best model's own class. -/
theorem C123_use_single {κ : Type} [LinearOrder κ] (key : ℝ → Option ℝ → κ) (stress : κ → ℝ × ℝ) {argsort : List ℝ → List ℕ}
    (ha : IsArgsort argsort) (J : Jac) (O₁ : Oracle ℝ) (O₂ : Oracle (ℝ × ℝ)) (x : FEAArgs) (h1 : x.failure_stress_2 = .none)
    (res : ALT.FEAResult) (h : fitEverythingALT key stress argsort J O₁ O₂ x = .ok res) :
    ∃ c ∈ singleClasses, c.dist ++ "_" ++ c.model = res.best ∧
      ∃ r, fitALT c singleKind argsort J (O₁.num c) (O₁.noise c) (O₁.minimize c) x.toALTArgs = .ok r ∧
        res.useDist = r.fit.useDist := by
  obtain ⟨hd, e⟩ := single_eq (key := key) (stress := stress) (argsort := argsort) (J := J) (O₁ := O₁) (O₂ := O₂) h1
  rw [e] at h
  refine main_use single_family ha hd h (fun _ => True) trivial fun inp hi c hc _ r p SE B Z F C Fs Cs G q1 q2 => ?_
  rw [altUse_iff] at hi
  obtain ⟨e, hi⟩ := hi
  rw [e] at q2 ⊢
  rcases hi with hi | ⟨-, u, hi⟩ | ⟨hi, -⟩
  · rw [hi] at q2 ⊢
    exact use_single hc q1 q2 0
  · rw [hi] at q2 ⊢
    exact use_single hc q1 q2 0
  · cases hi

/-- **C123 (the best model at the use stress, two stresses, partial).** The same, unless the best model is one of the six
Lognormal and Exponential ones.  Missing: those six, for which it is false (`C77_lognormal_use_finding`,
`C77_exponential_use_finding`). -/
theorem C123_use_dual_partial {κ : Type} [LinearOrder κ] (key : ℝ → Option ℝ → κ) (stress : κ → ℝ × ℝ)
    {argsort : List ℝ → List ℕ} (ha : IsArgsort argsort) (J : Jac) (O₁ : Oracle ℝ) (O₂ : Oracle (ℝ × ℝ)) (x : FEAArgs)
    (h1 : x.failure_stress_2 ≠ .none) (res : ALT.FEAResult) (h : fitEverythingALT key stress argsort J O₁ O₂ x = .ok res)
    (hw : res.best ∉ ["Lognormal_Dual_Exponential", "Lognormal_Power_Exponential", "Lognormal_Dual_Power",
      "Exponential_Dual_Exponential", "Exponential_Power_Exponential", "Exponential_Dual_Power"]) :
    ∃ c ∈ dualClasses, c.dist ++ "_" ++ c.model = res.best ∧
      ∃ r, fitALT c (dualKind key stress) argsort J (O₂.num c) (O₂.noise c) (O₂.minimize c) x.toALTArgs = .ok r ∧
        res.useDist = r.fit.useDist := by
  obtain ⟨hd, e⟩ := dual_eq (key := key) (stress := stress) (argsort := argsort) (J := J) (O₁ := O₁) (O₂ := O₂) h1
  rw [e] at h
  refine main_use dual_family ha hd h (fun m => m ∉ FEA.wrong) hw fun inp hi c hc hP r p SE B Z F C Fs Cs G q1 q2 => ?_
  rw [altUse_iff] at hi
  obtain ⟨e, hi⟩ := hi
  rw [e] at q2 ⊢
  rcases hi with hi | ⟨hi, -⟩ | ⟨-, u, v, hi⟩
  · rw [hi] at q2 ⊢
    exact use_dual hc hP q1 q2
  · cases hi
  · rw [hi] at q2 ⊢
    exact use_dual hc hP q1 q2

/-- **C123 (errors are not hidden).** Every model that is not left out is fitted: when `Fit_Everything_ALT` returns, so does
every class the caller did not exclude. -/
theorem C123_all_fit {κ : Type} [LinearOrder κ] (key : ℝ → Option ℝ → κ) (stress : κ → ℝ × ℝ) {argsort : List ℝ → List ℕ}
    (ha : IsArgsort argsort) (J : Jac) (O₁ : Oracle ℝ) (O₂ : Oracle (ℝ × ℝ)) (x : FEAArgs)
    (res : ALT.FEAResult) (h : fitEverythingALT key stress argsort J O₁ O₂ x = .ok res) :
    (x.failure_stress_2 = .none → ∀ c ∈ singleClasses, ¬ Asked x.exclude (c.dist ++ "_" ++ c.model) →
      ∃ r, fitALT c singleKind argsort J (O₁.num c) (O₁.noise c) (O₁.minimize c) x.toALTArgs = .ok r) ∧
    (x.failure_stress_2 ≠ .none → ∀ c ∈ dualClasses, ¬ Asked x.exclude (c.dist ++ "_" ++ c.model) →
      ∃ r, fitALT c (dualKind key stress) argsort J (O₂.num c) (O₂.noise c) (O₂.minimize c) x.toALTArgs = .ok r) := by
  constructor
  · intro h1 c hc hx
    obtain ⟨hd, e⟩ := single_eq (key := key) (stress := stress) (argsort := argsort) (J := J) (O₁ := O₁) (O₂ := O₂) h1
    rw [e] at h
    exact main_raises single_family ha hd h hc hx
  · intro h1 c hc hx
    obtain ⟨hd, e⟩ := dual_eq (key := key) (stress := stress) (argsort := argsort) (J := J) (O₁ := O₁) (O₂ := O₂) h1
    rw [e] at h
    exact main_raises dual_family ha hd h hc hx

/-- What a class requires follows from what `Fit_Everything_ALT` requires. -/
theorem requirements {x : ALTArgs} {dual : Bool} {F A B C D E : List ℝ}
    (q : ALTRequirements "Everything" "Everything" x.failures x.failure_stress_1 x.failure_stress_2 x.right_censored
        x.right_censored_stress_1 x.right_censored_stress_2 x.CI x.use_level_stress x.optimizer dual F A B C D E)
    {dist model : String} (hdist : dist ∈ ["Exponential", "Weibull", "Lognormal", "Normal", "Everything"])
    (hmodel : model ∈ ["Exponential", "Eyring", "Power", "Dual_Exponential", "Power_Exponential", "Dual_Power", "Everything"])
    (hm : ∀ fs2, isDual (K := ℝ) model fs2 = dual) :
    ALTRequirements dist model x.failures x.failure_stress_1 x.failure_stress_2 x.right_censored
        x.right_censored_stress_1 x.right_censored_stress_2 x.CI x.use_level_stress x.optimizer dual F A B C D E := by
  refine { q with dist_known := by simpa using hdist, model_known := by simpa using hmodel, is_dual := ?_ }
  rw [← isDual_iff, hm]

/-- **C123 (it returns, partial).** `Fit_Everything_ALT` returns a result for every input that satisfies the documented
requirements, with the provisos of C111, when `exclude` is a list of names that leaves a model and `sort_by` is one of the
documented names (any capitalisation).  Missing: optimizers that fail, censored stresses without failures. -/
theorem C123_returns_partial {κ : Type} [LinearOrder κ] (key : ℝ → Option ℝ → κ) (stress : κ → ℝ × ℝ)
    (hkey : ∀ a b, stress (key a (some b)) = (a, b)) {argsort : List ℝ → List ℕ} (ha : IsArgsort argsort) (J : Jac)
    {O₁ : Oracle ℝ} {O₂ : Oracle (ℝ × ℝ)}
    (hn1 : ∀ c i fo, (∀ ob b n p, ((O₁.num c i fo).minimize ob b n p).success = true) ∧
      ∀ ob b n p, ((O₁.num c i fo).minimize1 ob b n p).success = true)
    (hn2 : ∀ c i fo, (∀ ob b n p, ((O₂.num c i fo).minimize ob b n p).success = true) ∧
      ∀ ob b n p, ((O₂.num c i fo).minimize1 ob b n p).success = true)
    (hm1 : ∀ c ob b n p, (O₁.minimize c ob b n p).success = true) (hm2 : ∀ c ob b n p, (O₂.minimize c ob b n p).success = true)
    (x : FEAArgs) (he : Item.other ∉ x.exclude.getD []) (s : String) (hs : x.sort_by = some s)
    (hn : up s ∈ ["BIC", "AIC", "AICC", "LOGLIK", "LOG LIK", "LOG-LIKELIHOOD", "LL", "LOGLIKELIHOOD", "LOG LIKELIHOOD"]) :
    (∀ F C : List (ℝ × ℝ), ALTRequirements "Everything" "Everything" x.failures x.failure_stress_1 x.failure_stress_2 x.right_censored
        x.right_censored_stress_1 x.right_censored_stress_2 x.CI x.use_level_stress x.optimizer false
        (F.map Prod.fst) (F.map Prod.snd) [] (C.map Prod.fst) (C.map Prod.snd) [] →
      (∀ i ∈ F, 0 < i.2) → (∀ i ∈ C, ∃ t, (t, i.2) ∈ F) → Groups F → (∃ m ∈ altModelNames false, ¬ Asked x.exclude m) →
      ∃ res, fitEverythingALT key stress argsort J O₁ O₂ x = .ok res) ∧
    (∀ F C : List (ℝ × ℝ × ℝ), ALTRequirements "Everything" "Everything" x.failures x.failure_stress_1 x.failure_stress_2
        x.right_censored x.right_censored_stress_1 x.right_censored_stress_2 x.CI x.use_level_stress x.optimizer true
        (F.map Prod.fst) (F.map fun i => i.2.1) (F.map fun i => i.2.2)
        (C.map Prod.fst) (C.map fun i => i.2.1) (C.map fun i => i.2.2) →
      Groups F → (∃ m ∈ altModelNames true, ¬ Asked x.exclude m) →
      ∃ res, fitEverythingALT key stress argsort J O₁ O₂ x = .ok res) := by
  constructor
  · intro F C q hpos hCF hG hm
    have h1 : x.failure_stress_2 = .none := by
      by_contra h
      have := q.is_dual.2 (.inr (.inr (.inr ⟨rfl, h⟩)))
      cases this
    obtain ⟨hd, e⟩ := single_eq (key := key) (stress := stress) (argsort := argsort) (J := J) (O₁ := O₁) (O₂ := O₂) h1
    rw [e]
    have hall : ∀ c ∈ singleClasses,
        ∃ r, fitALT c singleKind argsort J (O₁.num c) (O₁.noise c) (O₁.minimize c) x.toALTArgs = .ok r := fun c hc =>
      C111_single_partial c hc ha J (fun i fo => (hn1 c i fo).1) (fun i fo => (hn1 c i fo).2) _ (hm1 c) x.toALTArgs F C
        (requirements q (single_family.dists c hc) (single_family.models c hc) (single_family.kind c hc)) hpos hCF hG
    refine main_returns single_family ha hd ?_ he hs hn hm fun c hc _ => hall c hc
    refine (C74_accepts_iff _ _ _ _ _ _ _ _ _ ?_ _ _ _).2 ⟨_, _, _, _, _, _, _, q⟩
    intro dual hdual
    have : dual = false := by
      cases dual with
      | false => rfl
      | true =>
        have := q.is_dual.2 (hdual.1 rfl)
        cases this
    subst this
    exact singleLaw.keyInj
  · intro F C q hG hm
    have h1 : x.failure_stress_2 ≠ .none := by
      intro h
      have := (isDual_iff _ _).2 (q.is_dual.1 rfl)
      rw [h] at this
      revert this
      decide
    obtain ⟨hd, e⟩ := dual_eq (key := key) (stress := stress) (argsort := argsort) (J := J) (O₁ := O₁) (O₂ := O₂) h1
    rw [e]
    have hall : ∀ c ∈ dualClasses,
        ∃ r, fitALT c (dualKind key stress) argsort J (O₂.num c) (O₂.noise c) (O₂.minimize c) x.toALTArgs = .ok r := fun c hc =>
      C111_dual_partial key stress hkey c hc ha J (fun i fo => (hn2 c i fo).1) (fun i fo => (hn2 c i fo).2) _ (hm2 c)
        x.toALTArgs F C
        (requirements q (dual_family.dists c hc) (dual_family.models c hc) (dual_family.kind c hc)) hG
    refine main_returns dual_family ha hd ?_ he hs hn hm fun c hc _ => hall c hc
    refine (C74_accepts_iff _ _ _ _ _ _ _ _ _ ?_ _ _ _).2 ⟨_, _, _, _, _, _, _, q⟩
    intro dual hdual
    have : dual = true := hdual.2 (q.is_dual.1 rfl)
    subst this
    exact (dualLaw hkey).keyInj

/-- **C123 (it returns if each class does).** If the input satisfies the documented requirements, `exclude` is a list of names that
leaves a model and `sort_by` is one of the documented names, then `Fit_Everything_ALT` returns exactly when the class of every model
that is not excluded returns on the same arguments: no other failure is possible. -/
theorem C123_returns_iff_each_does {κ : Type} [LinearOrder κ] (key : ℝ → Option ℝ → κ) (stress : κ → ℝ × ℝ)
    (hkey : ∀ a b, stress (key a (some b)) = (a, b)) {argsort : List ℝ → List ℕ} (ha : IsArgsort argsort) (J : Jac)
    {O₁ : Oracle ℝ} {O₂ : Oracle (ℝ × ℝ)}
    (x : FEAArgs) (he : Item.other ∉ x.exclude.getD []) (s : String) (hs : x.sort_by = some s)
    (hn : up s ∈ ["BIC", "AIC", "AICC", "LOGLIK", "LOG LIK", "LOG-LIKELIHOOD", "LL", "LOGLIKELIHOOD", "LOG LIKELIHOOD"])
    {dual : Bool} {F A B C D E : List ℝ}
    (q : ALTRequirements "Everything" "Everything" x.failures x.failure_stress_1 x.failure_stress_2 x.right_censored
        x.right_censored_stress_1 x.right_censored_stress_2 x.CI x.use_level_stress x.optimizer dual F A B C D E)
    (hm : ∃ m ∈ altModelNames dual, ¬ Asked x.exclude m) :
    (∃ res, fitEverythingALT key stress argsort J O₁ O₂ x = .ok res) ↔
      (dual = false → ∀ c ∈ singleClasses, ¬ Asked x.exclude (c.dist ++ "_" ++ c.model) →
        ∃ r, fitALT c singleKind argsort J (O₁.num c) (O₁.noise c) (O₁.minimize c) x.toALTArgs = .ok r) ∧
      (dual = true → ∀ c ∈ dualClasses, ¬ Asked x.exclude (c.dist ++ "_" ++ c.model) →
        ∃ r, fitALT c (dualKind key stress) argsort J (O₂.num c) (O₂.noise c) (O₂.minimize c) x.toALTArgs = .ok r) := by
  have hdual : dual = true ↔ x.failure_stress_2 ≠ .none := by
    rw [q.is_dual]
    constructor
    · rintro h e
      have := (isDual_iff _ _).2 h
      rw [e] at this
      revert this
      decide
    · intro h
      exact .inr (.inr (.inr ⟨rfl, h⟩))
  constructor
  · rintro ⟨res, h⟩
    obtain ⟨r1, r2⟩ := C123_all_fit key stress ha J O₁ O₂ x res h
    refine ⟨fun e => r1 ?_, fun e => r2 (hdual.1 e)⟩
    by_contra hne
    rw [hdual.2 hne] at e
    cases e
  · rintro ⟨r1, r2⟩
    cases dual with
    | false =>
      have h1 : x.failure_stress_2 = .none := by
        by_contra hne
        cases hdual.2 hne
      obtain ⟨hd, e⟩ := single_eq (key := key) (stress := stress) (argsort := argsort) (J := J) (O₁ := O₁) (O₂ := O₂) h1
      rw [e]
      refine main_returns single_family ha hd ?_ he hs hn hm (r1 rfl)
      refine (C74_accepts_iff _ _ _ _ _ _ _ _ _ ?_ _ _ _).2 ⟨_, _, _, _, _, _, _, q⟩
      intro dual hdual
      have : dual = false := by
        cases dual with
        | false => rfl
        | true =>
          have := q.is_dual.2 (hdual.1 rfl)
          cases this
      subst this
      exact singleLaw.keyInj
    | true =>
      obtain ⟨hd, e⟩ := dual_eq (key := key) (stress := stress) (argsort := argsort) (J := J) (O₁ := O₁) (O₂ := O₂) (hdual.1 rfl)
      rw [e]
      refine main_returns dual_family ha hd ?_ he hs hn hm (r2 rfl)
      refine (C74_accepts_iff _ _ _ _ _ _ _ _ _ ?_ _ _ _).2 ⟨_, _, _, _, _, _, _, q⟩
      intro dual hdual
      have : dual = true := hdual.2 (q.is_dual.1 rfl)
      subst this
      exact (dualLaw hkey).keyInj

/-- C123 applies: five failures at three stresses and a censored unit, without the Eyring models, sorted by AICc. -/
noncomputable def exFEA : FEAArgs :=
  { Reliability.Props.ALTGlue.exALT with
    exclude := some [.str "weibull_eyring", .str "Lognormal_Eyring", .str "Normal_Eyring", .str "exponential_Eyring"]
    sort_by := some "AICc" }

theorem exFEA_returns {argsort : List ℝ → List ℕ} (ha : IsArgsort argsort) (J : Jac) (noise : Matrix (Fin 3) (Fin 3) ℝ)
    (O₂ : Oracle (ℝ × ℝ)) (M : (c : Cls ℝ) → Minimizer (Fin c.n → ℝ)) (hM : ∀ c ob b n p, (M c ob b n p).success = true)
    (hn2 : ∀ c i fo, (∀ ob b n p, ((O₂.num c i fo).minimize ob b n p).success = true) ∧
      ∀ ob b n p, ((O₂.num c i fo).minimize1 ob b n p).success = true)
    (hm2 : ∀ c ob b n p, (O₂.minimize c ob b n p).success = true) :
    ∃ res, fitEverythingALT (κ := ℝ ×ₗ ℝ) (fun a b => toLex (a, b.getD 0)) ofLex argsort J
      ⟨fun _ _ => exNum2, fun _ => noise, M⟩ O₂ exFEA = .ok res := by
  refine (C123_returns_partial _ _ (by intros; rfl) ha J (fun _ _ _ => ⟨by intros; rfl, by intros; rfl⟩) hn2
    hM hm2 exFEA (by decide) "AICc" rfl (by decide +kernel)).1 exF exC ?_ ?_ ?_ ?_ ?_
  · refine ⟨by simp, by simp, ?_, ⟨rfl, rfl, by simp, fun _ => rfl⟩, .inr ⟨rfl, rfl, by simp, fun _ => rfl⟩,
      ⟨by simp, by simp, by simp⟩, ⟨?_, ?_⟩, ⟨0.95, rfl, by norm_num, by norm_num⟩, ⟨none, .inl ⟨rfl, rfl⟩⟩, ⟨?_, by simp⟩, ?_,
      by simp, .inr (.inl ⟨rfl, _, rfl⟩)⟩
    · rw [← isDual_iff]; simp [exFEA, exALT, isDual]
    · simp [exF]
    · simp [exC]
    · refine Finset.one_lt_card.2 ⟨1, by simp [exF], 2, by simp [exF], by norm_num⟩
    · simp only [Bool.false_eq_true, if_false]
      refine Finset.two_lt_card.2 ⟨((1, none), 5), ?_, ((2, none), 10), ?_, ((2, none), 12), ?_, ?_, ?_, ?_⟩ <;>
        simp [exF, stressRows]
  · simp [exF]
  · intro i hi
    simp only [exC, List.mem_cons, List.not_mem_nil, or_false] at hi
    subst hi
    exact ⟨5, by simp [exF]⟩
  · intro i hi
    simp only [exF, List.mem_cons, List.not_mem_nil, or_false] at hi
    rcases hi with rfl | rfl | rfl | rfl | rfl
    · right; refine Finset.one_lt_card.2 ⟨5, ?_, 6, ?_, by norm_num⟩ <;> simp [unitsAt, exF]
    · right; refine Finset.one_lt_card.2 ⟨5, ?_, 6, ?_, by norm_num⟩ <;> simp [unitsAt, exF]
    · right; refine Finset.one_lt_card.2 ⟨10, ?_, 12, ?_, by norm_num⟩ <;> simp [unitsAt, exF]
    · right; refine Finset.one_lt_card.2 ⟨10, ?_, 12, ?_, by norm_num⟩ <;> simp [unitsAt, exF]
    · left; simp [unitsAt, exF]
  · refine ⟨"Weibull_Power", by decide, ?_⟩
    rintro ⟨l, hl, t, ht, hst⟩
    cases hl
    simp only [List.mem_cons, List.not_mem_nil, or_false, Item.str.injEq] at ht
    rcases ht with rfl | rfl | rfl | rfl <;> revert hst <;> unfold SameName <;> decide +kernel

end Reliability.Props.FEAFull

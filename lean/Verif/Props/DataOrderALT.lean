import Verif.Props.DataOrder
import Verif.Props.ALTCheck
import Verif.Props.ALTGlue
import Verif.Model.ALTClasses
import Verif.Model.FitEverythingALTFull
import Verif.Spec.ALTGlue

/-! # C178: an ALT fitter's result does not depend on the order of the data -/

namespace Reliability.Props

open Reliability List InputCheck Fitters FitGlue Spec ALT ALTGlue ALTLeastSquares
open Reliability.Spec.ALTGlue

variable {argsort argsort' : List ℝ → List ℕ}

section sums
variable {ι : Type} {F F' : List ι}

theorem zipWith_items {α β γ : Type} (g : α → β → γ) (p : ι → α) (q : ι → β) (F : List ι) :
    zipWith g (F.map p) (F.map q) = F.map fun i => g (p i) (q i) := by
  induction F with
  | nil => rfl
  | cons a F ih => simp [ih]

theorem linearRegression_order (hF : F ~ F') (p q : ι → ℝ) :
    LinReg.linearRegression (F.map p) (F.map q) none none none .RRY =
      LinReg.linearRegression (F'.map p) (F'.map q) none none none .RRY := by
  have hs : ∀ p q : ι → ℝ, LinReg.solve2 (F.map p) (F.map q) = LinReg.solve2 (F'.map p) (F'.map q) := by
    intro p q
    unfold LinReg.solve2
    simp only [zipWith_items, length_map, map_map, hF.length_eq, (hF.map _).sum_eq]
  unfold LinReg.linearRegression
  simp only [length_map, hF.length_eq, hs]

theorem nonInvertableHandler_order (noise : Matrix (Fin 3) (Fin 3) ℝ) (hF : F ~ F') (p q r : ι → ℝ) :
    nonInvertableHandler noise (F.map p) (F.map q) (F.map r) = nonInvertableHandler noise (F'.map p) (F'.map q) (F'.map r) := by
  have hg : gram (F.map p) (F.map q) = gram (F'.map p) (F'.map q) := by
    unfold gram
    simp only [zipWith_items, map_map, (hF.map _).sum_eq]
  have hr : rhs (F.map p) (F.map q) (F.map r) = rhs (F'.map p) (F'.map q) (F'.map r) := by
    unfold rhs
    simp only [zipWith_items, (hF.map _).sum_eq]
  unfold nonInvertableHandler
  rw [hg, hr]

theorem altLeastSquares_order (noise : Matrix (Fin 3) (Fin 3) ℝ) (model : String) (hF : F ~ F') (t s1 : ι → ℝ) (b b' : List ℝ)
    (hb : (∃ s2 : ι → ℝ, b = F.map s2 ∧ b' = F'.map s2) ∨ model ∈ ["Exponential", "Eyring", "Power"]) :
    altLeastSquares noise model (F.map t) (F.map s1) b = altLeastSquares noise model (F'.map t) (F'.map s1) b' := by
  unfold altLeastSquares
  simp only [map_map, zipWith_items]
  by_cases h1 : model = "Exponential"
  · rw [if_pos h1, if_pos h1, linearRegression_order hF ((fun s => 1 / s) ∘ s1) (Real.log ∘ t)]
  rw [if_neg h1, if_neg h1]
  by_cases h2 : model = "Eyring"
  · rw [if_pos h2, if_pos h2, linearRegression_order hF ((fun s => 1 / s) ∘ s1)]
  rw [if_neg h2, if_neg h2]
  by_cases h3 : model = "Power"
  · rw [if_pos h3, if_pos h3, linearRegression_order hF (Real.log ∘ s1)]
  rw [if_neg h3, if_neg h3]
  rcases hb with ⟨s2, rfl, rfl⟩ | hb
  · simp only [map_map]
    rw [nonInvertableHandler_order noise hF ((fun s => 1 / s) ∘ s1) ((fun s => 1 / s) ∘ s2),
      nonInvertableHandler_order noise hF ((fun s => 1 / s) ∘ s1) (Real.log ∘ s2),
      nonInvertableHandler_order noise hF (Real.log ∘ s1) (Real.log ∘ s2)]
  · simp only [mem_cons, not_mem_nil, or_false] at hb
    tauto

end sums

/-- The same items, all of them among `S`. -/
def PermIn (S l l' : List ℝ) : Prop := l ~ l' ∧ l ⊆ S

theorem groupby_order {κ : Type} [LinearOrder κ] {rows rows' : List (κ × ℝ)} (h : rows ~ rows') :
    (groupby rows).map (·.1) = (groupby rows').map (·.1) ∧
      Forall₂ (PermIn (rows.map Prod.snd)) ((groupby rows).map (·.2)) ((groupby rows').map (·.2)) := by
  have hk : ((rows.map (·.1)).dedup.insertionSort (· ≤ ·)) = ((rows'.map (·.1)).dedup.insertionSort (· ≤ ·)) :=
    ((perm_insertionSort _ _).trans ((h.map _).dedup.trans (perm_insertionSort _ _).symm)).eq_of_pairwise (le := (· ≤ ·))
      (fun _ _ _ _ h h' => le_antisymm h h') (pairwise_insertionSort _ _) (pairwise_insertionSort _ _)
  unfold groupby
  simp only [map_map, Function.comp_def]
  refine ⟨by simp only [map_id', hk], ?_⟩
  rw [hk, forall₂_map_left_iff, forall₂_map_right_iff, forall₂_same]
  intro k _
  exact ⟨(h.filter _).map _, map_subset _ (filter_subset_self _)⟩

theorem padGroups_order {κ : Type} [DecidableEq κ] (S : List ℝ) (rk : List κ) (keys : List κ) :
    ∀ (i : ℕ) (g g' : List (List ℝ)), Forall₂ (PermIn S) g g' →
      Forall₂ (PermIn S) (padGroups rk i keys g) (padGroups rk i keys g') := by
  induction keys with
  | nil => intro i g g' h; exact h
  | cons s ss ih =>
    intro i g g' h
    unfold padGroups
    refine ih _ _ _ ?_
    split
    · unfold pyInsert
      exact rel_append (forall₂_take i h) (.cons ⟨Perm.refl _, nil_subset _⟩ (forall₂_drop i h))
    · exact h

theorem totalUnique_order {S : List ℝ} {g g' : List (List ℝ)} (h : Forall₂ (PermIn S) g g') : totalUnique g = totalUnique g' := by
  unfold totalUnique
  induction h with
  | nil => rfl
  | cons h _ ih => simp only [map_cons, sum_cons, ih, h.1.dedup.length_eq]

/-- Two lists of groups of right censored items: absent in both, or the same items group by group. -/
def GroupsAlike (S : List ℝ) : Option (List (List ℝ)) → Option (List (List ℝ)) → Prop
  | none, none => True
  | some g, some g' => Forall₂ (PermIn S) g g'
  | _, _ => False

theorem groupData_order {κ : Type} [LinearOrder κ] (strict : Bool) (m : ℕ) {fr fr' cr cr' : List (κ × ℝ)} (hf : fr ~ fr') (hc : cr ~ cr') :
    (∃ e, groupData strict m fr cr = .error e ∧ groupData strict m fr' cr' = .error e) ∨
      ∃ fg fg' cg cg' keys, groupData strict m fr cr = .ok (fg, cg, keys) ∧ groupData strict m fr' cr' = .ok (fg', cg', keys) ∧
        Forall₂ (PermIn (fr.map Prod.snd)) fg fg' ∧ GroupsAlike (cr.map Prod.snd) cg cg' := by
  obtain ⟨k1, v1⟩ := groupby_order hf
  obtain ⟨k2, v2⟩ := groupby_order hc
  unfold groupData
  dsimp only
  rw [totalUnique_order v1, k1, k2, hc.length_eq]
  by_cases h1 : totalUnique ((groupby fr').map (·.2)) < m
  · rw [if_pos h1, if_pos h1]; exact .inl ⟨_, rfl, rfl⟩
  rw [if_neg h1, if_neg h1]
  by_cases h2 : 0 < cr'.length
  · rw [if_pos h2, if_pos h2]
    split
    · exact .inl ⟨_, rfl, rfl⟩
    · exact .inr ⟨_, _, _, _, _, rfl, rfl, v1, padGroups_order _ _ _ _ _ _ v2⟩
  · rw [if_neg h2, if_neg h2]
    exact .inr ⟨_, _, _, _, _, rfl, rfl, v1, trivial⟩

/-- The second stress column as the checks leave it. -/
def secondColumn (dual : Bool) (F : List (ℝ × ℝ × ℝ)) : List ℝ := if dual = true then F.map (fun i => i.2.2) else []

theorem rows_items {κ : Type} (key : ℝ → Option ℝ → κ) (dual : Bool) (F : List (ℝ × ℝ × ℝ)) :
    (if dual = true then (List.zipWith (fun x y => key x (some y)) (F.map fun i => i.2.1) (secondColumn dual F)).zip (F.map fun i => i.1)
      else ((F.map fun i => i.2.1).map fun x => key x none).zip (F.map fun i => i.1)) =
    F.map fun i => (key i.2.1 (if dual = true then some i.2.2 else none), i.1) := by
  cases dual
  · simp only [Bool.false_eq_true, if_false, map_map, zip, zipWith_items, Function.comp_def]
  · simp only [if_true, secondColumn, zip, zipWith_items]

theorem altCheck_order {κ : Type} [LinearOrder κ] (key : ℝ → Option ℝ → κ) (dist model : String) (dual : Bool)
    {F F' C C' : List (ℝ × ℝ × ℝ)} (hF : F ~ F') (hC : C ~ C')
    {f fs1 fs2 c cs1 cs2 f' fs1' fs2' c' cs1' cs2' : DataArg ℝ} (CI : CIArg ℝ) (use : UseArg ℝ) (o : StrArg)
    (hd : isDual model fs2 = dual) (hd' : isDual model fs2' = dual)
    (ht : altTypes dual f fs1 fs2 c cs1 cs2 = .ok (F.map fun i => i.1, F.map fun i => i.2.1, secondColumn dual F,
      C.map fun i => i.1, C.map fun i => i.2.1, secondColumn dual C))
    (ht' : altTypes dual f' fs1' fs2' c' cs1' cs2' = .ok (F'.map fun i => i.1, F'.map fun i => i.2.1, secondColumn dual F',
      C'.map fun i => i.1, C'.map fun i => i.2.1, secondColumn dual C'))
    {β : Type} (k k' : ALTChecked ℝ κ → Except Err β)
    (hk : ∀ ci opt u fg fg' cg cg' keys, Forall₂ (PermIn (F.map fun i => i.1)) fg fg' → GroupsAlike (C.map fun i => i.1) cg cg' →
      k ⟨F.map fun i => i.1, F.map fun i => i.2.1, secondColumn dual F, C.map fun i => i.1, C.map fun i => i.2.1,
          secondColumn dual C, ci, opt, u, fg, cg, keys⟩ =
        k' ⟨F'.map fun i => i.1, F'.map fun i => i.2.1, secondColumn dual F', C'.map fun i => i.1, C'.map fun i => i.2.1,
          secondColumn dual C', ci, opt, u, fg', cg', keys⟩) :
    (altCheck key dist model f fs1 fs2 c cs1 cs2 CI use o >>= k) =
      (altCheck key dist model f' fs1' fs2' c' cs1' cs2' CI use o >>= k') := by
  have hlen : ∀ F C : List (ℝ × ℝ × ℝ), altLengths dual (F.map fun i => i.1) (F.map fun i => i.2.1) (secondColumn dual F)
      (C.map fun i => i.1) (C.map fun i => i.2.1) (secondColumn dual C) = .ok () := by
    intro F C; unfold altLengths secondColumn; cases dual <;> simp
  have hpos : altPositive (F.map fun i => i.1) (C.map fun i => i.1) = altPositive (F'.map fun i => i.1) (C'.map fun i => i.1) := by
    unfold altPositive; rw [min?_order ((hF.map _).append (hC.map _))]
  have hsec : ∀ {G G' : List (ℝ × ℝ × ℝ)}, G ~ G' → secondColumn dual G ~ secondColumn dual G' := by
    intro G G' h; unfold secondColumn; cases dual
    · exact Perm.refl _
    · exact h.map _
  have hst : altStresses dual (F.map fun i => i.2.1) (secondColumn dual F) = altStresses dual (F'.map fun i => i.2.1) (secondColumn dual F') := by
    unfold altStresses; rw [(hF.map _).dedup.length_eq, (hsec hF).dedup.length_eq]
  unfold altCheck
  simp only [hd, hd']
  by_cases h1 : dist ∉ ["Exponential", "Weibull", "Lognormal", "Normal", "Everything"]
  · rw [if_pos h1, if_pos h1]; rfl
  rw [if_neg h1, if_neg h1]
  by_cases h2 : model ∉ ["Exponential", "Eyring", "Power", "Dual_Exponential", "Power_Exponential", "Dual_Power", "Everything"]
  · rw [if_pos h2, if_pos h2]; rfl
  rw [if_neg h2, if_neg h2]
  rw [ht, ht']
  simp only [bind, Except.bind, pure, Except.pure, hlen, hpos, hst, rows_items]
  cases altPositive (F'.map fun i => i.1) (C'.map fun i => i.1) with
  | error e => rfl
  | ok _ =>
  cases checkCI CI with
  | error e => rfl
  | ok ci =>
  cases checkOptimizer o with
  | error e => rfl
  | ok opt =>
  cases altStresses dual (F'.map fun i => i.2.1) (secondColumn dual F') with
  | error e => rfl
  | ok _ =>
  dsimp only
  rcases groupData_order dual (if dual = true then 4 else 3)
    (hF.map fun i => (key i.2.1 (if dual = true then some i.2.2 else none), i.1))
    (hC.map fun i => (key i.2.1 (if dual = true then some i.2.2 else none), i.1)) with
    ⟨e, g1, g2⟩ | ⟨fg, fg', cg, cg', keys, g1, g2, hfg, hcg⟩
  · rw [g1, g2]
  · rw [g1, g2]
    dsimp only
    cases altUse dual use with
    | error e => rfl
    | ok u =>
      dsimp only
      rw [map_map] at hfg hcg
      refine hk _ _ _ _ _ _ _ _ ?_ ?_
      · exact forall₂_reverse_iff.2 hfg
      · unfold GroupsAlike at hcg ⊢
        rcases cg with _ | cg <;> rcases cg' with _ | cg'
        · trivial
        · exact hcg
        · exact hcg
        · exact forall₂_reverse_iff.2 hcg

/-- The fit of one group. -/
def GroupAlike (S T : List ℝ) (g g' : List ℝ × Option (List ℝ)) : Prop :=
  PermIn S g.1 g'.1 ∧ (g.2 = none ∧ g'.2 = none ∨ ∃ r r', g.2 = some r ∧ g'.2 = some r' ∧ PermIn T r r')

theorem groupParams_order {S T : List ℝ} (h : NoChoice argsort argsort' S T) (dist : String) (J : FunctionCI.Jac)
    (num : Option ℝ → Num2) {g g' : List ℝ × Option (List ℝ)} (hg : GroupAlike S T g g') :
    groupParams dist argsort J num g = groupParams dist argsort' J num g' := by
  obtain ⟨f, r⟩ := g
  obtain ⟨f', r'⟩ := g'
  obtain ⟨⟨hf, sf⟩, hr⟩ := hg
  dsimp only at hf sf hr
  have key : groupFit dist argsort J num f r = groupFit dist argsort' J num f' r' := by
    have hx : SameCall { failures := .array f, right_censored := rcArg r } { failures := .array f', right_censored := rcArg r' } ∧
        NoChoice argsort argsort' f (timesIn (rcArg r)) := by
      rcases hr with ⟨rfl, rfl⟩ | ⟨r, r', rfl, rfl, pr, sr⟩
      · exact ⟨⟨.reordered hf, .same _, rfl⟩, h.sub sf (nil_subset _)⟩
      · exact ⟨⟨.reordered hf, .reordered pr, rfl⟩, h.sub sf sr⟩
    have h2 := C176_two_parameter J num hx.1 hx.2
    unfold groupFit
    dsimp only
    rw [h2.1, h2.2.1, h2.2.2.1]
  unfold groupParams
  dsimp only
  rw [hf.length_eq, key]

theorem groupFits_order {S T : List ℝ} (h : NoChoice argsort argsort' S T) (dist : String) (J : FunctionCI.Jac)
    (num : ℕ → Option ℝ → Num2) {gs gs' : List (List ℝ × Option (List ℝ))} (hg : Forall₂ (GroupAlike S T) gs gs') :
    ∀ i, groupFits dist argsort J num i gs = groupFits dist argsort' J num i gs' := by
  induction hg with
  | nil => intro i; rfl
  | cons a _ ih =>
    intro i
    unfold groupFits
    rw [groupParams_order h dist J (num i) a, ih]

theorem groupsOf_order {S T : List ℝ} {fg fg' : List (List ℝ)} {cg cg' : Option (List (List ℝ))}
    (hf : Forall₂ (PermIn S) fg fg') (hc : GroupsAlike T cg cg') : Forall₂ (GroupAlike S T) (groupsOf fg cg) (groupsOf fg' cg') := by
  unfold groupsOf
  unfold GroupsAlike at hc
  rcases cg with _ | cg <;> rcases cg' with _ | cg'
  · dsimp only
    rw [forall₂_map_left_iff, forall₂_map_right_iff]
    exact hf.imp fun _ _ h => ⟨h, .inl ⟨rfl, rfl⟩⟩
  · exact hc.elim
  · exact hc.elim
  · dsimp only
    dsimp only at hc
    induction hf generalizing cg cg' with
    | nil => simp
    | cons a _ ih =>
      cases hc with
      | nil => simp
      | cons b hc => exact .cons ⟨a, .inr ⟨_, _, rfl, rfl, b⟩⟩ (ih _ _ hc)

theorem sum1_order {ι : Type} {F F' : List ι} (h : F ~ F') (g : ℝ → ℝ → ℝ) (t s : ι → ℝ) :
    sum1 g (F.map t) (F.map s) = sum1 g (F'.map t) (F'.map s) := by
  unfold sum1
  rw [zipWith_items, zipWith_items, (h.map _).sum_eq]

theorem sum2_order {ι : Type} {F F' : List ι} (h : F ~ F') (g : ℝ → ℝ → ℝ → ℝ) (t s1 s2 : ι → ℝ) :
    sum2 g (F.map t) (F.map s1) (F.map s2) = sum2 g (F'.map t) (F'.map s1) (F'.map s2) := by
  unfold sum2
  simp only [zip, zipWith_items, (h.map _).sum_eq]

/-- What a class computes from the data does not depend on their order. -/
def Symmetric {σ : Type} (c : Cls σ) : Prop :=
  ∀ (F F' C C' : List (ℝ × ℝ × ℝ)) (st : ℝ × ℝ × ℝ → σ), F ~ F' → C ~ C' →
    (∀ p, c.LL p (F.map fun i => i.1) (C.map fun i => i.1) (F.map st) (C.map st) =
      c.LL p (F'.map fun i => i.1) (C'.map fun i => i.1) (F'.map st) (C'.map st)) ∧
    ∀ p SE Z use gs, c.fit p SE Z (F.map fun i => i.1) (C.map fun i => i.1) (F.map st) (C.map st) use gs =
      c.fit p SE Z (F'.map fun i => i.1) (C'.map fun i => i.1) (F'.map st) (C'.map st) use gs

theorem symmetric_single {c : Cls ℝ} (hc : c ∈ singleClasses) : Symmetric c := by
  intro F F' C C' st hF hC
  simp only [singleClasses, mem_cons, not_mem_nil, or_false] at hc
  rcases hc with rfl | rfl | rfl | rfl | rfl | rfl | rfl | rfl | rfl | rfl | rfl | rfl <;>
    constructor <;> intros <;>
    simp only [weibullExponential, Weibull_Exponential.LL, Weibull_Exponential.fit, weibullEyring, Weibull_Eyring.LL, Weibull_Eyring.fit, weibullPower, Weibull_Power.LL, Weibull_Power.fit, lognormalExponential, Lognormal_Exponential.LL, Lognormal_Exponential.fit, lognormalEyring, Lognormal_Eyring.LL, Lognormal_Eyring.fit, lognormalPower, Lognormal_Power.LL, Lognormal_Power.fit, normalExponential, Normal_Exponential.LL, Normal_Exponential.fit, normalEyring, Normal_Eyring.LL, Normal_Eyring.fit, normalPower, Normal_Power.LL, Normal_Power.fit, exponentialExponential, Exponential_Exponential.LL, Exponential_Exponential.fit, exponentialEyring, Exponential_Eyring.LL, Exponential_Eyring.fit, exponentialPower, Exponential_Power.LL, Exponential_Power.fit,
      sum1_order hF, sum1_order hC, length_map, hF.length_eq, hC.length_eq]

theorem symmetric_dual {c : Cls (ℝ × ℝ)} (hc : c ∈ dualClasses) : Symmetric c := by
  intro F F' C C' st hF hC
  simp only [dualClasses, mem_cons, not_mem_nil, or_false] at hc
  rcases hc with rfl | rfl | rfl | rfl | rfl | rfl | rfl | rfl | rfl | rfl | rfl | rfl <;>
    constructor <;> intros <;>
    simp only [weibullDualExponential, Weibull_Dual_Exponential.LL, Weibull_Dual_Exponential.fit, weibullPowerExponential, Weibull_Power_Exponential.LL, Weibull_Power_Exponential.fit, weibullDualPower, Weibull_Dual_Power.LL, Weibull_Dual_Power.fit, lognormalDualExponential, Lognormal_Dual_Exponential.LL, Lognormal_Dual_Exponential.fit, lognormalPowerExponential, Lognormal_Power_Exponential.LL, Lognormal_Power_Exponential.fit, lognormalDualPower, Lognormal_Dual_Power.LL, Lognormal_Dual_Power.fit, normalDualExponential, Normal_Dual_Exponential.LL, Normal_Dual_Exponential.fit, normalPowerExponential, Normal_Power_Exponential.LL, Normal_Power_Exponential.fit, normalDualPower, Normal_Dual_Power.LL, Normal_Dual_Power.fit, exponentialDualExponential, Exponential_Dual_Exponential.LL, Exponential_Dual_Exponential.fit, exponentialPowerExponential, Exponential_Power_Exponential.LL, Exponential_Power_Exponential.fit, exponentialDualPower, Exponential_Dual_Power.LL, Exponential_Dual_Power.fit, map_map,
      sum2_order hF, sum2_order hC, length_map, hF.length_eq, hC.length_eq]

theorem fitALT_order {σ κ : Type} [LinearOrder κ] {c : Cls σ} (hc : Symmetric c) (k : Kind σ κ) (st : ℝ × ℝ × ℝ → σ) (dual : Bool)
    (hj : ∀ F : List (ℝ × ℝ × ℝ), k.join (F.map fun i => i.2.1) (secondColumn dual F) = F.map st)
    (hm : dual = true ∨ c.model ∈ ["Exponential", "Eyring", "Power"])
    (J : FunctionCI.Jac) (num : ℕ → Option ℝ → Num2) (noise : Matrix (Fin 3) (Fin 3) ℝ) (minimize : Minimizer (Fin c.n → ℝ))
    {F F' C C' : List (ℝ × ℝ × ℝ)} (hF : F ~ F') (hC : C ~ C') (x x' : ALTArgs)
    (hd : isDual c.model x.failure_stress_2 = dual) (hd' : isDual c.model x'.failure_stress_2 = dual)
    (ht : altTypes dual x.failures x.failure_stress_1 x.failure_stress_2 x.right_censored x.right_censored_stress_1
      x.right_censored_stress_2 = .ok (F.map fun i => i.1, F.map fun i => i.2.1, secondColumn dual F,
      C.map fun i => i.1, C.map fun i => i.2.1, secondColumn dual C))
    (ht' : altTypes dual x'.failures x'.failure_stress_1 x'.failure_stress_2 x'.right_censored x'.right_censored_stress_1
      x'.right_censored_stress_2 = .ok (F'.map fun i => i.1, F'.map fun i => i.2.1, secondColumn dual F',
      C'.map fun i => i.1, C'.map fun i => i.2.1, secondColumn dual C'))
    (hu : x.use_level_stress = x'.use_level_stress) (hCI : x.CI = x'.CI) (ho : x.optimizer = x'.optimizer)
    (h : NoChoice argsort argsort' (F.map fun i => i.1) (C.map fun i => i.1)) :
    fitALT c k argsort J num noise minimize x = fitALT c k argsort' J num noise minimize x' := by
  unfold fitALT
  rw [← hu, ← hCI, ← ho]
  refine altCheck_order k.key c.dist c.model dual hF hC x.CI x.use_level_stress x.optimizer hd hd' ht ht' _ _ ?_
  intro ci opt u fg fg' cg cg' keys hfg hcg
  dsimp only
  rw [altLeastSquares_order noise c.model hF (fun i => i.1) (fun i => i.2.1) (secondColumn dual F) (secondColumn dual F'),
    groupFits_order h c.dist J num (groupsOf_order hfg hcg)]
  · simp only [hj]
    obtain ⟨hL, hfit⟩ := hc F F' C C' st hF hC
    have hL' : (fun p => c.LL p (F.map fun i => i.1) (C.map fun i => i.1) (F.map st) (C.map st)) =
        fun p => c.LL p (F'.map fun i => i.1) (C'.map fun i => i.1) (F'.map st) (C'.map st) := funext hL
    simp only [hL, hfit]
  · rcases hm with rfl | hm
    · exact .inl ⟨fun i => i.2.2, rfl, rfl⟩
    · exact .inr hm

section everything
open FEAFull

theorem frame_order {σ κ : Type} [LinearOrder κ] (k : Kind σ κ) (st : ℝ × ℝ × ℝ → σ) (dual : Bool)
    (hj : ∀ F : List (ℝ × ℝ × ℝ), k.join (F.map fun i => i.2.1) (secondColumn dual F) = F.map st)
    (J : FunctionCI.Jac) (O : Oracle σ) (cs : List (Cls σ))
    (hs : ∀ c ∈ cs, Symmetric c ∧ (∀ y : DataArg ℝ, isDual c.model y = dual) ∧
      (dual = true ∨ c.model ∈ ["Exponential", "Eyring", "Power"]))
    {F F' C C' : List (ℝ × ℝ × ℝ)} (hF : F ~ F') (hC : C ~ C') (x x' : ALTArgs)
    (ht : altTypes dual x.failures x.failure_stress_1 x.failure_stress_2 x.right_censored x.right_censored_stress_1
      x.right_censored_stress_2 = .ok (F.map fun i => i.1, F.map fun i => i.2.1, secondColumn dual F,
      C.map fun i => i.1, C.map fun i => i.2.1, secondColumn dual C))
    (ht' : altTypes dual x'.failures x'.failure_stress_1 x'.failure_stress_2 x'.right_censored x'.right_censored_stress_1
      x'.right_censored_stress_2 = .ok (F'.map fun i => i.1, F'.map fun i => i.2.1, secondColumn dual F',
      C'.map fun i => i.1, C'.map fun i => i.2.1, secondColumn dual C'))
    (hu : x.use_level_stress = x'.use_level_stress) (hCI : x.CI = x'.CI) (ho : x.optimizer = x'.optimizer)
    (h : NoChoice argsort argsort (F.map fun i => i.1) (C.map fun i => i.1)) :
    FEAFull.frame k argsort J O x cs = FEAFull.frame k argsort J O x' cs := by
  induction cs with
  | nil => rfl
  | cons c cs ih =>
    obtain ⟨h1, h2, h3⟩ := hs c mem_cons_self
    unfold FEAFull.frame call
    rw [ih fun c hc => hs c (mem_cons_of_mem _ hc),
      fitALT_order h1 k st dual hj h3 J _ _ _ hF hC x x' (h2 _) (h2 _) ht ht' hu hCI ho h]

theorem everything_order {σ κ : Type} [LinearOrder κ] (k : Kind σ κ) (st : ℝ × ℝ × ℝ → σ) (dual : Bool)
    (hj : ∀ F : List (ℝ × ℝ × ℝ), k.join (F.map fun i => i.2.1) (secondColumn dual F) = F.map st)
    (J : FunctionCI.Jac) (O : Oracle σ) (cs : List (Cls σ))
    (hs : ∀ c ∈ cs, Symmetric c ∧ (∀ y : DataArg ℝ, isDual c.model y = dual) ∧
      (dual = true ∨ c.model ∈ ["Exponential", "Eyring", "Power"]))
    {F F' C C' : List (ℝ × ℝ × ℝ)} (hF : F ~ F') (hC : C ~ C') (x x' : FEAArgs)
    (hd : isDual "Everything" x.failure_stress_2 = dual) (hd' : isDual "Everything" x'.failure_stress_2 = dual)
    (ht : altTypes dual x.failures x.failure_stress_1 x.failure_stress_2 x.right_censored x.right_censored_stress_1
      x.right_censored_stress_2 = .ok (F.map fun i => i.1, F.map fun i => i.2.1, secondColumn dual F,
      C.map fun i => i.1, C.map fun i => i.2.1, secondColumn dual C))
    (ht' : altTypes dual x'.failures x'.failure_stress_1 x'.failure_stress_2 x'.right_censored x'.right_censored_stress_1
      x'.right_censored_stress_2 = .ok (F'.map fun i => i.1, F'.map fun i => i.2.1, secondColumn dual F',
      C'.map fun i => i.1, C'.map fun i => i.2.1, secondColumn dual C'))
    (hu : x.use_level_stress = x'.use_level_stress) (hCI : x.CI = x'.CI) (ho : x.optimizer = x'.optimizer)
    (he : x.exclude = x'.exclude) (hb : x.sort_by = x'.sort_by)
    (h : NoChoice argsort argsort (F.map fun i => i.1) (C.map fun i => i.1)) :
    everything k cs dual argsort J O x = everything k cs dual argsort J O x' := by
  unfold everything
  rw [← hu, ← hCI, ← ho, ← he, ← hb]
  refine altCheck_order k.key "Everything" "Everything" dual hF hC x.CI x.use_level_stress x.optimizer hd hd' ht ht' _ _ ?_
  intro ci opt u fg fg' cg cg' keys _ _
  dsimp only
  have hl : (secondColumn dual F).length = (secondColumn dual F').length := by
    unfold secondColumn; cases dual
    · rfl
    · simp [hF.length_eq]
  rw [hl]
  have key : ∀ ex : List String, _ = _ := fun ex => frame_order k st dual hj J O (cs.filter fun c => clsName c ∉ ex)
    (fun c hc => hs c (filter_subset_self _ hc)) hF hC
    (checkedArgs dual ⟨F.map fun i => i.1, F.map fun i => i.2.1, secondColumn dual F, C.map fun i => i.1,
      C.map fun i => i.2.1, secondColumn dual C, ci, opt, u, fg, cg, keys⟩)
    (checkedArgs dual ⟨F'.map fun i => i.1, F'.map fun i => i.2.1, secondColumn dual F', C'.map fun i => i.1,
      C'.map fun i => i.2.1, secondColumn dual C', ci, opt, u, fg', cg', keys⟩)
    (by cases dual <;> rfl) (by cases dual <;> rfl) rfl rfl rfl h
  simp only [key]

end everything

theorem single_isDual {c : Cls ℝ} (hc : c ∈ singleClasses) (y : DataArg ℝ) : isDual c.model y = false := by
  have := (models_single hc).1
  simp only [mem_cons, not_mem_nil, or_false] at this
  unfold isDual
  rcases this with h | h | h <;> rw [h] <;> simp

theorem dual_isDual {c : Cls (ℝ × ℝ)} (hc : c ∈ dualClasses) (y : DataArg ℝ) : isDual c.model y = true := by
  have := (models_dual hc).1
  simp only [mem_cons, not_mem_nil, or_false] at this
  unfold isDual
  rcases this with h | h | h <;> rw [h] <;> simp

theorem single_types {x : ALTArgs} {F C : List (ℝ × ℝ)} (h : UsedSingle x F C) :
    altTypes false x.failures x.failure_stress_1 x.failure_stress_2 x.right_censored x.right_censored_stress_1
      x.right_censored_stress_2 = .ok ((F.map fun i => (i.1, i.2, (0 : ℝ))).map fun i => i.1,
      (F.map fun i => (i.1, i.2, (0 : ℝ))).map fun i => i.2.1, secondColumn false (F.map fun i => (i.1, i.2, (0 : ℝ))),
      (C.map fun i => (i.1, i.2, (0 : ℝ))).map fun i => i.1, (C.map fun i => (i.1, i.2, (0 : ℝ))).map fun i => i.2.1,
      secondColumn false (C.map fun i => (i.1, i.2, (0 : ℝ)))) := by
  rcases h with ⟨h1, h2, ⟨h3, rfl⟩ | ⟨h3, h4⟩⟩
  · rw [h1, h2, h3]; simp only [map_map]; rfl
  · rw [h1, h2, h3, h4]; simp only [map_map]; rfl

theorem dual_types {x : ALTArgs} {F C : List (ℝ × ℝ × ℝ)} (h : UsedDual x F C) :
    altTypes true x.failures x.failure_stress_1 x.failure_stress_2 x.right_censored x.right_censored_stress_1
      x.right_censored_stress_2 = .ok (F.map fun i => i.1, F.map fun i => i.2.1, secondColumn true F,
      C.map fun i => i.1, C.map fun i => i.2.1, secondColumn true C) := by
  rcases h with ⟨h1, h2, h5, ⟨h3, rfl⟩ | ⟨h3, h4, h6⟩⟩
  · rw [h1, h2, h5, h3]; rfl
  · rw [h1, h2, h5, h3, h4, h6]; rfl

theorem dual_join {κ : Type} (key : ℝ → Option ℝ → κ) (stress : κ → ℝ × ℝ) (F : List (ℝ × ℝ × ℝ)) :
    (dualKind key stress).join (F.map fun i => i.2.1) (secondColumn true F) = F.map fun i => (i.2.1, i.2.2) := by
  simp only [dualKind, secondColumn, if_true, zip, zipWith_items]

/-- **C178, one stress.** Every one of the 12 single-stress fitters returns the same result, or raises the same exception, when
the failures (with their stresses) and the right censored items (with theirs) are given in another order.  `argsort`, `argsort'`:
how ties are sorted; `num`, `minimize`: the answers of scipy. -/
theorem C178_single (c : Cls ℝ) (hc : c ∈ singleClasses) (J : FunctionCI.Jac) (num : ℕ → Option ℝ → Num2)
    (noise : Matrix (Fin 3) (Fin 3) ℝ) (minimize : Minimizer (Fin c.n → ℝ)) (x x' : ALTArgs) (F F' C C' : List (ℝ × ℝ))
    (hx : UsedSingle x F C) (hx' : UsedSingle x' F' C') (hF : F ~ F') (hC : C ~ C')
    (hu : x.use_level_stress = x'.use_level_stress) (hCI : x.CI = x'.CI) (ho : x.optimizer = x'.optimizer)
    (h : NoChoice argsort argsort' (F.map Prod.fst) (C.map Prod.fst)) :
    fitALT c singleKind argsort J num noise minimize x = fitALT c singleKind argsort' J num noise minimize x' := by
  refine fitALT_order (symmetric_single hc) singleKind (fun i => i.2.1) false (fun F => rfl) (.inr (models_single hc).1) J num noise
    minimize (hF.map fun i => (i.1, i.2, (0 : ℝ))) (hC.map fun i => (i.1, i.2, (0 : ℝ))) x x' (single_isDual hc _) (single_isDual hc _) (single_types hx)
    (single_types hx') hu hCI ho ?_
  rw [map_map, map_map]
  exact h

/-- **C178, two stresses.** The same for the 12 dual-stress fitters. -/
theorem C178_dual {κ : Type} [LinearOrder κ] (key : ℝ → Option ℝ → κ) (stress : κ → ℝ × ℝ)
    (c : Cls (ℝ × ℝ)) (hc : c ∈ dualClasses) (J : FunctionCI.Jac) (num : ℕ → Option ℝ → Num2)
    (noise : Matrix (Fin 3) (Fin 3) ℝ) (minimize : Minimizer (Fin c.n → ℝ)) (x x' : ALTArgs) (F F' C C' : List (ℝ × ℝ × ℝ))
    (hx : UsedDual x F C) (hx' : UsedDual x' F' C') (hF : F ~ F') (hC : C ~ C')
    (hu : x.use_level_stress = x'.use_level_stress) (hCI : x.CI = x'.CI) (ho : x.optimizer = x'.optimizer)
    (h : NoChoice argsort argsort' (F.map Prod.fst) (C.map Prod.fst)) :
    fitALT c (dualKind key stress) argsort J num noise minimize x =
      fitALT c (dualKind key stress) argsort' J num noise minimize x' := by
  exact fitALT_order (symmetric_dual hc) (dualKind key stress) (fun i => (i.2.1, i.2.2)) true (dual_join key stress) (.inl rfl) J num
    noise minimize hF hC x x' (dual_isDual hc _) (dual_isDual hc _) (dual_types hx) (dual_types hx') hu hCI ho h

open FEAFull in
/-- **C178, Fit_Everything_ALT.** The same for the table of all ALT models and the best of them: for data with one stress and for
data with two. -/
theorem C178_everything {κ : Type} [LinearOrder κ] (key : ℝ → Option ℝ → κ) (stress : κ → ℝ × ℝ) (J : FunctionCI.Jac)
    (O₁ : Oracle ℝ) (O₂ : Oracle (ℝ × ℝ)) (x x' : FEAArgs) (F F' C C' : List (ℝ × ℝ × ℝ)) (hF : F ~ F') (hC : C ~ C')
    (hx : UsedDual x.toALTArgs F C ∧ UsedDual x'.toALTArgs F' C' ∨
      x.failure_stress_2 = .none ∧ x'.failure_stress_2 = .none ∧
      UsedSingle x.toALTArgs (F.map fun i => (i.1, i.2.1)) (C.map fun i => (i.1, i.2.1)) ∧
      UsedSingle x'.toALTArgs (F'.map fun i => (i.1, i.2.1)) (C'.map fun i => (i.1, i.2.1)))
    (hu : x.use_level_stress = x'.use_level_stress) (hCI : x.CI = x'.CI) (ho : x.optimizer = x'.optimizer)
    (he : x.exclude = x'.exclude) (hb : x.sort_by = x'.sort_by)
    (h : NoChoice argsort argsort (F.map fun i => i.1) (C.map fun i => i.1)) :
    FEAFull.fitEverythingALT key stress argsort J O₁ O₂ x = FEAFull.fitEverythingALT key stress argsort J O₁ O₂ x' := by
  rcases hx with ⟨h1, h2⟩ | ⟨h1, h2, h3, h4⟩
  · have e1 : isDual "Everything" x.failure_stress_2 = true := by rw [h1.2.2.1]; rfl
    have e2 : isDual "Everything" x'.failure_stress_2 = true := by rw [h2.2.2.1]; rfl
    unfold FEAFull.fitEverythingALT
    rw [if_pos e1, if_pos e2]
    exact everything_order (dualKind key stress) (fun i => (i.2.1, i.2.2)) true (dual_join key stress) J O₂ dualClasses
      (fun c hc => ⟨symmetric_dual hc, dual_isDual hc, .inl rfl⟩) hF hC x x' e1 e2 (dual_types h1) (dual_types h2) hu hCI ho he hb h
  · have e1 : isDual "Everything" x.failure_stress_2 = false := by rw [h1]; rfl
    have e2 : isDual "Everything" x'.failure_stress_2 = false := by rw [h2]; rfl
    have n1 : ¬ isDual "Everything" x.failure_stress_2 = true := by simp [e1]
    have n2 : ¬ isDual "Everything" x'.failure_stress_2 = true := by simp [e2]
    unfold FEAFull.fitEverythingALT
    rw [if_neg n1, if_neg n2]
    refine everything_order singleKind (fun i => i.2.1) false (fun _ => rfl) J O₁ singleClasses
      (fun c hc => ⟨symmetric_single hc, single_isDual hc, .inr (models_single hc).1⟩)
      ((hF.map fun i => (i.1, i.2.1)).map fun i => (i.1, i.2, (0 : ℝ))) ((hC.map fun i => (i.1, i.2.1)).map fun i => (i.1, i.2, (0 : ℝ)))
      x x' e1 e2 (single_types h3) (single_types h4) hu hCI ho he hb ?_
    simp only [map_map]
    exact h

/-- Reordered data with a right censored item, where any correct sorting will do. -/
example : ∃ (x x' : ALTArgs) (F F' C C' : List (ℝ × ℝ)), UsedSingle x F C ∧ UsedSingle x' F' C' ∧ F ~ F' ∧ C ~ C' ∧ x ≠ x' ∧
    NoChoice (refArgsort (K := ℝ)) refArgsort (F.map Prod.fst) (C.map Prod.fst) := by
  refine ⟨⟨.array [5, 3, 9], .array [300, 350, 300], .none, .array [10, 4], .array [300, 350], .none, .none, .float 0.95, .none⟩,
    ⟨.array [3, 5, 9], .array [350, 300, 300], .none, .array [4, 10], .array [350, 300], .none, .none, .float 0.95, .none⟩,
    [(5, 300), (3, 350), (9, 300)], [(3, 350), (5, 300), (9, 300)], [(10, 300), (4, 350)], [(4, 350), (10, 300)],
    ⟨rfl, rfl, .inr ⟨rfl, rfl⟩⟩, ⟨rfl, rfl, .inr ⟨rfl, rfl⟩⟩, .swap _ _ _, .swap _ _ _, ?_,
    .inr ⟨refArgsort_isArgsort, refArgsort_isArgsort, ?_⟩⟩
  · intro h
    injection h with h1
    injection h1 with h2
    norm_num at h2
  · intro t ht hc
    simp only [map_cons, map_nil, mem_cons, not_mem_nil, or_false] at ht hc
    rcases ht with rfl | rfl | rfl <;> norm_num at hc

end Reliability.Props

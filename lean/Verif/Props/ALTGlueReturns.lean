import Verif.Props.ALTGlue

/-! # C111: when the ALT fitters return -/

namespace Reliability.Props.ALTGlue

open Reliability Reliability.ALT Reliability.ALTGlue Reliability.InputCheck Reliability.FitGlue
open Reliability.Fitters (OptResult mleOptimization Bound MLEOut)
open Reliability.FunctionCI (Jac zOf Two)
open Reliability.ALTLeastSquares (altLeastSquares altBounds)
open Reliability.Spec Reliability.Spec.InputCheck Reliability.Spec.ALTGlue

theorem group_accepts (dist : String) (hd : dist = "Weibull_2P" ∨ dist = "Normal_2P" ∨ dist = "Lognormal_2P") (f : List ℝ)
    (rc : Option (List ℝ)) (hf : ∀ t ∈ f, 0 < t) (hrc : ∀ l, rc = some l → ∀ t ∈ l, 0 < t) (h2 : 2 ≤ f.toFinset.card) :
    Accepts dist (.array f) (rcArg rc) (.str "MLE") .none (.float 0.95) .none none none (.str "time")
      ⟨f, rc.getD [], 0.95, some "MLE", none, .none, none, none, some "time"⟩ := by
  have hb : dist ≠ "Beta_2P" := by rcases hd with rfl | rfl | rfl <;> decide
  have allow : ∀ t : ℝ, 0 < t → Allowed dist t := fun t ht => .inr ⟨ht.le, fun h => absurd h hb⟩
  have usab : ∀ t : ℝ, 0 < t → Usable dist t := fun t ht => .inr ⟨ht, fun h => absurd h hb⟩
  have hrc' : ∀ t ∈ rc.getD [], 0 < t := by
    cases rc with
    | none => simp
    | some l => exact hrc l rfl
  have filt : ∀ l : List ℝ, (∀ t ∈ l, 0 < t) → l = l.filter fun t => decide (Usable dist t) := by
    intro l hl
    refine (List.filter_eq_self.2 ?_).symm
    intro t ht
    simpa using usab t (hl t ht)
  refine ⟨?_, ⟨f, rc.getD [], rfl, ?_, fun t ht => allow t (hf t ht), fun t ht => allow t (hrc' t ht), filt f hf,
    filt _ hrc'⟩, ⟨rfl, by norm_num, by norm_num⟩, .inl ⟨rfl, rfl⟩, ?_, .inl ⟨rfl, rfl⟩, ⟨rfl, by simp⟩, ⟨rfl, by simp⟩, ?_, ?_⟩
  · rcases hd with rfl | rfl | rfl <;> decide
  · cases rc with
    | none => exact .inl ⟨rfl, rfl⟩
    | some l => exact .inr rfl
  · exact .inr ⟨"MLE", "MLE", ["MLE", "ML", "MAXIMUM LIKELIHOOD ESTIMATION", "MAXIMUM LIKELIHOOD", "MAX LIKELIHOOD"], rfl,
      rfl, by simp [methodNames], by decide +kernel⟩
  · rcases hd with rfl | rfl | rfl <;> simpa [required] using h2
  · exact .inr ⟨"time", "time", ["T", "TIME"], rfl, rfl, by simp [ciTypeNames], by decide +kernel⟩

theorem groupFit_returns {dist : String} {argsort : List ℝ → List ℕ} (harg : IsArgsort argsort) (J : Jac)
    {num : Option ℝ → Num2} (hs : ∀ fo ob b n p, ((num fo).minimize ob b n p).success = true)
    (hs1 : ∀ fo ob b n p, ((num fo).minimize1 ob b n p).success = true) (f : List ℝ) (rc : Option (List ℝ)) (hf : ∀ t ∈ f, 0 < t)
    (hrc : ∀ l, rc = some l → ∀ t ∈ l, 0 < t) (h2 : 2 ≤ f.toFinset.card) :
    ∃ r, groupFit dist argsort J num f rc = .ok r := by
  have key := fun x => C102_mle_returns_partial harg J num hs hs1 x
    ⟨f, rc.getD [], 0.95, some "MLE", none, .none, none, none, some "time"⟩ rfl rfl
  unfold groupFit
  dsimp only
  split_ifs
  · exact (key _).2.2.1 (group_accepts _ (.inr (.inr rfl)) f rc hf hrc h2)
  · exact (key _).2.1 (group_accepts _ (.inr (.inl rfl)) f rc hf hrc h2)
  · exact (key _).1 (group_accepts _ (.inl rfl) f rc hf hrc h2)

theorem groupFits_returns {dist : String} {argsort : List ℝ → List ℕ} {J : Jac} {num : ℕ → Option ℝ → Num2}
    (gs : List (List ℝ × Option (List ℝ)))
    (h : ∀ g ∈ gs, 1 < g.1.length → ∀ j, ∃ r, groupFit dist argsort J (num j) g.1 g.2 = .ok r) (i : ℕ) :
    ∃ rs, groupFits dist argsort J num i gs = .ok rs := by
  induction gs generalizing i with
  | nil => exact ⟨[], rfl⟩
  | cons g gs ih =>
    rw [groupFits]
    obtain ⟨rs, hrs⟩ := ih (fun g hg => h g (List.mem_cons_of_mem _ hg)) (i + 1)
    have : ∃ r, groupParams dist argsort J (num i) g = .ok r := by
      unfold groupParams
      split_ifs with hl
      · obtain ⟨r, hr⟩ := h g List.mem_cons_self hl i
        rw [hr]; exact ⟨_, rfl⟩
      · exact ⟨_, rfl⟩
    obtain ⟨r, hr⟩ := this
    exact ⟨r :: rs, by simp only [bind_ok]; exact ⟨_, hr, _, hrs, rfl⟩⟩

theorem bounds_returns {model dist : String}
    (hm : model ∈ ["Exponential", "Eyring", "Power", "Dual_Exponential", "Power_Exponential", "Dual_Power"])
    (hd : dist ∈ ["Weibull", "Lognormal", "Normal", "Exponential"]) : ∃ b, altBounds model dist = .ok b := by
  have hd' : dist ∈ ["Weibull", "Exponential", "Lognormal", "Normal"] := by
    simp only [List.mem_cons, List.not_mem_nil, or_false] at hd ⊢
    tauto
  simp only [List.mem_cons, List.not_mem_nil, or_false] at hm
  unfold altBounds
  rcases hm with rfl | rfl | rfl | rfl | rfl | rfl <;>
  · simp only [String.reduceEq, if_false, if_true]
    rw [if_neg (not_not.2 hd')]
    split_ifs <;> exact ⟨_, rfl⟩

/-- The stresses of the data are usable group by group: one failure, or two different ones. -/
def Groups {σ : Type} [DecidableEq σ] (F : List (ℝ × σ)) : Prop :=
  ∀ i ∈ F, (unitsAt F i.2).length = 1 ∨ 2 ≤ (unitsAt F i.2).toFinset.card

theorem returns {σ κ : Type} [LinearOrder κ] [DecidableEq σ] {c : Cls σ} {k : Kind σ κ} {dual : Bool}
    {tos : ℝ × Option ℝ → σ} (hk : KindLaw k dual tos)
    (hmodel : c.model ∈ ["Exponential", "Eyring", "Power", "Dual_Exponential", "Power_Exponential", "Dual_Power"])
    (hdist : c.dist ∈ ["Weibull", "Lognormal", "Normal", "Exponential"])
    {argsort : List ℝ → List ℕ} (harg : IsArgsort argsort) (J : Jac) {num : ℕ → Option ℝ → Num2}
    (hs : ∀ i fo ob b n p, ((num i fo).minimize ob b n p).success = true)
    (hs1 : ∀ i fo ob b n p, ((num i fo).minimize1 ob b n p).success = true) (noise : Matrix (Fin 3) (Fin 3) ℝ)
    {minimize : Minimizer (Fin c.n → ℝ)}
    (hmin : ∀ ob b n p, (minimize ob b n p).success = true) (x : ALTArgs)
    (hdual : dual = true ↔ DualStress c.model x.failure_stress_2) {F A B C D E ls : List ℝ}
    (q : ALTRequirements c.dist c.model x.failures x.failure_stress_1 x.failure_stress_2 x.right_censored
        x.right_censored_stress_1 x.right_censored_stress_2 x.CI x.use_level_stress x.optimizer dual F A B C D E)
    (hls : altLeastSquares noise c.model F A B = .ok ls)
    (hCF : ∀ i ∈ C.zip (k.join D E), ∃ t, (t, i.2) ∈ F.zip (k.join A B)) (hG : Groups (F.zip (k.join A B))) :
    ∃ res, fitALT c k argsort J num noise minimize x = .ok res := by
  have hkey : ∀ dual, (dual = true ↔ DualStress c.model x.failure_stress_2) → KeyInj dual k.key := by
    intro d hd
    have : d = dual := by
      have := hd.trans hdual.symm
      cases d <;> cases dual <;> simp_all
    rw [this]; exact hk.keyInj
  obtain ⟨inp, h1⟩ := (C74_accepts_iff k.key c.dist c.model _ _ _ _ _ _ hkey _ _ _).2 ⟨dual, F, A, B, C, D, E, q⟩
  obtain ⟨dual', q', -, hopt, -, hgr⟩ := C74_groups k.key c.dist c.model _ _ _ _ _ _ hkey _ _ _ _ h1
  have hdd : dual' = dual := by
    have := q'.is_dual.trans q.is_dual.symm
    cases dual' <;> cases dual <;> simp_all
  subst hdd
  have eF : inp.failures = F := by have := q'.failures.1.symm.trans q.failures.1; cases this; rfl
  have eA : inp.failure_stress_1 = A := by have := q'.failures.2.1.symm.trans q.failures.2.1; cases this; rfl
  have eB : inp.failure_stress_2 = B := by
    cases hd : dual' with
    | false => rw [q'.failures.2.2.2 hd, q.failures.2.2.2 hd]
    | true => have := (q'.failures.2.2.1 hd).symm.trans (q.failures.2.2.1 hd); cases this; rfl
  obtain ⟨eC, eD, eE⟩ : inp.right_censored = C ∧ inp.right_censored_stress_1 = D ∧ inp.right_censored_stress_2 = E := by
    rcases q'.censored with ⟨a1, a2, a3, a4⟩ | ⟨a1, a2, a3, a4⟩ <;>
      rcases q.censored with ⟨b1, b2, b3, b4⟩ | ⟨b1, b2, b3, b4⟩
    · rw [a2, a3, a4, b2, b3, b4]; exact ⟨rfl, rfl, rfl⟩
    · rw [a1] at b1; cases b1
    · rw [a1] at b1; cases b1
    · rw [a1] at b1
      rw [a2] at b2
      cases b1; cases b2
      refine ⟨rfl, rfl, ?_⟩
      cases hd : dual' with
      | false => rw [a4 hd, b4 hd]
      | true => have := (a3 hd).symm.trans (b3 hd); cases this; rfl
  obtain ⟨hA, hD, hBE⟩ := q'.one_stress_each
  obtain ⟨S', hS's, -, hSiff, hgroups, -⟩ := groups_eq hk hA hD hBE hgr (by rw [eF, eA, eB, eC, eD, eE]; exact hCF)
  obtain ⟨gs, hgs⟩ := groupFits_returns (dist := c.dist) (argsort := argsort) (J := J) (num := num)
    (groupsOf inp.failure_groups inp.right_censored_groups) (by
      intro g hg hl j
      rw [hgroups, List.mem_map] at hg
      obtain ⟨s, hs', rfl⟩ := hg
      dsimp only at hl ⊢
      obtain ⟨y, hy⟩ := (hSiff s).1 hs'
      have hm := (mem_rows hk hA (fun hd => (hBE hd).1) s (hS's s hs') y).1 hy
      rw [eF, eA, eB] at hm
      refine groupFit_returns harg J (hs j) (hs1 j) _ _ ?_ ?_ ?_
      · intro t ht
        unfold unitsAt at ht
        obtain ⟨i, hi, rfl⟩ := List.mem_map.1 ht
        exact q'.positive.1 _ (List.of_mem_zip (List.mem_filter.1 hi).1).1
      · intro l hl' t ht
        split_ifs at hl'
        cases hl'
        unfold unitsAt at ht
        obtain ⟨i, hi, rfl⟩ := List.mem_map.1 ht
        exact q'.positive.2 _ (List.of_mem_zip (List.mem_filter.1 hi).1).1
      · rcases hG _ hm with h | h
        · rw [eF, eA, eB] at hl
          dsimp only at h
          exact absurd h (by omega)
        · rw [eF, eA, eB]; exact h) 0
  obtain ⟨b, hb⟩ := bounds_returns hmodel hdist
  obtain ⟨n, y, hy⟩ := mle_success (fun p => |-(c.LL p inp.failures inp.right_censored
    (k.join inp.failure_stress_1 inp.failure_stress_2) (k.join inp.right_censored_stress_1 inp.right_censored_stress_2))|)
    (c.guess ls (commonShape gs)) hopt (hmin _ b)
  obtain ⟨SE, hSE⟩ := orWarn_some ((npInv (hessian (fun p => c.LL p inp.failures inp.right_censored
    (k.join inp.failure_stress_1 inp.failure_stress_2) (k.join inp.right_censored_stress_1 inp.right_censored_stress_2)) y)).map
      fun V => List.ofFn fun i => seOf (V i i)) n
  unfold fitALT
  simp only [ex_bind]
  exact ⟨inp, h1, ls, by rw [eF, eA, eB]; exact hls, gs, hgs, b, hb, _, hy, SE, hSE, _, rfl⟩

theorem zip_maps {α : Type} (L : List (ℝ × α)) : (L.map Prod.fst).zip (L.map Prod.snd) = L := by
  induction L with
  | nil => rfl
  | cons a L ih => simp only [List.map_cons, List.zip_cons_cons, ih]

theorem ls_single (noise : Matrix (Fin 3) (Fin 3) ℝ) {model : String} (hm : model ∈ ["Exponential", "Eyring", "Power"])
    (L S T T' : List ℝ) : altLeastSquares noise model L S T = altLeastSquares noise model L S T' := by
  simp only [List.mem_cons, List.not_mem_nil, or_false] at hm
  unfold altLeastSquares
  rcases hm with rfl | rfl | rfl <;> simp only [String.reduceEq, if_true, if_false]

theorem forall2_left {α β : Type} {R : α → β → Prop} {l : List α} {l' : List β} (h : List.Forall₂ R l l') {a : α}
    (ha : a ∈ l) : ∃ b, R a b := by
  induction h with
  | nil => cases ha
  | cons h1 _ ih =>
    rcases List.mem_cons.1 ha with rfl | ha
    · exact ⟨_, h1⟩
    · exact ih ha

/-- **C111, one stress (partial).** A single-stress fitter returns an object for every input that satisfies the documented
requirements (`ALTRequirements`, C74) whose stresses are positive, whose censored stresses also have failures, whose groups
have one failure or two different ones, provided every call of scipy's optimizer succeeds.  Not covered: optimizers that
fail, censored stresses without failures. -/
theorem C111_single_partial (c : Cls ℝ) (hc : c ∈ singleClasses) {argsort : List ℝ → List ℕ} (harg : IsArgsort argsort) (J : Jac)
    {num : ℕ → Option ℝ → Num2} (hs : ∀ i fo ob b n p, ((num i fo).minimize ob b n p).success = true)
    (hs1 : ∀ i fo ob b n p, ((num i fo).minimize1 ob b n p).success = true) (noise : Matrix (Fin 3) (Fin 3) ℝ)
    {minimize : Minimizer (Fin c.n → ℝ)}
    (hmin : ∀ ob b n p, (minimize ob b n p).success = true) (x : ALTArgs) (F C : List (ℝ × ℝ))
    (q : ALTRequirements c.dist c.model x.failures x.failure_stress_1 x.failure_stress_2 x.right_censored
        x.right_censored_stress_1 x.right_censored_stress_2 x.CI x.use_level_stress x.optimizer false
        (F.map Prod.fst) (F.map Prod.snd) [] (C.map Prod.fst) (C.map Prod.snd) [])
    (hpos : ∀ i ∈ F, 0 < i.2) (hCF : ∀ i ∈ C, ∃ t, (t, i.2) ∈ F) (hG : Groups F) :
    ∃ res, fitALT c singleKind argsort J num noise minimize x = .ok res := by
  have zF : ∀ L : List (ℝ × ℝ), (L.map Prod.fst).zip (singleKind.join (L.map Prod.snd) []) = L := zip_maps
  have hls : ∃ ls, altLeastSquares noise c.model (F.map Prod.fst) (F.map Prod.snd) [] = .ok ls := by
    obtain ⟨a, b, ha, hb, hab⟩ : ∃ a b, a ∈ (F.map Prod.snd).toFinset ∧ b ∈ (F.map Prod.snd).toFinset ∧ a ≠ b := by
      obtain ⟨a, ha, b, hb, hab⟩ := Finset.one_lt_card.1 (show 1 < (F.map Prod.snd).toFinset.card from q.two_stresses.1)
      exact ⟨a, b, ha, hb, hab⟩
    rw [List.mem_toFinset, List.mem_map] at ha hb
    obtain ⟨i, hi, rfl⟩ := ha
    obtain ⟨j, hj, rfl⟩ := hb
    have hm := (models_single hc).1
    obtain ⟨out, -, h1, -⟩ := C97_least_squares noise c.model (by
      simp only [altModels, List.mem_cons, List.not_mem_nil, or_false] at hm ⊢; tauto)
      (F.map fun i => (i.1, i.2, 1)) (by
        intro p hp
        obtain ⟨i, hi, rfl⟩ := List.mem_map.1 hp
        exact ⟨q.positive.1 _ (List.mem_map_of_mem hi), hpos i hi, one_pos⟩) (by
        unfold Determined
        rw [if_pos hm]
        exact ⟨_, List.mem_map_of_mem hi, _, List.mem_map_of_mem hj, hab⟩)
    refine ⟨out, ?_⟩
    rw [← h1, List.map_map, List.map_map, List.map_map, ls_single noise hm _ _ [] (F.map ((fun p => p.2.2) ∘ fun i => (i.1, i.2, 1)))]
    rfl
  obtain ⟨ls, hls⟩ := hls
  refine returns singleLaw (by
      have := (models_single hc).1
      simp only [List.mem_cons, List.not_mem_nil, or_false] at this ⊢; tauto) (models_single hc).2 harg J hs hs1 noise hmin x
      (single_not_dual hc _) q hls ?_ ?_
  · rw [zF, zF]; exact hCF
  · rw [zF]; exact hG

/-- **C111, two stresses (partial).** The same for the dual-stress fitters (here C74 itself refuses censored stresses without
failures, and the least squares estimate always exists). -/
theorem C111_dual_partial {κ : Type} [LinearOrder κ] (key : ℝ → Option ℝ → κ) (stress : κ → ℝ × ℝ)
    (hkey : ∀ a b, stress (key a (some b)) = (a, b)) (c : Cls (ℝ × ℝ)) (hc : c ∈ dualClasses)
    {argsort : List ℝ → List ℕ} (harg : IsArgsort argsort) (J : Jac)
    {num : ℕ → Option ℝ → Num2} (hs : ∀ i fo ob b n p, ((num i fo).minimize ob b n p).success = true)
    (hs1 : ∀ i fo ob b n p, ((num i fo).minimize1 ob b n p).success = true) (noise : Matrix (Fin 3) (Fin 3) ℝ)
    {minimize : Minimizer (Fin c.n → ℝ)}
    (hmin : ∀ ob b n p, (minimize ob b n p).success = true) (x : ALTArgs) (F C : List (ℝ × ℝ × ℝ))
    (q : ALTRequirements c.dist c.model x.failures x.failure_stress_1 x.failure_stress_2 x.right_censored
        x.right_censored_stress_1 x.right_censored_stress_2 x.CI x.use_level_stress x.optimizer true
        (F.map Prod.fst) (F.map fun i => i.2.1) (F.map fun i => i.2.2)
        (C.map Prod.fst) (C.map fun i => i.2.1) (C.map fun i => i.2.2)) (hG : Groups F) :
    ∃ res, fitALT c (dualKind key stress) argsort J num noise minimize x = .ok res := by
  have zF : ∀ L : List (ℝ × ℝ × ℝ), (L.map Prod.fst).zip ((dualKind key stress).join (L.map fun i => i.2.1)
      (L.map fun i => i.2.2)) = L := by
    intro L
    simp only [dualKind]
    induction L with
    | nil => rfl
    | cons a L ih => simp only [List.map_cons, List.zip_cons_cons, ih]
  obtain ⟨ls, -, hls, -⟩ := C97_dual_legal noise c.model (models_dual hc).1 (F.map Prod.fst) (F.map fun i => i.2.1)
    (F.map fun i => i.2.2)
  refine returns (dualLaw hkey) (by
      have := (models_dual hc).1
      simp only [List.mem_cons, List.not_mem_nil, or_false] at this ⊢; tauto) (models_dual hc).2 harg J hs hs1 noise hmin x
      (dual_dual hc _) q hls ?_ ?_
  · rw [zF, zF]
    have hk := dualLaw (κ := κ) hkey
    obtain ⟨l1, l2, l3⟩ := q.one_stress_each
    have jF := (hk.join _ _ _ l1 fun _ => (l3 rfl).1).1
    have jC := (hk.join _ _ _ l2 fun _ => (l3 rfl).2).1
    rw [zF] at jF jC
    intro i hi
    rw [jC] at hi
    obtain ⟨r, hr, rfl⟩ := List.mem_map.1 hi
    obtain ⟨y, hy⟩ := q.known_pairs rfl r hr
    refine ⟨y, ?_⟩
    rw [jF]
    exact List.mem_map.2 ⟨_, hy, rfl⟩
  · rw [zF]; exact hG

theorem fit_enough {dist : String} {argsort : List ℝ → List ℕ} {J : Jac} {num : Option ℝ → Num2} {f : List ℝ}
    {rc : DataArg ℝ} {r : FitRes Two} (h : FitOf dist argsort J num f rc r) : ∃ a ∈ f, ∃ b ∈ f, a ≠ b := by
  have key : ∀ (d : String) (m o : StrArg) (CI : CIArg ℝ) (qs : QArg ℝ) (t : StrArg) (inp : Checked ℝ),
      d = "Weibull_2P" ∨ d = "Normal_2P" ∨ d = "Lognormal_2P" →
      fittersCheck d (.array f) rc m o CI qs none none t = .ok inp → ∃ a ∈ f, ∃ b ∈ f, a ≠ b := by
    intro d m o CI qs t inp hd h
    rw [C51_ok_iff] at h
    have h2 : 2 ≤ inp.failures.toFinset.card := by
      have := h.enough
      rcases hd with rfl | rfl | rfl <;> simpa [required] using this
    obtain ⟨F, C, e1, -, -, -, e2, -⟩ := h.data
    cases e1
    obtain ⟨a, ha, b, hb, hab⟩ := Finset.one_lt_card.1 h2
    rw [List.mem_toFinset, e2] at ha hb
    exact ⟨a, (List.mem_filter.1 ha).1, b, (List.mem_filter.1 hb).1, hab⟩
  unfold FitOf at h
  split at h
  · unfold fitLognormal2P at h
    rw [bind_ok] at h
    obtain ⟨inp, h1, -⟩ := h
    exact key _ _ _ _ _ _ _ (.inr (.inr rfl)) h1
  · unfold fitNormal2P at h
    rw [bind_ok] at h
    obtain ⟨inp, h1, -⟩ := h
    exact key _ _ _ _ _ _ _ (.inr (.inl rfl)) h1
  · unfold fitWeibull2P at h
    rw [bind_ok] at h
    obtain ⟨inp, h1, -⟩ := h
    exact key _ _ _ _ _ _ _ (.inl rfl) h1

theorem report_not_tied {σ : Type} [DecidableEq σ] {dist model : String} {lifeAt : LifeStress → σ → ℝ} {pos : σ → Prop}
    {argsort : List ℝ → List ℕ} {J : Jac} {num : ℕ → Option ℝ → Num2} {ls : List ℝ} {F C : List (ℝ × σ)} {use : Option σ}
    {CI : ℝ} {res : ALTRes σ} (h : ALTReport dist model lifeAt pos argsort J num ls F C use CI res)
    (hCF : ∀ i ∈ C, ∃ t, (t, i.2) ∈ F) : Groups F := by
  obtain ⟨n, p, m, d, V, -, -, -, -, -, -, -, -, hall, -, horig, -⟩ := h
  obtain ⟨os, hos, -⟩ := horig hCF
  intro i hi
  by_cases h1 : (unitsAt F i.2).length = 1
  · exact .inl h1
  right
  obtain ⟨w, hw, hws⟩ := List.mem_map.1 (hall i hi)
  obtain ⟨o, ho⟩ := forall2_left hos hw
  obtain ⟨-, hfit, -⟩ := ho
  rw [hws] at hfit
  obtain ⟨j, r, -, hr⟩ := hfit h1
  obtain ⟨a, ha, b, hb, hab⟩ := fit_enough hr
  exact Finset.one_lt_card.2 ⟨a, List.mem_toFinset.2 ha, b, List.mem_toFinset.2 hb, hab⟩

/-- **C111 (finding).** The converse: with two or more failures at some stress, all at the same time, an ALT fitter never
returns, although its input check accepts such data: the fit of that stress alone refuses it. -/
theorem C111_tied_failures_finding (c : Cls ℝ) (hc : c ∈ singleClasses) (argsort : List ℝ → List ℕ) (J : Jac)
    (num : ℕ → Option ℝ → Num2) (noise : Matrix (Fin 3) (Fin 3) ℝ)
    (minimize : Minimizer (Fin c.n → ℝ)) (x : ALTArgs) (F C : List (ℝ × ℝ))
    (hx : UsedSingle x F C) (hCF : ∀ i ∈ C, ∃ t, (t, i.2) ∈ F) (s t : ℝ) (htwo : 2 ≤ (unitsAt F s).length)
    (htied : ∀ y ∈ unitsAt F s, y = t) (res : ALTRes ℝ) :
    fitALT c singleKind argsort J num noise minimize x ≠ .ok res := by
  intro h
  obtain ⟨F', C', use, CI, ls, ⟨u1, u2, u3⟩, -, -, -, hr⟩ := C110_single c hc argsort J num noise minimize x res h
  obtain ⟨v1, v2, v3⟩ := hx
  have eF : F' = F := by
    have h1 := u1.symm.trans v1
    have h2 := u2.symm.trans v2
    injection h1 with h1; injection h2 with h2
    rw [← zip_maps F', ← zip_maps F, h1, h2]
  have eC : C' = C := by
    rcases u3 with ⟨a1, a2⟩ | ⟨a1, a2⟩ <;> rcases v3 with ⟨b1, b2⟩ | ⟨b1, b2⟩
    · rw [a2, b2]
    · rw [a1] at b1; cases b1
    · rw [a1] at b1; cases b1
    · have h1 := a1.symm.trans b1
      have h2 := a2.symm.trans b2
      injection h1 with h1; injection h2 with h2
      rw [← zip_maps C', ← zip_maps C, h1, h2]
  subst eF eC
  have hne : unitsAt F' s ≠ [] := by intro h0; rw [h0] at htwo; simp at htwo
  obtain ⟨y, hy⟩ := List.exists_mem_of_ne_nil _ hne
  obtain ⟨i, hi, -⟩ := List.mem_map.1 hy
  obtain ⟨hi, his⟩ := List.mem_filter.1 hi
  have his : i.2 = s := by simpa using his
  have := report_not_tied hr hCF i hi
  rw [his] at this
  rcases this with h1 | h1
  · omega
  · obtain ⟨a, ha, b, hb, hab⟩ := Finset.one_lt_card.1 h1
    rw [List.mem_toFinset] at ha hb
    exact hab ((htied a ha).trans (htied b hb).symm)

end Reliability.Props.ALTGlue

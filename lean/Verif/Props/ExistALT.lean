import Verif.Props.UniqueALT
import Verif.Props.UniqueFit2

/-! # C167: the maximum likelihood fit of an ALT model exists -/

namespace Reliability.Props.ALTGlue

open Reliability Reliability.ALT Reliability.ALTGlue Reliability.InputCheck Reliability.FitGlue Reliability.UniqueALT
open Reliability.Fitters (OptResult mleOptimization Bound MLEOut)
open Reliability.FunctionCI (Jac zOf Two)
open Reliability.ALTLeastSquares (altLeastSquares altBounds)
open Reliability.Spec Reliability.Spec.InputCheck Reliability.Spec.ALTGlue
open Reliability.Props.UniqueFit (exactNum exactMin_finds)

/-- Parameters inside the bounds are admissible. -/
theorem inside_legal {n : ℕ} {b : List (Bound ℝ)} {v : Fin n → ℝ} {m : LifeStress} {d : LifeDist}
    (hb : altBounds (mname m) (dname d) = .ok b) (h : List.ofFn v = mpars m ++ dpars d) (hi : Inside v b) : m.Valid ∧ d.Valid := by
  have key : ∀ (i : ℕ) x lo hi, (mpars m ++ dpars d)[i]? = some x → b[i]? = some (lo, hi) → (∀ l, lo = some l → l < x) := by
    intro i x lo h' h1 h2
    refine (hi i x lo h' ?_ h2).1
    change (List.ofFn v)[i]? = some x
    rw [h]; exact h1
  cases m <;> cases d <;> cases hb <;>
    first
    | exact ⟨trivial, trivial⟩
    | exact ⟨key 1 _ (some 0) none rfl rfl 0 rfl, trivial⟩
    | exact ⟨key 0 _ (some 0) none rfl rfl 0 rfl, trivial⟩
    | exact ⟨key 2 _ (some 0) none rfl rfl 0 rfl, trivial⟩
    | exact ⟨trivial, key 2 _ (some 0) none rfl rfl 0 rfl⟩
    | exact ⟨key 1 _ (some 0) none rfl rfl 0 rfl, key 2 _ (some 0) none rfl rfl 0 rfl⟩
    | exact ⟨key 0 _ (some 0) none rfl rfl 0 rfl, key 2 _ (some 0) none rfl rfl 0 rfl⟩
    | exact ⟨key 2 _ (some 0) none rfl rfl 0 rfl, key 3 _ (some 0) none rfl rfl 0 rfl⟩
    | exact ⟨key 1 _ (some 0) none rfl rfl 0 rfl, key 3 _ (some 0) none rfl rfl 0 rfl⟩
    | exact ⟨key 0 _ (some 0) none rfl rfl 0 rfl, key 3 _ (some 0) none rfl rfl 0 rfl⟩

theorem groupFit_finds {dist : String} {argsort : List ℝ → List ℕ} (harg : IsArgsort argsort) (J : Jac)
    {num : Option ℝ → Num2} (hE : ∀ fo, Exact (num fo).minimize) (hE1 : ∀ fo, Exact (num fo).minimize1)
    (hs : ∀ fo, Finds (num fo).minimize) (hs1 : ∀ fo, Finds (num fo).minimize1) (f : List ℝ) (rc : Option (List ℝ)) (hf : ∀ t ∈ f, 0 < t)
    (hrc : ∀ l, rc = some l → ∀ t ∈ l, 0 < t) (h2 : 2 ≤ f.toFinset.card) :
    ∃ r, groupFit dist argsort J num f rc = .ok r := by
  unfold groupFit
  dsimp only
  split_ifs
  · obtain ⟨r, h, -⟩ := UniqueFit.C164_lognormal_2P harg J num hE hE1 hs hs1 { failures := .array f, right_censored := rcArg rc } _
      (group_accepts _ (.inr (.inr rfl)) f rc hf hrc h2) rfl rfl
    exact ⟨r, h⟩
  · obtain ⟨r, h, -⟩ := UniqueFit.C164_normal_2P harg J num hE hE1 hs hs1 { failures := .array f, right_censored := rcArg rc } _
      (group_accepts _ (.inr (.inl rfl)) f rc hf hrc h2) rfl rfl
    exact ⟨r, h⟩
  · obtain ⟨r, h, -⟩ := UniqueFit.C164_weibull_2P harg J num hE hE1 hs hs1 { failures := .array f, right_censored := rcArg rc } _
      (group_accepts _ (.inl rfl) f rc hf hrc h2) rfl rfl
    exact ⟨r, h⟩

theorem finds_run {σ κ : Type} [LinearOrder κ] [DecidableEq σ] {c : Cls σ} {k : Kind σ κ} {dual : Bool} {lifeAt : LifeStress → σ → ℝ}
    {pos : σ → Prop} (hc : Lawful c lifeAt pos)
    {tos : ℝ × Option ℝ → σ} (hk : KindLaw k dual tos)
    (hmodel : c.model ∈ ["Exponential", "Eyring", "Power", "Dual_Exponential", "Power_Exponential", "Dual_Power"])
    (hdist : c.dist ∈ ["Weibull", "Lognormal", "Normal", "Exponential"])
    {argsort : List ℝ → List ℕ} (harg : IsArgsort argsort) (J : Jac) {num : ℕ → Option ℝ → Num2}
    (hE : ∀ i fo, Exact (num i fo).minimize) (hE1 : ∀ i fo, Exact (num i fo).minimize1)
    (hs : ∀ i fo, Finds (num i fo).minimize) (hs1 : ∀ i fo, Finds (num i fo).minimize1) (noise : Matrix (Fin 3) (Fin 3) ℝ)
    {minimize : Minimizer (Fin c.n → ℝ)} (hmin : Finds minimize) (x : ALTArgs)
    (hdual : dual = true ↔ DualStress c.model x.failure_stress_2) {F A B C D E ls : List ℝ}
    (q : ALTRequirements c.dist c.model x.failures x.failure_stress_1 x.failure_stress_2 x.right_censored
        x.right_censored_stress_1 x.right_censored_stress_2 x.CI x.use_level_stress x.optimizer dual F A B C D E)
    (hls : altLeastSquares noise c.model F A B = .ok ls)
    (hCF : ∀ i ∈ C.zip (k.join D E), ∃ t, (t, i.2) ∈ F.zip (k.join A B)) (hG : Groups (F.zip (k.join A B)))
    (pF : ∀ i ∈ F.zip (k.join A B), pos i.2) (pC : ∀ i ∈ C.zip (k.join D E), pos i.2)
    (hmax : ∃ m d, mname m = c.model ∧ dname d = c.dist ∧ m.Valid ∧ d.Valid ∧
      ALTMax lifeAt m d (F.zip (k.join A B)) (C.zip (k.join D E))) :
    ∃ res m d, fitALT c k argsort J num noise minimize x = .ok res ∧ res.optimizer ≠ none ∧
      altModel c.dist c.model (estimates res) = some (m, d) ∧ m.Valid ∧ d.Valid := by
  have hkey : ∀ dual, (dual = true ↔ DualStress c.model x.failure_stress_2) → KeyInj dual k.key := by
    intro d hd
    have : d = dual := by
      have := hd.trans hdual.symm
      cases d <;> cases dual <;> simp_all
    rw [this]; exact hk.keyInj
  obtain ⟨inp, h1⟩ := (C74_accepts_iff k.key c.dist c.model _ _ _ _ _ _ hkey _ _ _).2 ⟨dual, F, A, B, C, D, E, q⟩
  obtain ⟨dual', q', -, hopt, -, hgr⟩ := C74_groups k.key c.dist c.model _ _ _ _ _ _ hkey _ _ _ _ h1
  have hdd : dual' = dual := by
    have := q'.is_dual.trans q.is_dual.symm
    cases dual' <;> cases dual <;> simp_all
  subst hdd
  have eF : inp.failures = F := by have := q'.failures.1.symm.trans q.failures.1; cases this; rfl
  have eA : inp.failure_stress_1 = A := by have := q'.failures.2.1.symm.trans q.failures.2.1; cases this; rfl
  have eB : inp.failure_stress_2 = B := by
    cases hd : dual' with
    | false => rw [q'.failures.2.2.2 hd, q.failures.2.2.2 hd]
    | true => have := (q'.failures.2.2.1 hd).symm.trans (q.failures.2.2.1 hd); cases this; rfl
  obtain ⟨eC, eD, eE⟩ : inp.right_censored = C ∧ inp.right_censored_stress_1 = D ∧ inp.right_censored_stress_2 = E := by
    rcases q'.censored with ⟨a1, a2, a3, a4⟩ | ⟨a1, a2, a3, a4⟩ <;>
      rcases q.censored with ⟨b1, b2, b3, b4⟩ | ⟨b1, b2, b3, b4⟩
    · rw [a2, a3, a4, b2, b3, b4]; exact ⟨rfl, rfl, rfl⟩
    · rw [a1] at b1; cases b1
    · rw [a1] at b1; cases b1
    · rw [a1] at b1
      rw [a2] at b2
      cases b1; cases b2
      refine ⟨rfl, rfl, ?_⟩
      cases hd : dual' with
      | false => rw [a4 hd, b4 hd]
      | true => have := (a3 hd).symm.trans (b3 hd); cases this; rfl
  obtain ⟨hA, hD, hBE⟩ := q'.one_stress_each
  obtain ⟨S', hS's, -, hSiff, hgroups, -⟩ := groups_eq hk hA hD hBE hgr (by rw [eF, eA, eB, eC, eD, eE]; exact hCF)
  obtain ⟨gs, hgs⟩ := groupFits_returns (dist := c.dist) (argsort := argsort) (J := J) (num := num)
    (groupsOf inp.failure_groups inp.right_censored_groups) (by
      intro g hg hl j
      rw [hgroups, List.mem_map] at hg
      obtain ⟨s, hs', rfl⟩ := hg
      dsimp only at hl ⊢
      obtain ⟨y, hy⟩ := (hSiff s).1 hs'
      have hm := (mem_rows hk hA (fun hd => (hBE hd).1) s (hS's s hs') y).1 hy
      rw [eF, eA, eB] at hm
      refine groupFit_finds harg J (hE j) (hE1 j) (hs j) (hs1 j) _ _ ?_ ?_ ?_
      · intro t ht
        unfold unitsAt at ht
        obtain ⟨i, hi, rfl⟩ := List.mem_map.1 ht
        exact q'.positive.1 _ (List.of_mem_zip (List.mem_filter.1 hi).1).1
      · intro l hl' t ht
        split_ifs at hl'
        cases hl'
        unfold unitsAt at ht
        obtain ⟨i, hi, rfl⟩ := List.mem_map.1 ht
        exact q'.positive.2 _ (List.of_mem_zip (List.mem_filter.1 hi).1).1
      · rcases hG _ hm with h | h
        · rw [eF, eA, eB] at hl
          dsimp only at h
          exact absurd h (by omega)
        · rw [eF, eA, eB]; exact h) 0
  obtain ⟨b, hb⟩ := bounds_returns hmodel hdist
  have hjF := hk.join inp.failure_stress_1 inp.failure_stress_2 inp.failures hA fun hd => (hBE hd).1
  have hjC := hk.join inp.right_censored_stress_1 inp.right_censored_stress_2 inp.right_censored hD fun hd => (hBE hd).2
  rw [← eF, ← eA, ← eB, ← eC, ← eD, ← eE] at hmax
  rw [← eF, ← eA, ← eB] at pF
  rw [← eC, ← eD, ← eE] at pC
  set Fs := k.join inp.failure_stress_1 inp.failure_stress_2 with hFs
  set Cs := k.join inp.right_censored_stress_1 inp.right_censored_stress_2 with hCs
  have eF1 := zip_fst _ _ hjF.2
  have eF2 := zip_snd _ _ hjF.2
  have eC1 := zip_fst _ _ hjC.2
  have eC2 := zip_snd _ _ hjC.2
  have pF' : ∀ i ∈ inp.failures.zip Fs, 0 < i.1 ∧ pos i.2 := fun i hi => ⟨q'.positive.1 _ (List.of_mem_zip hi).1, pF i hi⟩
  have pC' : ∀ i ∈ inp.right_censored.zip Cs, 0 < i.1 ∧ pos i.2 := fun i hi => ⟨q'.positive.2 _ (List.of_mem_zip hi).1, pC i hi⟩
  have key : ∀ (v : Fin c.n → ℝ) m d, altModel c.dist c.model (List.ofFn v) = some (m, d) → m.Valid → d.Valid →
      Real.exp (Likelihood.loglik (c.LL v inp.failures inp.right_censored Fs Cs)) =
        altLikelihood lifeAt m d (inp.failures.zip Fs) (inp.right_censored.zip Cs) := by
    intro v m' d' e1 e2 e3
    obtain ⟨m'', d'', e4, -, e5, e6⟩ := hc.model v
    rw [e1] at e4
    cases e4
    have l1 := (e6 e2 e3 none 0 _ _ none [] pF' pC' (by simp)).loglik
    rw [(e5 _ _ _ _ _ _ _ _).1, eF1, eF2, eC1, eC2] at l1
    rw [← show _ = altLikelihood lifeAt m' d' (inp.failures.zip Fs) (inp.right_censored.zip Cs) from l1]
    congr 1
  have legal : ∀ y : Fin c.n → ℝ, Inside y b → ∃ m d, altModel c.dist c.model (List.ofFn y) = some (m, d) ∧ m.Valid ∧ d.Valid := by
    intro y hy
    obtain ⟨m, d, e1, -⟩ := hc.model y
    obtain ⟨k1, k2, k3⟩ := (altModel_iff ..).1 e1
    exact ⟨m, d, e1, inside_legal (by rw [← k1, ← k2]; exact hb) k3 hy⟩
  have hfind := fun n p => hmin (fun p => c.LL p inp.failures inp.right_censored Fs Cs) b n p (by
    obtain ⟨m, d, m1, m2, m3, m4, m5⟩ := hmax
    have hps : altModel c.dist c.model (mpars m ++ dpars d) = some (m, d) := (altModel_iff ..).2 ⟨m1.symm, m2.symm, rfl⟩
    have hlen : (mpars m ++ dpars d).length = c.n := by
      rw [hc.count]
      exact altModel_length hps
    obtain ⟨v, hv⟩ : ∃ v : Fin c.n → ℝ, mpars m ++ dpars d = List.ofFn v :=
      ⟨fun i => (mpars m ++ dpars d)[(i : ℕ)]'(by rw [hlen]; exact i.2), by
        apply List.ext_getElem
        · simp only [hlen, List.length_ofFn]
        · intro i _ _; simp⟩
    rw [hv] at hps
    refine ⟨v, legal_inside hb hps m3 m4, fun y hy => ?_⟩
    obtain ⟨m', d', e1, e2, e3⟩ := legal y hy
    obtain ⟨k1, k2, k3⟩ := (altModel_iff ..).1 e1
    have hle := m5 m' d' (by rw [← k1, m1]) (by rw [← k2, m2]) e2 e3
    rw [← key _ _ _ e1 e2 e3, ← key _ _ _ hps m3 m4, Real.exp_le_exp] at hle
    unfold Likelihood.loglik at hle
    linarith)
  obtain ⟨n, y, hy, w, rfl⟩ := mle_success_of (fun p => |-(c.LL p inp.failures inp.right_censored Fs Cs)|)
    (c.guess ls (commonShape gs)) hopt (fun n p => (hfind n p).1)
  obtain ⟨SE, hSE⟩ := orWarn_some ((npInv (hessian (fun p => c.LL p inp.failures inp.right_censored Fs Cs)
    (minimize (fun p => c.LL p inp.failures inp.right_censored Fs Cs) b n w).x)).map
      fun V => List.ofFn fun i => seOf (V i i)) n
  obtain ⟨m, d, e1, e2, e3⟩ := legal _ (hfind n w).2
  have hfit : ∃ res, fitALT c k argsort J num noise minimize x = .ok res ∧ res.optimizer = some n ∧ estimates res =
      List.ofFn (minimize (fun p => c.LL p inp.failures inp.right_censored Fs Cs) b n w).x := by
    unfold fitALT
    simp only [bind_ok]
    refine ⟨_, ⟨inp, h1, ls, by rw [eF, eA, eB]; exact hls, gs, hgs, b, hb, _, hy, SE, hSE, rfl⟩, rfl, ?_⟩
    unfold estimates
    apply List.ext_getElem
    · simp [resultRows]
    · intro i _ _
      simp [resultRows]
  obtain ⟨res, r1, r2, r3⟩ := hfit
  exact ⟨res, m, d, r1, by rw [r2]; simp, by rw [r3]; exact e1, e2, e3⟩

/-- **C167 (one stress).** A Weibull, Lognormal or Exponential class, given data that meet the documented requirements, positive
stresses, and exact optimizers that succeed whenever there is a minimum, returns the most likely admissible model.  The conditions
on the data: a censored stress also has failures; each stress has one failure or two different ones; and, except for the
Exponential classes, no model of the class goes exactly through all the failures. -/
theorem C167_single {c : Cls ℝ} (hc : c ∈ singleClasses) (hno : c.dist ≠ "Normal") {argsort : List ℝ → List ℕ} (harg : IsArgsort argsort)
    (J : Jac) {num : ℕ → Option ℝ → Num2} (hE : ∀ i fo, Exact (num i fo).minimize) (hE1 : ∀ i fo, Exact (num i fo).minimize1)
    (hs : ∀ i fo, Finds (num i fo).minimize) (hs1 : ∀ i fo, Finds (num i fo).minimize1) (noise : Matrix (Fin 3) (Fin 3) ℝ)
    {minimize : Minimizer (Fin c.n → ℝ)} (hmE : Exact minimize) (hmin : Finds minimize) (x : ALTArgs) (F C : List (ℝ × ℝ))
    (q : ALTRequirements c.dist c.model x.failures x.failure_stress_1 x.failure_stress_2 x.right_censored
        x.right_censored_stress_1 x.right_censored_stress_2 x.CI x.use_level_stress x.optimizer false
        (F.map Prod.fst) (F.map Prod.snd) [] (C.map Prod.fst) (C.map Prod.snd) [])
    (hpos : ∀ i ∈ F, 0 < i.2) (hCF : ∀ i ∈ C, ∃ t, (t, i.2) ∈ F)
    (hG : ∀ i ∈ F, (unitsAt F i.2).length = 1 ∨ 2 ≤ (unitsAt F i.2).toFinset.card)
    (hex : c.dist ≠ "Exponential" → ∀ ps m d, altModel c.dist c.model ps = some (m, d) → m.Valid → ∃ i ∈ F, i.1 ≠ lifeAt1 m i.2) :
    ∃ res m d, fitALT c singleKind argsort J num noise minimize x = .ok res ∧ ExactALT1 c x res ∧
      altModel c.dist c.model (estimates res) = some (m, d) ∧ m.Valid ∧ d.Valid := by
  have zF : ∀ L : List (ℝ × ℝ), (L.map Prod.fst).zip (singleKind.join (L.map Prod.snd) []) = L := zip_maps
  have hm := (models_single hc).1
  have hd := (models_single hc).2
  have hd' : c.dist ∈ ["Weibull", "Lognormal", "Exponential"] := by
    simp only [List.mem_cons, List.not_mem_nil, or_false] at hd ⊢; tauto
  obtain ⟨i, hi, j, hj, hij⟩ : ∃ i ∈ F, ∃ j ∈ F, i.2 ≠ j.2 := by
    obtain ⟨a, ha, b, hb, hab⟩ := Finset.one_lt_card.1 (show 1 < (F.map Prod.snd).toFinset.card from q.two_stresses.1)
    rw [List.mem_toFinset, List.mem_map] at ha hb
    obtain ⟨i, hi, rfl⟩ := ha
    obtain ⟨j, hj, rfl⟩ := hb
    exact ⟨i, hi, j, hj, hab⟩
  have hls : ∃ ls, altLeastSquares noise c.model (F.map Prod.fst) (F.map Prod.snd) [] = .ok ls := by
    obtain ⟨out, -, h1, -⟩ := C97_least_squares noise c.model (by
      simp only [altModels, List.mem_cons, List.not_mem_nil, or_false] at hm ⊢; tauto)
      (F.map fun i => (i.1, i.2, 1)) (by
        intro p hp
        obtain ⟨i, hi, rfl⟩ := List.mem_map.1 hp
        exact ⟨q.positive.1 _ (List.mem_map_of_mem hi), hpos i hi, one_pos⟩) (by
        unfold Determined
        rw [if_pos hm]
        exact ⟨_, List.mem_map_of_mem hi, _, List.mem_map_of_mem hj, hij⟩)
    refine ⟨out, ?_⟩
    rw [← h1, List.map_map, List.map_map, List.map_map, ls_single noise hm _ _ [] (F.map ((fun p => p.2.2) ∘ fun i => (i.1, i.2, 1)))]
    rfl
  obtain ⟨ls, hls⟩ := hls
  have hposC : ∀ i ∈ C, 0 < i.2 := fun i hi => by obtain ⟨t, ht⟩ := hCF i hi; exact hpos (t, i.2) ht
  obtain ⟨res, m, d, r1, r2, r3, r4, r5⟩ := finds_run (lawful_single c hc) singleLaw (by
      simp only [List.mem_cons, List.not_mem_nil, or_false] at hm ⊢; tauto) hd harg J hE hE1 hs hs1 noise hmin x
      (single_not_dual hc _) q hls (by rw [zF, zF]; exact hCF) (by rw [zF]; exact hG) (by rw [zF]; exact hpos) (by rw [zF]; exact hposC)
      (by
        rw [zF, zF]
        refine exists_single hm hd' (fun i hi => ⟨q.positive.1 _ (List.mem_map_of_mem hi), hpos i hi⟩)
          (fun i hi => ⟨q.positive.2 _ (List.mem_map_of_mem hi), hposC i hi⟩) ⟨i, hi, j, hj, hij⟩ fun he m hn hv => ?_
        obtain ⟨d1, -, -⟩ := mkD_law hd' one_pos (fun _ => rfl)
        exact hex he (mpars m ++ dpars (mkD c.dist 1)) m _ ((altModel_iff ..).2 ⟨hn.symm, d1.symm, rfl⟩) hv)
  exact ⟨res, m, d, r1, ⟨r2, argsort, J, num, noise, minimize, hmE, r1⟩, r3, r4, r5⟩

/-- **C167 (two stresses).** The same with two stresses, whose pairs are not all on one line on the scale on which the model is
linear. -/
theorem C167_dual {κ : Type} [LinearOrder κ] (key : ℝ → Option ℝ → κ) (stress : κ → ℝ × ℝ)
    (hkey : ∀ a b, stress (key a (some b)) = (a, b)) {c : Cls (ℝ × ℝ)} (hc : c ∈ dualClasses) (hno : c.dist ≠ "Normal")
    {argsort : List ℝ → List ℕ} (harg : IsArgsort argsort)
    (J : Jac) {num : ℕ → Option ℝ → Num2} (hE : ∀ i fo, Exact (num i fo).minimize) (hE1 : ∀ i fo, Exact (num i fo).minimize1)
    (hs : ∀ i fo, Finds (num i fo).minimize) (hs1 : ∀ i fo, Finds (num i fo).minimize1) (noise : Matrix (Fin 3) (Fin 3) ℝ)
    {minimize : Minimizer (Fin c.n → ℝ)} (hmE : Exact minimize) (hmin : Finds minimize) (x : ALTArgs) (F C : List (ℝ × ℝ × ℝ))
    (q : ALTRequirements c.dist c.model x.failures x.failure_stress_1 x.failure_stress_2 x.right_censored
        x.right_censored_stress_1 x.right_censored_stress_2 x.CI x.use_level_stress x.optimizer true
        (F.map Prod.fst) (F.map fun i => i.2.1) (F.map fun i => i.2.2)
        (C.map Prod.fst) (C.map fun i => i.2.1) (C.map fun i => i.2.2))
    (hpos : ∀ i ∈ F, 0 < i.2.1 ∧ 0 < i.2.2)
    (hG : ∀ i ∈ F, (unitsAt F i.2).length = 1 ∨ 2 ≤ (unitsAt F i.2).toFinset.card)
    (hnc : ¬ Collinear2 (F.map fun i => stressScale c.model i.2))
    (hex : c.dist ≠ "Exponential" → ∀ ps m d, altModel c.dist c.model ps = some (m, d) → m.Valid → ∃ i ∈ F, i.1 ≠ lifeAt2 m i.2) :
    ∃ res m d, fitALT c (dualKind key stress) argsort J num noise minimize x = .ok res ∧ ExactALT2 c x res ∧
      altModel c.dist c.model (estimates res) = some (m, d) ∧ m.Valid ∧ d.Valid := by
  have zF : ∀ L : List (ℝ × ℝ × ℝ), (L.map Prod.fst).zip ((dualKind key stress).join (L.map fun i => i.2.1)
      (L.map fun i => i.2.2)) = L := by
    intro L
    simp only [dualKind]
    induction L with
    | nil => rfl
    | cons a L ih => simp only [List.map_cons, List.zip_cons_cons, ih]
  have hm := (models_dual hc).1
  have hd := (models_dual hc).2
  have hd' : c.dist ∈ ["Weibull", "Lognormal", "Exponential"] := by
    simp only [List.mem_cons, List.not_mem_nil, or_false] at hd ⊢; tauto
  obtain ⟨ls, -, hls, -⟩ := C97_dual_legal noise c.model hm (F.map Prod.fst) (F.map fun i => i.2.1) (F.map fun i => i.2.2)
  have hCF : ∀ i ∈ C, ∃ t, (t, i.2) ∈ F := by
    have hk := dualLaw (κ := κ) hkey
    obtain ⟨l1, l2, l3⟩ := q.one_stress_each
    have jF := (hk.join _ _ _ l1 fun _ => (l3 rfl).1).1
    have jC := (hk.join _ _ _ l2 fun _ => (l3 rfl).2).1
    rw [zF] at jF jC
    intro i hi
    rw [jC] at hi
    obtain ⟨r, hr, rfl⟩ := List.mem_map.1 hi
    obtain ⟨y, hy⟩ := q.known_pairs rfl r hr
    refine ⟨y, ?_⟩
    rw [jF]
    exact List.mem_map.2 ⟨_, hy, rfl⟩
  have hposC : ∀ i ∈ C, 0 < i.2.1 ∧ 0 < i.2.2 := fun i hi => by obtain ⟨t, ht⟩ := hCF i hi; exact hpos (t, i.2) ht
  obtain ⟨res, m, d, r1, r2, r3, r4, r5⟩ := finds_run (lawful_dual c hc) (dualLaw hkey) (by
      simp only [List.mem_cons, List.not_mem_nil, or_false] at hm ⊢; tauto) hd harg J hE hE1 hs hs1 noise hmin x
      (dual_dual hc _) q hls (by rw [zF, zF]; exact hCF) (by rw [zF]; exact hG) (by rw [zF]; exact hpos) (by rw [zF]; exact hposC)
      (by
        rw [zF, zF]
        refine exists_dual hm hd' (fun i hi => ⟨q.positive.1 _ (List.mem_map_of_mem hi), hpos i hi⟩)
          (fun i hi => ⟨q.positive.2 _ (List.mem_map_of_mem hi), hposC i hi⟩) hnc fun he m hn hv => ?_
        obtain ⟨d1, -, -⟩ := mkD_law hd' one_pos (fun _ => rfl)
        exact hex he (mpars m ++ dpars (mkD c.dist 1)) m _ ((altModel_iff ..).2 ⟨hn.symm, d1.symm, rfl⟩) hv)
  exact ⟨res, m, d, r1, ⟨r2, κ, _, key, stress, argsort, J, num, noise, minimize, hkey, hmE, r1⟩, r3, r4, r5⟩

/-- **C167 finding (one stress).** When a model of the class goes exactly through all the failures of a Weibull or Lognormal class and
there are no censored units, there is no most likely model: no run is exact with admissible estimates, whatever the optimizer. -/
theorem C167_single_through_finding {c : Cls ℝ} (hc : c ∈ singleClasses) (hd : c.dist ∈ ["Weibull", "Lognormal"]) {x : ALTArgs}
    {F : List (ℝ × ℝ)} (hu : UsedSingle x F []) (pF : ∀ i ∈ F, 0 < i.2) {ps : List ℝ} {m₀ : LifeStress} {d₀ : LifeDist}
    (h0 : altModel c.dist c.model ps = some (m₀, d₀)) (hm₀ : m₀.Valid) (hthrough : ∀ i ∈ F, i.1 = lifeAt1 m₀ i.2) :
    ¬ ∃ res m d, ExactALT1 c x res ∧ altModel c.dist c.model (estimates res) = some (m, d) ∧ m.Valid ∧ d.Valid := by
  rintro ⟨res, m, d, h, hmd, hm, hdv⟩
  obtain ⟨a1, -, ⟨i, hi, -⟩, a4⟩ := run1 hc h hu hmd hm hdv pF (by simp)
  obtain ⟨k1, k2, -⟩ := (altModel_iff ..).1 hmd
  obtain ⟨d', e1, e2, e3⟩ := unbounded (lifeAt := lifeAt1) (pos := fun s => 0 < s) (fun m hm s hs => life_pos hm hs one_pos) hd a1
    (List.ne_nil_of_mem hi) hm₀ hthrough (altLikelihood lifeAt1 m d F [])
  exact absurd (a4 m₀ d' (by rw [← ((altModel_iff ..).1 h0).1, k1]) (by rw [e1, k2]) hm₀ e2) (not_le.2 e3)

/-- **C167 finding (two stresses).** -/
theorem C167_dual_through_finding {c : Cls (ℝ × ℝ)} (hc : c ∈ dualClasses) (hd : c.dist ∈ ["Weibull", "Lognormal"]) {x : ALTArgs}
    {F : List (ℝ × ℝ × ℝ)} (hu : UsedDual x F []) (hne : F ≠ []) (pF : ∀ i ∈ F, 0 < i.2.1 ∧ 0 < i.2.2) {ps : List ℝ} {m₀ : LifeStress}
    {d₀ : LifeDist} (h0 : altModel c.dist c.model ps = some (m₀, d₀)) (hm₀ : m₀.Valid) (hthrough : ∀ i ∈ F, i.1 = lifeAt2 m₀ i.2) :
    ¬ ∃ res m d, ExactALT2 c x res ∧ altModel c.dist c.model (estimates res) = some (m, d) ∧ m.Valid ∧ d.Valid := by
  rintro ⟨res, m, d, h, hmd, hm, hdv⟩
  obtain ⟨a1, -, a4⟩ := run2 hc h hu hmd hm hdv pF (by simp)
  obtain ⟨k1, k2, -⟩ := (altModel_iff ..).1 hmd
  obtain ⟨d', e1, e2, e3⟩ := unbounded (lifeAt := lifeAt2) (pos := fun s : ℝ × ℝ => 0 < s.1 ∧ 0 < s.2)
    (fun m hm s hs => life_pos hm hs.1 hs.2) hd a1 hne hm₀ hthrough (altLikelihood lifeAt2 m d F [])
  exact absurd (a4 m₀ d' (by rw [← ((altModel_iff ..).1 h0).1, k1]) (by rw [e1, k2]) hm₀ e2) (not_le.2 e3)

/-! ## The hypotheses are met -/

/-- The data of the example for C110 (failures at three stresses and a censored unit): no model goes through all the failures,
because two different ones share a stress. -/
theorem exF_not_through (m : LifeStress) : ∃ i ∈ exF, i.1 ≠ lifeAt1 m i.2 := by
  by_contra h
  push Not at h
  have h1 := h (5, 1) (by simp [exF])
  have h2 := h (6, 1) (by simp [exF])
  simp only at h1 h2
  linarith

theorem exALT_run {c : Cls ℝ} (hc : c ∈ singleClasses) (hno : c.dist ≠ "Normal") {argsort : List ℝ → List ℕ} (harg : IsArgsort argsort)
    (J : Jac) : ∃ res m d, ExactALT1 c exALT res ∧ altModel c.dist c.model (estimates res) = some (m, d) ∧ m.Valid ∧ d.Valid := by
  obtain ⟨res, m, d, -, h⟩ := C167_single hc hno harg J (num := fun _ => exactNum) (fun _ _ => exactMin_exact) (fun _ _ => exactMin_exact)
    (fun _ _ => exactMin_finds) (fun _ _ => exactMin_finds) 0 exactMin_exact exactMin_finds exALT exF exC (exALT_ok c hc) (by simp [exF]) (by
      intro i hi
      simp only [exC, List.mem_cons, List.not_mem_nil, or_false] at hi
      subst hi
      exact ⟨5, by simp [exF]⟩) exALT_distinct (fun _ _ m _ _ _ => exF_not_through m)
  exact ⟨res, m, d, h⟩

theorem exALT_used : UsedSingle exALT exF exC := ⟨rfl, rfl, .inr ⟨rfl, rfl⟩⟩

/-- The same units in reverse order, with times in units a tenth as large and stresses in units half as large. -/
noncomputable def exALTr : ALTArgs :=
  { failures := .array ((exF.reverse.map fun i => (10 * i.1, 2 * i.2)).map Prod.fst),
    failure_stress_1 := .array ((exF.reverse.map fun i => (10 * i.1, 2 * i.2)).map Prod.snd),
    right_censored := .array ((exC.map fun i => (10 * i.1, 2 * i.2)).map Prod.fst),
    right_censored_stress_1 := .array ((exC.map fun i => (10 * i.1, 2 * i.2)).map Prod.snd) }

/-- Whatever exact run is made on the converted data, its estimates are the converted ones (C166); C167 supplies the first run. -/
example {c : Cls ℝ} (hc : c ∈ singleClasses) (hno : c.dist ≠ "Normal") {argsort : List ℝ → List ℕ} (harg : IsArgsort argsort) (J : Jac) :
    ∃ m d, m.Valid ∧ d.Valid ∧ ∀ res' m' d', ExactALT1 c exALTr res' → altModel c.dist c.model (estimates res') = some (m', d') →
      m'.Valid → d'.Valid → m' = convert 10 2 1 m ∧ d' = d := by
  obtain ⟨res, m, d, h1, h2, h3, h4⟩ := exALT_run hc hno harg J
  refine ⟨m, d, h3, h4, fun res' m' d' h1' h2' h3' h4' => ?_⟩
  exact C166_single hc hno h1 h1' exALT_used ⟨rfl, rfl, .inr ⟨rfl, rfl⟩⟩ (by norm_num) (by norm_num)
    ((List.reverse_perm exF).map _) (List.Perm.refl _) (by simp [exF]) (by simp [exC]) h2 h2' h3 h4 h3' h4'

/-- C165_single: the run of C167 and any other. -/
example {c : Cls ℝ} (hc : c ∈ singleClasses) (hno : c.dist ≠ "Normal") {argsort : List ℝ → List ℕ} (harg : IsArgsort argsort) (J : Jac) :
    ∃ l : List ℝ, ∀ res' m' d', ExactALT1 c exALT res' → altModel c.dist c.model (estimates res') = some (m', d') →
      m'.Valid → d'.Valid → estimates res' = l := by
  obtain ⟨res, m, d, h1, h2, h3, h4⟩ := exALT_run hc hno harg J
  exact ⟨estimates res, fun res' m' d' h1' h2' h3' h4' => C165_single hc hno h1 h1' exALT_used exALT_used (List.Perm.refl _)
    (List.Perm.refl _) (by simp [exF]) (by simp [exC]) h2 h2' h3 h4 h3' h4'⟩

/-- Four pairs of stresses that are not on a line on any of the scales. -/
noncomputable def exF3 : List (ℝ × ℝ × ℝ) := [(5, 1, 1), (6, 1, 1), (8, 2, 1), (12, 1, 2), (13, 1, 2)]

noncomputable def exALT3 : ALTArgs :=
  { failures := .array (exF3.map Prod.fst), failure_stress_1 := .array (exF3.map fun i => i.2.1),
    failure_stress_2 := .array (exF3.map fun i => i.2.2) }

theorem exF3_spread {name : String} (hn : name ∈ ["Dual_Exponential", "Power_Exponential", "Dual_Power"]) :
    ¬ Collinear2 (exF3.map fun i => stressScale name i.2) := by
  have hl : Real.log 2 ≠ 0 := (Real.log_pos (by norm_num)).ne'
  rintro ⟨a, b, c, hne, h⟩
  simp only [exF3, List.map_cons, List.map_nil, List.mem_cons, List.not_mem_nil, or_false, forall_eq_or_imp, forall_eq] at h
  obtain ⟨h1, -, h2, h3, -⟩ := h
  refine hne ?_
  simp only [List.mem_cons, List.not_mem_nil, or_false] at hn
  rcases hn with rfl | rfl | rfl
  · simp only [stressScale] at h1 h2 h3
    obtain ⟨rfl, rfl, rfl⟩ : a = 0 ∧ b = 0 ∧ c = 0 := ⟨by linarith, by linarith, by linarith⟩
    rfl
  · simp only [stressScale, Real.log_one] at h1 h2 h3
    have hc : c * Real.log 2 = 0 := by linarith
    have hc := (mul_eq_zero.1 hc).resolve_right hl
    subst hc
    obtain ⟨rfl, rfl⟩ : a = 0 ∧ b = 0 := ⟨by linarith, by linarith⟩
    rfl
  · change a + b * Real.log 1 + c * Real.log 1 = 0 at h1
    change a + b * Real.log 2 + c * Real.log 1 = 0 at h2
    change a + b * Real.log 1 + c * Real.log 2 = 0 at h3
    rw [Real.log_one] at h1 h2 h3
    have hb : b * Real.log 2 = 0 := by linarith
    have hb := (mul_eq_zero.1 hb).resolve_right hl
    have hc : c * Real.log 2 = 0 := by linarith
    have hc := (mul_eq_zero.1 hc).resolve_right hl
    subst hb hc
    obtain rfl : a = 0 := by linarith
    rfl

/-- C167_dual and C165_dual apply; pairs as keys in lexicographic order. -/
example {c : Cls (ℝ × ℝ)} (hc : c ∈ dualClasses) (hno : c.dist ≠ "Normal") {argsort : List ℝ → List ℕ} (harg : IsArgsort argsort) (J : Jac) :
    ∃ l : List ℝ, (∃ res, ExactALT2 c exALT3 res ∧ estimates res = l) ∧ ∀ res' m' d', ExactALT2 c exALT3 res' →
      altModel c.dist c.model (estimates res') = some (m', d') → m'.Valid → d'.Valid → estimates res' = l := by
  obtain ⟨hm, hd⟩ := models_dual hc
  have pF : ∀ i ∈ exF3, (0 : ℝ) < i.2.1 ∧ 0 < i.2.2 := by simp [exF3]
  obtain ⟨res, m, d, -, h1, h2, h3, h4⟩ := C167_dual (κ := ℝ ×ₗ ℝ) (fun a b => toLex (a, b.getD 0)) ofLex (by intros; rfl) hc hno harg J
    (num := fun _ => exactNum) (fun _ _ => exactMin_exact) (fun _ _ => exactMin_exact)
    (fun _ _ => exactMin_finds) (fun _ _ => exactMin_finds) 0 exactMin_exact exactMin_finds exALT3 exF3 [] (by
      refine ⟨?_, ?_, dual_dual hc _, ⟨rfl, rfl, fun _ => rfl, by simp⟩, .inl ⟨rfl, rfl, rfl, rfl⟩,
        ⟨by simp, by simp, by simp⟩, ⟨?_, by simp⟩, ⟨0.95, rfl, by norm_num, by norm_num⟩, ⟨none, .inl ⟨rfl, rfl⟩⟩, ⟨?_, fun _ => ?_⟩, ?_,
        by simp [stressRows], .inl rfl⟩
      · simp only [List.mem_cons, List.not_mem_nil, or_false] at hd; tauto
      · simp only [List.mem_cons, List.not_mem_nil, or_false] at hm; tauto
      · simp [exF3]
      · refine Finset.one_lt_card.2 ⟨1, by simp [exF3], 2, by simp [exF3], by norm_num⟩
      · refine Finset.one_lt_card.2 ⟨1, by simp [exF3], 2, by simp [exF3], by norm_num⟩
      · simp only [if_true]
        have : List.Nodup (stressRows true (exF3.map fun i => i.2.1) (exF3.map fun i => i.2.2) (exF3.map Prod.fst)) := by
          simp [stressRows, exF3]
        rw [List.toFinset_card_of_nodup this]
        simp [stressRows, exF3]) pF (by
      intro i hi
      simp only [exF3, List.mem_cons, List.not_mem_nil, or_false] at hi
      rcases hi with rfl | rfl | rfl | rfl | rfl
      · right; refine Finset.one_lt_card.2 ⟨5, ?_, 6, ?_, by norm_num⟩ <;> simp [unitsAt, exF3]
      · right; refine Finset.one_lt_card.2 ⟨5, ?_, 6, ?_, by norm_num⟩ <;> simp [unitsAt, exF3]
      · left; simp [unitsAt, exF3]
      · right; refine Finset.one_lt_card.2 ⟨12, ?_, 13, ?_, by norm_num⟩ <;> simp [unitsAt, exF3]
      · right; refine Finset.one_lt_card.2 ⟨12, ?_, 13, ?_, by norm_num⟩ <;> simp [unitsAt, exF3]) (exF3_spread hm) (fun _ _ m _ _ _ => by
      by_contra h
      push Not at h
      have h1 := h (5, 1, 1) (by simp [exF3])
      have h2 := h (6, 1, 1) (by simp [exF3])
      simp only at h1 h2
      linarith)
  have hu : UsedDual exALT3 exF3 [] := ⟨rfl, rfl, rfl, .inl ⟨rfl, rfl⟩⟩
  exact ⟨estimates res, ⟨res, h1, rfl⟩, fun res' m' d' h1' h2' h3' h4' => C165_dual hc hno h1 h1' hu hu (List.Perm.refl _)
    (List.Perm.refl _) pF (by simp) (exF3_spread hm) h2 h2' h3 h4 h3' h4'⟩

/-- C165_dual_collinear_finding applies to the data of the example for C111, which the fitters accept: two pairs of stresses. -/
example {c : Cls (ℝ × ℝ)} (hc : c ∈ dualClasses) (ps : List ℝ) (m : LifeStress) (d : LifeDist)
    (hmd : altModel c.dist c.model ps = some (m, d)) (hm : m.Valid) : ∃ ps' m', ps' ≠ ps ∧ altModel c.dist c.model ps' = some (m', d) ∧
      m'.Valid ∧ altLikelihood lifeAt2 m' d exF2 [] = altLikelihood lifeAt2 m d exF2 [] := by
  refine C165_dual_collinear_finding hc (by simp [exF2]) (by simp) ?_ ps m d hmd hm
  generalize c.model = n
  set p := stressScale n (1, 10)
  set r := stressScale n (2, 20)
  by_cases he : p.1 = r.1 ∧ p.2 = r.2
  · refine ⟨-p.1, 1, 0, by simp, ?_⟩
    simp only [exF2, List.append_nil, List.map_cons, List.map_nil, List.mem_cons, List.not_mem_nil, or_false, forall_eq_or_imp, forall_eq]
    exact ⟨by ring, by ring, by rw [← he.1]; ring, by rw [← he.1]; ring⟩
  · refine ⟨p.1 * (r.2 - p.2) - p.2 * (r.1 - p.1), -(r.2 - p.2), r.1 - p.1, fun e => he ?_, ?_⟩
    · simp only [Prod.mk.injEq] at e
      exact ⟨by linarith [e.2.2], by linarith [e.2.1]⟩
    · simp only [exF2, List.append_nil, List.map_cons, List.map_nil, List.mem_cons, List.not_mem_nil, or_false, forall_eq_or_imp, forall_eq]
      refine ⟨by ring, by ring, ?_, ?_⟩ <;> simp only [p, r] <;> ring

/-- C167_single_through_finding: one failure at each of three stresses, on the line time = 3 * stress. -/
noncomputable def exThrough : ALTArgs := { failures := .array [3, 6, 9], failure_stress_1 := .array [1, 2, 3] }

example : ¬ ∃ res m d, ExactALT1 weibullPower exThrough res ∧ altModel "Weibull" "Power" (estimates res) = some (m, d) ∧ m.Valid ∧ d.Valid :=
  C167_single_through_finding (c := weibullPower) (by simp [singleClasses]) (by decide) (F := [(3, 1), (6, 2), (9, 3)])
    ⟨rfl, rfl, .inl ⟨rfl, rfl⟩⟩ (by simp) (ps := [3, 1, 1]) (m₀ := .power 3 1) (d₀ := .weibull 1) rfl (show (0 : ℝ) < 3 by norm_num) (by
      intro i hi
      simp only [List.mem_cons, List.not_mem_nil, or_false] at hi
      rcases hi with rfl | rfl | rfl <;> simp only [lifeAt1, LifeStress.life, Real.rpow_one] <;> norm_num)

end Reliability.Props.ALTGlue

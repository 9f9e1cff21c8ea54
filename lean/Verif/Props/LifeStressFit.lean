import Verif.Props.LifeStressPlot
import Verif.Props.ALTPlotsExample

/-! # C135: the life-stress plot of a fitted model -/

namespace Reliability.ALTPlots

open Reliability Reliability.Spec Reliability.Spec.ALTGlue Reliability.FitGlue Reliability.ALTGlue Reliability.InputCheck
open Reliability.Spec.InputCheck
open Reliability.FunctionCI (Two Jac)
open Reliability.Props (bind_ok DualStress ALTRequirements C74_groups KeyInj stressRows)
open List

open Reliability.Props.ALTGlue in
/-- What is passed to the plots. -/
theorem drawn_of_fit {σ κ : Type} [LinearOrder κ] [DecidableEq σ] {c : Cls σ} {k : Kind σ κ} {lifeAt : LifeStress → σ → ℝ}
    {pos : σ → Prop} (hc : Lawful c lifeAt pos)
    (hlife : ∀ p m d s, altModel c.dist c.model (List.ofFn p) = some (m, d) → c.life p s = lifeAt m s)
    {dual : Bool} {tos : ℝ × Option ℝ → σ} (hk : KindLaw k dual tos)
    {argsort : List ℝ → List ℕ} (J : Jac) (num : ℕ → Option ℝ → Num2) (noise : Matrix (Fin 3) (Fin 3) ℝ)
    (minimize : Minimizer (Fin c.n → ℝ)) (x : ALTArgs)
    (hdual : dual = true ↔ DualStress c.model x.failure_stress_2) (res : ALTRes σ)
    (h : fitALT c k argsort J num noise minimize x = .ok res) :
    ∃ F A B C D E m d inp, ALTRequirements c.dist c.model x.failures x.failure_stress_1 x.failure_stress_2 x.right_censored
        x.right_censored_stress_1 x.right_censored_stress_2 x.CI x.use_level_stress x.optimizer dual F A B C D E ∧
      altModel c.dist c.model (res.rows.map Row.point) = some (m, d) ∧
      altCheck k.key c.dist c.model x.failures x.failure_stress_1 x.failure_stress_2 x.right_censored
        x.right_censored_stress_1 x.right_censored_stress_2 x.CI x.use_level_stress x.optimizer = .ok inp ∧
      (∀ s, c.life (fun i => ProbPaper.pointAt res.rows i) s = lifeAt m s) ∧ inp.use_level_stress = x.use_level_stress ∧
      ((∀ i ∈ C.zip (k.join D E), ∃ t, (t, i.2) ∈ F.zip (k.join A B)) →
        inp.stresses_for_groups.map k.stress = res.change.map Change.stress ∧
        inp.failure_groups = (res.change.map Change.stress).map (unitsAt (F.zip (k.join A B))) ∧ res.change ≠ [] ∧
        (∀ s, s ∈ res.change.map Change.stress ↔ ∃ t, (t, s) ∈ F.zip (k.join A B)) ∧
        ∀ l ∈ inp.failure_groups, l ≠ [] ∧ ∀ t ∈ l, 0 < t) := by
  unfold fitALT at h
  simp only [bind_ok] at h
  obtain ⟨inp, h1, ls, h2, gs, h3, bounds, h4, o, h5, SE, h6, h7⟩ := h
  have h7 := (Except.ok.inj h7).symm
  have hkey : ∀ dual, (dual = true ↔ DualStress c.model x.failure_stress_2) → KeyInj dual k.key := by
    intro d hd
    have : d = dual := by
      have := hd.trans hdual.symm
      cases d <;> cases dual <;> simp_all
    rw [this]; exact hk.keyInj
  obtain ⟨dual', q, hCI, hopt, huse, hgr⟩ := C74_groups k.key c.dist c.model _ _ _ _ _ _ hkey _ _ _ _ h1
  have hdd : dual' = dual := by
    have := q.is_dual.trans hdual.symm
    cases dual' <;> cases dual <;> simp_all
  subst hdd
  obtain ⟨m, d, hm1, hm2, hm3, -⟩ := hc.model o.params
  refine ⟨_, _, _, _, _, _, m, d, inp, q, ?_, h1, ?_, huse, ?_⟩
  · rw [h7]
    have hnl : c.names.length = c.n := by rw [hc.names, hc.count, List.length_map]
    have := congrArg (List.map Prod.snd) (rows_points c.names hnl o.params SE
      (c.fit o.params SE (FunctionCI.zOf inp.CI) inp.failures inp.right_censored (k.join inp.failure_stress_1 inp.failure_stress_2)
        (k.join inp.right_censored_stress_1 inp.right_censored_stress_2) (k.use inp.use_level_stress)
        (inp.stresses_for_groups.map k.stress)).bounds)
    rw [List.map_map, List.map_snd_zip (by simp [hnl])] at this
    rw [← hm1]
    exact congrArg _ this
  · have hp : (fun i : Fin c.n => ProbPaper.pointAt res.rows i) = o.params := by
      funext i
      rw [h7]
      exact pointAt_rows _ _ _ _ i
    rw [hp]
    exact fun s => hlife o.params m d s hm1
  intro hCF
  obtain ⟨hA, hD, hBE⟩ := q.one_stress_each
  obtain ⟨S, hS1, hS2, hS3, hS4, hS5⟩ := groups_eq hk hA hD hBE hgr hCF
  obtain ⟨os, hgs, hos⟩ := groupFits_spec h3
  have hstress : inp.stresses_for_groups.map k.stress = S.map tos := by
    rw [hS2, List.map_map]
    apply List.map_congr_left
    intro s hs
    exact hk.stress s (hS1 s hs)
  have hglen : S.length = gs.length := by
    rw [hgs, List.length_map, ← hos.length_eq, hS4, List.length_map]
  -- the table of changes
  have hch : res.change.map Change.stress = S.map tos := by
    have f := hm3 SE (FunctionCI.zOf inp.CI) inp.failures inp.right_censored (k.join inp.failure_stress_1 inp.failure_stress_2)
      (k.join inp.right_censored_stress_1 inp.right_censored_stress_2) (k.use inp.use_level_stress)
      (inp.stresses_for_groups.map k.stress)
    have e := changeTable_eq (inp.stresses_for_groups.map k.stress) gs _ (c.shape o.params) (by rw [hstress]; simp [hglen])
      (fun s => d.scale (lifeAt m s)) (fun s => (k.use inp.use_level_stress).map fun u => lifeAt m u / lifeAt m s) f.2.2.1 (by
        intro i hi
        cases hu : k.use inp.use_level_stress with
        | none => rw [hu] at f; rw [f.2.2.2.2 rfl]; rfl
        | some u => rw [hu] at f; rw [f.2.2.2.1 u rfl, List.getElem?_map, List.getElem?_eq_getElem hi]; rfl)
    rw [h7]
    dsimp only
    rw [e, hstress]
    apply List.ext_getElem
    · simp [hglen]
    · intro i _ _
      simp [changeRow]
  have hcl : res.change.length = S.length := by
    have := congrArg List.length hch
    simpa using this
  have hjF := hk.join inp.failure_stress_1 inp.failure_stress_2 inp.failures hA fun hd => (hBE hd).1
  set Fz := inp.failures.zip (k.join inp.failure_stress_1 inp.failure_stress_2) with hFz
  set Cz := inp.right_censored.zip (k.join inp.right_censored_stress_1 inp.right_censored_stress_2) with hCz
  have hmemS : ∀ s ∈ S, unitsAt Fz (tos s) ≠ [] ∧ ∀ t ∈ unitsAt Fz (tos s), 0 < t := by
    intro s hs
    constructor
    · obtain ⟨y, hy⟩ := (hS3 s).1 hs
      have := (mem_rows hk hA (fun hd => (hBE hd).1) s (hS1 s hs) y).1 hy
      apply List.ne_nil_of_mem (a := y)
      unfold unitsAt
      rw [List.mem_map]
      exact ⟨(y, tos s), List.mem_filter.2 ⟨this, by simp⟩, rfl⟩
    · intro t ht
      unfold unitsAt at ht
      obtain ⟨i, hi, rfl⟩ := List.mem_map.1 ht
      exact q.positive.1 _ (List.of_mem_zip (List.mem_filter.1 hi).1).1
  have hSne : S ≠ [] := by
    have he := q.enough
    have : (stressRows dual' inp.failure_stress_1 inp.failure_stress_2 inp.failures).toFinset.Nonempty := by
      rw [← Finset.card_pos]
      split_ifs at he <;> omega
    obtain ⟨r, hr⟩ := this
    rw [List.mem_toFinset] at hr
    exact List.ne_nil_of_mem ((hS3 r.1).2 ⟨r.2, hr⟩)
  refine ⟨hstress.trans hch.symm, ?_, ?_, ?_, ?_⟩
  · rw [hS5, hch, List.map_map]
    rfl
  · rw [← length_pos_iff_ne_nil, hcl, length_pos_iff_ne_nil]
    exact hSne
  · intro s
    rw [hch]
    constructor
    · intro hs
      obtain ⟨s, hs', rfl⟩ := List.mem_map.1 hs
      obtain ⟨y, hy⟩ := (hS3 s).1 hs'
      exact ⟨y, (mem_rows hk hA (fun hd => (hBE hd).1) s (hS1 s hs') y).1 hy⟩
    · rintro ⟨t, ht⟩
      rw [hFz, (hk.join inp.failure_stress_1 inp.failure_stress_2 inp.failures hA fun hd => (hBE hd).1).1, List.mem_map] at ht
      obtain ⟨r, hr, e⟩ := ht
      exact List.mem_map.2 ⟨r.1, (hS3 r.1).2 ⟨r.2, hr⟩, congrArg Prod.snd e⟩
  · intro l hl
    rw [hS5] at hl
    obtain ⟨s, hs, rfl⟩ := List.mem_map.1 hl
    exact hmemS s hs

theorem decreasing_life {m : LifeStress} (hv : m.Valid) (hd : Decreasing m) (s s' : ℝ) (hs : 0 < s) (hs' : s ≤ s') :
    lifeAt1 m s' ≤ lifeAt1 m s ∧ 0 ≤ lifeAt1 m s' := by
  have h0 := hs.trans_le hs'
  refine ⟨?_, (m.life_pos hv h0 one_pos).le⟩
  unfold lifeAt1
  cases m with
  | exponential a b =>
    have : a / s' ≤ a / s := div_le_div_of_nonneg_left hd hs hs'
    exact mul_le_mul_of_nonneg_left (Real.exp_le_exp.2 this) (le_of_lt hv)
  | eyring a c =>
    have : a / s' ≤ a / s := div_le_div_of_nonneg_left hd hs hs'
    exact div_le_div₀ (Real.exp_pos _).le (Real.exp_le_exp.2 (by linarith)) hs hs'
  | power a n =>
    exact mul_le_mul_of_nonneg_left (Real.rpow_le_rpow_of_nonpos hs hs' hd) (le_of_lt hv)
  | dualExponential _ _ _ => exact hd.elim
  | powerExponential _ _ _ => exact hd.elim
  | dualPower _ _ _ => exact hd.elim

open Reliability.Props.ALTGlue in
/-- **C135, one stress, fitted model.** The life-stress plot of a single-stress fit with positive stresses: if the colour cycle is
long enough it is made and shows the failures at each stress of the table of changes, the life of the fitted model and the use level;
if the fitted life does not increase with stress, then the line is visible over the whole stress axis, and the corner that
marks the use level is visible unless the use stress is above all test stresses. -/
theorem C135_single_fit (c : Cls ℝ) (hc : c ∈ singleClasses) (argsort : List ℝ → List ℕ) (J : Jac)
    (num : ℕ → Option ℝ → Num2) (noise : Matrix (Fin 3) (Fin 3) ℝ) (minimize : Minimizer (Fin c.n → ℝ)) (x : ALTArgs)
    (res : ALTRes ℝ) (h : fitALT c singleKind argsort J num noise minimize x = .ok res) (colours : ℕ) (left : ℝ) {ax : AxArg}
    {swap : Bool} (hax : Asks ax swap) :
    ∃ F C use m d, UsedSingle x F C ∧ UseSingle x use ∧ altModel c.dist c.model (res.rows.map Row.point) = some (m, d) ∧
      ((∀ i ∈ F, 0 < i.2) → (∀ u, use = some u → 0 < u) → (∀ i ∈ C, ∃ t, (t, i.2) ∈ F) →
        (res.change.length + (if use.isSome then 1 else 0) ≤ colours →
          ∃ P, lifeStressPlotOf c colours x res left ax = .ok (some P) ∧
            P.Shows swap (lifeAt1 m) (res.change.map Change.stress) ((res.change.map Change.stress).map (unitsAt F)) use ∧
            P.Marks swap (lifeAt1 m) use left ∧
            (m.Valid → Decreasing m →
              (∀ s, (P.window swap).1 ≤ s → s ≤ (P.window swap).2 → P.Visible (position swap s (lifeAt1 m s))) ∧
              ∀ u, use = some u → (∃ i ∈ F, u ≤ i.2) → P.Visible (position swap u (lifeAt1 m u)))) ∧
        (colours < res.change.length + (if use.isSome then 1 else 0) →
          lifeStressPlotOf c colours x res left ax = .error .indexError)) := by
  obtain ⟨F, A, B, C, D, E, m, d, inp, q, h1, h2, h3, h4, h5⟩ := drawn_of_fit (lawful_single c hc) (life_single c hc) singleLaw J num noise
    minimize x (single_not_dual hc _) res h
  refine ⟨_, _, singleKind.use x.use_level_stress, m, d, used_single q, ?_, h1, fun hF hu hC => ?_⟩
  · rcases q.use_ok with hu | ⟨-, u, hu⟩ | ⟨hd, -⟩
    · left; rw [hu]; exact ⟨rfl, rfl⟩
    · right; rw [hu]; exact ⟨u, rfl, rfl⟩
    · cases hd
  obtain ⟨e1, e2, e3, e4, e5⟩ := h5 hC
  have hplot : lifeStressPlotOf c colours x res left ax = lifeStressPlot colours c.dist c.model (lifeAt1 m) inp.failure_groups
      (res.change.map Change.stress) (singleKind.use x.use_level_stress) left ax := by
    unfold lifeStressPlotOf
    rw [h2]
    dsimp only [bind, Except.bind]
    rw [e1, h4, funext h3]
  obtain ⟨hm, hd⟩ := models_single hc
  have main := C135_single colours (dist := c.dist) (model := c.model) (by
      simp only [mem_cons, not_mem_nil, or_false] at hd ⊢; tauto) (by
      simp only [mem_cons, not_mem_nil, or_false] at hm ⊢; tauto) (lifeAt1 m) (fg := inp.failure_groups)
    (stresses := res.change.map Change.stress) (by simpa using e3) (by rw [e2, length_map]) (by
      intro s hs
      obtain ⟨t, ht⟩ := (e4 s).1 hs
      exact hF _ ht) e5 hu left hax
  rw [hplot]
  rw [length_map] at main
  refine ⟨fun hle => ?_, main.2⟩
  obtain ⟨P, p1, p2, p3, p4⟩ := main.1 hle
  rw [e2] at p2
  refine ⟨P, p1, p2, p3, fun hv hdec => ⟨p2.line_visible (decreasing_life hv hdec), fun u hu' hi => ?_⟩⟩
  obtain ⟨i, hi, hui⟩ := hi
  exact p4 (decreasing_life hv hdec) u hu' ⟨i.2, (e4 i.2).2 ⟨i.1, hi⟩, hui⟩

open Reliability.Props.ALTGlue in
/-- **C135, two stresses, fitted model.** -/
theorem C135_dual_fit {κ : Type} [LinearOrder κ] (key : ℝ → Option ℝ → κ) (stress : κ → ℝ × ℝ)
    (hkey : ∀ a b, stress (key a (some b)) = (a, b)) (c : Cls (ℝ × ℝ)) (hc : c ∈ dualClasses)
    (argsort : List ℝ → List ℕ) (J : Jac) (num : ℕ → Option ℝ → Num2) (noise : Matrix (Fin 3) (Fin 3) ℝ)
    (minimize : Minimizer (Fin c.n → ℝ)) (x : ALTArgs) (res : ALTRes (ℝ × ℝ))
    (h : fitALT c (dualKind key stress) argsort J num noise minimize x = .ok res) (colours : ℕ) {ax : AxArg} {swap : Bool}
    (hax : Asks ax swap) :
    ∃ F C use m d, UsedDual x F C ∧ UseDual x use ∧ altModel c.dist c.model (res.rows.map Row.point) = some (m, d) ∧
      ((∀ i ∈ F, 0 < i.2.1 ∧ 0 < i.2.2) → (∀ u v, use = some (u, v) → 0 < u ∧ 0 < v) → (∀ i ∈ C, ∃ t, (t, i.2) ∈ F) →
        (res.change.length + (if use.isSome then 1 else 0) ≤ colours →
          ∃ P, lifeStressPlotOf2 c (dualKind key stress) colours x res ax = .ok (some P) ∧
            P.Shows (lifeAt2 m) (res.change.map Change.stress) ((res.change.map Change.stress).map (unitsAt F)) use) ∧
        (colours < res.change.length + (if use.isSome then 1 else 0) →
          lifeStressPlotOf2 c (dualKind key stress) colours x res ax = .error .indexError)) := by
  obtain ⟨F, A, B, C, D, E, m, d, inp, q, h1, h2, h3, h4, h5⟩ := drawn_of_fit (lawful_dual c hc) (life_dual c hc) (dualLaw hkey) J num
    noise minimize x (dual_dual hc _) res h
  refine ⟨_, _, (dualKind key stress).use x.use_level_stress, m, d, used_dual hkey q, ?_, h1, fun hF hu hC => ?_⟩
  · rcases q.use_ok with hu | ⟨hd, -⟩ | ⟨-, u, v, hu⟩
    · left; rw [hu]; exact ⟨rfl, rfl⟩
    · cases hd
    · right; rw [hu]; exact ⟨u, v, rfl, rfl⟩
  obtain ⟨e1, e2, e3, e4, e5⟩ := h5 hC
  have hplot : lifeStressPlotOf2 c (dualKind key stress) colours x res ax = lifeStressPlot2 colours c.dist c.model (lifeAt2 m)
      inp.failure_groups (res.change.map Change.stress) ((dualKind key stress).use x.use_level_stress) ax := by
    unfold lifeStressPlotOf2
    rw [h2]
    dsimp only [bind, Except.bind]
    rw [e1, h4, funext h3]
  obtain ⟨hm, hd⟩ := models_dual hc
  have main := C135_dual colours (dist := c.dist) (model := c.model) (by
      simp only [mem_cons, not_mem_nil, or_false] at hd ⊢; tauto) (by
      simp only [mem_cons, not_mem_nil, or_false] at hm ⊢; tauto) (lifeAt2 m) (fg := inp.failure_groups)
    (stresses := res.change.map Change.stress) (by simpa using e3) (by
      intro s hs
      obtain ⟨t, ht⟩ := (e4 s).1 hs
      exact hF _ ht) (fun u hu' => hu u.1 u.2 hu') hax
  rw [hplot]
  rw [length_map] at main
  refine ⟨fun hle => ?_, main.2⟩
  obtain ⟨P, p1, p2⟩ := main.1 hle
  rw [e2] at p2
  exact ⟨P, p1, p2⟩

/-- C135_single_fit applies: a fit with all estimates 1 (see the example for C134_single), the Power model. -/
example {argsort : List ℝ → List ℕ} (harg : IsArgsort argsort) (J : Jac) (noise : Matrix (Fin 3) (Fin 3) ℝ) (c : Cls ℝ)
    (hc : c ∈ singleClasses) : ∃ (res : _) (m : LifeStress), fitALT c singleKind argsort J (fun _ => Reliability.Props.exNum2) noise
        (fun _ _ _ _ => ⟨true, fun _ => 1⟩) Reliability.Props.ALTGlue.exALT = .ok res ∧
      ∃ P, lifeStressPlotOf c (res.change.length + 1) Reliability.Props.ALTGlue.exALT res 0 (.str "Flip") = .ok (some P) ∧
        P.Shows true (lifeAt1 m) (res.change.map Change.stress)
          ((res.change.map Change.stress).map (unitsAt Reliability.Props.ALTGlue.exF)) (some 0.5) := by
  obtain ⟨res, m0, d0, hres, -⟩ := exALT_fit harg J noise c hc
  obtain ⟨F, C, use, m, d, u, hu, -, hP⟩ := C135_single_fit c hc argsort J _ _ _ _ res hres (res.change.length + 1) 0 (ax := .str "Flip")
    (swap := true) ⟨rfl, "flip", by simp, .inr (.inr (by decide +kernel))⟩
  obtain ⟨rfl, rfl, rfl⟩ := exALT_used u hu
  obtain ⟨P, p1, p2, -⟩ := (hP (by simp [Reliability.Props.ALTGlue.exF]) (by intro u h; cases h; norm_num) (by
    intro i hi
    simp only [Reliability.Props.ALTGlue.exC, List.mem_cons, List.not_mem_nil, or_false] at hi
    subst hi
    exact ⟨5, by simp [Reliability.Props.ALTGlue.exF]⟩)).1 (by simp)
  exact ⟨res, m, hres, P, p1, p2⟩

end Reliability.ALTPlots

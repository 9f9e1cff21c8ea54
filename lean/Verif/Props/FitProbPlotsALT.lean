import Verif.Model.FitProbPlotsALT
import Verif.Props.FitEverythingALTFull
import Verif.Props.LifeStressFit

/-! # C157: the probability plots of Fit_Everything_ALT -/

namespace Reliability.Props.FitProbPlotsALT

open Reliability Reliability.InputCheck Reliability.FitGlue Reliability.ALTGlue Reliability.FEAFull Reliability.ALTPlots
open Reliability.FitProbPlotsALT
open Reliability.FunctionCI (Jac)
open Reliability.Spec Reliability.Spec.ALTGlue
open Reliability.Props (bind_ok)
open Reliability.Props.FEAFull

variable {σ κ : Type} [LinearOrder κ] {k : Kind σ κ} {cs : List (Cls σ)} {bs : List (Branch σ)} {dual : Bool} {argsort : List ℝ → List ℕ}
  {J : Jac} {O : Oracle σ} {colours : ℕ}

/-! ## The branches -/

/-- The branch for a class passes what the class itself passes. -/
def Agrees (bs : List (Branch σ)) (c : Cls σ) : Prop :=
  ∃ b, bs.find? (fun b => b.item = clsName c) = some b ∧ b.obj = c ∧ b.dist = c.dist ∧ b.model = c.model ∧
    ∀ (r : ALTRes σ) (p : Fin c.n → ℝ) (SE : Option (List ℝ)) (B : List (ℝ × ℝ)), r.rows = resultRows c.names p SE B →
      b.life (rowOf c r).params = c.life p ∧ b.shape (rowOf c r).params = c.shape p

theorem agrees_single (c : Cls ℝ) (hc : c ∈ singleClasses) : Agrees singleBranches c := by
  simp only [singleClasses, List.mem_cons, List.not_mem_nil, or_false] at hc
  rcases hc with rfl | rfl | rfl | rfl | rfl | rfl | rfl | rfl | rfl | rfl | rfl | rfl <;>
    exact ⟨_, rfl, rfl, rfl, rfl, fun r p SE B h => by simp only [rowOf, h]; exact ⟨rfl, rfl⟩⟩

theorem agrees_dual (c : Cls (ℝ × ℝ)) (hc : c ∈ dualClasses) : Agrees dualBranches c := by
  simp only [dualClasses, List.mem_cons, List.not_mem_nil, or_false] at hc
  rcases hc with rfl | rfl | rfl | rfl | rfl | rfl | rfl | rfl | rfl | rfl | rfl | rfl <;>
    exact ⟨_, rfl, rfl, rfl, rfl, fun r p SE B h => by simp only [rowOf, h]; exact ⟨rfl, rfl⟩⟩

/-- The panel of a row is the probability plot that the object of the class draws. -/
theorem panel_eq (hf : Family cs dual) {x : ALTArgs} {inp : ALTChecked ℝ κ} (hd : isDual "Everything" x.failure_stress_2 = dual)
    (h : altCheck k.key "Everything" "Everything" x.failures x.failure_stress_1 x.failure_stress_2 x.right_censored
      x.right_censored_stress_1 x.right_censored_stress_2 x.CI x.use_level_stress x.optimizer = .ok inp) {c : Cls σ}
    (hc : c ∈ cs) (hb : Agrees bs c) {r : ALTRes σ} (hr : call k argsort J O x c = .ok r) :
    panelPlot k bs argsort J O colours (checkedArgs dual inp) (rowOf c r) = probPlotOf c k argsort J (O.num c) colours x r := by
  obtain ⟨h1, h2⟩ := check_again hd h (hf.dists c hc) (hf.models c hc) (hf.kind c hc)
  obtain ⟨b, b1, rfl, b3, b4, b5⟩ := hb
  obtain ⟨inp', p, SE, Z, F, C, Fs, Cs, G, B, hi, q1, q2⟩ := call_fit hr
  obtain ⟨l1, l2⟩ := b5 r p SE B q1
  have hp : (fun i : Fin b.obj.n => ProbPaper.pointAt r.rows i) = p := by
    funext i
    rw [q1]
    exact pointAt_rows _ p SE B i
  unfold panelPlot probPlotOf
  rw [show (rowOf b.obj r).model = clsName b.obj from rfl, b1]
  dsimp only
  rw [h2, h1, b3, b4, l1, l2, hp]
  rfl

/-! ## The loop -/

theorem panels_ok {x : ALTArgs} {rows cols : ℕ} (P : ALT.Row → Figure σ → Prop) : ∀ {l : List ALT.Row} (n : ℕ),
    (∀ w ∈ l, ∃ f, panelPlot k bs argsort J O colours x w = .ok f ∧ P w f) →
    ∃ ps, panels k bs argsort J O colours x rows cols n l = .ok ps ∧ ps.length = l.length ∧
      ∀ i : ℕ, ∀ w, l[i]? = some w → ∃ f, ps[i]? = some ⟨rows, cols, n + i, w.model, f⟩ ∧
        panelPlot k bs argsort J O colours x w = .ok f ∧ P w f
  | [], n, _ => ⟨[], rfl, rfl, by simp⟩
  | w :: l, n, h => by
    obtain ⟨f, h1, h2⟩ := h w (by simp)
    obtain ⟨ps, h3, h4, h5⟩ := panels_ok (rows := rows) (cols := cols) P (l := l) (n + 1) fun v hv => h v (by simp [hv])
    refine ⟨⟨rows, cols, n, w.model, f⟩ :: ps, ?_, by simp [h4], ?_⟩
    · simp only [panels, h1, h3, bind, Except.bind, pure, Except.pure]
    · intro i v hv
      cases i with
      | zero =>
        simp only [List.getElem?_cons_zero, Option.some.injEq] at hv
        subst hv
        exact ⟨f, rfl, h1, h2⟩
      | succ i =>
        rw [List.getElem?_cons_succ] at hv
        obtain ⟨g, g1, g2, g3⟩ := h5 i v hv
        refine ⟨g, ?_, g2, g3⟩
        rw [List.getElem?_cons_succ, g1]
        congr 2
        omega

theorem layout_ok {n : ℕ} (h1 : 1 ≤ n) (h2 : n ≤ 12) :
    ∃ rows cols, layout n = some (cols, rows) ∧ n ≤ rows * cols ∧ (rows - 1) * cols < n ∧ rows * (cols - 1) < n := by
  interval_cases n <;> exact ⟨_, _, rfl, by decide, by decide, by decide⟩

/-- What the theorems say, for both kinds of stresses. -/
theorem main (hf : Family cs dual) (hb : ∀ c ∈ cs, Agrees bs c) (ha : IsArgsort argsort) {x : FEAArgs} {res : ALT.FEAResult}
    (hd : isDual "Everything" x.failure_stress_2 = dual) (h : everything k cs dual argsort J O x = .ok res)
    (P : (c : Cls σ) → ALTRes σ → Figure σ → Prop)
    (hP : ∀ c ∈ cs, c.dist ++ "_" ++ c.model ∈ res.results.map ALT.Row.model → ∀ r,
      fitALT c k argsort J (O.num c) (O.noise c) (O.minimize c) x.toALTArgs = .ok r →
      ∃ f, probPlotOf c k argsort J (O.num c) colours x.toALTArgs r = .ok f ∧ P c r f) :
    ∃ ps best rows cols, everythingPlots k cs bs dual argsort J O colours x = .ok (res, ps, [best]) ∧ ps.length = res.results.length ∧
      ps.length ≤ rows * cols ∧ (rows - 1) * cols < ps.length ∧ rows * (cols - 1) < ps.length ∧
      ∀ i : ℕ, ∀ w, res.results[i]? = some w → ∃ c ∈ cs, w.model = c.dist ++ "_" ++ c.model ∧ ∃ r f,
        fitALT c k argsort J (O.num c) (O.noise c) (O.minimize c) x.toALTArgs = .ok r ∧
        ps[i]? = some ⟨rows, cols, i + 1, w.model, f⟩ ∧ P c r f ∧ (i = 0 → best = ⟨1, 1, 1, w.model, f⟩) := by
  obtain ⟨inp, rws, hr⟩ := run hd h
  obtain ⟨fit, hfit, hp, -⟩ := refines hf ha hr
  have hrow : ∀ w ∈ res.results, ∃ f, panelPlot k bs argsort J O colours (checkedArgs dual inp) w = .ok f ∧
      ∃ c ∈ cs, w.model = c.dist ++ "_" ++ c.model ∧ ∃ r,
        fitALT c k argsort J (O.num c) (O.noise c) (O.minimize c) x.toALTArgs = .ok r ∧ P c r f := by
    intro w hw
    obtain ⟨c, hc, r, hcall, rfl⟩ := forall2_right hr.frame (hp.mem_iff.1 hw)
    rw [List.mem_filter] at hc
    have hcall' : call k argsort J O x.toALTArgs c = .ok r := (call_direct hf hd hr.check hc.1).symm.trans hcall
    obtain ⟨f, f1, f2⟩ := hP c hc.1 (List.mem_map.2 ⟨_, hw, rfl⟩) r hcall'
    exact ⟨f, (panel_eq hf hd hr.check hc.1 (hb c hc.1) hcall').trans f1, c, hc.1, rfl, r, hcall', f2⟩
  have hlen : 1 ≤ res.results.length ∧ res.results.length ≤ 12 := by
    constructor
    · have hfin := hr.fin
      unfold finish at hfin
      split at hfin
      · cases hfin
      · cases hfin
      · injection hfin with hfin
        rw [← hfin]
        simp
    · rw [hp.length_eq, ← List.length_map (f := ALT.Row.model), forall₂_models hr.frame, List.length_map]
      refine (List.length_filter_le _ _).trans ?_
      rw [← List.length_map (f := clsName), hf.names]
      cases dual <;> decide
  obtain ⟨rows, cols, hl, l1, l2, l3⟩ := layout_ok hlen.1 hlen.2
  obtain ⟨ps, p1, p2, p3⟩ := panels_ok (rows := rows) (cols := cols) _ 1 hrow
  obtain ⟨qs, q1, q2, q3⟩ := panels_ok (rows := 1) (cols := 1) (l := res.results.take 1) _ 1
    fun w hw => hrow w (List.mem_of_mem_take hw)
  have hq : qs.length = 1 := by rw [q2, List.length_take]; omega
  obtain ⟨best, rfl⟩ := List.length_eq_one_iff.1 hq
  refine ⟨ps, best, rows, cols, ?_, p2, by omega, by omega, by omega, ?_⟩
  · unfold everythingPlots allPlots bestPlot
    simp only [bind_ok]
    refine ⟨res, h, inp, hr.check, ps, ?_, [best], q1, rfl⟩
    rw [hl]
    exact p1
  · intro i w hw
    obtain ⟨f, f1, f2, c, hc, f3, r, f4, f5⟩ := p3 i w hw
    refine ⟨c, hc, f3, r, f, f4, by rw [f1, Nat.add_comm], f5, ?_⟩
    rintro rfl
    obtain ⟨g, g1, g2, -⟩ := q3 0 w (by rw [List.getElem?_take]; simpa using hw)
    simp only [List.getElem?_cons_zero, Option.some.injEq] at g1
    rw [g1]
    rw [f2] at g2
    injection g2 with g2
    rw [g2]

/-- The figures cannot be drawn if the plot of some class cannot. -/
theorem main_raises (hf : Family cs dual) (hb : ∀ c ∈ cs, Agrees bs c) (ha : IsArgsort argsort) {x : FEAArgs} {res : ALT.FEAResult}
    (hd : isDual "Everything" x.failure_stress_2 = dual) (h : everything k cs dual argsort J O x = .ok res) {e : Err}
    (hP : ∀ c ∈ cs, c.dist ++ "_" ++ c.model ∈ res.results.map ALT.Row.model → ∀ r,
      fitALT c k argsort J (O.num c) (O.noise c) (O.minimize c) x.toALTArgs = .ok r →
      probPlotOf c k argsort J (O.num c) colours x.toALTArgs r = .error e) :
    everythingPlots k cs bs dual argsort J O colours x = .error e := by
  obtain ⟨inp, rws, hr⟩ := run hd h
  obtain ⟨fit, hfit, hp, -⟩ := refines hf ha hr
  have hfin := hr.fin
  unfold finish at hfin
  split at hfin
  · cases hfin
  · cases hfin
  · rename_i w ws hs
    injection hfin with hfin
    have hres : res.results = w :: ws := by rw [← hfin]
    have hlen : res.results.length ≤ 12 := by
      rw [hp.length_eq, ← List.length_map (f := ALT.Row.model), forall₂_models hr.frame, List.length_map]
      refine (List.length_filter_le _ _).trans ?_
      rw [← List.length_map (f := clsName), hf.names]
      cases dual <;> decide
    obtain ⟨rows, cols, hl, -⟩ := layout_ok (n := res.results.length) (by rw [hres]; simp) hlen
    have hw : w ∈ res.results := by rw [hres]; simp
    obtain ⟨c, hc, r, hcall, rfl⟩ := forall2_right hr.frame (hp.mem_iff.1 hw)
    rw [List.mem_filter] at hc
    have hcall' : call k argsort J O x.toALTArgs c = .ok r := (call_direct hf hd hr.check hc.1).symm.trans hcall
    have he := (panel_eq (colours := colours) hf hd hr.check hc.1 (hb c hc.1) hcall').trans
      (hP c hc.1 (List.mem_map.2 ⟨_, hw, rfl⟩) r hcall')
    unfold everythingPlots allPlots
    rw [h, hr.check]
    simp only [bind, Except.bind]
    rw [hl]
    dsimp only
    rw [hres]
    unfold panels
    rw [he]
    rfl

/-! ## The data are determined by the arguments -/

theorem used_single_unique {x : ALTArgs} {F C F' C' : List (ℝ × ℝ)} (h : UsedSingle x F C) (h' : UsedSingle x F' C') :
    F = F' ∧ C = C' := by
  obtain ⟨u1, u2, u3⟩ := h
  obtain ⟨v1, v2, v3⟩ := h'
  rw [u1] at v1
  rw [u2] at v2
  injection v1 with v1
  injection v2 with v2
  refine ⟨by rw [← Reliability.Props.ALTGlue.zip_maps F, ← Reliability.Props.ALTGlue.zip_maps F', v1, v2], ?_⟩
  rcases u3 with ⟨a1, a2⟩ | ⟨a1, a2⟩ <;> rcases v3 with ⟨b1, b2⟩ | ⟨b1, b2⟩ <;> rw [a1] at b1
  · rw [a2, b2]
  · cases b1
  · cases b1
  · rw [a2] at b2
    injection b1 with b1
    injection b2 with b2
    rw [← Reliability.Props.ALTGlue.zip_maps C, ← Reliability.Props.ALTGlue.zip_maps C', b1, b2]

theorem triples {l l' : List (ℝ × ℝ × ℝ)} (h1 : l.map Prod.fst = l'.map Prod.fst) (h2 : l.map (fun i => i.2.1) = l'.map fun i => i.2.1)
    (h3 : l.map (fun i => i.2.2) = l'.map fun i => i.2.2) : l = l' := by
  have hl : l.length = l'.length := by simpa using congrArg List.length h1
  apply List.ext_getElem hl
  intro i i1 i2
  have e1 := congrArg (fun m => m[i]?) h1
  have e2 := congrArg (fun m => m[i]?) h2
  have e3 := congrArg (fun m => m[i]?) h3
  simp only [List.getElem?_map, List.getElem?_eq_getElem i1, List.getElem?_eq_getElem i2, Option.map_some, Option.some.injEq] at e1 e2 e3
  exact Prod.ext e1 (Prod.ext e2 e3)

theorem used_dual_unique {x : ALTArgs} {F C F' C' : List (ℝ × ℝ × ℝ)} (h : UsedDual x F C) (h' : UsedDual x F' C') :
    F = F' ∧ C = C' := by
  obtain ⟨u1, u2, u3, u4⟩ := h
  obtain ⟨v1, v2, v3, v4⟩ := h'
  rw [u1] at v1
  rw [u2] at v2
  rw [u3] at v3
  injection v1 with v1
  injection v2 with v2
  injection v3 with v3
  refine ⟨triples v1 v2 v3, ?_⟩
  rcases u4 with ⟨a1, a2⟩ | ⟨a1, a2, a3⟩ <;> rcases v4 with ⟨b1, b2⟩ | ⟨b1, b2, b3⟩ <;> rw [a1] at b1
  · rw [a2, b2]
  · cases b1
  · cases b1
  · rw [a2] at b2
    rw [a3] at b3
    injection b1 with b1
    injection b2 with b2
    injection b3 with b3
    exact triples b1 b2 b3

theorem use_single_unique {x : ALTArgs} {u v : Option ℝ} (h : UseSingle x u) (h' : UseSingle x v) : u = v := by
  rcases h with ⟨a1, a2⟩ | ⟨a, a1, a2⟩ <;> rcases h' with ⟨b1, b2⟩ | ⟨b, b1, b2⟩ <;> rw [a1] at b1
  · rw [a2, b2]
  · cases b1
  · cases b1
  · cases b1; rw [a2, b2]

theorem use_dual_unique {x : ALTArgs} {u v : Option (ℝ × ℝ)} (h : UseDual x u) (h' : UseDual x v) : u = v := by
  rcases h with ⟨a1, a2⟩ | ⟨a, a', a1, a2⟩ <;> rcases h' with ⟨b1, b2⟩ | ⟨b, b', b1, b2⟩ <;> rw [a1] at b1
  · rw [a2, b2]
  · cases b1
  · cases b1
  · cases b1; rw [a2, b2]

theorem count {τ : Type} [DecidableEq τ] {F : List (ℝ × τ)} {l : List τ} (h1 : l.Nodup) (h2 : ∀ i ∈ F, i.2 ∈ l)
    (h3 : ∀ s ∈ l, ∃ t, (t, s) ∈ F) : (∀ s, s ∈ l ↔ ∃ t, (t, s) ∈ F) ∧ l.length = (F.map Prod.snd).toFinset.card := by
  refine ⟨fun s => ⟨h3 s, fun ⟨t, ht⟩ => h2 _ ht⟩, ?_⟩
  rw [← List.toFinset_card_of_nodup h1]
  congr 1
  ext s
  simp only [List.mem_toFinset, List.mem_map]
  constructor
  · intro hs
    obtain ⟨t, ht⟩ := h3 s hs
    exact ⟨_, ht, rfl⟩
  · rintro ⟨i, hi, rfl⟩
    exact h2 i hi

theorem stresses_single (c : Cls ℝ) (hc : c ∈ singleClasses) {argsort : List ℝ → List ℕ} {J : Jac} {num : ℕ → Option ℝ → Num2}
    {noise : Matrix (Fin 3) (Fin 3) ℝ} {minimize : Minimizer (Fin c.n → ℝ)} {x : ALTArgs} {r : ALTRes ℝ}
    (h : fitALT c singleKind argsort J num noise minimize x = .ok r) {F C : List (ℝ × ℝ)} (hF : UsedSingle x F C) :
    (r.change.map Change.stress).Nodup ∧ (∀ s, s ∈ r.change.map Change.stress ↔ ∃ t, (t, s) ∈ F) ∧ r.change.length = (F.map Prod.snd).toFinset.card := by
  obtain ⟨F', C', use, CI, ls, u1, -, -, -, n, p, m, d, V, -, -, -, -, -, -, -, t1, t2, t3, -⟩ :=
    Reliability.Props.ALTGlue.C110_single c hc argsort J num noise minimize x r h
  obtain ⟨rfl, rfl⟩ := used_single_unique u1 hF
  have := count t1 t2 (by
    intro s hs
    obtain ⟨w, hw, rfl⟩ := List.mem_map.1 hs
    exact (t3 w hw).1)
  rw [List.length_map] at this
  exact ⟨t1, this⟩

theorem stresses_dual {κ : Type} [LinearOrder κ] {key : ℝ → Option ℝ → κ} {stress : κ → ℝ × ℝ}
    (hkey : ∀ a b, stress (key a (some b)) = (a, b)) (c : Cls (ℝ × ℝ)) (hc : c ∈ dualClasses) {argsort : List ℝ → List ℕ} {J : Jac}
    {num : ℕ → Option ℝ → Num2} {noise : Matrix (Fin 3) (Fin 3) ℝ} {minimize : Minimizer (Fin c.n → ℝ)} {x : ALTArgs}
    {r : ALTRes (ℝ × ℝ)} (h : fitALT c (dualKind key stress) argsort J num noise minimize x = .ok r) {F C : List (ℝ × ℝ × ℝ)}
    (hF : UsedDual x F C) :
    (r.change.map Change.stress).Nodup ∧ (∀ s, s ∈ r.change.map Change.stress ↔ ∃ t, (t, s) ∈ F) ∧ r.change.length = (F.map Prod.snd).toFinset.card := by
  obtain ⟨F', C', use, CI, ls, u1, -, -, -, n, p, m, d, V, -, -, -, -, -, -, -, t1, t2, t3, -⟩ :=
    Reliability.Props.ALTGlue.C110_dual key stress hkey c hc argsort J num noise minimize x r h
  obtain ⟨rfl, rfl⟩ := used_dual_unique u1 hF
  have := count t1 t2 (by
    intro s hs
    obtain ⟨w, hw, rfl⟩ := List.mem_map.1 hs
    exact (t3 w hw).1)
  rw [List.length_map] at this
  exact ⟨t1, this⟩

/-! ## C157 -/

/-- **C157, one stress.** When `Fit_Everything_ALT` returns for failures `F` and censored units `C` (time and stress) at one stress each,
and the estimates of the models it fitted are admissible, the stresses at which units were censored have failures, and the colour cycle is
long enough: the figure has one panel for every row of `results`, in that order and with the row's model as title, on a grid with a place for
each and no empty row or column; each panel shows, at every stress in the data and at the use level, what the class of that name fits to
the caller's data (C134); and the plot of the best model is the first of these panels on a page of its own. -/
theorem C157_single {κ : Type} [LinearOrder κ] (key : ℝ → Option ℝ → κ) (stress : κ → ℝ × ℝ)
    {argsort : List ℝ → List ℕ} (ha : IsArgsort argsort) (J : Jac) (O₁ : Oracle ℝ) (O₂ : Oracle (ℝ × ℝ)) (x : FEAArgs)
    (h1 : x.failure_stress_2 = .none) (res : ALT.FEAResult) (h : fitEverythingALT key stress argsort J O₁ O₂ x = .ok res)
    {F C : List (ℝ × ℝ)} {use : Option (ℝ)} (hF : UsedSingle x.toALTArgs F C) (hu : UseSingle x.toALTArgs use)
    (hv : ∀ c ∈ singleClasses, c.dist ++ "_" ++ c.model ∈ res.results.map ALT.Row.model → ∀ r m d,
      fitALT c singleKind argsort J (O₁.num c) (O₁.noise c) (O₁.minimize c) x.toALTArgs = .ok r →
      altModel c.dist c.model (r.rows.map FitGlue.Row.point) = some (m, d) → m.Valid ∧ d.Valid)
    (hpos : ∀ u, use = some u → 0 < u) (hC : ∀ i ∈ C, ∃ t, (t, i.2) ∈ F) (colours : ℕ)
    (hcol : (F.map Prod.snd).toFinset.card + (if use.isSome then 1 else 0) ≤ colours) :
    ∃ ps best rows cols, fitEverythingALTPlots key stress argsort J O₁ O₂ colours x = .ok (res, .inl (ps, [best])) ∧
      ps.length = res.results.length ∧ ps.length ≤ rows * cols ∧ (rows - 1) * cols < ps.length ∧ rows * (cols - 1) < ps.length ∧
      ∀ i : ℕ, ∀ w, res.results[i]? = some w → ∃ c ∈ singleClasses, w.model = c.dist ++ "_" ++ c.model ∧ ∃ r P m d,
        fitALT c singleKind argsort J (O₁.num c) (O₁.noise c) (O₁.minimize c) x.toALTArgs = .ok r ∧
        ps[i]? = some ⟨rows, cols, i + 1, w.model, P⟩ ∧ altModel c.dist c.model (r.rows.map FitGlue.Row.point) = some (m, d) ∧
        P.Shows c.dist argsort J (O₁.num c) F C (fun s => d.dist (lifeAt1 m s)) (P.groups.map Group.stress) use ∧ (P.groups.map Group.stress).Nodup ∧
        (∀ s, s ∈ P.groups.map Group.stress ↔ ∃ t, (t, s) ∈ F) ∧ (i = 0 → best = ⟨1, 1, 1, w.model, P⟩) := by
  obtain ⟨hd, e⟩ := single_eq (key := key) (stress := stress) (argsort := argsort) (J := J) (O₁ := O₁) (O₂ := O₂) h1
  rw [e] at h
  have e' : fitEverythingALTPlots key stress argsort J O₁ O₂ colours x = (everythingPlots singleKind singleClasses singleBranches false argsort J O₁ colours x).map fun r => (r.1, .inl r.2) := by
    unfold fitEverythingALTPlots
    rw [hd]
    rfl
  obtain ⟨ps, best, rows, cols, k1, k2, k3, k4, k5, k6⟩ := main (colours := colours) single_family agrees_single ha hd h
    (fun c r P => ∃ m d, altModel c.dist c.model (r.rows.map FitGlue.Row.point) = some (m, d) ∧
        P.Shows c.dist argsort J (O₁.num c) F C (fun s => d.dist (lifeAt1 m s)) (P.groups.map Group.stress) use ∧ (P.groups.map Group.stress).Nodup ∧
        (∀ s, s ∈ P.groups.map Group.stress ↔ ∃ t, (t, s) ∈ F)) (by
      intro c hc hm r hr
      obtain ⟨F', C', use', m, d, a1, a2, a3, a4⟩ := C134_single c hc ha J _ _ _ _ r hr colours
      obtain ⟨rfl, rfl⟩ := used_single_unique a1 hF
      obtain rfl := use_single_unique a2 hu
      obtain ⟨v1, v2⟩ := hv c hc hm r m d hr a3
      obtain ⟨s0, s1, s2⟩ := stresses_single c hc hr hF
      obtain ⟨P, p1, p2⟩ := (a4 v1 v2 hpos hC).1 (by rw [s2]; exact hcol)
      refine ⟨P, p1, m, d, a3, ?_, ?_, ?_⟩
      · rw [p2.1]; exact p2
      · rw [p2.1]; exact s0
      · rw [p2.1]; exact s1)
  refine ⟨ps, best, rows, cols, by rw [e', k1]; rfl, k2, k3, k4, k5, fun i w hw => ?_⟩
  obtain ⟨c, hc, m1, r, P, m2, m3, ⟨m, d, m4, m5, m6, m7⟩, m8⟩ := k6 i w hw
  exact ⟨c, hc, m1, r, P, m, d, m2, m3, m4, m5, m6, m7, m8⟩

/-- **C157 (colours, one stress).** With more stresses (and the use level) than colours in matplotlib's cycle (10 by default) the figures are
not made: IndexError. -/
theorem C157_single_colours {κ : Type} [LinearOrder κ] (key : ℝ → Option ℝ → κ) (stress : κ → ℝ × ℝ)
    {argsort : List ℝ → List ℕ} (ha : IsArgsort argsort) (J : Jac) (O₁ : Oracle ℝ) (O₂ : Oracle (ℝ × ℝ)) (x : FEAArgs)
    (h1 : x.failure_stress_2 = .none) (res : ALT.FEAResult) (h : fitEverythingALT key stress argsort J O₁ O₂ x = .ok res)
    {F C : List (ℝ × ℝ)} {use : Option (ℝ)} (hF : UsedSingle x.toALTArgs F C) (hu : UseSingle x.toALTArgs use)
    (hv : ∀ c ∈ singleClasses, c.dist ++ "_" ++ c.model ∈ res.results.map ALT.Row.model → ∀ r m d,
      fitALT c singleKind argsort J (O₁.num c) (O₁.noise c) (O₁.minimize c) x.toALTArgs = .ok r →
      altModel c.dist c.model (r.rows.map FitGlue.Row.point) = some (m, d) → m.Valid ∧ d.Valid)
    (hpos : ∀ u, use = some u → 0 < u) (hC : ∀ i ∈ C, ∃ t, (t, i.2) ∈ F) (colours : ℕ)
    (hcol : colours < (F.map Prod.snd).toFinset.card + (if use.isSome then 1 else 0)) :
    fitEverythingALTPlots key stress argsort J O₁ O₂ colours x = .error .indexError := by
  obtain ⟨hd, e⟩ := single_eq (key := key) (stress := stress) (argsort := argsort) (J := J) (O₁ := O₁) (O₂ := O₂) h1
  rw [e] at h
  have e' : fitEverythingALTPlots key stress argsort J O₁ O₂ colours x = (everythingPlots singleKind singleClasses singleBranches false argsort J O₁ colours x).map fun r => (r.1, .inl r.2) := by
    unfold fitEverythingALTPlots
    rw [hd]
    rfl
  rw [e', main_raises (colours := colours) single_family agrees_single ha hd h (e := .indexError) (by
      intro c hc hm r hr
      obtain ⟨F', C', use', m, d, a1, a2, a3, a4⟩ := C134_single c hc ha J _ _ _ _ r hr colours
      obtain ⟨rfl, rfl⟩ := used_single_unique a1 hF
      obtain rfl := use_single_unique a2 hu
      obtain ⟨v1, v2⟩ := hv c hc hm r m d hr a3
      obtain ⟨s0, s1, s2⟩ := stresses_single c hc hr hF
      exact (a4 v1 v2 hpos hC).2 (by rw [s2]; exact hcol))]
  rfl

/-- **C157, two stresses.** The same for the dual-stress models. -/
theorem C157_dual {κ : Type} [LinearOrder κ] (key : ℝ → Option ℝ → κ) (stress : κ → ℝ × ℝ)
    (hkey : ∀ a b, stress (key a (some b)) = (a, b))
    {argsort : List ℝ → List ℕ} (ha : IsArgsort argsort) (J : Jac) (O₁ : Oracle ℝ) (O₂ : Oracle (ℝ × ℝ)) (x : FEAArgs)
    (h1 : x.failure_stress_2 ≠ .none) (res : ALT.FEAResult) (h : fitEverythingALT key stress argsort J O₁ O₂ x = .ok res)
    {F C : List (ℝ × (ℝ × ℝ))} {use : Option (ℝ × ℝ)} (hF : UsedDual x.toALTArgs F C) (hu : UseDual x.toALTArgs use)
    (hv : ∀ c ∈ dualClasses, c.dist ++ "_" ++ c.model ∈ res.results.map ALT.Row.model → ∀ r m d,
      fitALT c (dualKind key stress) argsort J (O₂.num c) (O₂.noise c) (O₂.minimize c) x.toALTArgs = .ok r →
      altModel c.dist c.model (r.rows.map FitGlue.Row.point) = some (m, d) → m.Valid ∧ d.Valid)
    (hpos : ∀ u v, use = some (u, v) → 0 < u ∧ 0 < v) (hC : ∀ i ∈ C, ∃ t, (t, i.2) ∈ F) (colours : ℕ)
    (hcol : (F.map Prod.snd).toFinset.card + (if use.isSome then 1 else 0) ≤ colours) :
    ∃ ps best rows cols, fitEverythingALTPlots key stress argsort J O₁ O₂ colours x = .ok (res, .inr (ps, [best])) ∧
      ps.length = res.results.length ∧ ps.length ≤ rows * cols ∧ (rows - 1) * cols < ps.length ∧ rows * (cols - 1) < ps.length ∧
      ∀ i : ℕ, ∀ w, res.results[i]? = some w → ∃ c ∈ dualClasses, w.model = c.dist ++ "_" ++ c.model ∧ ∃ r P m d,
        fitALT c (dualKind key stress) argsort J (O₂.num c) (O₂.noise c) (O₂.minimize c) x.toALTArgs = .ok r ∧
        ps[i]? = some ⟨rows, cols, i + 1, w.model, P⟩ ∧ altModel c.dist c.model (r.rows.map FitGlue.Row.point) = some (m, d) ∧
        P.Shows c.dist argsort J (O₂.num c) F C (fun s => d.dist (lifeAt2 m s)) (P.groups.map Group.stress) use ∧ (P.groups.map Group.stress).Nodup ∧
        (∀ s, s ∈ P.groups.map Group.stress ↔ ∃ t, (t, s) ∈ F) ∧ (i = 0 → best = ⟨1, 1, 1, w.model, P⟩) := by
  obtain ⟨hd, e⟩ := dual_eq (key := key) (stress := stress) (argsort := argsort) (J := J) (O₁ := O₁) (O₂ := O₂) h1
  rw [e] at h
  have e' : fitEverythingALTPlots key stress argsort J O₁ O₂ colours x = (everythingPlots (dualKind key stress) dualClasses dualBranches true argsort J O₂ colours x).map fun r => (r.1, .inr r.2) := by
    unfold fitEverythingALTPlots
    rw [hd]
    rfl
  obtain ⟨ps, best, rows, cols, k1, k2, k3, k4, k5, k6⟩ := main (colours := colours) dual_family agrees_dual ha hd h
    (fun c r P => ∃ m d, altModel c.dist c.model (r.rows.map FitGlue.Row.point) = some (m, d) ∧
        P.Shows c.dist argsort J (O₂.num c) F C (fun s => d.dist (lifeAt2 m s)) (P.groups.map Group.stress) use ∧ (P.groups.map Group.stress).Nodup ∧
        (∀ s, s ∈ P.groups.map Group.stress ↔ ∃ t, (t, s) ∈ F)) (by
      intro c hc hm r hr
      obtain ⟨F', C', use', m, d, a1, a2, a3, a4⟩ := C134_dual key stress hkey c hc ha J _ _ _ _ r hr colours
      obtain ⟨rfl, rfl⟩ := used_dual_unique a1 hF
      obtain rfl := use_dual_unique a2 hu
      obtain ⟨v1, v2⟩ := hv c hc hm r m d hr a3
      obtain ⟨s0, s1, s2⟩ := stresses_dual hkey c hc hr hF
      obtain ⟨P, p1, p2⟩ := (a4 v1 v2 hpos hC).1 (by rw [s2]; exact hcol)
      refine ⟨P, p1, m, d, a3, ?_, ?_, ?_⟩
      · rw [p2.1]; exact p2
      · rw [p2.1]; exact s0
      · rw [p2.1]; exact s1)
  refine ⟨ps, best, rows, cols, by rw [e', k1]; rfl, k2, k3, k4, k5, fun i w hw => ?_⟩
  obtain ⟨c, hc, m1, r, P, m2, m3, ⟨m, d, m4, m5, m6, m7⟩, m8⟩ := k6 i w hw
  exact ⟨c, hc, m1, r, P, m, d, m2, m3, m4, m5, m6, m7, m8⟩

/-- **C157 (colours, two stresses).** With more stresses (and the use level) than colours in matplotlib's cycle (10 by default) the figures are
not made: IndexError. -/
theorem C157_dual_colours {κ : Type} [LinearOrder κ] (key : ℝ → Option ℝ → κ) (stress : κ → ℝ × ℝ)
    (hkey : ∀ a b, stress (key a (some b)) = (a, b))
    {argsort : List ℝ → List ℕ} (ha : IsArgsort argsort) (J : Jac) (O₁ : Oracle ℝ) (O₂ : Oracle (ℝ × ℝ)) (x : FEAArgs)
    (h1 : x.failure_stress_2 ≠ .none) (res : ALT.FEAResult) (h : fitEverythingALT key stress argsort J O₁ O₂ x = .ok res)
    {F C : List (ℝ × (ℝ × ℝ))} {use : Option (ℝ × ℝ)} (hF : UsedDual x.toALTArgs F C) (hu : UseDual x.toALTArgs use)
    (hv : ∀ c ∈ dualClasses, c.dist ++ "_" ++ c.model ∈ res.results.map ALT.Row.model → ∀ r m d,
      fitALT c (dualKind key stress) argsort J (O₂.num c) (O₂.noise c) (O₂.minimize c) x.toALTArgs = .ok r →
      altModel c.dist c.model (r.rows.map FitGlue.Row.point) = some (m, d) → m.Valid ∧ d.Valid)
    (hpos : ∀ u v, use = some (u, v) → 0 < u ∧ 0 < v) (hC : ∀ i ∈ C, ∃ t, (t, i.2) ∈ F) (colours : ℕ)
    (hcol : colours < (F.map Prod.snd).toFinset.card + (if use.isSome then 1 else 0)) :
    fitEverythingALTPlots key stress argsort J O₁ O₂ colours x = .error .indexError := by
  obtain ⟨hd, e⟩ := dual_eq (key := key) (stress := stress) (argsort := argsort) (J := J) (O₁ := O₁) (O₂ := O₂) h1
  rw [e] at h
  have e' : fitEverythingALTPlots key stress argsort J O₁ O₂ colours x = (everythingPlots (dualKind key stress) dualClasses dualBranches true argsort J O₂ colours x).map fun r => (r.1, .inr r.2) := by
    unfold fitEverythingALTPlots
    rw [hd]
    rfl
  rw [e', main_raises (colours := colours) dual_family agrees_dual ha hd h (e := .indexError) (by
      intro c hc hm r hr
      obtain ⟨F', C', use', m, d, a1, a2, a3, a4⟩ := C134_dual key stress hkey c hc ha J _ _ _ _ r hr colours
      obtain ⟨rfl, rfl⟩ := used_dual_unique a1 hF
      obtain rfl := use_dual_unique a2 hu
      obtain ⟨v1, v2⟩ := hv c hc hm r m d hr a3
      obtain ⟨s0, s1, s2⟩ := stresses_dual hkey c hc hr hF
      exact (a4 v1 v2 hpos hC).2 (by rw [s2]; exact hcol))]
  rfl

/-! ## Example -/

open Reliability.Props.ALTGlue (exF exC exALT) in
/-- Five failures at three stresses, one censored unit, a use level, eight models fitted: with ten colours the figures are made, with three
they are not. -/
example {argsort : List ℝ → List ℕ} (ha : IsArgsort argsort) (J : Jac) (noise : Matrix (Fin 3) (Fin 3) ℝ) (O₂ : Oracle (ℝ × ℝ))
    (hn2 : ∀ c i fo, (∀ ob b n p, ((O₂.num c i fo).minimize ob b n p).success = true) ∧
      ∀ ob b n p, ((O₂.num c i fo).minimize1 ob b n p).success = true)
    (hm2 : ∀ c ob b n p, (O₂.minimize c ob b n p).success = true) (O₁ : Oracle ℝ)
    (hO : O₁ = ⟨fun _ _ => exNum2, fun _ => noise, fun _ _ _ _ _ => ⟨true, fun _ => 1⟩⟩) :
    (∃ res ps best, fitEverythingALTPlots (κ := ℝ ×ₗ ℝ) (fun a b => toLex (a, b.getD 0)) ofLex argsort J O₁ O₂ 10 exFEA =
        .ok (res, .inl (ps, [best]))) ∧
    fitEverythingALTPlots (κ := ℝ ×ₗ ℝ) (fun a b => toLex (a, b.getD 0)) ofLex argsort J O₁ O₂ 3 exFEA = .error .indexError := by
  obtain ⟨res, h⟩ := exFEA_returns ha J noise O₂ (fun _ _ _ _ _ => ⟨true, fun _ => 1⟩) (by intros; rfl) hn2 hm2
  rw [← hO] at h
  have hv : ∀ c ∈ singleClasses, c.dist ++ "_" ++ c.model ∈ res.results.map ALT.Row.model → ∀ r m d,
      fitALT c singleKind argsort J (O₁.num c) (O₁.noise c) (O₁.minimize c) exFEA.toALTArgs = .ok r →
      altModel c.dist c.model (r.rows.map FitGlue.Row.point) = some (m, d) → m.Valid ∧ d.Valid := by
    intro c hc _ r m d hr hm
    subst hO
    have law := Reliability.Props.ALTGlue.lawful_single c hc
    rw [fit_ones (k := singleKind) (fun d x hd => by
      have : d = false := by
        have := hd.trans (Reliability.Props.ALTGlue.single_not_dual hc _).symm
        simpa using this
      subst this
      exact Reliability.Props.ALTGlue.singleLaw.keyInj) (by rw [law.names, law.count, List.length_map]) rfl hr] at hm
    exact ones_valid hc hm
  have hF : UsedSingle exFEA.toALTArgs exF exC := ⟨rfl, rfl, .inr ⟨rfl, rfl⟩⟩
  have hu : UseSingle exFEA.toALTArgs (some 0.5) := .inr ⟨_, rfl, rfl⟩
  have hpos : ∀ u, some (0.5 : ℝ) = some u → 0 < u := by intro u h; cases h; norm_num
  have hC : ∀ i ∈ exC, ∃ t, (t, i.2) ∈ exF := by
    intro i hi
    simp only [exC, List.mem_cons, List.not_mem_nil, or_false] at hi
    subst hi
    exact ⟨5, by simp [exF]⟩
  have hcard : (exF.map Prod.snd).toFinset.card = 3 := by
    have : (exF.map Prod.snd).toFinset = {1, 2, 3} := by
      ext s
      simp [exF]
    rw [this, Finset.card_eq_three]
    exact ⟨1, 2, 3, by norm_num, by norm_num, by norm_num, rfl⟩
  constructor
  · obtain ⟨ps, best, rows, cols, k1, -⟩ := C157_single _ _ ha J O₁ O₂ exFEA rfl res h hF hu hv hpos hC 10 (by
      rw [hcard]; simp)
    exact ⟨res, ps, best, k1⟩
  · exact C157_single_colours _ _ ha J O₁ O₂ exFEA rfl res h hF hu hv hpos hC 3 (by rw [hcard]; simp)

end Reliability.Props.FitProbPlotsALT

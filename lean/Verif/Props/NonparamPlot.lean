import Verif.Model.NonparamPlot
import Verif.Props.Nonparametric4
import Verif.Props.InputCheck
import Mathlib.Analysis.Complex.ExponentialBounds

/-! # C144: the plots of the non-parametric estimates -/

namespace Reliability.NP.Plot

open Reliability Reliability.NP List
open Reliability.Props (bind_ok)

/-! ## The last two values of the step arrays -/

theorem stepRest_lastTwo (prev r : Row ℝ) (rows : List (Row ℝ)) :
    ∃ l u v, prev.est :: (stepRest prev (r :: rows)).map Entry.y = l ++ [u, v] ∧
      ∃ l', (prev :: r :: rows).map Row.est = l' ++ [u, v] := by
  induction rows generalizing prev r with
  | nil =>
    unfold stepRest
    by_cases h : prev.est = r.est
    · rw [if_pos h]
      exact ⟨[], prev.est, r.est, by simp [stepRest], [], by simp⟩
    · rw [if_neg h]
      exact ⟨[prev.est], prev.est, r.est, by simp [stepRest], [], by simp⟩
  | cons s rows ih =>
    obtain ⟨l, u, v, h1, l', h2⟩ := ih r s
    rw [stepRest]
    by_cases h : prev.est = r.est
    · rw [if_pos h]
      refine ⟨prev.est :: l, u, v, ?_, prev.est :: l', ?_⟩
      · rw [map_cons, h1, cons_append]
      · rw [map_cons, h2, cons_append]
    · rw [if_neg h]
      refine ⟨prev.est :: prev.est :: l, u, v, ?_, prev.est :: l', ?_⟩
      · rw [map_cons, map_cons, h1, cons_append, cons_append]
      · rw [map_cons, h2, cons_append]

theorem assemble_lastTwo (S : List (ℝ × Bool)) (est : List ℝ) (b : List (Ext ℝ × Ext ℝ)) (hS : 2 ≤ S.length) (he : est.length = S.length)
    (hb : b.length = S.length) (hfirst : S.head?.map Prod.snd = some false → est.head? = some 1) :
    (∃ l u v, (assemble S est b).SF = l ++ [u, v] ∧ ∃ l', est = l' ++ [u, v]) := by
  match S, est, b, hS, he, hb with
  | s1 :: s2 :: S, e1 :: e2 :: est, b1 :: b2 :: b, _, he, hb =>
    simp only [assemble, map_cons, zip_cons_cons, headD_cons]
    obtain ⟨l, u, v, h1, l', h2⟩ := stepRest_lastTwo ⟨s1.1, e1, b1.1, b1.2⟩ ⟨s2.1, e2, b2.1, b2.2⟩
      (((S.map Prod.fst).zip (est.zip b)).map fun p => ⟨p.1, p.2.1, p.2.2.1, p.2.2.2⟩)
    have he' : (((S.map Prod.fst).zip (est.zip b)).map fun p => (⟨p.1, p.2.1, p.2.2.1, p.2.2.2⟩ : Row ℝ)).map Row.est = est := by
      simp only [length_cons] at he hb
      rw [map_map]
      change map (Prod.fst ∘ Prod.snd) _ = _
      rw [← map_map, map_snd_zip (by simp; omega), map_fst_zip (by omega)]
    simp only [map_cons, he'] at h2
    simp only at h1
    cases hc : s1.2 with
    | true =>
      simp only [stepEntries, if_true, cons_append, nil_append, map_cons]
      exact ⟨1 :: 1 :: l, u, v, by rw [h1]; simp, l', h2⟩
    | false =>
      have h0 : e1 = 1 := by simpa [hc] using hfirst
      subst h0
      simp only [stepEntries, Bool.false_eq_true, if_false, cons_append, nil_append, map_cons]
      exact ⟨1 :: l, u, v, by rw [h1]; simp, l', h2⟩
  | [], _, _, h, _, _ => simp at h
  | [_], _, _, h, _, _ => simp at h
  | _ :: _ :: _, [], _, _, h, _ => simp at h
  | _ :: _ :: _, [_], _, _, h, _ => simp at h
  | _ :: _ :: _, _ :: _ :: _, [], _, _, h => simp at h
  | _ :: _ :: _, _ :: _ :: _, [_], _, _, h => simp at h

/-- The step arrays fall if the estimates do. -/
theorem assemble_falls (S : List (ℝ × Bool)) (est : List ℝ) (b : List (Ext ℝ × Ext ℝ)) (he : est.length = S.length) (hb : b.length = S.length)
    (hsort : S.Pairwise fun p q => p.1 ≤ q.1) (h0 : ∀ p ∈ S, 0 ≤ p.1) (hfall : est.Pairwise (· ≥ ·)) (h1 : ∀ v ∈ est, v ≤ 1) :
    (assemble S est b).SF.Pairwise (· ≥ ·) := by
  simp only [assemble]
  set rows : List (Row ℝ) := ((S.map Prod.fst).zip (est.zip b)).map (fun p => ⟨p.1, p.2.1, p.2.2.1, p.2.2.2⟩) with hrows
  have ht : rows.map Row.t = S.map Prod.fst := by
    rw [hrows, map_map]
    change map Prod.fst _ = _
    rw [map_fst_zip (by simp; omega)]
  have he' : rows.map Row.est = est := by
    rw [hrows, map_map]
    change map (Prod.fst ∘ Prod.snd) _ = _
    rw [← map_map, map_snd_zip (by simp; omega), map_fst_zip (by omega)]
  refine (stepEntries_mono ((S.map Prod.snd).headD false) rows ?_ ?_ ?_ ?_).2
  · have : (rows.map Row.t).Pairwise (· ≤ ·) := by rw [ht, pairwise_map]; exact hsort
    rwa [pairwise_map] at this
  · intro r hr
    have : r.t ∈ S.map Prod.fst := by rw [← ht]; exact mem_map_of_mem hr
    obtain ⟨p, hp, hp'⟩ := mem_map.1 this
    rw [← hp']; exact h0 p hp
  · have : (rows.map Row.est).Pairwise (· ≥ ·) := by rw [he']; exact hfall
    rwa [pairwise_map] at this
  · intro r hr
    exact h1 _ (by rw [← he']; exact mem_map_of_mem hr)

/-! ## Rank adjustment -/

theorem raSteps_falls (prev : ℝ) (L : List (ℝ × ℝ)) (h : (prev :: L.map Prod.snd).Pairwise (· ≤ ·)) :
    (prev :: (raSteps prev L).map Prod.snd).Pairwise (· ≤ ·) ∧ ∀ y ∈ (raSteps prev L).map Prod.snd, y = prev ∨ y ∈ L.map Prod.snd := by
  induction L generalizing prev with
  | nil => simp [raSteps]
  | cons p L ih =>
    obtain ⟨x, y⟩ := p
    simp only [map_cons, pairwise_cons] at h
    obtain ⟨h1, h2⟩ := ih y (by simpa only [map_cons, pairwise_cons] using h.2)
    have hy : prev ≤ y := h.1 y (by simp)
    have all : ∀ z ∈ y :: (raSteps y L).map Prod.snd, prev ≤ z := by
      intro z hz
      rcases mem_cons.1 hz with rfl | hz
      · exact hy
      · rcases h2 z hz with rfl | hz
        · exact hy
        · exact h.1 z (by simp [hz])
    simp only [raSteps, map_cons]
    refine ⟨?_, ?_⟩
    · rw [pairwise_cons, pairwise_cons]
      refine ⟨?_, all, h1⟩
      intro z hz
      rcases mem_cons.1 hz with rfl | hz
      · exact le_rfl
      · exact all z hz
    · intro z hz
      rcases mem_cons.1 hz with rfl | hz
      · exact .inl rfl
      · rcases mem_cons.1 hz with rfl | hz
        · exact .inr (by simp)
        · rcases h2 z hz with rfl | hz
          · exact .inr (by simp)
          · exact .inr (by simp [hz])

theorem raSteps_fst (prev : ℝ) (L : List (ℝ × ℝ)) : ∀ x ∈ (raSteps prev L).map Prod.fst, x ∈ L.map Prod.fst := by
  induction L generalizing prev with
  | nil => simp [raSteps]
  | cons p L ih =>
    obtain ⟨x, y⟩ := p
    intro z hz
    simp only [raSteps, map_cons, mem_cons] at hz ⊢
    rcases hz with rfl | rfl | hz
    · exact .inl rfl
    · exact .inl rfl
    · exact .inr (ih y z hz)

/-! ## What all three have in common -/

/-- What the plots need of the results. -/
structure Good (r : Result ℝ) : Prop where
  ne : r.data ≠ []
  x_from : ∀ x ∈ r.xvals, x = 0 ∨ x ∈ r.data
  range : ∀ y ∈ r.SF, 0 ≤ y ∧ y ≤ 1
  cdf : r.CDF = r.SF.map fun s => 1 - s
  last : ∃ l u v, r.SF = l ++ [u, v] ∧ 0 < u
  falls : (∀ t ∈ r.data, 0 ≤ t) → r.SF.Pairwise (· ≥ ·)

variable {argsort : List ℝ → List Nat} {ppf : ℝ → Ext ℝ}

theorem of_traces {S : List (ℝ × Bool)} {est : List ℝ} {b : List (Ext ℝ × Ext ℝ)} (hS : 2 ≤ S.length) (he : est.length = S.length)
    (hb : b.length = S.length) (hfirst : S.head?.map Prod.snd = some false → est.head? = some 1)
    (hsort : S.Pairwise fun p q => p.1 ≤ q.1) (hfall : est.Pairwise (· ≥ ·)) (hr : ∀ v ∈ est, 0 ≤ v ∧ v ≤ 1)
    (hpos : ∀ l u v, est = l ++ [u, v] → 0 < u) : Good (assemble S est b) := by
  have hne : S ≠ [] := by rintro rfl; simp at hS
  have tr := assemble_traces S est b hne he hb hfirst
  have al := assemble_aligned S est b hne he hb
  have hlen : (assemble S est b).xvals.length = (assemble S est b).SF.length := by simp [assemble]
  obtain ⟨l, u, v, h1, l', h2⟩ := assemble_lastTwo S est b hS he hb hfirst
  refine ⟨by simpa [assemble] using hne, fun x hx => ?_, fun y hy => ?_, rfl, ⟨l, u, v, h1, hpos l' u v h2⟩, fun h0 => ?_⟩
  · have : x ∈ ((assemble S est b).xvals.zip (assemble S est b).SF).map Prod.fst := by rw [map_fst_zip (by omega)]; exact hx
    obtain ⟨p, hp, rfl⟩ := mem_map.1 this
    exact (tr.from_table p hp).1
  · have : y ∈ ((assemble S est b).xvals.zip (assemble S est b).SF).map Prod.snd := by rw [map_snd_zip (by omega)]; exact hy
    obtain ⟨p, hp, rfl⟩ := mem_map.1 this
    rcases (tr.from_table p hp).2 with h | h
    · rw [h]; norm_num
    · exact hr _ h
  · refine assemble_falls S est b he hb hsort (fun p hp => h0 _ ?_) hfall fun v hv => (hr v hv).2
    simp only [assemble]
    exact mem_map_of_mem hp

theorem two_le (ha : IsArgsort argsort) {f rc : List ℝ} (hf : 2 ≤ f.length) : 2 ≤ (sortedData argsort f rc).length := by
  have := (sortedData_perm ha f rc).length_eq
  rw [this]
  simp [Spec.tagged]
  omega

theorem km_good (ha : IsArgsort argsort) {q : Args} {r : Result ℝ} (h : estimate argsort ppf .km q = .ok r) : Good r := by
  have h' : kaplanMeier argsort Real.sqrt ppf q.failures q.right_censored q.CI q.plot_type = .ok r := h
  have hz := fun i hi => C14_zero_iff_last_failure ha h' i hi
  have hc := C12_survival_curve ha h'
  obtain ⟨f, -, -, -, hf, rfl⟩ := kaplanMeier_ok h'
  refine of_traces (two_le ha hf) (by simp [kmLoop_length]) (by rw [greenwood_length _ _ _ _ (by simp [kmLoop_length])]; simp) ?_
    (sortedData_sorted ha _ _) hc.2.2.2.2.1 hc.2.2.2.2.2 ?_
  · cases sortedData argsort f (q.right_censored.getD []) with
    | nil => simp
    | cons p T =>
      intro hq
      simp only [head?_cons, Option.map_some, Option.some.injEq] at hq
      rw [map_cons, kmLoop_cons, hq, factor_false, one_mul]
      rfl
  · intro l u v hl
    have hm := (hc.2.2.2.2.2 u (by simp only [assemble]; rw [hl]; simp)).1
    rcases hm.lt_or_eq with h0 | h0
    · exact h0
    · exfalso
      have hlen : l.length + 2 = (sortedData argsort f (q.right_censored.getD [])).length := by
        have := congrArg length hl
        rw [kmLoop_length] at this
        simpa using this.symm
      have := (hz l.length (by simp only [assemble, length_map]; omega)).1 (by simp only [assemble]; rw [hl, h0]; simp)
      simp only [assemble, length_map] at this
      omega

theorem na_good (ha : IsArgsort argsort) {q : Args} {r : Result ℝ} (h : estimate argsort ppf .na q = .ok r) : Good r := by
  have h' : nelsonAalen Real.exp argsort Real.sqrt ppf q.failures q.right_censored q.CI q.plot_type = .ok r := h
  obtain ⟨f, -, -, -, hf, rfl⟩ := nelsonAalen_ok h'
  refine of_traces (two_le ha hf) (by simp [naCHF_eq, acc_length]) (by rw [greenwood_length _ _ _ _ (by simp [naCHF_eq, acc_length])]; simp) ?_
    (sortedData_sorted ha _ _) (na_sorted _) (fun v hv => ⟨(na_range _ v hv).1.le, (na_range _ v hv).2⟩) ?_
  · cases sortedData argsort f (q.right_censored.getD []) with
    | nil => simp
    | cons p T =>
      intro hq
      simp only [head?_cons, Option.map_some, Option.some.injEq] at hq
      simp [naCHF, hq, code]
  · intro l u v hl
    exact (na_range _ u (by rw [hl]; simp)).1

theorem positions_lt (A : ℝ) (ha1 : A < 1) (S : List (ℝ × Bool)) (hn : 2 ≤ S.length) :
    ∀ p ∈ PP.Spec.positions A S, p < 1 := by
  have hnK : (2 : ℝ) ≤ (S.length : ℝ) := by exact_mod_cast hn
  have hpos : 0 < (S.length : ℝ) + 1 - 2 * A := by linarith
  have hb := PP.ranks_bounds (K := ℝ) (fun x : ℝ × Bool => x.2) S
  rw [PP.rankLoop_eq_spec] at hb
  have hy : PP.Spec.positions A S =
      ((PP.Spec.failPositions S).map (PP.Spec.rank S)).map (fun r => (r - A) / ((S.length : ℝ) + 1 - 2 * A)) := by
    unfold PP.Spec.positions; rw [map_map]; rfl
  intro p hp
  rw [hy] at hp
  obtain ⟨r, hr, rfl⟩ := mem_map.1 hp
  have := hb.2 r hr
  rw [div_lt_one hpos]
  linarith

theorem ra_good (ha : IsArgsort argsort) {q : Args} (h0 : 0 ≤ q.a.getD (3 / 10)) (h1 : q.a.getD (3 / 10) < 1) {r : Result ℝ}
    (h : estimate argsort ppf .ra q = .ok r) : Good r := by
  have h' : rankAdjustment argsort Real.sqrt ppf q.failures q.right_censored q.a q.CI q.plot_type = .ok r := h
  obtain ⟨f, x, y, RA, -, -, -, hf, hpp, hra, rfl⟩ := rankAdjustment_ok h'
  obtain ⟨hx, hy, -⟩ := ra_values ha f (q.right_censored.getD []) hf h0 h1.le hpp
  have h2 := two_le ha (rc := q.right_censored.getD []) hf
  set S := sortedData argsort f (q.right_censored.getD []) with hS
  have hSne : S ≠ [] := by intro hh; rw [hh] at h2; simp at h2
  obtain ⟨hb1, hb2⟩ := positions_bounds (q.a.getD (3 / 10)) h0 h1.le S h2
  have hb3 := positions_lt _ h1 S h2
  rw [← hy] at hb1 hb2 hb3
  have hxy : x.length = y.length := by
    rw [hx, hy]; unfold PP.Spec.positions; rw [length_map, length_map, PP.failPositions_length]
  have hy1 : y.length ≠ 0 := by
    rw [← hxy, hx, length_map]
    have hp := sortedData_perm ha f (q.right_censored.getD [])
    have hfl := (hp.filter fun p => p.2).length_eq
    rw [hfl]
    match f, hf with
    | t :: _ :: _, _ => simp [Spec.tagged]
  have hsnd : (x.zip y).map Prod.snd = y := map_snd_zip (by omega)
  have hfst : (x.zip y).map Prod.fst = x := map_fst_zip (by omega)
  obtain ⟨m1, m2⟩ := raSteps_falls 0 (x.zip y) (by rw [hsnd]; exact hb1)
  have m3 := raSteps_fst 0 (x.zip y)
  rw [hsnd] at m2
  rw [hfst] at m3
  set steps : List (ℝ × ℝ) := ((0 : ℝ), (0 : ℝ)) :: raSteps 0 (x.zip y) with hsteps
  have hlast : steps.getLastD (0, 0) ∈ steps := by
    have hne : steps ≠ [] := by simp [hsteps]
    rw [getLastD_eq_getLast?, getLast?_eq_some_getLast hne]
    exact getLast_mem hne
  set steps' := (if (S.map Prod.snd).getLast? == some false then
        steps ++ [((S.map Prod.fst).getLastD 0, (steps.getLastD (0, 0)).2)] else steps) with hsteps'
  have hdata : (S.map Prod.fst).getLastD 0 ∈ S.map Prod.fst := by
    have : S.map Prod.fst ≠ [] := by simpa using hSne
    rw [getLastD_eq_getLast?, getLast?_eq_some_getLast this]
    exact getLast_mem this
  have hsub : ∀ p ∈ steps', (p.1 = 0 ∨ p.1 ∈ S.map Prod.fst) ∧ (p.2 = 0 ∨ p.2 ∈ y) := by
    have base : ∀ p ∈ steps, (p.1 = 0 ∨ p.1 ∈ S.map Prod.fst) ∧ (p.2 = 0 ∨ p.2 ∈ y) := by
      intro p hp
      rcases mem_cons.1 hp with rfl | hp
      · simp
      · refine ⟨.inr ?_, m2 _ (mem_map_of_mem hp)⟩
        have := m3 _ (mem_map_of_mem hp)
        rw [hx] at this
        obtain ⟨s, hs, hs'⟩ := mem_map.1 this
        rw [← hs']
        exact mem_map_of_mem (mem_of_mem_filter hs)
    intro p hp
    rw [hsteps'] at hp
    split_ifs at hp with hc
    · rcases mem_append.1 hp with hp | hp
      · exact base p hp
      · rw [mem_singleton.1 hp]
        exact ⟨.inr hdata, (base _ hlast).2⟩
    · exact base p hp
  have hrange : ∀ p ∈ steps', 0 ≤ p.2 ∧ p.2 < 1 := by
    intro p hp
    rcases (hsub p hp).2 with h | h
    · rw [h]; norm_num
    · exact ⟨(hb2 _ h).1, hb3 _ h⟩
  have hlen : 2 ≤ steps'.length := by
    have : 2 ≤ steps.length := by
      rw [hsteps, length_cons, raSteps_length, length_zip]
      omega
    rw [hsteps']
    split_ifs
    · rw [length_append]; omega
    · exact this
  have hfalls : (steps'.map Prod.snd).Pairwise (· ≤ ·) := by
    have base : (steps.map Prod.snd).Pairwise (· ≤ ·) := by rw [hsteps, map_cons]; exact m1
    rw [hsteps']
    split_ifs
    · rw [map_append, pairwise_append]
      refine ⟨base, by simp, ?_⟩
      intro u hu v hv
      simp only [map_cons, map_nil, mem_singleton] at hv
      rw [hv]
      have hne : steps.map Prod.snd ≠ [] := by simp [hsteps]
      have hl : (steps.getLastD (0, 0)).2 = (steps.map Prod.snd).getLast hne := by
        rw [getLast_map, getLastD_eq_getLast?, getLast?_eq_some_getLast (by simp [hsteps])]
        rfl
      rw [hl]
      rw [← dropLast_append_getLast hne, pairwise_append] at base
      rw [← dropLast_append_getLast hne] at hu
      rcases mem_append.1 hu with hu | hu
      · exact base.2.2 u hu _ (by simp)
      · rw [mem_singleton.1 hu]
    · exact base
  refine ⟨?_, ?_, ?_, ?_, ?_, fun _ => ?_⟩
  · simpa using hSne
  · intro z hz
    simp only at hz
    obtain ⟨p, hp, rfl⟩ := mem_map.1 hz
    exact (hsub p hp).1
  · intro z hz
    simp only at hz
    obtain ⟨p, hp, rfl⟩ := mem_map.1 hz
    have := hrange p hp
    constructor <;> linarith
  · simp only [map_map]
    apply map_congr_left
    intro p _
    simp
  · obtain ⟨l, p, q', hpq⟩ : ∃ l p q', steps' = l ++ [p, q'] := by
      rcases hc : steps'.reverse with _ | ⟨a, _ | ⟨b, L⟩⟩
      · have := congrArg length hc; simp at this; rw [this] at hlen; simp at hlen
      · have := congrArg length hc; simp at this; rw [this] at hlen; simp at hlen
      · refine ⟨L.reverse, b, a, ?_⟩
        rw [← reverse_reverse steps', hc]; simp
    refine ⟨l.map fun p => 1 - p.2, 1 - p.2, 1 - q'.2, ?_, ?_⟩
    · change map (fun p => 1 - p.2) steps' = _
      rw [hpq]; simp
    · linarith [(hrange p (by rw [hpq]; simp)).2]
  · change (map (fun p : ℝ × ℝ => 1 - p.2) steps').Pairwise (· ≥ ·)
    rw [pairwise_map] at hfalls ⊢
    exact hfalls.imp fun h => by linarith

theorem good (ha : IsArgsort argsort) {e : Estimator} {q : Args} (hq : 0 ≤ q.a.getD (3 / 10) ∧ q.a.getD (3 / 10) < 1) {r : Result ℝ}
    (h : estimate argsort ppf e q = .ok r) : Good r := by
  cases e
  · exact km_good ha h
  · exact na_good ha h
  · exact ra_good ha hq.1 hq.2 h

/-! ## The specification -/

/-- The function a plot type names; upper or lower case. -/
inductive Shows where
  | SF | CDF | CHF

/-- What the plot type says. -/
def Asked (plot_type : String) (f : Shows) : Prop :=
  match f with
  | .SF => plot_type = "SF" ∨ plot_type = "sf"
  | .CDF => plot_type = "CDF" ∨ plot_type = "cdf"
  | .CHF => plot_type = "CHF" ∨ plot_type = "chf"

/-- The curve: the step array of the function in the results. -/
noncomputable def curveOf (r : Result ℝ) : Shows → List (Ext ℝ)
  | .SF => r.SF.map Ext.fin
  | .CDF => r.SF.map fun s => Ext.fin (1 - s)
  | .CHF => r.SF.map fun s => if s = 0 then Ext.pinf else Ext.fin (-Real.log s)

/-- The lower edge of the band. -/
noncomputable def lowerOf (r : Result ℝ) : Shows → List (Ext ℝ)
  | .SF => r.SF_lower
  | .CDF => r.CDF_lower
  | .CHF => r.CHF_lower

/-- The upper edge; an infinite one is drawn at 1e10. -/
noncomputable def upperOf (r : Result ℝ) : Shows → List (Ext ℝ)
  | .SF => r.SF_upper
  | .CDF => r.CDF_upper
  | .CHF => r.CHF_upper.map nanToNum

/-- The vertical label. -/
def labelOf : Shows → String
  | .SF => "Reliability"
  | .CDF => "Fraction Failing"
  | .CHF => "Cumulative Hazard"

/-- The title. -/
def titleSpec (e : Estimator) (plot_CI : Bool) (ci : String) (f : Shows) : String :=
  match plot_CI, e, f with
  | true, .km, .SF => "Kaplan-Meier SF estimate\n with " ++ ci ++ "% confidence bounds"
  | true, .km, .CDF => "Kaplan-Meier CDF estimate\n with " ++ ci ++ "% confidence bounds"
  | true, .km, .CHF => "Kaplan-Meier CHF estimate\n with " ++ ci ++ "% confidence bounds"
  | true, .na, .SF => "Nelson-Aalen SF estimate\n with " ++ ci ++ "% confidence bounds"
  | true, .na, .CDF => "Nelson-Aalen CDF estimate\n with " ++ ci ++ "% confidence bounds"
  | true, .na, .CHF => "Nelson-Aalen CHF estimate\n with " ++ ci ++ "% confidence bounds"
  | true, .ra, .SF => "Rank-Adjustment SF estimate\n with " ++ ci ++ "% confidence bounds"
  | true, .ra, .CDF => "Rank Adjustment CDF estimate\n with " ++ ci ++ "% confidence bounds"
  | true, .ra, .CHF => "Rank Adjustment CHF estimate\n with " ++ ci ++ "% confidence bounds"
  | false, .km, .SF => "Kaplan-Meier estimate of Survival Function"
  | false, .km, .CDF => "Kaplan-Meier estimate of Cumulative Density Function"
  | false, .km, .CHF => "Kaplan-Meier estimate of Cumulative Hazard Function"
  | false, .na, .SF => "Nelson-Aalen estimate of Survival Function"
  | false, .na, .CDF => "Nelson-Aalen estimate of Cumulative Density Function"
  | false, .na, .CHF => "Nelson-Aalen estimate of Cumulative Hazard Function"
  | false, .ra, .SF => "Rank Adjustment estimate of Survival Function"
  | false, .ra, .CDF => "Rank Adjustment estimate of Cumulative Density Function"
  | false, .ra, .CHF => "Rank Adjustment estimate of Cumulative Hazard Function"

theorem maxOf_spec {l : List ℝ} (h : l ≠ []) : ∃ m, maxOf l = .ok m ∧ m ∈ l ∧ ∀ x ∈ l, x ≤ m := by
  cases l with
  | nil => exact absurd rfl h
  | cons x xs =>
    have key : ∀ (xs : List ℝ) (x : ℝ), xs.foldl max x ∈ x :: xs ∧ ∀ z ∈ x :: xs, z ≤ xs.foldl max x := by
      intro xs
      induction xs with
      | nil => intro x; simp
      | cons y ys ih =>
        intro x
        simp only [foldl_cons]
        obtain ⟨h1, h2⟩ := ih (max x y)
        refine ⟨?_, ?_⟩
        · rcases mem_cons.1 h1 with h1 | h1
          · rw [h1]
            rcases max_cases x y with ⟨h, -⟩ | ⟨h, -⟩ <;> rw [h] <;> simp
          · simp [h1]
        · intro z hz
          have hm := h2 (max x y) (by simp)
          rcases mem_cons.1 hz with rfl | hz
          · exact (le_max_left _ _).trans hm
          · rcases mem_cons.1 hz with rfl | hz
            · exact (le_max_right _ _).trans hm
            · exact h2 z (by simp [hz])
    exact ⟨_, rfl, key xs x⟩

theorem lastButOne_spec {r : Result ℝ} {l : List ℝ} {u v : ℝ} (h : r.SF = l ++ [u, v]) (hu : 0 < u) :
    lastButOne (r.CHF Real.log) = .ok (-Real.log u) := by
  simp only [lastButOne, Result.CHF, h, map_append, map_cons, map_nil, reverse_append, reverse_cons, reverse_nil, nil_append, cons_append,
    getElem?_cons_succ, getElem?_cons_zero, negLog, if_neg hu.ne']

theorem title_SF (e : Estimator) (plot_CI : Bool) (ci : String) :
    titleOf e plot_CI "SF" "Survival Function" ci = titleSpec e plot_CI ci .SF := by
  cases plot_CI
  · cases e
    · exact (by decide : "Kaplan-Meier" ++ " estimate of " ++ "Survival Function" = "Kaplan-Meier estimate of Survival Function")
    · exact (by decide : "Nelson-Aalen" ++ " estimate of " ++ "Survival Function" = "Nelson-Aalen estimate of Survival Function")
    · exact (by decide : "Rank Adjustment" ++ " estimate of " ++ "Survival Function" = "Rank Adjustment estimate of Survival Function")
  · cases e
    · exact congrArg (fun s : String => s ++ ci ++ "% confidence bounds")
        (by decide : "Kaplan-Meier" ++ " " ++ "SF" ++ " estimate\n with " = "Kaplan-Meier SF estimate\n with ")
    · exact congrArg (fun s : String => s ++ ci ++ "% confidence bounds")
        (by decide : "Nelson-Aalen" ++ " " ++ "SF" ++ " estimate\n with " = "Nelson-Aalen SF estimate\n with ")
    · exact congrArg (fun s : String => s ++ ci ++ "% confidence bounds")
        (by decide : nameCI .ra "SF" ++ " " ++ "SF" ++ " estimate\n with " = "Rank-Adjustment SF estimate\n with ")

theorem title_CDF (e : Estimator) (plot_CI : Bool) (ci : String) :
    titleOf e plot_CI "CDF" "Cumulative Density Function" ci = titleSpec e plot_CI ci .CDF := by
  cases plot_CI
  · cases e
    · exact (by decide : "Kaplan-Meier" ++ " estimate of " ++ "Cumulative Density Function" = "Kaplan-Meier estimate of Cumulative Density Function")
    · exact (by decide : "Nelson-Aalen" ++ " estimate of " ++ "Cumulative Density Function" = "Nelson-Aalen estimate of Cumulative Density Function")
    · exact (by decide : "Rank Adjustment" ++ " estimate of " ++ "Cumulative Density Function" = "Rank Adjustment estimate of Cumulative Density Function")
  · cases e
    · exact congrArg (fun s : String => s ++ ci ++ "% confidence bounds")
        (by decide : "Kaplan-Meier" ++ " " ++ "CDF" ++ " estimate\n with " = "Kaplan-Meier CDF estimate\n with ")
    · exact congrArg (fun s : String => s ++ ci ++ "% confidence bounds")
        (by decide : "Nelson-Aalen" ++ " " ++ "CDF" ++ " estimate\n with " = "Nelson-Aalen CDF estimate\n with ")
    · exact congrArg (fun s : String => s ++ ci ++ "% confidence bounds")
        (by decide : nameCI .ra "CDF" ++ " " ++ "CDF" ++ " estimate\n with " = "Rank Adjustment CDF estimate\n with ")

theorem title_CHF (e : Estimator) (plot_CI : Bool) (ci : String) :
    titleOf e plot_CI "CHF" "Cumulative Hazard Function" ci = titleSpec e plot_CI ci .CHF := by
  cases plot_CI
  · cases e
    · exact (by decide : "Kaplan-Meier" ++ " estimate of " ++ "Cumulative Hazard Function" = "Kaplan-Meier estimate of Cumulative Hazard Function")
    · exact (by decide : "Nelson-Aalen" ++ " estimate of " ++ "Cumulative Hazard Function" = "Nelson-Aalen estimate of Cumulative Hazard Function")
    · exact (by decide : "Rank Adjustment" ++ " estimate of " ++ "Cumulative Hazard Function" = "Rank Adjustment estimate of Cumulative Hazard Function")
  · cases e
    · exact congrArg (fun s : String => s ++ ci ++ "% confidence bounds")
        (by decide : "Kaplan-Meier" ++ " " ++ "CHF" ++ " estimate\n with " = "Kaplan-Meier CHF estimate\n with ")
    · exact congrArg (fun s : String => s ++ ci ++ "% confidence bounds")
        (by decide : "Nelson-Aalen" ++ " " ++ "CHF" ++ " estimate\n with " = "Nelson-Aalen CHF estimate\n with ")
    · exact congrArg (fun s : String => s ++ ci ++ "% confidence bounds")
        (by decide : nameCI .ra "CHF" ++ " " ++ "CHF" ++ " estimate\n with " = "Rank Adjustment CHF estimate\n with ")

/-- What `draw` makes, for each plot type. -/
theorem draw_spec {r : Result ℝ} (g : Good r) {e : Estimator} {plot_type : String} {plot_CI : Bool} {ci : String} {c : Canvas} {f : Shows}
    (hf : Asked plot_type f) :
    ∃ m l u v, maxOf r.data = .ok m ∧ r.SF = l ++ [u, v] ∧ 0 < u ∧ draw e r plot_type plot_CI ci c = .ok
      ⟨(0, max m c.xlim.2), (0, match f with | .CHF => max c.ylim.2 (-Real.log u * (12 / 10)) | _ => 11 / 10),
        c.lines ++ [(r.xvals, curveOf r f)], if plot_CI then c.bands ++ [(r.xvals, lowerOf r f, upperOf r f)] else c.bands,
        titleSpec e plot_CI ci f, labelOf f⟩ := by
  obtain ⟨m, hm, -, -⟩ := maxOf_spec g.ne
  obtain ⟨l, u, v, hl, hu⟩ := g.last
  refine ⟨m, l, u, v, hm, hl, hu, ?_⟩
  unfold draw
  rw [hm]
  simp only [bind, Except.bind]
  cases f with
  | SF =>
    have h1 : plot_type = "SF" ∨ plot_type = "sf" := hf
    rw [if_pos h1]
    simp only [add]
    rw [title_SF]
    rfl
  | CDF =>
    have h1 : plot_type = "CDF" ∨ plot_type = "cdf" := hf
    have h2 : ¬ (plot_type = "SF" ∨ plot_type = "sf") := by rcases h1 with rfl | rfl <;> decide
    rw [if_neg h2, if_pos h1]
    have hc : r.CDF.map Ext.fin = curveOf r .CDF := by rw [g.cdf, map_map]; rfl
    simp only [add, hc]
    rw [title_CDF]
    rfl
  | CHF =>
    have h1 : plot_type = "CHF" ∨ plot_type = "chf" := hf
    have h2 : ¬ (plot_type = "SF" ∨ plot_type = "sf") := by rcases h1 with rfl | rfl <;> decide
    have h3 : ¬ (plot_type = "CDF" ∨ plot_type = "cdf") := by rcases h1 with rfl | rfl <;> decide
    rw [if_neg h2, if_neg h3, if_pos h1, lastButOne_spec hl hu]
    simp only [add]
    rw [title_CHF]
    rfl

/-- The plot types the constructors take. -/
theorem asked (e : Estimator) {q : Args} {r : Result ℝ} (h : estimate argsort ppf e q = .ok r) : ∃ f, Asked q.plot_type f := by
  have hc : ∃ f, checkInputs q.failures q.plot_type q.CI = .ok f := by
    cases e
    · simp only [estimate, kaplanMeier, bind_ok] at h
      exact ⟨_, h.choose_spec.1⟩
    · simp only [estimate, nelsonAalen, bind_ok] at h
      exact ⟨_, h.choose_spec.1⟩
    · simp only [estimate, rankAdjustment, bind_ok] at h
      exact ⟨_, h.choose_spec.1⟩
  obtain ⟨f, hf⟩ := hc
  unfold checkInputs at hf
  split at hf
  · cases hf
  · split_ifs at hf with h1 h2 h3
    simp only [mem_cons, not_mem_nil, or_false, not_or, not_and, not_not] at h1
    by_cases a1 : q.plot_type = "SF" ∨ q.plot_type = "sf"
    · exact ⟨.SF, a1⟩
    · by_cases a2 : q.plot_type = "CDF" ∨ q.plot_type = "cdf"
      · exact ⟨.CDF, a2⟩
      · refine ⟨.CHF, ?_⟩
        rw [not_or] at a1 a2
        have := h1
        by_contra a3
        change ¬ (q.plot_type = "CHF" ∨ q.plot_type = "chf") at a3
        rw [not_or] at a3
        tauto

/-! ## The theorems -/

/-- **C144 (what is drawn).** With a plot, the results are the same as without; one curve is added to what is on the axes: the step array of
the function that plot_type names, over the step array of times; with plot_CI one band is added, between the bounds in the results;
title and vertical label say what it is. -/
theorem C144_draws (ha : IsArgsort argsort) (e : Estimator) (q : Args) (hq : 0 ≤ q.a.getD (3 / 10) ∧ q.a.getD (3 / 10) < 1) (plot_CI : Bool)
    (ci : String) (c c' : Canvas) (r : Result ℝ) (f : Shows) (hf : Asked q.plot_type f) (h : run argsort ppf e q true plot_CI ci c = .ok (r, c')) :
    run argsort ppf e q false plot_CI ci c = .ok (r, c) ∧ c'.lines = c.lines ++ [(r.xvals, curveOf r f)] ∧
    c'.bands = c.bands ++ (if plot_CI then [(r.xvals, lowerOf r f, upperOf r f)] else []) ∧
    c'.title = titleSpec e plot_CI ci f ∧ c'.ylabel = labelOf f := by
  simp only [run, bind_ok, if_true] at h
  obtain ⟨r', he, c1, hd, h⟩ := h
  cases h
  obtain ⟨m, l, u, v, -, -, -, hdr⟩ := draw_spec (good ha hq he) (e := e) (plot_CI := plot_CI) (ci := ci) (c := c) hf
  rw [hdr] at hd
  cases hd
  refine ⟨?_, rfl, ?_, rfl, rfl⟩
  · simp only [run, he, bind, Except.bind]
    rfl
  · cases plot_CI <;> simp

/-- **C144 (accepted).** Whatever data the estimator accepts, it plots, for every plot type it accepts. -/
theorem C144_accepts (ha : IsArgsort argsort) (e : Estimator) (q : Args) (hq : 0 ≤ q.a.getD (3 / 10) ∧ q.a.getD (3 / 10) < 1)
    (show_plot plot_CI : Bool) (ci : String) (c : Canvas) (r : Result ℝ) (h : estimate argsort ppf e q = .ok r) :
    ∃ c', run argsort ppf e q show_plot plot_CI ci c = .ok (r, c') := by
  obtain ⟨f, hf⟩ := asked e h
  obtain ⟨m, l, u, v, -, -, -, hdr⟩ := draw_spec (good ha hq h) (e := e) (plot_CI := plot_CI) (ci := ci) (c := c) hf
  cases show_plot
  · exact ⟨c, by simp only [run, h, bind, Except.bind]; rfl⟩
  · simp only [run, h, hdr, bind, Except.bind, if_true]
    exact ⟨_, rfl⟩

/-- **C144 (limits).** The horizontal axis goes from 0 to the largest time or to where it ended before, whichever is more; so with times that
are not negative every point of the curve is within it, and nothing to the right is lost. For SF and CDF the vertical axis goes from
0 to 1.1, and every value of the curve is between 0 and 1. -/
theorem C144_limits (ha : IsArgsort argsort) (e : Estimator) (q : Args) (hq : 0 ≤ q.a.getD (3 / 10) ∧ q.a.getD (3 / 10) < 1) (plot_CI : Bool)
    (ci : String) (c c' : Canvas) (r : Result ℝ) (f : Shows) (hf : Asked q.plot_type f) (h : run argsort ppf e q true plot_CI ci c = .ok (r, c')) :
    (∃ m ∈ r.data, (∀ t ∈ r.data, t ≤ m) ∧ c'.xlim = (0, max m c.xlim.2)) ∧
    ((∀ t ∈ r.data, 0 ≤ t) → ∀ x ∈ r.xvals, c'.xlim.1 ≤ x ∧ x ≤ c'.xlim.2) ∧ c.xlim.2 ≤ c'.xlim.2 ∧
    (f ≠ .CHF → c'.ylim = (0, 11 / 10) ∧ ∀ y ∈ curveOf r f, ∃ s, y = .fin s ∧ 0 ≤ s ∧ s ≤ 1) := by
  simp only [run, bind_ok, if_true] at h
  obtain ⟨r', he, c1, hd, h⟩ := h
  cases h
  have g := good ha hq he
  obtain ⟨m, l, u, v, hm, -, -, hdr⟩ := draw_spec g (e := e) (plot_CI := plot_CI) (ci := ci) (c := c) hf
  obtain ⟨m', hm', h1, h2⟩ := maxOf_spec g.ne
  rw [hm] at hm'
  cases hm'
  rw [hdr] at hd
  cases hd
  refine ⟨⟨m, h1, h2, rfl⟩, ?_, le_max_right _ _, ?_⟩
  · intro h0 x hx
    rcases g.x_from x hx with rfl | hx
    · exact ⟨le_rfl, (h0 m h1).trans (le_max_left _ _)⟩
    · exact ⟨h0 x hx, (h2 x hx).trans (le_max_left _ _)⟩
  · intro hn
    cases f with
    | CHF => exact absurd rfl hn
    | SF =>
      refine ⟨rfl, fun y hy => ?_⟩
      obtain ⟨s, hs, rfl⟩ := mem_map.1 hy
      exact ⟨s, rfl, g.range s hs⟩
    | CDF =>
      refine ⟨rfl, fun y hy => ?_⟩
      obtain ⟨s, hs, rfl⟩ := mem_map.1 hy
      have := g.range s hs
      exact ⟨1 - s, rfl, by linarith, by linarith⟩

theorem neg_log_le {u y : ℝ} (hu : 0 < u) (h : u ≤ y) : -Real.log y ≤ -Real.log u := neg_le_neg (Real.log_le_log hu h)

/-- **C144 (limits of the CHF).** For times that are not negative: every point of the cumulative hazard but the last is finite and within the
vertical axis, which goes at least as far up as before. -/
theorem C144_chf_limits (ha : IsArgsort argsort) (e : Estimator) (q : Args) (hq : 0 ≤ q.a.getD (3 / 10) ∧ q.a.getD (3 / 10) < 1) (plot_CI : Bool)
    (ci : String) (c c' : Canvas) (r : Result ℝ) (hf : Asked q.plot_type .CHF) (h : run argsort ppf e q true plot_CI ci c = .ok (r, c'))
    (h0 : ∀ t ∈ r.data, 0 ≤ t) :
    c'.ylim.1 = 0 ∧ c.ylim.2 ≤ c'.ylim.2 ∧
    ∀ y ∈ (curveOf r .CHF).dropLast, ∃ s, y = .fin s ∧ 0 ≤ s ∧ s ≤ c'.ylim.2 := by
  simp only [run, bind_ok, if_true] at h
  obtain ⟨r', he, c1, hd, h⟩ := h
  cases h
  have g := good ha hq he
  obtain ⟨m, l, u, v, hm, hl, hu, hdr⟩ := draw_spec g (e := e) (plot_CI := plot_CI) (ci := ci) (c := c) hf
  rw [hdr] at hd
  cases hd
  refine ⟨rfl, le_max_left _ _, ?_⟩
  intro y hy
  have hfall := g.falls h0
  rw [hl] at hfall
  have hu1 : u ≤ 1 := (g.range u (by rw [hl]; simp)).2
  have key : ∀ s ∈ l ++ [u], u ≤ s := by
    intro s hs
    rcases mem_append.1 hs with hs | hs
    · rw [pairwise_append] at hfall
      exact hfall.2.2 s hs u (by simp)
    · rw [mem_singleton.1 hs]
  have hdl : (curveOf r .CHF).dropLast = (l ++ [u]).map fun s => if s = 0 then Ext.pinf else Ext.fin (-Real.log s) := by
    simp only [curveOf, hl]
    rw [show l ++ [u, v] = (l ++ [u]) ++ [v] by simp, map_append, map_cons, map_nil, dropLast_concat]
  rw [hdl] at hy
  obtain ⟨s, hs, rfl⟩ := mem_map.1 hy
  have hsu := key s hs
  have hs0 : 0 < s := lt_of_lt_of_le hu hsu
  have hs1 : s ≤ 1 := (g.range s (by rw [hl, show l ++ [u, v] = (l ++ [u]) ++ [v] by simp]; exact mem_append_left _ hs)).2
  refine ⟨-Real.log s, by rw [if_neg hs0.ne'], ?_, ?_⟩
  · have := Real.log_nonpos hs0.le hs1
    linarith
  · refine le_trans ?_ (le_max_right _ _)
    have a1 := neg_log_le hu hsu
    have a2 : 0 ≤ -Real.log u := by have := Real.log_nonpos hu.le hu1; linarith
    nlinarith

/-- **C144 (the band of the CHF).** The band around the cumulative hazard has its lower edge at -ln of the upper bound of the survival function and its
upper edge at -ln of the lower bound; where the lower bound is 0 the upper edge is drawn at 1e10, and where it is not a number, at 0. So
where both bounds are positive and enclose the survival function, the band encloses the cumulative hazard. -/
theorem C144_chf_band (ha : IsArgsort argsort) (e : Estimator) (q : Args) (hq : 0 ≤ q.a.getD (3 / 10) ∧ q.a.getD (3 / 10) < 1)
    (ci : String) (c c' : Canvas) (r : Result ℝ) (hf : Asked q.plot_type .CHF) (h : run argsort ppf e q true true ci c = .ok (r, c')) :
    ∃ lo up : List (Ext ℝ), c'.bands = c.bands ++ [(r.xvals, lo, up)] ∧ lo.length = r.SF_upper.length ∧ up.length = r.SF_lower.length ∧
      (∀ (k : Nat) u, r.SF_upper[k]? = some (Ext.fin u) → (0 < u → lo[k]? = some (Ext.fin (-Real.log u))) ∧ (u = 0 → lo[k]? = some Ext.pinf)) ∧
      (∀ (k : Nat) l, r.SF_lower[k]? = some (Ext.fin l) → (0 < l → up[k]? = some (Ext.fin (-Real.log l))) ∧ (l = 0 → up[k]? = some (Ext.fin 1e10))) ∧
      (∀ k : Nat, r.SF_upper[k]? = some Ext.nan → lo[k]? = some Ext.nan) ∧ (∀ k : Nat, r.SF_lower[k]? = some Ext.nan → up[k]? = some (Ext.fin 0)) ∧
      (∀ (k : Nat) l u s, r.SF_lower[k]? = some (Ext.fin l) → r.SF_upper[k]? = some (Ext.fin u) → 0 < l → l ≤ s → s ≤ u →
        ∃ a b, lo[k]? = some (Ext.fin a) ∧ up[k]? = some (Ext.fin b) ∧ a ≤ -Real.log s ∧ -Real.log s ≤ b) := by
  obtain ⟨-, -, hb, -⟩ := C144_draws ha e q hq true ci c c' r .CHF hf h
  rw [if_pos rfl] at hb
  have hlo : ∀ (k : Nat) u, r.SF_upper[k]? = some (Ext.fin u) → 0 < u → (lowerOf r .CHF)[k]? = some (Ext.fin (-Real.log u)) := by
    intro k u hk hu
    simp only [lowerOf, Result.CHF_lower, getElem?_map, hk, Option.map_some, extNegLog]
    rw [if_neg hu.ne', if_neg (not_lt.2 hu.le)]
  have hup : ∀ (k : Nat) l, r.SF_lower[k]? = some (Ext.fin l) → 0 < l → (upperOf r .CHF)[k]? = some (Ext.fin (-Real.log l)) := by
    intro k u hk hu
    simp only [upperOf, Result.CHF_upper, getElem?_map, hk, Option.map_some, extNegLog]
    rw [if_neg hu.ne', if_neg (not_lt.2 hu.le)]
    rfl
  refine ⟨_, _, hb, by simp [lowerOf, Result.CHF_lower], by simp [upperOf, Result.CHF_upper], fun k u hk => ⟨hlo k u hk, ?_⟩,
    fun k l hk => ⟨hup k l hk, ?_⟩, fun k hk => ?_, fun k hk => ?_, ?_⟩
  · rintro rfl
    simp only [lowerOf, Result.CHF_lower, getElem?_map, hk, Option.map_some, extNegLog, if_true]
  · rintro rfl
    simp only [upperOf, Result.CHF_upper, getElem?_map, hk, Option.map_some, extNegLog, if_true, nanToNum]
    norm_num
  · simp only [lowerOf, Result.CHF_lower, getElem?_map, hk, Option.map_some, extNegLog]
  · simp only [upperOf, Result.CHF_upper, getElem?_map, hk, Option.map_some, extNegLog, nanToNum]
  · intro k l u s hl hu h0 h1 h2
    exact ⟨_, _, hlo k u hu (by linarith), hup k l hl h0, neg_log_le (by linarith) h2, neg_log_le h0 h1⟩

/-- **C144 (limits of the Kaplan-Meier CHF).** For Kaplan-Meier every finite point of the cumulative hazard is within the vertical axis, the
last one too. -/
theorem C144_km_chf_limits (ha : IsArgsort argsort) (q : Args) (hq : 0 ≤ q.a.getD (3 / 10) ∧ q.a.getD (3 / 10) < 1) (plot_CI : Bool)
    (ci : String) (c c' : Canvas) (r : Result ℝ) (hf : Asked q.plot_type .CHF) (h : run argsort ppf .km q true plot_CI ci c = .ok (r, c'))
    (h0 : ∀ t ∈ r.data, 0 ≤ t) : ∀ s, .fin s ∈ curveOf r .CHF → 0 ≤ s ∧ s ≤ c'.ylim.2 := by
  obtain ⟨-, -, hdrop⟩ := C144_chf_limits ha .km q hq plot_CI ci c c' r hf h h0
  simp only [run, bind_ok, if_true] at h
  obtain ⟨r', he, c1, hd, h⟩ := h
  cases h
  have h' : kaplanMeier argsort Real.sqrt ppf q.failures q.right_censored q.CI q.plot_type = .ok r := he
  have hz := fun i hi => C14_zero_iff_last_failure ha h' i hi
  obtain ⟨f, -, -, -, hf2, hr⟩ := kaplanMeier_ok h'
  have hS2 := two_le ha (rc := q.right_censored.getD []) hf2
  set S := sortedData argsort f (q.right_censored.getD []) with hS
  have hkl : (kmLoop (some (1 : ℝ)) (S.map Prod.snd)).length = S.length := by simp [kmLoop_length]
  obtain ⟨l, u, v, hl, l', hl'⟩ := assemble_lastTwo S (kmLoop (some 1) (S.map Prod.snd))
    (greenwood Real.sqrt (ppf (1 - (1 - q.CI) / 2)) (S.map Prod.snd) (kmLoop (some 1) (S.map Prod.snd))) hS2 hkl
    (by rw [greenwood_length _ _ _ _ (by simp [kmLoop_length])]; simp) (by
      cases S with
      | nil => simp
      | cons p T =>
        intro hq
        simp only [head?_cons, Option.map_some, Option.some.injEq] at hq
        rw [map_cons, kmLoop_cons, hq, factor_false, one_mul]
        rfl)
  rw [← hr] at hl
  have hest : r.est = l' ++ [u, v] := by rw [hr]; exact hl'
  have hcodes : r.censor_codes = S.map Prod.snd := by rw [hr]; rfl
  have hlen : l'.length + 2 = S.length := by rw [← hkl, hl']; simp
  -- the last value is 0 or equals the one before
  have hv : v = 0 ∨ v = u := by
    by_cases hv : v = 0
    · exact .inl hv
    · right
      obtain ⟨T, cu, cv, hT⟩ : ∃ T cu cv, S.map Prod.snd = T ++ [cu, cv] := by
        rcases hc : (S.map Prod.snd).reverse with _ | ⟨a, _ | ⟨b, L⟩⟩
        · have := congrArg length hc; simp at this; rw [this] at hS2; simp at hS2
        · have := congrArg length hc; simp at this; rw [this] at hS2; simp at hS2
        · refine ⟨L.reverse, b, a, ?_⟩
          rw [← reverse_reverse (S.map Prod.snd), hc]; simp
      have hcv : cv = false := by
        by_contra hcv
        rw [Bool.not_eq_false] at hcv
        have hTl : T.length + 2 = S.length := by
          have := congrArg length hT
          simpa using this.symm
        have hdl : r.data.length = S.length := by rw [hr]; simp [assemble]
        have h9 := (hz (T.length + 1) (by omega)).2 ⟨by omega, by rw [hcodes, hT, hcv]; simp⟩
        rw [hest, show T.length + 1 = l'.length + 1 by omega] at h9
        simp at h9
        exact hv h9
      have hstep : ∀ (cs : List Bool) (p : ℝ) (l' : List ℝ) (u v : ℝ) (T : List Bool) (cu : Bool), cs = T ++ [cu, false] →
          kmLoop (some p) cs = l' ++ [u, v] → v = u := by
        intro cs
        induction cs with
        | nil => intro p l' u v T cu h; simp at h
        | cons b cs ih =>
          intro p l' u v T cu h1 h2
          rw [kmLoop_cons] at h2
          cases T with
          | nil =>
            simp only [nil_append, cons.injEq] at h1
            obtain ⟨-, rfl⟩ := h1
            rw [kmLoop_cons, factor_false, one_mul, kmLoop] at h2
            have h3 := congrArg reverse h2
            simp at h3
            rw [← h3.1, ← h3.2.1]
          | cons b' T =>
            simp only [cons_append, cons.injEq] at h1
            cases l' with
            | nil =>
              exfalso
              have h3 := congrArg length h2
              simp only [length_cons, kmLoop_length, h1.2, length_append, nil_append, length_nil] at h3
              omega
            | cons w l' =>
              simp only [cons_append, cons.injEq] at h2
              exact ih _ l' u v T cu h1.2 h2.2
      exact hstep _ 1 l' u v T cu (by rw [hT, hcv]) hl'
  intro s hs
  have hsplit : curveOf r .CHF = (curveOf r .CHF).dropLast ++ [if v = 0 then Ext.pinf else Ext.fin (-Real.log v)] := by
    simp only [curveOf, hl]
    rw [show l ++ [u, v] = (l ++ [u]) ++ [v] by simp, map_append, map_cons, map_nil, dropLast_concat]
  rw [hsplit] at hs
  rcases mem_append.1 hs with hs | hs
  · obtain ⟨s', hs', h1, h2⟩ := hdrop _ hs
    cases hs'
    exact ⟨h1, h2⟩
  · rcases hv with hv | hv
    · rw [if_pos hv] at hs
      simp at hs
    · have hu : Ext.fin s ∈ (curveOf r .CHF).dropLast := by
        have : (curveOf r .CHF).dropLast = (l ++ [u]).map fun s => if s = 0 then Ext.pinf else Ext.fin (-Real.log s) := by
          simp only [curveOf, hl]
          rw [show l ++ [u, v] = (l ++ [u]) ++ [v] by simp, map_append, map_cons, map_nil, dropLast_concat]
        rw [this, map_append]
        apply mem_append_right
        rw [hv] at hs
        exact hs
      obtain ⟨s', hs', h1, h2⟩ := hdrop _ hu
      cases hs'
      exact ⟨h1, h2⟩

/-! ## Where the last point is outside -/

/-- Empty axes as matplotlib makes them. -/
def fresh : Canvas := ⟨(0, 1), (0, 1), [], [], "", ""⟩

theorem sorted12 : sortedData refArgsort [(1 : ℝ), 2] [] = [(1, true), (2, true)] := by
  have hs : refArgsort [(1 : ℝ), 2] = [0, 1] := by
    simp [refArgsort, zipIdx, insertionSort, orderedInsert]
  simp [sortedData, sortValues, hs, takeRows]

/-- Failures at 1 and 2, 95% bounds, plot of the CHF. -/
noncomputable def twoFailures : Args := ⟨some [1, 2], none, none, 95 / 100, "CHF"⟩

theorem check2 : checkInputs (some [(1 : ℝ), 2]) "CHF" (95 / 100) = .ok [1, 2] := by
  unfold checkInputs
  simp only
  rw [if_neg (by decide), if_neg (by norm_num), if_neg (by simp)]

theorem na2 : ∃ r, estimate refArgsort ppf .na twoFailures = .ok r ∧
    r.SF = [1, 1, Real.exp (-(1 / 2)), Real.exp (-(1 / 2)), Real.exp (-(3 / 2))] := by
  refine ⟨_, by simp only [estimate, twoFailures, nelsonAalen]; rw [check2]; rfl, ?_⟩
  have hne : Real.exp (-(1 / 2)) ≠ Real.exp (-(3 / 2)) := by
    intro h
    have := Real.exp_injective h
    norm_num at this
  have e1 : naCHF (0 : ℝ) [true, true] = [1 / 2, 3 / 2] := by
    simp only [naCHF, code]; norm_num
  simp only [Option.getD_none, sorted12, assemble, map_cons, map_nil, e1]
  generalize hb : greenwood Real.sqrt _ _ _ = b
  have hl : b.length = 2 := by rw [← hb, greenwood_length _ _ _ _ (by simp)]; rfl
  match b, hl with
  | [b1, b2], _ =>
    simp only [zip_cons_cons, zip_nil_right, map_cons, map_nil, headD_cons, stepEntries, stepRest, if_true, if_neg hne, cons_append, nil_append]

/-- **Finding (C144).** Nelson-Aalen with failures at 1 and 2 on fresh axes: the cumulative hazard ends at 3/2, and the vertical axis ends at 1; the
last point of the curve is not in the picture. -/
theorem C144_na_chf_finding (plot_CI : Bool) (ci : String) : ∃ r c', run refArgsort ppf .na twoFailures true plot_CI ci fresh = .ok (r, c') ∧
    (curveOf r .CHF).getLast? = some (.fin (3 / 2)) ∧ c'.ylim = (0, 1) := by
  obtain ⟨r, hr, hS⟩ := na2 (ppf := ppf)
  have g := good refArgsort_isArgsort (by simp only [twoFailures, Option.getD_none]; norm_num) hr
  obtain ⟨m, l, u, v, -, hl, -, hdr⟩ := draw_spec g (e := .na) (plot_type := "CHF") (plot_CI := plot_CI) (ci := ci) (c := fresh)
    (f := .CHF) (.inl rfl)
  have hu : u = Real.exp (-(1 / 2)) := by
    rw [hS] at hl
    have := congrArg reverse hl
    simp at this
    rw [← this.2.1]; norm_num
  refine ⟨r, _, by simp only [run, hr, bind, Except.bind, if_true]; rw [show twoFailures.plot_type = "CHF" from rfl, hdr], ?_, ?_⟩
  · simp only [curveOf, hS, map_cons, map_nil, Real.exp_ne_zero, if_false, Real.log_exp, neg_neg]
    rfl
  · simp only [hu, Real.log_exp, fresh]
    norm_num

/-- **Finding (C144).** RankAdjustment with failures at 1 and 2 on fresh axes: the cumulative hazard ends at -ln(7/24), more than 1, and the
vertical axis ends at 1. -/
theorem C144_ra_chf_finding (plot_CI : Bool) (ci : String) : ∃ r c' s, run refArgsort ppf .ra twoFailures true plot_CI ci fresh = .ok (r, c') ∧
    (curveOf r .CHF).getLast? = some (.fin s) ∧ c'.ylim = (0, 1) ∧ 1 < s := by
  have hp : PP.plottingPositions refArgsort [(1 : ℝ), 2] (some []) none true = .ok ([1, 2], [7 / 24, 17 / 24]) := by
    have hs : refArgsort [(1 : ℝ), 2] = [0, 1] := by
      simp [refArgsort, zipIdx, insertionSort, orderedInsert]
    unfold PP.plottingPositions
    simp [PP.allRows, sortValues, hs, takeRows, zipIdx, findIdx?, findIdx?.go, PP.adjustedRanks, PP.rankLoop, range']
    norm_num
  have hra : ∃ r, estimate refArgsort ppf .ra twoFailures = .ok r ∧ r.SF = [1, 1, 17 / 24, 17 / 24, 7 / 24] := by
    have e1 : raLoop [0, (7 : ℝ) / 24, 17 / 24] 0 [true, true] = .ok [17 / 24, 7 / 24] := by
      simp only [raLoop, if_true, bind, Except.bind, pure, Except.pure]
      norm_num
    refine ⟨_, by
      simp only [estimate, twoFailures, rankAdjustment]
      rw [check2]
      simp only [bind, Except.bind, Option.getD_none, sorted12, hp, map_cons, map_nil, e1]
      rfl, ?_⟩
    simp [raSteps]
    norm_num
  obtain ⟨r, hr, hS⟩ := hra
  have g := good refArgsort_isArgsort (by simp only [twoFailures, Option.getD_none]; norm_num) hr
  obtain ⟨m, l, u, v, -, hl, -, hdr⟩ := draw_spec g (e := .ra) (plot_type := "CHF") (plot_CI := plot_CI) (ci := ci) (c := fresh)
    (f := .CHF) (.inl rfl)
  have hu : u = 17 / 24 := by
    rw [hS] at hl
    have := congrArg reverse hl
    simp at this
    rw [← this.2.1]
  refine ⟨r, _, -Real.log (7 / 24), by simp only [run, hr, bind, Except.bind, if_true]; rw [show twoFailures.plot_type = "CHF" from rfl, hdr], ?_, ?_, ?_⟩
  · simp only [curveOf, hS, map_cons, map_nil]
    norm_num
  · simp only [hu, fresh]
    have h1 : -Real.log (17 / 24) ≤ 7 / 17 := by
      have := Real.one_sub_inv_le_log_of_pos (show (0 : ℝ) < 17 / 24 by norm_num)
      norm_num at this ⊢
      linarith
    rw [max_eq_left (by linarith)]
  · have h1 : Real.log (7 / 24) < -1 := by
      rw [Real.log_lt_iff_lt_exp (by norm_num), Real.exp_neg, lt_inv_comm₀ (by norm_num) (Real.exp_pos 1)]
      exact Real.exp_one_lt_three.trans (by norm_num)
    linarith

/-- Non-vacuity: the data of the findings are accepted and plotted. -/
example (plot_CI : Bool) (ci : String) : ∃ r c', run refArgsort ppf .na twoFailures true plot_CI ci fresh = .ok (r, c') ∧
    c'.lines = [(r.xvals, curveOf r .CHF)] ∧ c'.title = titleSpec .na plot_CI ci .CHF := by
  obtain ⟨r, hr, -⟩ := na2 (ppf := ppf)
  have ha : 0 ≤ twoFailures.a.getD (3 / 10) ∧ twoFailures.a.getD (3 / 10) < 1 := by simp only [twoFailures, Option.getD_none]; norm_num
  obtain ⟨c', h⟩ := C144_accepts refArgsort_isArgsort .na twoFailures ha true plot_CI ci fresh r hr
  obtain ⟨-, h1, -, h2, -⟩ := C144_draws refArgsort_isArgsort .na twoFailures ha plot_CI ci fresh c' r .CHF (.inl rfl) h
  exact ⟨r, c', h, h1, h2⟩

end Reliability.NP.Plot

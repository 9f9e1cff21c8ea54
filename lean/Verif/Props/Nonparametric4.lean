import Verif.Props.Nonparametric3

/-! # C18 continued: the step arrays trace a staircase through the table, and CHF = -ln(SF) -/

set_option linter.unusedSectionVars false

namespace Reliability.NP

open Reliability List

variable {K : Type _} [Field K] [LinearOrder K] [IsStrictOrderedRing K]

/-- A polyline all of whose segments are vertical or horizontal. -/
def Staircase (pts : List (K × K)) : Prop := pts.IsChain fun p q => p.1 = q.1 ∨ p.2 = q.2

/-- The polyline starts at (0, 1), is a staircase, passes through every (time, estimate) row of the
table and ends at the last one; and each of its points has a time of the table (or 0) as abscissa and a
value of the table (or 1) as ordinate. -/
structure Traces (xs ys : List K) (times est : List K) : Prop where
  start : (xs.zip ys).head? = some (0, 1)
  stairs : Staircase (xs.zip ys)
  through : ∀ p ∈ times.zip est, p ∈ xs.zip ys
  last : (xs.zip ys).getLast? = (times.zip est).getLast?
  from_table : ∀ p ∈ xs.zip ys, (p.1 = 0 ∨ p.1 ∈ times) ∧ (p.2 = 1 ∨ p.2 ∈ est)

/-- the (x, y) part of the step entries -/
def pts (es : List (Entry K)) : List (K × K) := es.map fun e => (e.x, e.y)

theorem stepRest_stairs (prev : Row K) (rows : List (Row K)) :
    ((prev.t, prev.est) :: pts (stepRest prev rows)).IsChain (fun p q => p.1 = q.1 ∨ p.2 = q.2) := by
  induction rows generalizing prev with
  | nil => simp [stepRest, pts]
  | cons r rs ih =>
    unfold stepRest
    have := ih r
    by_cases h : prev.est = r.est
    · rw [if_pos h]
      simp only [pts, map_cons, isChain_cons_cons] at this ⊢
      exact ⟨Or.inr h, this⟩
    · rw [if_neg h]
      simp only [pts, map_cons, isChain_cons_cons] at this ⊢
      exact ⟨Or.inr trivial, Or.inl trivial, this⟩

theorem stepRest_through (prev : Row K) (rows : List (Row K)) :
    ∀ r ∈ rows, (r.t, r.est) ∈ pts (stepRest prev rows) := by
  induction rows generalizing prev with
  | nil => simp
  | cons r rs ih =>
    intro q hq
    unfold stepRest
    rcases mem_cons.1 hq with rfl | hq
    · by_cases h : prev.est = q.est
      · rw [if_pos h]; simp [pts]
      · rw [if_neg h]; simp [pts]
    · have := ih r q hq
      by_cases h : prev.est = r.est
      · rw [if_pos h]; exact mem_cons_of_mem _ this
      · rw [if_neg h]; exact mem_cons_of_mem _ (mem_cons_of_mem _ this)

theorem stepRest_last (prev : Row K) (rows : List (Row K)) :
    ((prev.t, prev.est) :: pts (stepRest prev rows)).getLast? =
      ((prev :: rows).map fun r => (r.t, r.est)).getLast? := by
  induction rows generalizing prev with
  | nil => simp [stepRest, pts]
  | cons r rs ih =>
    unfold stepRest
    have := ih r
    by_cases h : prev.est = r.est
    · rw [if_pos h]
      simp only [pts, map_cons, getLast?_cons_cons] at this ⊢
      exact this
    · rw [if_neg h]
      simp only [pts, map_cons, getLast?_cons_cons] at this ⊢
      exact this

theorem stepRest_from (prev : Row K) (rows : List (Row K)) :
    ∀ p ∈ pts (stepRest prev rows), (∃ r ∈ prev :: rows, p.1 = r.t) ∧ ∃ r ∈ prev :: rows, p.2 = r.est := by
  induction rows generalizing prev with
  | nil => simp [stepRest, pts]
  | cons r rs ih =>
    intro p hp
    unfold stepRest at hp
    have ih' := ih r p
    have lift : (∃ q ∈ r :: rs, p.1 = q.t) ∧ (∃ q ∈ r :: rs, p.2 = q.est) →
        (∃ q ∈ prev :: r :: rs, p.1 = q.t) ∧ ∃ q ∈ prev :: r :: rs, p.2 = q.est := by
      rintro ⟨⟨a, ha, h1⟩, b, hb, h2⟩
      exact ⟨⟨a, mem_cons_of_mem _ ha, h1⟩, b, mem_cons_of_mem _ hb, h2⟩
    by_cases h : prev.est = r.est
    · rw [if_pos h] at hp
      rcases mem_cons.1 hp with rfl | hp
      · exact ⟨⟨r, by simp, rfl⟩, r, by simp, rfl⟩
      · exact lift (ih' hp)
    · rw [if_neg h] at hp
      rcases mem_cons.1 hp with rfl | hp
      · exact ⟨⟨r, by simp, rfl⟩, prev, by simp, rfl⟩
      rcases mem_cons.1 hp with rfl | hp
      · exact ⟨⟨r, by simp, rfl⟩, r, by simp, rfl⟩
      · exact lift (ih' hp)

/-- The staircase property of the arrays built from sorted rows, estimates and bounds, provided that the
estimate is 1 until the first failure. -/
theorem assemble_traces (S : List (K × Bool)) (est : List K) (b : List (Ext K × Ext K))
    (hS : S ≠ []) (he : est.length = S.length) (hb : b.length = S.length)
    (hfirst : S.head?.map Prod.snd = some false → est.head? = some 1) :
    Traces (assemble S est b).xvals (assemble S est b).SF (assemble S est b).data (assemble S est b).est := by
  obtain ⟨⟨t, c⟩, S', rfl⟩ := exists_cons_of_ne_nil hS
  cases est with
  | nil => simp at he
  | cons e est =>
  cases b with
  | nil => simp at hb
  | cons w b =>
  have he' : est.length = S'.length := by simpa using he
  have hb' : b.length = S'.length := by simpa using hb
  set rows : List (Row K) := ((S'.map Prod.fst).zip (est.zip b)).map
    (fun p => ⟨p.1, p.2.1, p.2.2.1, p.2.2.2⟩) with hrows
  have htab : (S'.map Prod.fst).zip est = rows.map fun r => (r.t, r.est) := by
    rw [hrows, map_map]
    clear hrows he hb hS hfirst rows
    induction S' generalizing est b with
    | nil => simp
    | cons p S' ih =>
      cases est with
      | nil => simp at he'
      | cons e est =>
        cases b with
        | nil => simp at hb'
        | cons w b => simp [ih est b (by simpa using he') (by simpa using hb')]
  have hmem1 : ∀ r ∈ rows, r.t ∈ S'.map Prod.fst ∧ r.est ∈ est := by
    intro r hr
    have : (r.t, r.est) ∈ (S'.map Prod.fst).zip est := by rw [htab]; exact mem_map.2 ⟨r, hr, rfl⟩
    exact of_mem_zip this
  set r0 : Row K := ⟨t, e, w.1, w.2⟩ with hr0
  have hz : ∀ es : List (Entry K), (0 :: es.map Entry.x).zip (1 :: es.map Entry.y) =
      ((0 : K), (1 : K)) :: pts es := by
    intro es
    simp only [zip_cons_cons, pts]
    congr 1
    induction es with
    | nil => rfl
    | cons a es ih => simpa using ih
  have hpp : (assemble ((t, c) :: S') (e :: est) (w :: b)).xvals.zip
      (assemble ((t, c) :: S') (e :: est) (w :: b)).SF =
      (0, 1) :: ((if c then [(t, 1), (t, e)] else [(t, 1)]) ++ pts (stepRest r0 rows)) := by
    simp only [assemble]
    rw [hz]
    cases c <;> simp [stepEntries, pts, hr0, hrows]
  have hdata : (assemble ((t, c) :: S') (e :: est) (w :: b)).data = t :: S'.map Prod.fst := rfl
  have hest : (assemble ((t, c) :: S') (e :: est) (w :: b)).est = e :: est := rfl
  have hstair := stepRest_stairs r0 rows
  have hlast := stepRest_last r0 rows
  have hthr := stepRest_through r0 rows
  have hfrom := stepRest_from r0 rows
  have hc1 : c = false → e = 1 := by
    rintro rfl
    simpa using hfirst
  constructor
  · rw [hpp]; rfl
  · unfold Staircase
    rw [hpp]
    cases c
    · have h1 := hc1 rfl
      subst h1
      simp only [Bool.false_eq_true, if_false, singleton_append, isChain_cons_cons]
      exact ⟨by simp, hstair⟩
    · simp only [if_true, cons_append, nil_append, isChain_cons_cons]
      exact ⟨by simp, by simp, hstair⟩
  · rw [hpp, hdata, hest, zip_cons_cons, htab]
    intro p hp
    rcases mem_cons.1 hp with rfl | hp
    · cases c
      · rw [hc1 rfl]; simp
      · simp
    · obtain ⟨r, hr, rfl⟩ := mem_map.1 hp
      have := hthr r hr
      exact mem_cons_of_mem _ (mem_append_right _ this)
  · rw [hpp, hdata, hest, zip_cons_cons, htab]
    have e2 : ((r0 :: rows).map fun r => (r.t, r.est)) = (t, e) :: rows.map fun r => (r.t, r.est) := rfl
    rw [← e2, ← hlast]
    cases c
    · have h1 := hc1 rfl
      simp only [hr0, h1, Bool.false_eq_true, if_false, singleton_append, getLast?_cons_cons]
    · simp only [hr0, if_true, cons_append, nil_append, getLast?_cons_cons]
  · rw [hpp, hdata, hest]
    intro p hp
    have hr : p ∈ pts (stepRest r0 rows) → (p.1 = 0 ∨ p.1 ∈ t :: S'.map Prod.fst) ∧ (p.2 = 1 ∨ p.2 ∈ e :: est) := by
      intro hp
      obtain ⟨⟨a, ha, h1⟩, a', ha', h2⟩ := hfrom p hp
      refine ⟨Or.inr ?_, Or.inr ?_⟩
      · rcases mem_cons.1 ha with rfl | ha
        · rw [h1]; simp [hr0]
        · rw [h1]; exact mem_cons_of_mem _ (hmem1 a ha).1
      · rcases mem_cons.1 ha' with rfl | ha'
        · rw [h2]; simp [hr0]
        · rw [h2]; exact mem_cons_of_mem _ (hmem1 a' ha').2
    rcases mem_cons.1 hp with rfl | hp
    · exact ⟨Or.inl rfl, Or.inl rfl⟩
    rcases mem_append.1 hp with hp | hp
    · cases c
      · simp only [Bool.false_eq_true, if_false, mem_singleton] at hp
        subst hp
        simp
      · simp only [if_true, mem_cons, not_mem_nil, or_false] at hp
        rcases hp with rfl | rfl <;> simp
    · exact hr hp

section
variable {argsort : List K → List Nat} {sqrt : K → K} {ppf : K → Ext K}
  {failures right_censored : Option (List K)} {CI : K} {plot_type : String}

/-- **C18 (staircase, Kaplan–Meier).** The step arrays trace the table. -/
theorem C18_KM_staircase (ha : IsArgsort argsort) {r : Result K}
    (h : kaplanMeier argsort sqrt ppf failures right_censored CI plot_type = .ok r) :
    Traces r.xvals r.SF r.data r.est := by
  obtain ⟨f, rfl, -, -, hf, rfl⟩ := kaplanMeier_ok h
  apply assemble_traces _ _ _ (sortedData_ne_nil ha hf)
  · simp [kmLoop_length]
  · rw [greenwood_length _ _ _ _ (by simp [kmLoop_length])]; simp
  · cases sortedData argsort f (right_censored.getD []) with
    | nil => simp
    | cons q T =>
      intro hq
      simp only [head?_cons, Option.map_some, Option.some.injEq] at hq
      rw [map_cons, kmLoop_cons, hq, factor_false, one_mul]
      rfl

/-- **C18 (staircase, Nelson–Aalen).** -/
theorem C18_NA_staircase {exp : K → K} (hexp : exp 0 = 1) (ha : IsArgsort argsort) {r : Result K}
    (h : nelsonAalen exp argsort sqrt ppf failures right_censored CI plot_type = .ok r) :
    Traces r.xvals r.SF r.data r.est := by
  obtain ⟨f, rfl, -, -, hf, rfl⟩ := nelsonAalen_ok h
  apply assemble_traces _ _ _ (sortedData_ne_nil ha hf)
  · simp [naCHF_eq, acc_length]
  · rw [greenwood_length _ _ _ _ (by simp [naCHF_eq, acc_length])]; simp
  · cases sortedData argsort f (right_censored.getD []) with
    | nil => simp
    | cons q T =>
      intro hq
      simp only [head?_cons, Option.map_some, Option.some.injEq] at hq
      simp [naCHF, hq, code, hexp]

/-! ### Rank adjustment -/

theorem raLoop_failures (ys : List K) (S : List (K × Bool)) (cnt : Nat) (RA : List K)
    (h : raLoop ys cnt (S.map Prod.snd) = .ok RA) :
    RA.length = S.length ∧
    ((S.zip RA).filter (fun p => p.1.2)).map (fun p => (p.1.1, p.2)) =
      ((S.filter (fun p => p.2)).map Prod.fst).zip ((ys.drop (cnt + 1)).map fun y => 1 - y) ∧
    (∀ (hne : S ≠ []), RA.getLast? = (ys[cnt + (S.filter (fun p => p.2)).length]?).map fun y => 1 - y) := by
  induction S generalizing cnt RA with
  | nil => simp [raLoop] at h; subst h; simp
  | cons p S ih =>
    obtain ⟨t, c⟩ := p
    simp only [map_cons, raLoop] at h
    cases hy : ys[if c then cnt + 1 else cnt]? with
    | none => rw [hy] at h; cases h
    | some y =>
      rw [hy] at h
      simp only at h
      cases hr : raLoop ys (if c then cnt + 1 else cnt) (S.map Prod.snd) with
      | error e => rw [hr] at h; cases h
      | ok rest =>
        rw [hr] at h
        simp only [bind, Except.bind, pure, Except.pure, Except.ok.injEq] at h
        subst h
        obtain ⟨h1, h2, h3⟩ := ih _ _ hr
        refine ⟨by simp [h1], ?_, ?_⟩
        · cases c
          · simp only [Bool.false_eq_true, if_false] at h2
            simp [h2]
          · simp only [if_true] at h2 hy
            obtain ⟨hlt, hyy⟩ := List.getElem?_eq_some_iff.1 hy
            have : ys.drop (cnt + 1) = y :: ys.drop (cnt + 1 + 1) := by
              rw [drop_eq_getElem_cons hlt, hyy]
            simp [h2, this]
        · intro _
          rcases S with _ | ⟨q, S⟩
          · simp only [length_nil, length_eq_zero_iff] at h1
            subst h1
            cases c <;> simp_all
          · have h3' := h3 (by simp)
            have hne : rest ≠ [] := by intro hh; rw [hh] at h1; simp at h1
            have e : ((1 - y) :: rest).getLast? = rest.getLast? := by
              cases rest with
              | nil => exact absurd rfl hne
              | cons a r => rw [getLast?_cons_cons]
            rw [e, h3']
            cases c
            · simp
            · simp only [filter_cons, if_true, length_cons]
              congr 2
              omega

theorem raSteps_stairs (x0 prev : K) (L : List (K × K)) :
    ((x0, prev) :: raSteps prev L).IsChain (fun p q => p.1 = q.1 ∨ p.2 = q.2) := by
  induction L generalizing x0 prev with
  | nil => simp [raSteps]
  | cons p L ih =>
    obtain ⟨x, y⟩ := p
    simp only [raSteps, isChain_cons_cons]
    exact ⟨by simp, by simp, ih x y⟩

theorem raSteps_through (prev : K) (L : List (K × K)) : ∀ p ∈ L, p ∈ raSteps prev L := by
  induction L generalizing prev with
  | nil => simp
  | cons p L ih =>
    obtain ⟨x, y⟩ := p
    intro q hq
    rcases mem_cons.1 hq with rfl | hq
    · simp [raSteps]
    · simp [raSteps, ih y q hq]

theorem raSteps_last (x0 prev : K) (L : List (K × K)) :
    ((x0, prev) :: raSteps prev L).getLast? = ((x0, prev) :: L).getLast? := by
  induction L generalizing x0 prev with
  | nil => rfl
  | cons p L ih =>
    obtain ⟨x, y⟩ := p
    simp only [raSteps, getLast?_cons_cons]
    exact ih x y

/-- **C18 (staircase, rank adjustment).** The step arrays start at (0, 1), form a staircase through every
failure row of the table, and end at the last row of the table. -/
theorem C18_RA_staircase {a : Option K} (hargs : IsArgsort argsort)
    (ha : 0 ≤ a.getD (3 / 10)) (ha1 : a.getD (3 / 10) ≤ 1) {r : Result K}
    (h : rankAdjustment argsort sqrt ppf failures right_censored a CI plot_type = .ok r) :
    (r.xvals.zip r.SF).head? = some (0, 1) ∧ Staircase (r.xvals.zip r.SF) ∧
    (∀ (k : Nat) t e, r.censor_codes[k]? = some true → r.data[k]? = some t → r.est[k]? = some e →
      (t, e) ∈ r.xvals.zip r.SF) ∧
    (r.xvals.zip r.SF).getLast? = (r.data.zip r.est).getLast? := by
  obtain ⟨f, x, y, RA, rfl, h0, h1, hf2, hpp, hra, rfl⟩ := rankAdjustment_ok h
  set S := sortedData argsort f (right_censored.getD []) with hS
  obtain ⟨hx, hy, -⟩ := ra_values hargs f (right_censored.getD []) hf2 ha ha1 hpp
  have hxl : x = (S.filter (fun p => p.2)).map Prod.fst := hx
  have hyl : y.length = (S.filter (fun p => p.2)).length := by
    rw [hy]; unfold PP.Spec.positions; rw [length_map, PP.failPositions_length]
  have hSne : S ≠ [] := sortedData_ne_nil hargs hf2
  obtain ⟨hRl, hRf, hRlast⟩ := raLoop_failures (0 :: y) S 0 RA hra
  have hRlast := hRlast hSne
  simp only [zero_add, drop_succ_cons, drop_zero, ← hxl] at hRf
  set steps := ((0 : K), (0 : K)) :: raSteps 0 (x.zip y) with hsteps
  obtain ⟨lastc, hlc⟩ : ∃ c, (S.map Prod.snd).getLast? = some c :=
    ⟨_, getLast?_eq_some_getLast (by simpa using hSne)⟩
  set steps' := (if (S.map Prod.snd).getLast? == some false then
        steps ++ [((S.map Prod.fst).getLastD 0, (steps.getLastD (0, 0)).2)] else steps) with hsteps'
  set g : K × K → K × K := fun p => (p.1, 1 - p.2) with hg
  have hz : (steps'.map Prod.fst).zip (steps'.map fun p => 1 - p.2) = steps'.map g := by
    rw [zip_map']
  have hchain : steps'.IsChain (fun p q => p.1 = q.1 ∨ p.2 = q.2) := by
    have hc := raSteps_stairs 0 0 (x.zip y)
    rw [hsteps']
    split
    · rw [isChain_append]
      refine ⟨hc, by simp, ?_⟩
      intro p hp q hq
      simp only [head?_cons, Option.mem_some_iff] at hq
      subst hq
      right
      rw [Option.mem_def] at hp
      simp only [getLastD_eq_getLast?]
      rw [hp]
      rfl
    · exact hc
  have hthr : ∀ p ∈ x.zip y, p ∈ steps' := by
    intro p hp
    have : p ∈ steps := mem_cons_of_mem _ (raSteps_through 0 _ p hp)
    rw [hsteps']
    split
    · exact mem_append_left _ this
    · exact this
  have hslast : steps.getLast? = ((0, 0) :: x.zip y).getLast? := raSteps_last 0 0 (x.zip y)
  simp only
  rw [hz]
  refine ⟨?_, ?_, ?_, ?_⟩
  · rw [head?_map, hsteps', hsteps]
    split <;> simp [hg]
  · unfold Staircase
    rw [isChain_map]
    refine hchain.imp ?_
    rintro p q (h | h)
    · exact Or.inl h
    · exact Or.inr (by simp only [hg]; rw [h])
  · intro k t e hk ht he
    have hm : ((t, true), e) ∈ (S.zip RA).filter (fun p => p.1.2) := by
      rw [mem_filter]
      refine ⟨?_, rfl⟩
      rw [getElem?_map] at hk ht
      cases hSk : S[k]? with
      | none => rw [hSk] at ht; simp at ht
      | some q =>
        rw [hSk] at hk ht
        simp only [Option.map_some, Option.some.injEq] at hk ht
        refine mem_iff_getElem?.2 ⟨k, ?_⟩
        rw [getElem?_zip_eq_some]
        exact ⟨by rw [hSk, ← hk, ← ht], he⟩
    have hm2 : (t, e) ∈ x.zip (y.map fun y => 1 - y) := by
      rw [← hRf]
      exact mem_map.2 ⟨_, hm, rfl⟩
    rw [zip_map_right] at hm2
    obtain ⟨p, hp, hpe⟩ := mem_map.1 hm2
    exact mem_map.2 ⟨p, hthr p hp, by rw [← hpe]; rfl⟩
  · -- the last point
    obtain ⟨⟨tl, cl⟩, hSl⟩ : ∃ q, S.getLast? = some q := ⟨_, getLast?_eq_some_getLast hSne⟩
    have hcl : lastc = cl := by
      rw [getLast?_map, hSl] at hlc; simpa using hlc.symm
    have htl : (S.map Prod.fst).getLast? = some tl := by rw [getLast?_map, hSl]; rfl
    -- last estimate is one minus the last position
    have hlastpos : ((0, 0) :: x.zip y).getLast?.map Prod.snd = (0 :: y)[(S.filter (fun p => p.2)).length]? := by
      have hxy : x.length = y.length := by rw [hyl, hxl]; simp
      rw [← getLast?_map, map_cons, map_snd_zip (by omega), getLast?_eq_getElem?, length_cons, ← hyl]
      simp
    have hzl : ((S.map Prod.fst).zip RA).getLast? = some (tl, (RA.getLast?).getD 0) := by
      have hRne : RA ≠ [] := by
        intro hh; rw [hh] at hRl; simp at hRl; exact hSne (length_eq_zero_iff.1 hRl.symm)
      have hl : ((S.map Prod.fst).zip RA).length = S.length := by simp [hRl]
      rw [getLast?_eq_getElem?, hl, getElem?_zip_eq_some]
      constructor
      · rw [← htl, getLast?_eq_getElem?, length_map]
      · have : RA.getLast? = some (RA.getLast hRne) := getLast?_eq_some_getLast hRne
        rw [← hRl, ← getLast?_eq_getElem?, this]; rfl
    rw [getLast?_map, hzl, hRlast, zero_add, ← hlastpos, ← hslast]
    obtain ⟨q, hq⟩ : ∃ q, steps.getLast? = some q := ⟨_, getLast?_eq_some_getLast (by simp [hsteps])⟩
    rw [hq]
    cases cl with
    | false =>
      rw [hsteps', hlc, hcl]
      simp only [beq_self_eq_true, if_true, getLast?_append, getLast?_singleton, Option.some_or, Option.map_some, hg,
        Option.getD_some, Option.some.injEq, Prod.mk.injEq]
      rw [getLastD_eq_getLast?, htl, getLastD_eq_getLast?, hq]
      simp
    | true =>
      rw [hsteps', hlc, hcl]
      have hne : ¬ ((some true : Option Bool) == some false) = true := by decide
      rw [if_neg hne, hq]
      simp only [hg, Option.map_some, Option.getD_some, Option.some.injEq, Prod.mk.injEq, and_true]
      -- the last point of the curve is at the last failure, which is the last row
      have hfl : (S.filter (fun p => p.2)).getLast? = some (tl, true) := by
        obtain ⟨S0, hS0⟩ : ∃ S0, S = S0 ++ [(tl, true)] := by
          refine ⟨S.dropLast, ?_⟩
          have := dropLast_append_getLast hSne
          rw [getLast?_eq_some_getLast hSne, Option.some.injEq] at hSl
          rw [hSl] at this
          exact this.symm
        rw [hS0]
        simp [filter_append]
      have hq2 : (x.zip y).getLast? = some q := by
        have hne2 : x.zip y ≠ [] := by
          intro hh
          have := congrArg length hh
          rw [length_zip, hxl, length_map, hyl, min_self] at this
          have h00 : S.filter (fun p => p.2) = [] := length_eq_zero_iff.1 this
          rw [h00] at hfl
          simp at hfl
        rw [← hq, hslast]
        cases hzz : x.zip y with
        | nil => exact absurd hzz hne2
        | cons p L => rw [getLast?_cons_cons]
      have hxlast : x.getLast? = some tl := by rw [hxl, getLast?_map, hfl]; rfl
      have hxy : x.length ≤ y.length := by rw [hyl, hxl]; simp
      have := congrArg (Option.map Prod.fst) hq2
      rw [← getLast?_map, map_fst_zip hxy, hxlast] at this
      simpa using this.symm

/-- **C18 (CHF).** In each result the CHF array has one entry per xval: `-ln(SF)` where SF is not 0 and
`inf` where SF is 0. -/
theorem C18_CHF (log : K → K) (r : Result K) :
    (r.CHF log).length = r.SF.length ∧ ∀ (k : Nat) (s : K), r.SF[k]? = some s →
      (s ≠ 0 → (r.CHF log)[k]? = some (.fin (-(log s)))) ∧ (s = 0 → (r.CHF log)[k]? = some .pinf) := by
  refine ⟨by simp [Result.CHF], fun k s hs => ⟨fun h => ?_, fun h => ?_⟩⟩
  · simp [Result.CHF, getElem?_map, hs, negLog, h]
  · simp [Result.CHF, getElem?_map, hs, negLog, h]

end

end Reliability.NP

import Verif.Spec.PoF
import Mathlib.Tactic.NormNum
import Mathlib.Data.List.TakeWhile
import Mathlib.Tactic.Linarith

/-! # C63: creep_rupture_curves -/

namespace Reliability.Props.Creep

open Reliability Reliability.PoF List

/-- The rows of each temperature follow each other: between two rows with the same temperature there is no other one. -/
def Contiguous {α : Type} (temps : List α) : Prop :=
  ∀ T l₁ l₂ l₃, temps = l₁ ++ T :: (l₂ ++ T :: l₃) → ∀ x ∈ l₂, x = T

theorem Contiguous.suffix {α : Type} {a b : List α} (h : Contiguous (a ++ b)) : Contiguous b := by
  rintro T l₁ l₂ l₃ rfl
  exact h T (a ++ l₁) l₂ l₃ (by simp)

/-- In particular data sorted by temperature are contiguous. -/
theorem contiguous_of_sorted {temps : List ℝ} (h : temps.Pairwise (· ≤ ·)) : Contiguous temps := by
  rintro T l₁ l₂ l₃ rfl x hx
  rw [pairwise_append, pairwise_cons, pairwise_append] at h
  exact le_antisymm (h.2.1.2.2.2 x hx T mem_cons_self) (h.2.1.1 x (mem_append_left _ hx))

/-- Data made of blocks, one per temperature. -/
def ofBlocks {α β : Type} (bs : List (α × List β)) : List (α × β) := bs.flatMap fun b => b.2.map fun x => (b.1, x)

theorem mem_ofBlocks {α β : Type} {bs : List (α × List β)} (hne : ∀ b ∈ bs, b.2 ≠ []) (T : α) :
    T ∈ (ofBlocks bs).map Prod.fst ↔ T ∈ bs.map Prod.fst := by
  simp only [ofBlocks, mem_map, mem_flatMap]
  constructor
  · rintro ⟨r, ⟨b, hb, x, -, rfl⟩, rfl⟩; exact ⟨b, hb, rfl⟩
  · rintro ⟨b, hb, rfl⟩
    obtain ⟨x, l, hx⟩ := exists_cons_of_ne_nil (hne b hb)
    exact ⟨(b.1, x), ⟨b, hb, x, by rw [hx]; exact mem_cons_self, rfl⟩, rfl⟩

theorem exists_blocks {α β : Type} [DecidableEq α] (rs : List (α × β)) (h : Contiguous (rs.map Prod.fst)) :
    ∃ bs : List (α × List β), (∀ b ∈ bs, b.2 ≠ []) ∧ (bs.map Prod.fst).Nodup ∧ rs = ofBlocks bs := by
  induction hn : rs.length using Nat.strong_induction_on generalizing rs with
  | _ n ih =>
    cases rs with
    | nil => exact ⟨[], by simp, by simp, rfl⟩
    | cons r rest =>
      obtain ⟨T, x⟩ := r
      set tw := rest.takeWhile (fun r => r.1 = T) with htw
      set dw := rest.dropWhile (fun r => r.1 = T) with hdw
      have hsplit : rest = tw ++ dw := (takeWhile_append_dropWhile ..).symm
      have htwT : ∀ r ∈ tw, r.1 = T := fun r hr => by simpa using (List.mem_takeWhile_imp hr)
      have hTdw : T ∉ dw.map Prod.fst := by
        intro hT
        cases hd : dw with
        | nil => rw [hd] at hT; simp at hT
        | cons r' dw' =>
          have hr' : r'.1 ≠ T := by
            have := head?_dropWhile_not (fun r : α × β => decide (r.1 = T)) rest
            rw [← hdw, hd] at this
            simpa using this
          rw [hd, map_cons, mem_cons] at hT
          have hT := hT.resolve_left (fun h => hr' h.symm)
          obtain ⟨l₂, l₃, e⟩ := append_of_mem hT
          have := h T [] (tw.map Prod.fst ++ r'.1 :: l₂) l₃ (by rw [map_cons, hsplit, hd, map_append, map_cons, e]; simp)
          exact hr' (this r'.1 (by simp))
      have hcont : Contiguous (dw.map Prod.fst) := by
        apply Contiguous.suffix (a := ((T, x) :: tw).map Prod.fst)
        rw [← map_append]
        have : (T, x) :: tw ++ dw = (T, x) :: rest := by rw [hsplit]; rfl
        rw [this]; exact h
      obtain ⟨bs, h1, h2, h3⟩ := ih dw.length (by
        rw [← hn, hsplit]; simp) dw hcont rfl
      refine ⟨(T, x :: tw.map Prod.snd) :: bs, ?_, ?_, ?_⟩
      · intro b hb
        rcases mem_cons.1 hb with rfl | hb
        · simp
        · exact h1 b hb
      · rw [map_cons, nodup_cons]
        refine ⟨?_, h2⟩
        rw [← mem_ofBlocks h1, ← h3]; exact hTdw
      · have htw2 : tw = (tw.map Prod.snd).map fun y => (T, y) := by
          rw [map_map]
          conv_lhs => rw [← map_id tw]
          apply map_congr_left
          rintro ⟨a, b⟩ hr
          have := htwT _ hr
          simp only at this
          simp [this]
        have : ofBlocks ((T, x :: tw.map Prod.snd) :: bs) = (T, x) :: (tw ++ ofBlocks bs) := by
          conv_rhs => rw [htw2]
          simp [ofBlocks]
        rw [this, ← h3, ← hsplit]

theorem firstRows_skip {α : Type} [DecidableEq α] (T : α) (n : ℕ) (l seen : List α) (i : ℕ) (h : T ∈ seen) :
    firstRows (replicate n T ++ l) seen i = firstRows l seen (i + n) := by
  induction n generalizing i with
  | zero => rfl
  | succ n ih => rw [replicate_succ, cons_append, firstRows, if_pos h, ih]; congr 1; omega

theorem firstRows_blocks {α β : Type} [DecidableEq α] (bs : List (α × List β)) (hne : ∀ b ∈ bs, b.2 ≠ [])
    (hnd : (bs.map Prod.fst).Nodup) (seen : List α) (hs : ∀ b ∈ bs, b.1 ∉ seen) (pre : List β) :
    curves (pre ++ (ofBlocks bs).map Prod.snd) (firstRows ((ofBlocks bs).map Prod.fst) seen pre.length) = bs ∧
      (firstRows ((ofBlocks bs).map Prod.fst) seen pre.length).head?.map Prod.snd =
        if bs = [] then none else some pre.length := by
  induction bs generalizing seen pre with
  | nil => simp [ofBlocks, firstRows, curves]
  | cons b bs ih =>
    obtain ⟨T, xs⟩ := b
    obtain ⟨x, xs', hx⟩ := exists_cons_of_ne_nil (hne _ mem_cons_self)
    simp only at hx
    subst hx
    rw [map_cons, nodup_cons] at hnd
    have hT : T ∉ seen := hs _ mem_cons_self
    have hfst : (ofBlocks ((T, x :: xs') :: bs)).map Prod.fst =
        T :: (replicate xs'.length T ++ (ofBlocks bs).map Prod.fst) := by
      simp [ofBlocks, map_map, Function.comp_def, map_const']
    have hsnd : (ofBlocks ((T, x :: xs') :: bs)).map Prod.snd = (x :: xs') ++ (ofBlocks bs).map Prod.snd := by
      simp [ofBlocks, map_map, Function.comp_def]
    have hfr : firstRows ((ofBlocks ((T, x :: xs') :: bs)).map Prod.fst) seen pre.length =
        (T, pre.length) :: firstRows ((ofBlocks bs).map Prod.fst) (seen ++ [T]) (pre ++ (x :: xs')).length := by
      rw [hfst, firstRows, if_neg hT, firstRows_skip _ _ _ _ _ (by simp)]
      congr 2
      simp; omega
    obtain ⟨ih1, ih2⟩ := ih (fun b hb => hne b (mem_cons_of_mem _ hb)) hnd.2 (seen ++ [T]) (by
      intro b hb h
      rcases mem_append.1 h with h | h
      · exact hs b (mem_cons_of_mem _ hb) h
      · rw [mem_singleton] at h
        exact hnd.1 (mem_map.2 ⟨b, hb, h⟩)) (pre ++ (x :: xs'))
    rw [hfr]
    refine ⟨?_, by simp⟩
    rw [hsnd, ← append_assoc]
    cases hc : firstRows ((ofBlocks bs).map Prod.fst) (seen ++ [T]) (pre ++ (x :: xs')).length with
    | nil =>
      rw [hc] at ih1 ih2
      have hbs : bs = [] := by
        by_contra h; rw [if_neg h] at ih2; cases ih2
      subst hbs
      simp [curves, slice, ofBlocks, take_of_length_le]
    | cons q rest =>
      obtain ⟨T', j⟩ := q
      rw [hc] at ih1 ih2
      have hbs : bs ≠ [] := by rintro rfl; simp at ih2
      rw [if_neg hbs] at ih2
      simp only [head?_cons, Option.map_some, Option.some.injEq] at ih2
      rw [curves, ih1, ih2]
      congr 2
      unfold slice
      rw [take_left, drop_left]

theorem filter_blocks {α β : Type} [DecidableEq α] (bs : List (α × List β)) (hnd : (bs.map Prod.fst).Nodup)
    (b : α × List β) (hb : b ∈ bs) : ((ofBlocks bs).filter fun r => r.1 = b.1).map Prod.snd = b.2 := by
  induction bs with
  | nil => simp at hb
  | cons c bs ih =>
    rw [map_cons, nodup_cons] at hnd
    have hoth : ∀ T, T ∉ bs.map Prod.fst → (ofBlocks bs).filter (fun r => r.1 = T) = [] := by
      intro T hT
      rw [filter_eq_nil_iff]
      intro r hr hrT
      simp only [ofBlocks, mem_flatMap, mem_map] at hr
      obtain ⟨b', hb', x, -, rfl⟩ := hr
      apply hT
      have := of_decide_eq_true hrT
      exact this ▸ mem_map_of_mem hb'
    have hsplit : ofBlocks (c :: bs) = (c.2.map fun x => (c.1, x)) ++ ofBlocks bs := by simp [ofBlocks]
    rw [hsplit, filter_append, map_append]
    rcases mem_cons.1 hb with rfl | hb
    · rw [hoth _ hnd.1, map_nil, append_nil, filter_eq_self.2 (by simp)]
      simp [map_map, Function.comp_def]
    · have hne : c.1 ≠ b.1 := by
        rintro e; exact hnd.1 (e ▸ mem_map_of_mem hb)
      rw [ih hnd.2 hb, filter_eq_nil_iff.2 (by simp [hne]), map_nil, nil_append]

/-- **C63 (partial).** If the rows of each temperature are contiguous and a trace is given, there is one line per temperature
in the data, it is fitted to exactly the rows of that temperature, and the time read off lies on the trace temperature's
line at the trace stress.  Missing: other row orders (`C63_interleaved_finding`) and omitting the trace
(`C63_trace_required_finding`), for which the property is false. -/
theorem C63_lines_partial (polyfit : List (ℝ × ℝ) → ℝ × ℝ) (rows : List (ℝ × ℝ × ℝ)) (h2 : 2 ≤ rows.length)
    (hc : Contiguous (rows.map fun r => r.1)) (y T : ℝ) (hT : T ∈ rows.map fun r => r.1) :
    ∃ out, creepRuptureCurves polyfit (rows.map fun r => r.1) (rows.map fun r => r.2.1) (rows.map fun r => r.2.2)
        (some y) (some T) = .ok out ∧
      (out.lines.map fun l => l.1).Nodup ∧
      (∀ t, t ∈ out.lines.map (fun l => l.1) ↔ t ∈ rows.map fun r => r.1) ∧
      (∀ l ∈ out.lines,
        l.2.1 = (rows.filter fun r => r.1 = l.1).map (fun r => (r.2.2, r.2.1)) ∧
        l.2.2 = polyfit ((rows.filter fun r => r.1 = l.1).map fun r => (Real.logb 10 r.2.2, r.2.1))) ∧
      ∃ l ∈ out.lines, l.1 = T ∧ ∃ x, out.trace = [x] ∧ (l.2.2.1 ≠ 0 → l.2.2.1 * Real.logb 10 x + l.2.2.2 = y) := by
  set rs : List (ℝ × (ℝ × ℝ)) := rows.map fun r => (r.1, (r.2.2, r.2.1)) with hrs
  have hfst : rows.map (fun r => r.1) = rs.map Prod.fst := by rw [hrs, map_map]; rfl
  have hsnd : zip (rows.map fun r => r.2.2) (rows.map fun r => r.2.1) = rs.map Prod.snd := by
    rw [hrs, map_map, zip_map']; rfl
  rw [hfst] at hc hT
  obtain ⟨bs, hne, hnd, hbs⟩ := exists_blocks rs hc
  have hcur := (firstRows_blocks bs hne hnd [] (by simp) []).1
  rw [nil_append, length_nil, ← hbs] at hcur
  have huniq : ∀ (u : List (ℝ × ℕ)) (L : List (ℝ × ℝ)), (curves L u).map Prod.fst = u.map Prod.fst := by
    intro u L
    induction u with
    | nil => rfl
    | cons a u ih =>
      cases u with
      | nil => rfl
      | cons b u => rw [curves, map_cons, ih]; rfl
  have hu : (firstRows (rs.map Prod.fst) [] 0).map Prod.fst = bs.map Prod.fst := by rw [← huniq _ (rs.map Prod.snd), hcur]
  have hTb : T ∈ bs.map Prod.fst := by rw [← mem_ofBlocks hne, ← hbs]; exact hT
  have hrun : creepRuptureCurves polyfit (rows.map fun r => r.1) (rows.map fun r => r.2.1) (rows.map fun r => r.2.2)
        (some y) (some T) = .ok ⟨bs.map fun g => (g.1, g.2, polyfit (g.2.map fun r => (Real.logb 10 r.1, r.2))),
      ((bs.map fun g => (g.1, g.2, polyfit (g.2.map fun r => (Real.logb 10 r.1, r.2)))).filter
        fun l => some T = some l.1).filterMap fun l => (some y).map fun y => (10 : ℝ) ^ ((y - l.2.2.2) / l.2.2.1)⟩ := by
    unfold creepRuptureCurves
    rw [if_neg (by simp), if_neg (by simp; omega), if_neg (by simp), hfst]
    simp only
    rw [if_neg (by rw [hu]; simp only [not_not]; exact ⟨T, rfl, hTb⟩), hsnd, hcur]
  refine ⟨_, hrun, ?_, ?_, ?_, ?_⟩
  · simpa [map_map, Function.comp_def] using hnd
  · intro t
    rw [hfst, hbs, mem_ofBlocks hne]
    simp [map_map, Function.comp_def]
  · intro l hl
    obtain ⟨b, hb, rfl⟩ := mem_map.1 hl
    have hf := filter_blocks bs hnd b hb
    rw [← hbs, hrs, filter_map, map_map] at hf
    have e : b.2 = (rows.filter fun r => r.1 = b.1).map (fun r => (r.2.2, r.2.1)) := by
      rw [← hf]; rfl
    refine ⟨e, ?_⟩
    simp only
    rw [e, map_map]; rfl
  · obtain ⟨b, hb, hbT⟩ := mem_map.1 hTb
    refine ⟨_, mem_map_of_mem hb, hbT, ?_⟩
    have hflt : ((bs.map fun g => (g.1, g.2, polyfit (g.2.map fun r => (Real.logb 10 r.1, r.2)))).filter
        fun l => some T = some l.1) = [(b.1, b.2, polyfit (b.2.map fun r => (Real.logb 10 r.1, r.2)))] := by
      rw [filter_map]
      have : bs.filter ((fun l : ℝ × List (ℝ × ℝ) × ℝ × ℝ => decide (some T = some l.1)) ∘
          fun g => (g.1, g.2, polyfit (g.2.map fun r => (Real.logb 10 r.1, r.2)))) = [b] := by
        clear hrun hcur hbs hTb hu
        induction bs with
        | nil => simp at hb
        | cons c bs ih =>
          rw [map_cons, nodup_cons] at hnd
          rcases mem_cons.1 hb with rfl | hb
          · rw [filter_cons_of_pos (by simp [hbT])]
            congr 1
            rw [filter_eq_nil_iff]
            intro r hr
            simp only [Function.comp, Option.some.injEq, decide_eq_true_eq]
            rintro rfl
            exact hnd.1 (hbT ▸ mem_map_of_mem hr)
          · rw [filter_cons_of_neg]
            · exact ih (fun b hb => hne b (mem_cons_of_mem _ hb)) hnd.2 hb
            · simp only [Function.comp, Option.some.injEq, decide_eq_true_eq]
              rintro rfl
              exact hnd.1 (hbT ▸ mem_map_of_mem hb)
      rw [this, map_singleton]
    refine ⟨_, by rw [hflt]; rfl, fun hm => ?_⟩
    rw [Real.logb_rpow (by norm_num) (by norm_num)]
    field_simp
    ring

/-- **C63, finding.** Without a trace, the documented default, the function always raises ValueError. -/
theorem C63_trace_required_finding (polyfit : List (ℝ × ℝ) → ℝ × ℝ) (temps stresses ttfs : List ℝ) :
    creepRuptureCurves polyfit temps stresses ttfs none none = .error .valueError := by
  unfold creepRuptureCurves
  rw [if_neg (by simp)]
  split
  · rfl
  · split
    · rfl
    · simp

/-- **C63, finding.** If the data return to an earlier temperature, its later rows are fitted as part of the line of the
temperature in between: with rows at T, T', T the line of T' is fitted to the last row too and the line of T only to the
first. -/
theorem C63_interleaved_finding (polyfit : List (ℝ × ℝ) → ℝ × ℝ) (T T' s₁ s₂ s₃ t₁ t₂ t₃ y : ℝ) (h : T ≠ T') :
    ∃ out, creepRuptureCurves polyfit [T, T', T] [s₁, s₂, s₃] [t₁, t₂, t₃] (some y) (some T) = .ok out ∧
      out.lines.map (fun l => (l.1, l.2.1)) = [(T, [(t₁, s₁)]), (T', [(t₂, s₂), (t₃, s₃)])] := by
  have hf : firstRows [T, T', T] [] 0 = [(T, 0), (T', 1)] := by simp [firstRows, h.symm]
  unfold creepRuptureCurves
  rw [if_neg (by simp), if_neg (by simp), if_neg (by simp)]
  simp only [hf]
  rw [if_neg (by simp)]
  exact ⟨_, rfl, by simp [curves, slice]⟩

/-- **C63 (refusals).** A trace with only one of stress and temperature, a trace temperature that is not in the data,
different lengths and fewer than two rows are ValueErrors. -/
theorem C63_errors (polyfit : List (ℝ × ℝ) → ℝ × ℝ) (temps stresses ttfs : List ℝ) (y T : Option ℝ)
    (h : y.isSome ≠ T.isSome ∨ temps.length < 2 ∨ temps.length ≠ stresses.length ∨ temps.length ≠ ttfs.length ∨
      ∃ t, T = some t ∧ t ∉ temps) : creepRuptureCurves polyfit temps stresses ttfs y T = .error .valueError := by
  have hmem : ∀ (l seen : List ℝ) (i : ℕ) (t : ℝ), t ∈ (firstRows l seen i).map Prod.fst → t ∈ l := by
    intro l
    induction l with
    | nil => intro seen i t ht; simp [firstRows] at ht
    | cons a l ih =>
      intro seen i t ht
      rw [firstRows] at ht
      split at ht
      · exact mem_cons_of_mem _ (ih _ _ _ ht)
      · rw [map_cons, mem_cons] at ht
        rcases ht with rfl | ht
        · exact mem_cons_self
        · exact mem_cons_of_mem _ (ih _ _ _ ht)
  unfold creepRuptureCurves
  split
  · rfl
  · rename_i h1
    split
    · rfl
    · rename_i h2
      split
      · rfl
      · rename_i h3
        simp only
        rw [if_pos]
        rintro ⟨t, rfl, ht⟩
        rcases h with h | h | h | h | ⟨t', e, h⟩
        · cases y <;> simp at h h1
        · exact h2 (.inl h)
        · exact h3 (.inl h)
        · exact h3 (.inr h)
        · cases e; exact h (hmem _ _ _ _ ht)

/-- Concrete case: four rows at two temperatures. -/
example : ∃ out, creepRuptureCurves (fun _ => (-10, 120)) [900, 900, 1000, 1000] [90, 82, 80, 75] [37, 975, 7, 17]
    (some 80) (some 1000) = .ok out ∧ (out.lines.map fun l => l.1).Nodup := by
  obtain ⟨out, h, h1, -⟩ := C63_lines_partial (fun _ => (-10, 120))
    [(900, 90, 37), (900, 82, 975), (1000, 80, 7), (1000, 75, 17)] (by simp) (contiguous_of_sorted (by simp; norm_num))
    80 1000 (by simp)
  exact ⟨out, h, h1⟩

end Reliability.Props.Creep

import Verif.Lemmas.Greenwood

/-! Helper lemmas: step-plot arrays and the rank-adjustment column. -/

set_option linter.unusedSectionVars false

namespace Reliability.NP

open Reliability List

variable {K : Type _} [Field K] [LinearOrder K] [IsStrictOrderedRing K]

/-- `lo ≤ y ≤ up`, all finite. -/
def Brackets (lo : Ext K) (y : K) (up : Ext K) : Prop :=
  ∃ l u, lo = .fin l ∧ up = .fin u ∧ l ≤ y ∧ y ≤ u

theorem stepRest_brackets (prev : Row K) (rs : List (Row K))
    (h : ∀ r ∈ prev :: rs, Brackets r.lo r.est r.up) (k : Nat) (e : Entry K)
    (he : (stepRest prev rs)[k]? = some e) (y : K)
    (hy : (prev.est :: (stepRest prev rs).map Entry.y)[k]? = some y) : Brackets e.lo y e.up := by
  induction rs generalizing prev k e y with
  | nil => simp [stepRest] at he
  | cons r rs ih =>
    have hp := h prev (by simp)
    have ih' := ih r (fun r' hr' => h r' (by simp at hr' ⊢; tauto))
    rw [stepRest] at he hy
    split at he
    · next heq =>
      rw [if_pos heq] at hy
      cases k with
      | zero =>
        simp at he hy; subst he; subst hy; exact hp
      | succ k =>
        simp only [map_cons, getElem?_cons_succ] at he hy
        exact ih' k e he y hy
    · next hne =>
      rw [if_neg hne] at hy
      match k with
      | 0 => simp at he hy; subst he; subst hy; exact hp
      | 1 => simp at he hy; subst he; subst hy; exact hp
      | k + 2 =>
        simp only [map_cons, getElem?_cons_succ] at he hy
        exact ih' k e he y hy

theorem stepEntries_brackets (c0 : Bool) (rows : List (Row K))
    (h : ∀ r ∈ rows, Brackets r.lo r.est r.up)
    (h0 : c0 = false → ∀ r, rows.head? = some r → r.est = 1) (k : Nat) (e : Entry K)
    (he : (stepEntries c0 rows)[k]? = some e) (y : K)
    (hy : (1 :: (stepEntries c0 rows).map Entry.y)[k]? = some y) : Brackets e.lo y e.up := by
  have h1 : Brackets (Ext.fin (1 : K)) 1 (.fin 1) := ⟨1, 1, rfl, rfl, le_rfl, le_rfl⟩
  cases rows with
  | nil => simp [stepEntries] at he
  | cons r rs =>
    rw [stepEntries] at he hy
    cases c0 with
    | true =>
      simp only [if_true] at he hy
      match k with
      | 0 => simp at he hy; subst he; subst hy; exact h1
      | 1 => simp at he hy; subst he; subst hy; exact h1
      | k + 2 =>
        simp only [cons_append, nil_append, map_cons, getElem?_cons_succ] at he hy
        exact stepRest_brackets r rs h k e he y hy
    | false =>
      simp only [Bool.false_eq_true, if_false] at he hy
      have hr := h0 rfl r (by simp)
      match k with
      | 0 => simp at he hy; subst he; subst hy; exact h1
      | k + 1 =>
        simp only [cons_append, nil_append, map_cons, getElem?_cons_succ] at he hy
        rw [← hr] at hy
        exact stepRest_brackets r rs h k e he y hy

theorem stepRest_mono (prev : Row K) (rs : List (Row K))
    (ht : (prev :: rs).Pairwise (fun a b => a.t ≤ b.t))
    (he : (prev :: rs).Pairwise (fun a b => b.est ≤ a.est)) :
    (prev.t :: (stepRest prev rs).map Entry.x).Pairwise (· ≤ ·) ∧
    (prev.est :: (stepRest prev rs).map Entry.y).Pairwise (· ≥ ·) := by
  induction rs generalizing prev with
  | nil => simp [stepRest]
  | cons r rs ih =>
    have ht' := pairwise_cons.1 ht
    have he' := pairwise_cons.1 he
    obtain ⟨hx, hy⟩ := ih r ht'.2 he'.2
    have htr : prev.t ≤ r.t := ht'.1 r (by simp)
    have her : r.est ≤ prev.est := he'.1 r (by simp)
    have hxc := pairwise_cons.1 hx
    have hyc := pairwise_cons.1 hy
    rw [stepRest]
    split
    · simp only [map_cons]
      refine ⟨pairwise_cons.2 ⟨?_, hx⟩, pairwise_cons.2 ⟨?_, hy⟩⟩
      · intro v hv
        rcases mem_cons.1 hv with rfl | hv
        · exact htr
        · exact htr.trans (hxc.1 v hv)
      · intro v hv
        rcases mem_cons.1 hv with rfl | hv
        · exact her
        · exact (hyc.1 v hv).le.trans her
    · simp only [map_cons]
      refine ⟨pairwise_cons.2 ⟨?_, pairwise_cons.2 ⟨?_, hx⟩⟩,
        pairwise_cons.2 ⟨?_, pairwise_cons.2 ⟨?_, hy⟩⟩⟩
      · intro v hv
        simp only [mem_cons] at hv
        rcases hv with rfl | rfl | hv
        · exact htr
        · exact htr
        · exact htr.trans (hxc.1 v hv)
      · intro v hv
        rcases mem_cons.1 hv with rfl | hv
        · exact le_rfl
        · exact hxc.1 v hv
      · intro v hv
        simp only [mem_cons] at hv
        rcases hv with rfl | rfl | hv
        · exact le_rfl
        · exact her
        · exact (hyc.1 v hv).le.trans her
      · intro v hv
        rcases mem_cons.1 hv with rfl | hv
        · exact her
        · exact (hyc.1 v hv).le.trans her

theorem stepEntries_mono (c0 : Bool) (rows : List (Row K))
    (ht : rows.Pairwise (fun a b => a.t ≤ b.t)) (h0 : ∀ r ∈ rows, 0 ≤ r.t)
    (he : rows.Pairwise (fun a b => b.est ≤ a.est)) (h1 : ∀ r ∈ rows, r.est ≤ 1) :
    (0 :: (stepEntries c0 rows).map Entry.x).Pairwise (· ≤ ·) ∧
    (1 :: (stepEntries c0 rows).map Entry.y).Pairwise (· ≥ ·) := by
  cases rows with
  | nil => simp [stepEntries]
  | cons r rs =>
    obtain ⟨hx, hy⟩ := stepRest_mono r rs ht he
    have hxc := pairwise_cons.1 hx
    have hyc := pairwise_cons.1 hy
    have hr0 := h0 r (by simp)
    have hr1 := h1 r (by simp)
    rw [stepEntries]
    cases c0 with
    | true =>
      simp only [if_true, cons_append, nil_append, map_cons]
      refine ⟨pairwise_cons.2 ⟨?_, pairwise_cons.2 ⟨?_, hx⟩⟩,
        pairwise_cons.2 ⟨?_, pairwise_cons.2 ⟨?_, hy⟩⟩⟩
      · intro v hv
        simp only [mem_cons] at hv
        rcases hv with rfl | rfl | hv
        · exact hr0
        · exact hr0
        · exact hr0.trans (hxc.1 v hv)
      · intro v hv
        rcases mem_cons.1 hv with rfl | hv
        · exact le_rfl
        · exact hxc.1 v hv
      · intro v hv
        simp only [mem_cons] at hv
        rcases hv with rfl | rfl | hv
        · exact le_rfl
        · exact hr1
        · exact (hyc.1 v hv).le.trans hr1
      · intro v hv
        rcases mem_cons.1 hv with rfl | hv
        · exact hr1
        · exact (hyc.1 v hv).le.trans hr1
    | false =>
      simp only [Bool.false_eq_true, if_false, cons_append, nil_append, map_cons]
      refine ⟨pairwise_cons.2 ⟨?_, hx⟩, pairwise_cons.2 ⟨?_, ?_⟩⟩
      · intro v hv
        simp only [mem_cons] at hv
        rcases hv with rfl | hv
        · exact hr0
        · exact hr0.trans (hxc.1 v hv)
      · intro v hv
        rcases mem_cons.1 hv with rfl | hv
        · exact le_rfl
        · exact (hyc.1 v hv).le.trans hr1
      · exact pairwise_cons.2 ⟨fun v hv => (hyc.1 v hv).le.trans hr1, hyc.2⟩

/-! ### rank adjustment -/

/-- The RA column written with the current value and the remaining plotting positions. -/
def raVals : K → List K → List Bool → List K
  | _, _, [] => []
  | v, Q, false :: cs => (1 - v) :: raVals v Q cs
  | v, [], true :: cs => (1 - v) :: raVals v [] cs
  | _, q :: Q, true :: cs => (1 - q) :: raVals q Q cs

theorem raLoop_eq (P : List K) (v : K) (Q : List K) (cs : List Bool)
    (hQ : Q.length = cs.count true) :
    raLoop (P ++ v :: Q) P.length cs = .ok (raVals v Q cs) := by
  induction cs generalizing P v Q with
  | nil => simp [raLoop, raVals]
  | cons c cs ih =>
    cases c with
    | false =>
      rw [raLoop]
      simp only [Bool.false_eq_true, if_false]
      rw [getElem?_append_right le_rfl]
      simp only [Nat.sub_self, getElem?_cons_zero]
      rw [ih P v Q (by simpa using hQ)]
      simp only [raVals]; rfl
    | true =>
      cases Q with
      | nil => simp at hQ
      | cons q Q =>
        rw [raLoop]
        simp only [if_true]
        have e : P ++ v :: q :: Q = (P ++ [v]) ++ q :: Q := by simp
        have hl : P.length + 1 = (P ++ [v]).length := by simp
        rw [e, hl, getElem?_append_right le_rfl]
        simp only [Nat.sub_self, getElem?_cons_zero]
        rw [ih (P ++ [v]) q Q (by simpa using hQ)]
        simp only [raVals]; rfl

theorem raVals_length (v : K) (Q : List K) (cs : List Bool) : (raVals v Q cs).length = cs.length := by
  induction cs generalizing v Q with
  | nil => simp [raVals]
  | cons c cs ih => cases c <;> cases Q <;> simp [raVals, ih]

/-- Non-increasing and bounded, if the positions are increasing. -/
theorem raVals_mono (v : K) (Q : List K) (cs : List Bool) (hQ : (v :: Q).Pairwise (· ≤ ·)) :
    (raVals v Q cs).Pairwise (· ≥ ·) ∧ (∀ e ∈ raVals v Q cs, ∃ w ∈ v :: Q, e = 1 - w ∧ v ≤ w) ∧
      ConstCens (1 - v) (cs.zip (raVals v Q cs)) := by
  induction cs generalizing v Q with
  | nil => simp [raVals, ConstCens]
  | cons c cs ih =>
    cases c with
    | false =>
      obtain ⟨h1, h2, h3⟩ := ih v Q hQ
      rw [raVals]
      refine ⟨pairwise_cons.2 ⟨?_, h1⟩, ?_, ?_⟩
      · intro e he; obtain ⟨w, hw, rfl, hvw⟩ := h2 e he; simp only [ge_iff_le]; linarith
      · intro e he
        rcases mem_cons.1 he with rfl | he
        · exact ⟨v, by simp, rfl, le_rfl⟩
        · exact h2 e he
      · exact ⟨fun _ => rfl, h3⟩
    | true =>
      cases Q with
      | nil =>
        obtain ⟨h1, h2, h3⟩ := ih v [] hQ
        rw [raVals]
        refine ⟨pairwise_cons.2 ⟨?_, h1⟩, ?_, ?_⟩
        · intro e he; obtain ⟨w, hw, rfl, hvw⟩ := h2 e he; simp only [ge_iff_le]; linarith
        · intro e he
          rcases mem_cons.1 he with rfl | he
          · exact ⟨v, by simp, rfl, le_rfl⟩
          · exact h2 e he
        · exact ⟨fun _ => rfl, h3⟩
      | cons q Q =>
        have hc := pairwise_cons.1 hQ
        have hvq : v ≤ q := hc.1 q (by simp)
        obtain ⟨h1, h2, h3⟩ := ih q Q hc.2
        rw [raVals]
        refine ⟨pairwise_cons.2 ⟨?_, h1⟩, ?_, ?_⟩
        · intro e he; obtain ⟨w, hw, rfl, hvw⟩ := h2 e he; simp only [ge_iff_le]; linarith
        · intro e he
          rcases mem_cons.1 he with rfl | he
          · exact ⟨q, by simp, rfl, hvq⟩
          · obtain ⟨w, hw, rfl, hqw⟩ := h2 e he
            exact ⟨w, mem_cons_of_mem _ hw, rfl, hvq.trans hqw⟩
        · exact ⟨fun h => by simp at h, h3⟩

theorem raVals_spec (a : K) (A B : List (K × Bool)) (v : K)
    (hv : 1 - v = if A.length = 0 then 1 else Spec.rankSF a (A ++ B) (A.length - 1)) :
    raVals v (((List.range' A.length B.length).filter (PP.Spec.isFail (A ++ B))).map
        fun i => (PP.Spec.rank (A ++ B) i - a) / (((A ++ B).length : K) + 1 - 2 * a)) (B.map Prod.snd) =
      (List.range' A.length B.length).map (Spec.rankSF a (A ++ B)) := by
  induction B generalizing A v with
  | nil => simp [raVals]
  | cons b B ih =>
    have hb : PP.Spec.isFail (A ++ b :: B) A.length = b.2 := by
      have := PP.isFail_append_right A (b :: B) 0
      simpa [PP.Spec.isFail] using this
    have hab : A ++ b :: B = (A ++ [b]) ++ B := by simp
    have hlen : (A ++ [b]).length = A.length + 1 := by simp
    have hins : Spec.failsUpTo (A ++ b :: B) A.length = if b.2 then
        insert A.length ((Finset.range A.length).filter
          (fun j => PP.Spec.isFail (A ++ b :: B) j = true)) else
        (Finset.range A.length).filter (fun j => PP.Spec.isFail (A ++ b :: B) j = true) := by
      unfold Spec.failsUpTo
      rw [Finset.range_add_one, Finset.filter_insert, hb]
    rw [length_cons, range'_succ, map_cons, filter_cons, hb, map_cons]
    have hrec : ∀ w, 1 - w = Spec.rankSF a (A ++ b :: B) A.length →
        raVals w (((List.range' (A.length + 1) B.length).filter (PP.Spec.isFail (A ++ b :: B))).map
          fun i => (PP.Spec.rank (A ++ b :: B) i - a) / (((A ++ b :: B).length : K) + 1 - 2 * a))
          (B.map Prod.snd) =
        (List.range' (A.length + 1) B.length).map (Spec.rankSF a (A ++ b :: B)) := by
      intro w hw
      have := ih (A ++ [b]) w (by rw [← hab, hlen]; simpa using hw)
      rw [← hab, hlen] at this
      exact this
    cases hfb : b.2 with
    | false =>
      simp only [Bool.false_eq_true, if_false]
      rw [raVals]
      have hw : 1 - v = Spec.rankSF a (A ++ b :: B) A.length := by
        rw [hv]
        split
        · next h0 =>
          have : A = [] := by simpa using h0
          subst this
          unfold Spec.rankSF
          rw [if_pos (by rw [hins, hfb]; simp)]; simp
        · next h0 =>
          have hf : Spec.failsUpTo (A ++ b :: B) (A.length - 1) = Spec.failsUpTo (A ++ b :: B) A.length := by
            rw [hins, hfb]
            unfold Spec.failsUpTo
            rw [show A.length - 1 + 1 = A.length by omega]; simp
          have hr : PP.Spec.rank (A ++ b :: B) (A.length - 1) = PP.Spec.rank (A ++ b :: B) A.length := by
            unfold PP.Spec.rank
            rw [show A.length - 1 + 1 = A.length by omega, Finset.range_add_one, Finset.filter_insert, hb]
            simp [hfb]
          unfold Spec.rankSF
          rw [hf, hr]
      rw [hrec v hw, hw]
    | true =>
      simp only [if_true, map_cons]
      rw [raVals]
      have hw : 1 - (PP.Spec.rank (A ++ b :: B) A.length - a) / (((A ++ b :: B).length : K) + 1 - 2 * a)
          = Spec.rankSF a (A ++ b :: B) A.length := by
        unfold Spec.rankSF
        rw [if_neg]
        rw [hins, hfb]
        simp
      rw [hrec _ hw, hw]

end Reliability.NP

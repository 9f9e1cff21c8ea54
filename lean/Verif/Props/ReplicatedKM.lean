import Verif.Spec.DataOrder
import Verif.Props.NonparametricOrder
import Verif.Props.Nonparametric2

/-! # C181: Kaplan-Meier and Nelson-Aalen when every item is entered several times -/

namespace Reliability.Props.ReplicatedKM

open Reliability Reliability.NP Reliability.Props List
open Reliability.Spec (NoChoice NoSharedTime)

/-- `l'` are the items of `l`, each entered `k` times, in any order. -/
def Times (k : ℕ) (l l' : List ℝ) : Prop := ∀ t, l'.count t = k * l.count t

/-- Every item of `S` `k` times in a row. -/
abbrev rep {α : Type} (k : ℕ) (S : List α) : List α := S.flatMap (replicate k)

theorem count_rep {α : Type} [DecidableEq α] (k : ℕ) (S : List α) (a : α) : (rep k S).count a = k * S.count a := by
  induction S with
  | nil => simp [rep]
  | cons x S ih =>
    simp only [rep, flatMap_cons, count_append, count_replicate, count_cons] at ih ⊢
    rw [ih]; by_cases h : x = a <;> simp [h]; ring

theorem length_rep {α : Type} (k : ℕ) (S : List α) : (rep k S).length = k * S.length := by
  simp [rep, length_flatMap, Nat.mul_comm]

theorem map_rep {α β : Type} (k : ℕ) (S : List α) (g : α → β) : (rep k S).map g = rep k (S.map g) := by
  simp [rep, map_flatMap, flatMap_map, map_replicate]

theorem Times.perm {k : ℕ} {l l' : List ℝ} (h : Times k l l') : l' ~ rep k l :=
  perm_iff_count.2 fun t => by rw [h t, count_rep]

theorem getElem_rep {α : Type} (k : ℕ) (S : List α) (i b : ℕ) (hb : b < k) : (rep k S)[k * i + b]? = S[i]? := by
  induction S generalizing i with
  | nil => simp [rep]
  | cons x S ih =>
    rw [rep, flatMap_cons]
    cases i with
    | zero => simp [getElem?_append, hb]
    | succ i =>
      rw [getElem?_append_right (by simp; nlinarith)]
      have : k * (i + 1) + b - (replicate k x).length = k * i + b := by simp; rw [Nat.mul_succ]; omega
      rw [this, getElem?_cons_succ]; exact ih i

variable {argsort argsort' : List ℝ → List ℕ}

theorem sorted_rep {k : ℕ} {f f' rc rc' : List ℝ} (hn : NoChoice argsort argsort' f rc) (hf : Times k f f') (hr : Times k rc rc') :
    sortedData argsort' f' rc' = rep k (sortedData argsort f rc) := by
  have ha : IsArgsort argsort := by rcases hn with h | h; exacts [h.1.1, h.1]
  have ha' : IsArgsort argsort' := by rcases hn with h | h; exacts [h.2.1, h.2.1]
  have hp : sortedData argsort' f' rc' ~ rep k (sortedData argsort f rc) := by
    refine (sortedData_perm ha' f' rc').trans ?_
    refine Perm.trans ?_ ((sortedData_perm ha f rc).symm.flatMap_right (replicate k))
    unfold Spec.tagged
    rw [flatMap_append]
    refine Perm.append ?_ ?_
    · have := hf.perm.map fun t => (t, true)
      rwa [map_rep] at this
    · have := hr.perm.map fun t => (t, false)
      rwa [map_rep] at this
  have hs : (rep k (sortedData argsort f rc)).Pairwise fun p q => p.1 ≤ q.1 := by
    rw [pairwise_flatMap]
    refine ⟨fun a _ => pairwise_replicate.2 (Or.inr le_rfl), (sortedData_sorted ha f rc).imp ?_⟩
    intro a b h x hx y hy
    rw [eq_of_mem_replicate hx, eq_of_mem_replicate hy]; exact h
  rcases hn with ⟨h, h'⟩ | ⟨-, -, hn⟩
  · have hs2 : (rep k (sortedData argsort f rc)).Pairwise fun p q => p.1 = q.1 → q.2 = true → p.2 = true := by
      rw [pairwise_flatMap]
      refine ⟨fun a _ => pairwise_replicate.2 (Or.inr fun _ h => h), (stable_failuresFirst h f rc).imp ?_⟩
      intro a b h x hx y hy
      rw [eq_of_mem_replicate hx, eq_of_mem_replicate hy]; exact h
    have p1 := (sortedData_sorted h'.1 f' rc').and (stable_failuresFirst h' f' rc')
    refine hp.eq_of_pairwise (le := fun p q => p.1 ≤ q.1 ∧ (p.1 = q.1 → q.2 = true → p.2 = true)) ?_ p1 (hs.and hs2)
    rintro ⟨t, c⟩ ⟨t', c'⟩ _ _ ⟨h1, k1⟩ ⟨h2, k2⟩
    obtain rfl : t = t' := le_antisymm h1 h2
    cases c <;> cases c' <;> simp_all
  · refine hp.eq_of_pairwise (le := fun p q => p.1 ≤ q.1) ?_ (sortedData_sorted ha' _ _) hs
    have hmem : ∀ q ∈ rep k (sortedData argsort f rc), q ∈ Spec.tagged f rc := by
      intro q hq
      obtain ⟨a, h1, h2⟩ := mem_flatMap.1 hq
      rw [eq_of_mem_replicate h2]; exact (sortedData_perm ha f rc).mem_iff.1 h1
    rintro ⟨t, c⟩ ⟨t', c'⟩ hm hm' h1 h2
    obtain rfl : t = t' := le_antisymm h1 h2
    have m1 := hmem _ (hp.mem_iff.1 hm)
    have m2 := hmem _ hm'
    simp only [Spec.tagged, mem_append, mem_map, Prod.mk.injEq] at m1 m2
    cases c <;> cases c'
    · rfl
    · obtain ⟨x, hx, rfl, -⟩ | ⟨x, hx, rfl, he⟩ := m2
      · obtain ⟨y, hy, -, he⟩ | ⟨y, hy, rfl, -⟩ := m1
        · cases he
        · exact absurd hy (hn _ hx)
      · cases he
    · obtain ⟨x, hx, rfl, -⟩ | ⟨x, hx, rfl, he⟩ := m1
      · obtain ⟨y, hy, -, he⟩ | ⟨y, hy, rfl, -⟩ := m2
        · cases he
        · exact absurd hy (hn _ hx)
      · cases he
    · rfl

/-- A block of `j + 1` copies: the survival left at its end. -/
theorem km_block (p : ℝ) (c : Bool) (j : ℕ) (R : List Bool) :
    ∃ L : List ℝ, L.length = j ∧ kmLoop (some p) (replicate (j + 1) c ++ R) =
      L ++ (((R.length : ℝ) + (j + 1) - (j + 1) * code c) / (R.length + (j + 1)) * p) ::
        kmLoop (some (((R.length : ℝ) + (j + 1) - (j + 1) * code c) / (R.length + (j + 1)) * p)) R := by
  induction j generalizing p with
  | zero =>
    refine ⟨[], rfl, ?_⟩
    simp [kmLoop]
  | succ j ih =>
    have h1 : (R.length : ℝ) + (j + 1) ≠ 0 := by positivity
    have h2 : (R.length : ℝ) + (j + 1 + 1) ≠ 0 := by positivity
    obtain ⟨L, hL, h⟩ := ih ((((R.length : ℝ) + (j + 1 + 1) - code c) / (R.length + (j + 1 + 1))) * p)
    have e : (((R.length : ℝ) + (j + 1) - (j + 1) * code c) / (R.length + (j + 1)) *
        ((((R.length : ℝ) + (j + 1 + 1) - code c) / (R.length + (j + 1 + 1))) * p)) =
        (((R.length : ℝ) + ((j + 1 : ℕ) + 1) - ((j + 1 : ℕ) + 1) * code c) / (R.length + ((j + 1 : ℕ) + 1)) * p) := by
      push_cast
      cases c
      · simp only [code]; simp; field_simp
      · simp only [code]; simp; field_simp; ring
    rw [e] at h
    refine ⟨(((R.length : ℝ) + (j + 1 + 1) - code c) / (R.length + (j + 1 + 1))) * p :: L, by simp [hL], ?_⟩
    rw [replicate_succ, cons_append]
    simp only [kmLoop, cons_append]
    rw [← h]
    have : ((length (replicate (j + 1) c ++ R) + 1 : ℕ) : ℝ) = R.length + (j + 1 + 1) := by simp; ring
    rw [this]

theorem km_rep (k : ℕ) (hk : 0 < k) (p : ℝ) (cs : List Bool) (i : ℕ) :
    (kmLoop (some p) (rep k cs))[k * i + (k - 1)]? = (kmLoop (some p) cs)[i]? := by
  obtain ⟨j, rfl⟩ : ∃ j, k = j + 1 := ⟨k - 1, by omega⟩
  induction cs generalizing p i with
  | nil => simp [rep, kmLoop]
  | cons c cs ih =>
    obtain ⟨L, hL, h⟩ := km_block p c j (rep (j + 1) cs)
    have e : (((rep (j + 1) cs).length : ℝ) + (j + 1) - (j + 1) * code c) / ((rep (j + 1) cs).length + (j + 1)) * p =
        (((cs.length + 1 : ℕ) : ℝ) - code c) / ((cs.length + 1 : ℕ) : ℝ) * p := by
      rw [length_rep]; push_cast
      have : (cs.length : ℝ) + 1 ≠ 0 := by positivity
      have : (j : ℝ) + 1 ≠ 0 := by positivity
      congr 1
      rw [div_eq_div_iff (by positivity) (by positivity)]; ring
    rw [e] at h
    show (kmLoop (some p) (replicate (j + 1) c ++ rep (j + 1) cs))[_]? = _
    rw [h, kmLoop]
    cases i with
    | zero => simp [hL]
    | succ i =>
      have := ih ((((cs.length + 1 : ℕ) : ℝ) - code c) / ((cs.length + 1 : ℕ) : ℝ) * p) i
      rw [getElem?_cons_succ, ← this, getElem?_append_right (by rw [hL]; nlinarith),
        show (j + 1) * (i + 1) + (j + 1 - 1) - L.length = ((j + 1) * i + (j + 1 - 1)) + 1 from by rw [hL, Nat.mul_succ]; omega,
        getElem?_cons_succ]

theorem isFail_rep (k : ℕ) (S : List (ℝ × Bool)) (i b : ℕ) (hb : b < k) :
    PP.Spec.isFail (rep k S) (k * i + b) = PP.Spec.isFail S i := by
  unfold PP.Spec.isFail; rw [getElem_rep k S i b hb]

/-- A sum over the failures so far, copy by copy. -/
theorem sum_rep (k : ℕ) (hk : 0 < k) (S : List (ℝ × Bool)) (w : ℕ → ℝ) (i : ℕ) :
    ∑ j ∈ Spec.failsUpTo (rep k S) (k * i + (k - 1)), w j =
      ∑ j ∈ Spec.failsUpTo S i, ∑ b ∈ Finset.range k, w (k * j + b) := by
  unfold Spec.failsUpTo
  rw [show k * i + (k - 1) + 1 = k * (i + 1) from by rw [Nat.mul_succ]; omega]
  generalize i + 1 = n
  rw [Finset.sum_filter, Finset.sum_filter]
  induction n with
  | zero => simp
  | succ n ih =>
    rw [Nat.mul_succ, Finset.sum_range_add, ih, Finset.sum_range_succ]
    congr 1
    rw [← Finset.sum_filter, ]
    by_cases h : PP.Spec.isFail S n = true
    · rw [if_pos h, Finset.filter_true_of_mem]
      intro b hb
      rw [isFail_rep k S n b (Finset.mem_range.1 hb)]; exact h
    · rw [if_neg h, Finset.filter_false_of_mem, Finset.sum_empty]
      intro b hb
      rw [isFail_rep k S n b (Finset.mem_range.1 hb)]; exact h

theorem greenwood_block (k m : ℕ) (hm : 2 ≤ m) :
    ∀ n ≤ k, ∑ b ∈ Finset.range n, 1 / (((k * m - b : ℕ) : ℝ) * (((k * m - b : ℕ) : ℝ) - 1)) =
      1 / ((k * m : ℝ) - n) - 1 / (k * m : ℝ) := by
  intro n
  induction n with
  | zero => simp
  | succ n ih =>
    intro hn
    rw [Finset.sum_range_succ, ih (by omega)]
    have h1 : n + 1 < k * m := by nlinarith
    have h2 : ((k * m - n : ℕ) : ℝ) = k * m - n := by rw [Nat.cast_sub (by omega)]; push_cast; rfl
    rw [h2]
    have h3 : (n : ℝ) + 1 < k * m := by exact_mod_cast h1
    have h4 : (k : ℝ) * m - n ≠ 0 := by linarith
    have h5 : (k : ℝ) * m - n - 1 ≠ 0 := by linarith
    have h6 : (k : ℝ) * m - (n + 1) ≠ 0 := by intro h; apply h5; linarith
    push_cast
    have : (1:ℝ) / (k * m - (n + 1)) = 1 / (k * m - n) + 1 / ((k * m - n) * (k * m - n - 1)) := by
      rw [show (k : ℝ) * m - (n + 1) = k * m - n - 1 from by ring]
      field_simp; ring
    rw [this]; ring

theorem greenwood_rep (k : ℕ) (hk : 0 < k) (S : List (ℝ × Bool)) (i : ℕ) (hi : i + 1 < S.length) :
    Spec.greenwoodSum (rep k S) (k * i + (k - 1)) = Spec.greenwoodSum S i / k := by
  unfold Spec.greenwoodSum
  rw [sum_rep k hk S (fun j => 1 / ((((rep k S).length - j : ℕ) : ℝ) * ((((rep k S).length - j : ℕ) : ℝ) - 1))) i, Finset.sum_div]
  refine Finset.sum_congr rfl fun j hj => ?_
  have hj' : j < i + 1 := Finset.mem_range.1 (Finset.mem_of_mem_filter j hj)
  have hm : 2 ≤ S.length - j := by omega
  have hk' : (k : ℝ) ≠ 0 := by positivity
  have := greenwood_block k (S.length - j) hm k le_rfl
  rw [length_rep]
  have e : ∀ b, k * S.length - (k * j + b) = k * (S.length - j) - b := by
    intro b; rw [Nat.mul_sub, Nat.sub_sub]
  simp only [e]
  rw [this]
  have h2 : (2 : ℝ) ≤ ((S.length - j : ℕ) : ℝ) := by exact_mod_cast hm
  generalize ((S.length - j : ℕ) : ℝ) = m at h2 ⊢
  have h3 : m - 1 ≠ 0 := by linarith
  have h4 : m ≠ 0 := by linarith
  have h5 : (k : ℝ) * m - k ≠ 0 := by
    rw [show (k : ℝ) * m - k = k * (m - 1) from by ring]; exact mul_ne_zero hk' h3
  rw [show (k : ℝ) * m - k = k * (m - 1) from by ring]
  field_simp; ring

theorem Times.length {k : ℕ} {l l' : List ℝ} (h : Times k l l') : l'.length = k * l.length := by
  rw [h.perm.length_eq, length_rep]

theorem zip_unzip (S : List (ℝ × Bool)) : (S.map Prod.fst).zip (S.map Prod.snd) = S := by
  rw [zip_map', map_id'']; intro x; rfl

variable {ppf : ℝ → Ext ℝ} {CI : ℝ} {plot_type : String} {f f' : List ℝ} {rc rc' : Option (List ℝ)}

/-- **C181.** `KaplanMeier` on the items of the data, each entered `k` times (in any order): it answers whenever it answers
on the data, with `k` rows for every row; the last of the `k` rows has the same time and code and reads the same estimate, and
half the width of the confidence interval (before it is cut at 0 and 1) is divided by `√k`. -/
theorem C181_kaplan_meier {k : ℕ} (hk : 0 < k) (hn : NoChoice argsort argsort' f (rc.getD [])) (hf : Times k f f')
    (hr : Times k (rc.getD []) (rc'.getD [])) {z : ℝ} (hz : ppf (1 - (1 - CI) / 2) = .fin z) {r : Result ℝ}
    (h : kaplanMeier argsort Real.sqrt ppf (some f) rc CI plot_type = .ok r) :
    ∃ r', kaplanMeier argsort' Real.sqrt ppf (some f') rc' CI plot_type = .ok r' ∧
      r'.data.length = k * r.data.length ∧
      ∀ i < r.data.length, ∃ e w : ℝ,
        r'.data[k * i + (k - 1)]? = r.data[i]? ∧ r'.censor_codes[k * i + (k - 1)]? = r.censor_codes[i]? ∧
        r.est[i]? = some e ∧ r'.est[k * i + (k - 1)]? = some e ∧
        r.lower[i]? = some (.fin (max 0 (e - w))) ∧ r.upper[i]? = some (.fin (min 1 (e + w))) ∧
        r'.lower[k * i + (k - 1)]? = some (.fin (max 0 (e - w / Real.sqrt k))) ∧
        r'.upper[k * i + (k - 1)]? = some (.fin (min 1 (e + w / Real.sqrt k))) := by
  have hex : ∃ r', kaplanMeier argsort' Real.sqrt ppf (some f') rc' CI plot_type = .ok r' := by
    obtain ⟨f1, h1, h2, h3, h4, h5⟩ := C12_accepts_iff.1 ⟨r, h⟩
    cases h1
    refine C12_accepts_iff.2 ⟨f', rfl, ?_, h3, h4, h5⟩
    rw [hf.length]; nlinarith
  obtain ⟨r', h'⟩ := hex
  have hS := sorted_rep hn hf hr
  set S := sortedData argsort f (rc.getD []) with hSdef
  have hd : r.data = S.map Prod.fst ∧ r.censor_codes = S.map Prod.snd ∧ r.est = kmLoop (some 1) (S.map Prod.snd) := by
    obtain ⟨f1, h1, -, -, -, rfl⟩ := kaplanMeier_ok h
    cases h1; exact ⟨rfl, rfl, rfl⟩
  have hd' : r'.data = rep k (S.map Prod.fst) ∧ r'.censor_codes = rep k (S.map Prod.snd) ∧
      r'.est = kmLoop (some 1) (rep k (S.map Prod.snd)) := by
    obtain ⟨f1, h1, -, -, -, rfl⟩ := kaplanMeier_ok h'
    cases h1
    simp [assemble, hS, map_rep]
  refine ⟨r', h', by rw [hd.1, hd'.1, length_rep], ?_⟩
  intro i hi
  have hkb : k - 1 < k := by omega
  have hi' : i < S.length := by rw [hd.1, length_map] at hi; exact hi
  obtain ⟨e, he⟩ : ∃ e, r.est[i]? = some e := by
    rw [hd.2.2]
    exact ⟨_, getElem?_eq_getElem (by rw [kmLoop_length]; simpa using hi')⟩
  have he' : r'.est[k * i + (k - 1)]? = some e := by
    rw [hd'.2.2, km_rep k hk, ← hd.2.2, he]
  obtain ⟨b1, b2⟩ := C15_greenwood_formula hz h i e he
  obtain ⟨b3, b4⟩ := C15_greenwood_formula hz h' _ e he'
  rw [hd.1, hd.2.1, zip_unzip] at b1 b2
  rw [hd'.1, hd'.2.1, ← map_rep, ← map_rep, zip_unzip] at b3 b4
  have hw : Real.sqrt (Spec.greenwoodSum (rep k S) (k * i + (k - 1))) * e * z =
      Real.sqrt (Spec.greenwoodSum S i) * e * z / Real.sqrt k := by
    by_cases hl : i + 1 < S.length
    · rw [greenwood_rep k hk S i hl, Real.sqrt_div' _ (by positivity)]; ring
    · by_cases he0 : e = 0
      · simp [he0]
      · have hfail : PP.Spec.isFail S i = false := by
          by_contra hc
          apply he0
          have hz0 := (C14_zero_iff_last_failure (by rcases hn with h | h; exacts [h.1.1, h.1]) h i hi).2
            ⟨by rw [hd.1, length_map]; omega, by
              rw [hd.2.1, getElem?_map]
              unfold PP.Spec.isFail at hc
              rw [getElem?_eq_getElem hi'] at hc ⊢
              simpa using hc⟩
          rw [he] at hz0; exact Option.some.inj hz0
        have hlast : ∀ (T : List (ℝ × Bool)) (m : ℕ), PP.Spec.isFail T m = false →
            Spec.failsUpTo T m = (Finset.range m).filter fun j => PP.Spec.isFail T j = true := by
          intro T m hm
          unfold Spec.failsUpTo
          rw [Finset.range_add_one, Finset.filter_insert, if_neg (by rw [hm]; simp)]
        have key : Spec.greenwoodSum (rep k S) (k * i + (k - 1)) = Spec.greenwoodSum S i / k := by
          rcases Nat.eq_zero_or_pos i with h0 | h0
          · subst h0
            unfold Spec.greenwoodSum
            rw [sum_rep k hk S (fun j => 1 / ((((rep k S).length - j : ℕ) : ℝ) * ((((rep k S).length - j : ℕ) : ℝ) - 1))) 0,
              hlast S 0 hfail]
            simp
          · have := greenwood_rep k hk S (i - 1) (by omega)
            unfold Spec.greenwoodSum at this ⊢
            rw [sum_rep k hk S (fun j => 1 / ((((rep k S).length - j : ℕ) : ℝ) * ((((rep k S).length - j : ℕ) : ℝ) - 1))) (i - 1)]
              at this
            rw [sum_rep k hk S (fun j => 1 / ((((rep k S).length - j : ℕ) : ℝ) * ((((rep k S).length - j : ℕ) : ℝ) - 1))) i]
            have hset : Spec.failsUpTo S i = Spec.failsUpTo S (i - 1) := by
              rw [hlast S i hfail]; unfold Spec.failsUpTo; rw [Nat.sub_add_cancel h0]
            rw [hset]; exact this
        rw [key, Real.sqrt_div' _ (by positivity)]; ring
  refine ⟨e, Real.sqrt (Spec.greenwoodSum S i) * e * z, ?_, ?_, he, he', b1, b2, ?_, ?_⟩
  · rw [hd.1, hd'.1, getElem_rep _ _ _ _ hkb]
  · rw [hd.2.1, hd'.2.1, getElem_rep _ _ _ _ hkb]
  · rw [← hw]; exact b3
  · rw [← hw]; exact b4

/-- The Nelson-Aalen hazard of the data is at most that of the data entered `k` times. -/
theorem hazard_rep (k : ℕ) (hk : 0 < k) (S : List (ℝ × Bool)) (i : ℕ) (hi : i < S.length) :
    Spec.hazardSum S i ≤ Spec.hazardSum (rep k S) (k * i + (k - 1)) ∧
    (2 ≤ k → (Spec.failsUpTo S i).Nonempty → Spec.hazardSum S i < Spec.hazardSum (rep k S) (k * i + (k - 1))) := by
  have hS' : Spec.hazardSum (rep k S) (k * i + (k - 1)) =
      ∑ j ∈ Spec.failsUpTo S i, ∑ b ∈ Finset.range k, 1 / ((k * (S.length - j) - b : ℕ) : ℝ) := by
    unfold Spec.hazardSum
    rw [sum_rep k hk S (fun j => 1 / (((rep k S).length - j : ℕ) : ℝ)) i]
    refine Finset.sum_congr rfl fun j _ => Finset.sum_congr rfl fun b _ => ?_
    rw [length_rep, Nat.mul_sub, Nat.sub_sub]
  have one : ∀ j ∈ Spec.failsUpTo S i, (1 / ((S.length - j : ℕ) : ℝ) ≤
        ∑ b ∈ Finset.range k, 1 / ((k * (S.length - j) - b : ℕ) : ℝ)) ∧
      (2 ≤ k → 1 / ((S.length - j : ℕ) : ℝ) < ∑ b ∈ Finset.range k, 1 / ((k * (S.length - j) - b : ℕ) : ℝ)) := by
    intro j hj
    have hj' : j < i + 1 := Finset.mem_range.1 (Finset.mem_of_mem_filter j hj)
    obtain ⟨m, hm⟩ : ∃ m, S.length - j = m + 1 := ⟨S.length - j - 1, by omega⟩
    rw [hm]
    have e : (1 : ℝ) / ((m + 1 : ℕ) : ℝ) = ∑ _b ∈ Finset.range k, 1 / ((k * (m + 1) : ℕ) : ℝ) := by
      rw [Finset.sum_const, Finset.card_range, nsmul_eq_mul]
      have : (k : ℝ) ≠ 0 := by positivity
      push_cast; field_simp
    rw [e]
    have le : ∀ b ∈ Finset.range k, (1 : ℝ) / ((k * (m + 1) : ℕ) : ℝ) ≤ 1 / ((k * (m + 1) - b : ℕ) : ℝ) := by
      intro b hb
      have hb' := Finset.mem_range.1 hb
      have : b < k * (m + 1) := by nlinarith
      apply one_div_le_one_div_of_le
      · exact_mod_cast (by omega : 0 < k * (m + 1) - b)
      · exact_mod_cast Nat.sub_le _ _
    refine ⟨Finset.sum_le_sum le, fun h2 => Finset.sum_lt_sum le ⟨1, Finset.mem_range.2 h2, ?_⟩⟩
    have : 1 < k * (m + 1) := by nlinarith
    apply one_div_lt_one_div_of_lt
    · exact_mod_cast (by omega : 0 < k * (m + 1) - 1)
    · exact_mod_cast (by omega : k * (m + 1) - 1 < k * (m + 1))
  rw [hS']
  refine ⟨Finset.sum_le_sum fun j hj => (one j hj).1, fun h2 hne => ?_⟩
  obtain ⟨j, hj⟩ := hne
  exact Finset.sum_lt_sum (fun j hj => (one j hj).1) ⟨j, hj, (one j hj).2 h2⟩

/-- **C181.** `NelsonAalen` is not so: entering every item `k` times lowers the survival it reports, strictly for `k ≥ 2` from
the first failure on. -/
theorem C181_nelson_aalen {k : ℕ} (hk : 0 < k) (hn : NoChoice argsort argsort' f (rc.getD [])) (hf : Times k f f')
    (hr : Times k (rc.getD []) (rc'.getD [])) {sqrt : ℝ → ℝ} {r r' : Result ℝ}
    (h : nelsonAalen Real.exp argsort sqrt ppf (some f) rc CI plot_type = .ok r)
    (h' : nelsonAalen Real.exp argsort' sqrt ppf (some f') rc' CI plot_type = .ok r') :
    r'.data.length = k * r.data.length ∧
    ∀ i < r.data.length, ∃ e e' : ℝ,
      r'.data[k * i + (k - 1)]? = r.data[i]? ∧ r'.censor_codes[k * i + (k - 1)]? = r.censor_codes[i]? ∧
      r.est[i]? = some e ∧ r'.est[k * i + (k - 1)]? = some e' ∧ e' ≤ e ∧
      (2 ≤ k → (∃ j ≤ i, r.censor_codes[j]? = some true) → e' < e) := by
  have hS := sorted_rep hn hf hr
  set S := sortedData argsort f (rc.getD []) with hSdef
  have hd : r.data = S.map Prod.fst ∧ r.censor_codes = S.map Prod.snd := by
    obtain ⟨f1, h1, -, -, -, rfl⟩ := nelsonAalen_ok h
    cases h1; exact ⟨rfl, rfl⟩
  have hd' : r'.data = rep k (S.map Prod.fst) ∧ r'.censor_codes = rep k (S.map Prod.snd) := by
    obtain ⟨f1, h1, -, -, -, rfl⟩ := nelsonAalen_ok h'
    cases h1
    simp [assemble, hS, map_rep]
  have hlen : r'.data.length = k * r.data.length := by rw [hd.1, hd'.1, length_rep]
  refine ⟨hlen, ?_⟩
  intro i hi
  have hkb : k - 1 < k := by omega
  have hi' : i < S.length := by rw [hd.1, length_map] at hi; exact hi
  have c := (C16_nelson_aalen h).2.1 i hi
  have c' := (C16_nelson_aalen h').2.1 (k * i + (k - 1)) (by rw [hlen]; nlinarith [Nat.mul_le_mul_left k hi, Nat.sub_add_cancel hk])
  rw [hd.1, hd.2, zip_unzip] at c
  rw [hd'.1, hd'.2, ← map_rep, ← map_rep, zip_unzip] at c'
  obtain ⟨q1, q2⟩ := hazard_rep k hk S i hi'
  refine ⟨_, _, ?_, ?_, c, c', Real.exp_le_exp.2 (by linarith), fun h2 hj => Real.exp_lt_exp.2 ?_⟩
  · rw [hd.1, hd'.1, getElem_rep _ _ _ _ hkb]
  · rw [hd.2, hd'.2, getElem_rep _ _ _ _ hkb]
  · obtain ⟨j, hj1, hj2⟩ := hj
    have : (Spec.failsUpTo S i).Nonempty := by
      refine ⟨j, Finset.mem_filter.2 ⟨Finset.mem_range.2 (by omega), ?_⟩⟩
      unfold PP.Spec.isFail
      rw [hd.2, getElem?_map] at hj2
      rw [hj2]; rfl
    linarith [q2 h2 this]

example : Times 2 [3, 1] [1, 3, 1, 3] := by
  intro t; simp [count_cons]; split_ifs <;> rfl

/-- A call that meets all the hypotheses: two failures and a censored item, each entered twice. -/
example : ∃ r r' : Result ℝ, kaplanMeier refArgsort Real.sqrt (fun _ => .fin 1) (some [3, 1]) (some [2]) (1 / 2) "SF" = .ok r ∧
    kaplanMeier refArgsort Real.sqrt (fun _ => .fin 1) (some [1, 3, 1, 3]) (some [2, 2]) (1 / 2) "SF" = .ok r' ∧
    r'.data.length = 2 * r.data.length := by
  obtain ⟨r, h⟩ := (C12_accepts_iff (argsort := refArgsort) (sqrt := Real.sqrt) (ppf := fun _ => .fin 1)
    (failures := some [(3 : ℝ), 1]) (right_censored := some [2]) (CI := 1 / 2) (plot_type := "SF")).2
    ⟨[3, 1], rfl, by simp, by norm_num, by norm_num, by simp⟩
  obtain ⟨r', h', hl, -⟩ := C181_kaplan_meier (k := 2) (z := 1) (ppf := fun _ => .fin 1) (f := [3, 1]) (rc := some [2])
    (f' := [1, 3, 1, 3]) (rc' := some [2, 2]) (by norm_num)
    (Or.inl ⟨refArgsort_stable, refArgsort_stable⟩)
    (by intro t; simp [count_cons]; split_ifs <;> rfl) (by intro t; simp [count_cons]; split_ifs <;> rfl) rfl h
  exact ⟨r, r', h, h', hl⟩

end Reliability.Props.ReplicatedKM

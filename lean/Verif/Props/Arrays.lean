import Mathlib.Tactic.Linarith
import Mathlib.Tactic.NormNum
import Mathlib.Tactic.Positivity
import Mathlib.Tactic.FieldSimp
import Mathlib.Data.List.Sort
import Verif.Model.Utils
import Verif.Lemmas.NumPy
import Verif.Props.Distributions

/-! # C50, C54, C55, C56, C73: array helpers -/

namespace Reliability.Props

open List Reliability.Utils

section clean

variable {K : Type _} [Field K] [LinearOrder K]

/-- Specification: the four values at one index form a drawable confidence pair. -/
def ValidPair (plot_type : String) (r : CIRow K) : Prop :=
  ∃ a b c d : K, r = (.fin a, .fin b, .fin c, .fin d) ∧ 1 / 10 ^ 50 < c ∧ 1 / 10 ^ 50 < d ∧
    (Fitters.up plot_type ∈ ["CDF", "SF"] → c < 1 ∧ d < 1)

/-- The kept rows, as a single filter. -/
def cleaned (plot_type : String) (rows : List (CIRow K)) : List (CIRow K) :=
  cleanLow (cleanHigh plot_type (cleanFinite rows))

theorem cleaned_sublist (pt : String) (rows : List (CIRow K)) : cleaned pt rows <+ rows := by
  unfold cleaned cleanLow cleanHigh cleanFinite
  refine filter_sublist.trans ?_
  split
  · exact filter_sublist.trans filter_sublist
  · exact filter_sublist

theorem finite_iff (e : Ext K) : isFinite e = true ↔ ∃ a, e = .fin a := by
  cases e <;> simp [isFinite]

theorem mem_cleaned (pt : String) (rows : List (CIRow K)) (r : CIRow K) :
    r ∈ cleaned pt rows ↔ r ∈ rows ∧ ValidPair pt r := by
  obtain ⟨e1, e2, e3, e4⟩ := r
  have key : ∀ P : Prop, ((e1, e2, e3, e4) ∈ cleanFinite rows ↔ (e1, e2, e3, e4) ∈ rows ∧ ∃ a b c d,
      e1 = .fin a ∧ e2 = .fin b ∧ e3 = .fin c ∧ e4 = .fin d) := by
    intro _
    unfold cleanFinite
    rw [mem_filter]
    simp only [Bool.and_eq_true, finite_iff]
    constructor
    · rintro ⟨h, ⟨⟨⟨a, ha⟩, ⟨b, hb⟩⟩, ⟨c, hc⟩⟩, ⟨d, hd⟩⟩; exact ⟨h, a, b, c, d, ha, hb, hc, hd⟩
    · rintro ⟨h, a, b, c, d, ha, hb, hc, hd⟩; exact ⟨h, ⟨⟨⟨a, ha⟩, ⟨b, hb⟩⟩, ⟨c, hc⟩⟩, ⟨d, hd⟩⟩
  have key := key True
  unfold cleaned cleanLow
  rw [mem_filter]
  unfold cleanHigh ValidPair
  by_cases hp : Fitters.up pt ∈ ["CDF", "SF"]
  · rw [if_pos hp, mem_filter, key]
    constructor
    · rintro ⟨⟨⟨h, a, b, c, d, rfl, rfl, rfl, rfl⟩, h2⟩, h3⟩
      simp only [Ext.gt, Bool.and_eq_true, decide_eq_true_eq] at h2 h3
      exact ⟨h, a, b, c, d, rfl, h3.1, h3.2, fun _ => h2⟩
    · rintro ⟨h, a, b, c, d, he, h1, h2, h3⟩
      cases he
      refine ⟨⟨⟨h, a, b, c, d, rfl, rfl, rfl, rfl⟩, ?_⟩, ?_⟩
      · simp only [Ext.gt, Bool.and_eq_true, decide_eq_true_eq]; exact h3 hp
      · simp only [Ext.gt, Bool.and_eq_true, decide_eq_true_eq]; exact ⟨h1, h2⟩
  · rw [if_neg hp, key]
    constructor
    · rintro ⟨⟨h, a, b, c, d, rfl, rfl, rfl, rfl⟩, h3⟩
      simp only [Ext.gt, Bool.and_eq_true, decide_eq_true_eq] at h3
      exact ⟨h, a, b, c, d, rfl, h3.1, h3.2, fun h' => absurd h' hp⟩
    · rintro ⟨h, a, b, c, d, he, h1, h2, h3⟩
      cases he
      refine ⟨⟨h, a, b, c, d, rfl, rfl, rfl, rfl⟩, ?_⟩
      simp only [Ext.gt, Bool.and_eq_true, decide_eq_true_eq]; exact ⟨h1, h2⟩

theorem cleaned_eq_self {pt : String} {rows : List (CIRow K)} (h : ∀ r ∈ rows, ValidPair pt r) :
    cleaned pt rows = rows := by
  have h1 : cleanFinite rows = rows := by
    unfold cleanFinite
    rw [filter_eq_self]
    intro r hr
    obtain ⟨a, b, c, d, rfl, -⟩ := h r hr
    rfl
  have h2 : cleanHigh pt rows = rows := by
    unfold cleanHigh
    split
    · rw [filter_eq_self]
      intro r hr
      obtain ⟨a, b, c, d, rfl, -, -, h3⟩ := h r hr
      simp only [Ext.gt, Bool.and_eq_true, decide_eq_true_eq]
      exact h3 ‹_›
    · rfl
  unfold cleaned
  rw [h1, h2]
  unfold cleanLow
  rw [filter_eq_self]
  intro r hr
  obtain ⟨a, b, c, d, rfl, h1, h2, -⟩ := h r hr
  simp only [Ext.gt, Bool.and_eq_true, decide_eq_true_eq]
  exact ⟨h1, h2⟩

/-- The four arrays side by side. -/
def sideBySide (xl xu yl yu : List (Ext K)) : List (CIRow K) := xl.zip (xu.zip (yl.zip yu))

theorem rowsOf_ok {xl xu yl yu : List (Ext K)} (h1 : xl.length ≤ xu.length) (h2 : xl.length ≤ yl.length)
    (h3 : xl.length ≤ yu.length) : rowsOf xl xu yl yu = .ok (sideBySide xl xu yl yu) := by
  induction xl generalizing xu yl yu with
  | nil => cases xu <;> rfl
  | cons a xl ih =>
    match xu, yl, yu, h1, h2, h3 with
    | b :: xu, c :: yl, d :: yu, h1, h2, h3 =>
      rw [rowsOf, ih (by simpa using h1) (by simpa using h2) (by simpa using h3)]
      rfl

theorem rowsOf_map (l : List (CIRow K)) :
    rowsOf (l.map (·.1)) (l.map (·.2.1)) (l.map (·.2.2.1)) (l.map (·.2.2.2)) = .ok l := by
  induction l with
  | nil => rfl
  | cons r l ih => simp only [map_cons]; rw [rowsOf, ih]

/-- **C50.** For four arrays of equal length (and no `x`/`q`), cleaning succeeds; the cleaned arrays have equal
length; put side by side they are the input rows that are finite and in range, in their original order and
pairing — every valid row is kept and nothing else — and cleaning again changes nothing. -/
theorem C50_clean (xl xu yl yu : List (Ext K)) (pt : String) (h1 : xu.length = xl.length)
    (h2 : yl.length = xl.length) (h3 : yu.length = xl.length) :
    ∃ a b c d, cleanCI xl xu yl yu pt false false = .ok (a, b, c, d) ∧
      b.length = a.length ∧ c.length = a.length ∧ d.length = a.length ∧
      sideBySide a b c d <+ sideBySide xl xu yl yu ∧
      (∀ r, r ∈ sideBySide a b c d ↔ r ∈ sideBySide xl xu yl yu ∧ ValidPair pt r) ∧
      (∀ xG qG, cleanCI a b c d pt xG qG = .ok (a, b, c, d)) := by
  have hr := rowsOf_ok (xu := xu) (yl := yl) (yu := yu) h1.ge h2.ge h3.ge
  set out := cleaned pt (sideBySide xl xu yl yu) with hout
  have hside : sideBySide (out.map (·.1)) (out.map (·.2.1)) (out.map (·.2.2.1)) (out.map (·.2.2.2)) = out := by
    unfold sideBySide
    clear_value out
    clear hout
    induction out with
    | nil => rfl
    | cons r l ih => simp only [map_cons, zip_cons_cons, ih]
  refine ⟨out.map (·.1), out.map (·.2.1), out.map (·.2.2.1), out.map (·.2.2.2), ?_, by simp, by simp, by simp, ?_,
    ?_, fun xG qG => ?_⟩
  · unfold cleanCI
    simp only [hr]
    rw [if_neg (by simp), if_neg (by simp)]
    rfl
  · rw [hside]; exact cleaned_sublist _ _
  · intro r; rw [hside]; exact mem_cleaned _ _ _
  · unfold cleanCI
    rw [rowsOf_map]
    have hself : cleaned pt out = out := cleaned_eq_self fun r hr => ((mem_cleaned _ _ _).1 hr).2
    simp only []
    have : cleanLow (cleanHigh pt (cleanFinite out)) = out := hself
    rw [this, if_neg (by simp), if_neg (by simp)]

/-- **C50 (refusals).** When `x` (or `q`) was given, a single unusable row makes it a ValueError, and otherwise the
arrays come back unchanged; an array shorter than `xlower` is an IndexError. -/
theorem C50_given (xl xu yl yu : List (Ext K)) (pt : String) (xG qG : Bool) (h1 : xu.length = xl.length)
    (h2 : yl.length = xl.length) (h3 : yu.length = xl.length) (hg : xG = true ∨ qG = true) :
    ((∀ r ∈ sideBySide xl xu yl yu, ValidPair pt r) → cleanCI xl xu yl yu pt xG qG = .ok (xl, xu, yl, yu)) ∧
    ((∃ r ∈ sideBySide xl xu yl yu, ¬ ValidPair pt r) → cleanCI xl xu yl yu pt xG qG = .error .valueError) := by
  have hr := rowsOf_ok (xu := xu) (yl := yl) (yu := yu) h1.ge h2.ge h3.ge
  have hlen : (sideBySide xl xu yl yu).length = xl.length := by
    unfold sideBySide; simp only [length_zip, h1, h2, h3, min_self]
  constructor
  · intro hv
    have hself : cleanLow (cleanHigh pt (cleanFinite (sideBySide xl xu yl yu))) = sideBySide xl xu yl yu :=
      cleaned_eq_self hv
    unfold cleanCI
    simp only [hr, hself]
    rw [if_neg (by simp [hlen]), if_neg (by simp [hlen, h2])]
    have e1 : (sideBySide xl xu yl yu).map (·.1) = xl :=
      map_fst_zip (by simp [h1, h2, h3])
    have e0 : (sideBySide xl xu yl yu).map (·.2) = xu.zip (yl.zip yu) :=
      map_snd_zip (by simp [h1, h2, h3])
    have e2 : (sideBySide xl xu yl yu).map (·.2.1) = xu := by
      rw [show (fun r : CIRow K => r.2.1) = Prod.fst ∘ Prod.snd from rfl, ← map_map]
      rw [e0]; exact map_fst_zip (by simp [h1, h2, h3])
    have e00 : (sideBySide xl xu yl yu).map (·.2.2) = yl.zip yu := by
      rw [show (fun r : CIRow K => r.2.2) = Prod.snd ∘ Prod.snd from rfl, ← map_map]
      rw [e0]; exact map_snd_zip (by simp [h1, h2, h3])
    have e3 : (sideBySide xl xu yl yu).map (·.2.2.1) = yl := by
      rw [show (fun r : CIRow K => r.2.2.1) = Prod.fst ∘ (fun r : CIRow K => r.2.2) from rfl, ← map_map]
      rw [e00]; exact map_fst_zip (by simp [h2, h3])
    have e4 : (sideBySide xl xu yl yu).map (·.2.2.2) = yu := by
      rw [show (fun r : CIRow K => r.2.2.2) = Prod.snd ∘ (fun r : CIRow K => r.2.2) from rfl, ← map_map]
      rw [e00]; exact map_snd_zip (by simp [h2, h3])
    rw [e1, e2, e3, e4]
  · rintro ⟨r, hr', hnv⟩
    have hlt : (cleaned pt (sideBySide xl xu yl yu)).length ≠ xl.length := by
      intro he
      rw [← hlen] at he
      have := (cleaned_sublist pt (sideBySide xl xu yl yu)).eq_of_length he
      rw [← this] at hr'
      exact hnv ((mem_cleaned _ _ _).1 hr').2
    unfold cleanCI
    simp only [hr]
    change (if (cleaned pt (sideBySide xl xu yl yu)).length ≠ xl.length ∧ xG = true then _ else
      if (cleaned pt (sideBySide xl xu yl yu)).length ≠ yl.length ∧ qG = true then _ else _) = _
    rw [h2]
    rcases hg with hg | hg
    · rw [if_pos ⟨hlt, hg⟩]
    · by_cases hx : xG = true
      · rw [if_pos ⟨hlt, hx⟩]
      · rw [if_neg (fun h => hx h.2), if_pos ⟨hlt, hg⟩]

theorem C50_short (a : Ext K) (xl xu yl yu : List (Ext K)) (pt : String) (xG qG : Bool)
    (h : xu = [] ∨ yl = [] ∨ yu = []) : cleanCI (a :: xl) xu yl yu pt xG qG = .error .indexError := by
  have : rowsOf (a :: xl) xu yl yu = .error .indexError := by
    rcases h with rfl | rfl | rfl
    · rfl
    · cases xu <;> rfl
    · cases xu <;> cases yl <;> rfl
  unfold cleanCI
  rw [this]

example : cleanCI [.fin (1 : ℚ), .fin 2, .fin 3] [.fin 2, .fin 3, .nan] [.fin (1/2), .fin (1/3), .fin (1/4)]
    [.fin (3/4), .fin 1, .fin (1/2)] "cdf" false false = .ok ([.fin 1], [.fin 2], [.fin (1/2)], [.fin (3/4)]) := by
  have h : cleaned "cdf" (sideBySide [.fin (1 : ℚ), .fin 2, .fin 3] [.fin 2, .fin 3, .nan]
    [.fin (1/2), .fin (1/3), .fin (1/4)] [.fin (3/4), .fin 1, .fin (1/2)]) = [(.fin 1, .fin 2, .fin (1/2), .fin (3/4))] := by
    decide +kernel
  have h' : cleanLow (cleanHigh "cdf" (cleanFinite (sideBySide [.fin (1 : ℚ), .fin 2, .fin 3] [.fin 2, .fin 3, .nan]
    [.fin (1/2), .fin (1/3), .fin (1/4)] [.fin (3/4), .fin 1, .fin (1/2)]))) =
      [(.fin 1, .fin 2, .fin (1/2), .fin (3/4))] := h
  unfold cleanCI
  rw [rowsOf_ok (by simp) (by simp) (by simp)]
  simp only [h']
  simp

end clean

/-! ## C56 -/

/-- Specification: an entry counts as NaN if it is the float nan or the string "nan". -/
def IsNaN {K : Type _} (c : Cell K) : Prop := c = .num .nan ∨ c = .str "nan"

/-- **C56.** `removeNaNs` returns the entries that are not NaN, in their original order, and is idempotent. -/
theorem C56_removeNaNs {K : Type _} (X : List (Cell K)) :
    removeNaNs X <+ X ∧ (∀ c, c ∈ removeNaNs X ↔ c ∈ X ∧ ¬ IsNaN c) ∧
    (∀ c, ¬ IsNaN c → ∀ pre post, X = pre ++ c :: post → removeNaNs X = removeNaNs pre ++ c :: removeNaNs post) ∧
    removeNaNs (removeNaNs X) = removeNaNs X := by
  have keep : ∀ c : Cell K, keepCell c = true ↔ ¬ IsNaN c := by
    intro c
    unfold IsNaN
    match c with
    | .str s => simp [keepCell]
    | .bool b => simp [keepCell]
    | .num (.fin x) => simp [keepCell]
    | .num .pinf => simp [keepCell]
    | .num .ninf => simp [keepCell]
    | .num .nan => simp [keepCell]
  refine ⟨filter_sublist, fun c => ?_, fun c hc pre post hX => ?_, ?_⟩
  · unfold removeNaNs; rw [mem_filter, keep]
  · unfold removeNaNs
    rw [hX, filter_append, filter_cons, if_pos ((keep c).2 hc)]
  · unfold removeNaNs; rw [filter_filter]; simp

example : removeNaNs [Cell.num (.fin (1 : ℚ)), .num .nan, .str "nan", .str "x", .bool true, .num .pinf] =
    [Cell.num (.fin (1 : ℚ)), .str "x", .bool true, .num .pinf] := by decide +kernel

/-! ## C54 -/

/-- **C54.** For ascending X and a positive `gamma`, the entries of Y whose X is at or below `gamma` become 0 and
all others stay; for `gamma ≤ 0` nothing changes. -/
theorem C54_zeroise (X Y : List ℝ) (g : ℝ) (hX : X.Pairwise (· ≤ ·)) (hl : Y.length = X.length) :
    (Distributions.zeroise X Y g).length = Y.length ∧
    (∀ (i : ℕ) (x y : ℝ), X[i]? = some x → Y[i]? = some y →
      (0 < g → x ≤ g → (Distributions.zeroise X Y g)[i]? = some 0) ∧
      (0 < g → g < x → (Distributions.zeroise X Y g)[i]? = some y)) ∧
    (g ≤ 0 → Distributions.zeroise X Y g = Y) := by
  refine ⟨?_, fun i x y hx hy => ⟨fun hg hxg => ?_, fun hg hxg => ?_⟩, fun hg => ?_⟩
  · unfold Distributions.zeroise
    split
    · split <;> simp
    · rfl
  · rw [Props.Distributions.zeroise_get X Y g hX hl i x y hx hy, if_pos ⟨hg, hxg⟩]
  · rw [Props.Distributions.zeroise_get X Y g hX hl i x y hx hy, if_neg (fun h => absurd h.2 (not_le.2 hxg))]
  · unfold Distributions.zeroise; rw [if_neg (not_lt.2 hg)]

/-- **C54, finding.** With unsorted X only the entries before the first X above `gamma` are zeroised: an X below
`gamma` that comes later keeps its value. -/
theorem C54_unsorted_finding : Distributions.zeroise [3, 1] [7, 8] 2 = [7, 8] := by
  have : [(3 : ℝ), 1].findIdx? (fun x => decide ((2 : ℝ) < x)) = some 0 := by
    rw [findIdx?_cons, if_pos (by norm_num)]
  unfold Distributions.zeroise
  rw [if_pos (by norm_num), this]
  simp [mapIdx_cons]

example : Distributions.zeroise [1, 3] [7, 8] 2 = [0, 8] := by
  have : [(1 : ℝ), 3].findIdx? (fun x => decide ((2 : ℝ) < x)) = some 1 := by
    rw [findIdx?_cons, if_neg (by norm_num), findIdx?_cons, if_pos (by norm_num)]; rfl
  unfold Distributions.zeroise
  rw [if_pos (by norm_num), this]
  simp [mapIdx_cons]

/-! ## C55 -/

section downsample

theorem ceil_facts {n s : Nat} (hs : 1 ≤ s) (hn : 2 * s ≤ n) :
    2 ≤ (n + s - 1) / s ∧ ((n + s - 1) / s - 1) * s ≤ n - 1 ∧ n - 1 < (n + s - 1) / s * s := by
  have h1 : s * ((n + s - 1) / s) ≤ n + s - 1 := Nat.mul_div_le _ _
  have h2 : n + s - 1 < s * ((n + s - 1) / s + 1) := by
    have := Nat.lt_mul_div_succ (n + s - 1) (show 0 < s by omega)
    exact this
  have h3 : 2 ≤ (n + s - 1) / s := by
    rw [Nat.le_div_iff_mul_le (by omega)]; omega
  refine ⟨h3, ?_, ?_⟩
  · rw [Nat.sub_mul, Nat.mul_comm, Nat.one_mul]; omega
  · rw [Nat.mul_add, Nat.mul_one] at h2
    rw [Nat.mul_comm]; omega

theorem indices_length (n s : Nat) : (indices n s).length = (n + s - 1) / s := by
  unfold indices
  simp only
  split <;> simp

/-- The indices: multiples of the step, except that the last is `n - 1`. -/
theorem indices_get {n s : Nat} (hs : 1 ≤ s) (hn : 2 * s ≤ n) (i : Nat) (hi : i < (n + s - 1) / s) :
    (indices n s)[i]? = some (if i + 1 = (n + s - 1) / s then n - 1 else i * s) := by
  obtain ⟨h2, h3, h4⟩ := ceil_facts hs hn
  unfold indices
  simp only
  by_cases hm : n - 1 ∉ (List.range ((n + s - 1) / s)).map fun i => i * s
  · rw [if_pos hm]
    rw [getElem?_set]
    simp only [length_map, length_range]
    by_cases hl : i + 1 = (n + s - 1) / s
    · rw [if_pos (by omega), if_pos (by omega), if_pos hl]
    · rw [if_neg (by omega), if_neg hl]
      simp [hi]
  · rw [if_neg hm]
    rw [not_not, mem_map] at hm
    obtain ⟨j, hj, hje⟩ := hm
    rw [mem_range] at hj
    have hjl : j + 1 = (n + s - 1) / s := by
      by_contra hne
      have : j + 2 ≤ (n + s - 1) / s := by omega
      have h5 : (j + 1) * s ≤ ((n + s - 1) / s - 1) * s := Nat.mul_le_mul_right _ (by omega)
      rw [Nat.add_mul] at h5
      omega
    by_cases hl : i + 1 = (n + s - 1) / s
    · rw [if_pos hl]
      have : i = j := by omega
      subst this
      simp [hi, hje]
    · rw [if_neg hl]; simp [hi]

theorem indices_sorted {n s : Nat} (hs : 1 ≤ s) (hn : 2 * s ≤ n) : (indices n s).Pairwise (· < ·) := by
  obtain ⟨h2, h3, h4⟩ := ceil_facts hs hn
  rw [pairwise_iff_getElem]
  intro i j hi hj hij
  rw [indices_length] at hi hj
  have e1 := indices_get hs hn i hi
  have e2 := indices_get hs hn j hj
  rw [getElem?_eq_getElem (by rw [indices_length]; exact hi), Option.some.injEq] at e1
  rw [getElem?_eq_getElem (by rw [indices_length]; exact hj), Option.some.injEq] at e2
  rw [e1, e2, if_neg (by omega)]
  by_cases hl : j + 1 = (n + s - 1) / s
  · rw [if_pos hl]
    have h5 : (i + 1) * s ≤ ((n + s - 1) / s - 1) * s := Nat.mul_le_mul_right _ (by omega)
    rw [Nat.add_mul] at h5
    omega
  · rw [if_neg hl]
    exact Nat.mul_lt_mul_of_pos_right hij (by omega)

theorem indices_lt {n s : Nat} (hs : 1 ≤ s) (hn : 2 * s ≤ n) : ∀ i ∈ indices n s, i < n := by
  obtain ⟨h2, h3, h4⟩ := ceil_facts hs hn
  intro x hx
  obtain ⟨i, hi⟩ := mem_iff_getElem?.1 hx
  have hlt : i < (n + s - 1) / s := by
    rw [← indices_length n s]; exact (List.getElem?_eq_some_iff.1 hi).1
  rw [indices_get hs hn i hlt, Option.some.injEq] at hi
  by_cases hl : i + 1 = (n + s - 1) / s
  · rw [if_pos hl] at hi; omega
  · rw [if_neg hl] at hi
    have h5 : (i + 1) * s ≤ ((n + s - 1) / s - 1) * s := Nat.mul_le_mul_right _ (by omega)
    rw [Nat.add_mul] at h5
    omega

variable {K : Type _}

theorem gather_ok {l : List K} {is : List Nat} (h : ∀ i ∈ is, i < l.length) :
    ∃ r, gather l is = .ok r ∧ r.map some = is.map fun i => l[i]? := by
  induction is with
  | nil => exact ⟨[], rfl, rfl⟩
  | cons i is ih =>
    obtain ⟨r, hr, hm⟩ := ih fun j hj => h j (mem_cons_of_mem _ hj)
    have hi := h i mem_cons_self
    refine ⟨l[i] :: r, ?_, ?_⟩
    · rw [gather, getElem?_eq_getElem hi, hr]
    · rw [map_cons, map_cons, hm, getElem?_eq_getElem hi]

theorem picked_sublist {l r : List K} {is : List Nat} (hs : is.Pairwise (· < ·))
    (hm : r.map some = is.map fun i => l[i]?) : r <+ l := by
  induction l generalizing r is with
  | nil =>
    cases r with
    | nil => exact Sublist.refl _
    | cons a r =>
      cases is with
      | nil => simp at hm
      | cons i is => simp at hm
  | cons a l ih =>
    cases is with
    | nil => simp at hm; subst hm; exact nil_sublist _
    | cons i is =>
      have hpos : ∀ j ∈ is, i < j := fun j hj => rel_of_pairwise_cons hs hj
      cases i with
      | zero =>
        cases r with
        | nil => simp at hm
        | cons b r =>
          simp only [map_cons, getElem?_cons_zero, cons.injEq, Option.some.injEq] at hm
          obtain ⟨rfl, hm⟩ := hm
          refine Sublist.cons_cons _ ?_
          apply ih (is := is.map (· - 1))
          · rw [pairwise_map]
            refine (pairwise_cons.1 hs).2.imp_of_mem ?_
            intro x y hx hy hxy
            have := hpos x hx
            omega
          · rw [hm, map_map]
            apply map_congr_left
            intro j hj
            have := hpos j hj
            obtain ⟨k, rfl⟩ : ∃ k, j = k + 1 := ⟨j - 1, by omega⟩
            simp
      | succ i =>
        refine Sublist.cons _ ?_
        apply ih (is := ((i + 1) :: is).map (· - 1))
        · rw [pairwise_map]
          refine hs.imp_of_mem ?_
          intro x y hx hy hxy
          rcases mem_cons.1 hx with rfl | hx
          · omega
          · have := hpos x hx
            omega
        · rw [hm, map_map]
          apply map_congr_left
          intro j hj
          obtain ⟨k, rfl⟩ : ∃ k, j = k + 1 := by
            rcases mem_cons.1 hj with rfl | hj
            · exact ⟨i, rfl⟩
            · have := hpos j hj; exact ⟨j - 1, by omega⟩
          simp

theorem picked_zip {X Y xs ys : List K} {is : List Nat} (hx : xs.map some = is.map fun i => X[i]?)
    (hy : ys.map some = is.map fun i => Y[i]?) : (xs.zip ys).map some = is.map fun i => (X.zip Y)[i]? := by
  induction is generalizing xs ys with
  | nil => simp at hx hy; subst hx hy; rfl
  | cons i is ih =>
    match xs, ys, hx, hy with
    | x :: xs, y :: ys, hx, hy =>
      simp only [map_cons, cons.injEq] at hx hy
      rw [zip_cons_cons, map_cons, map_cons, ih hx.2 hy.2]
      congr 1
      exact (getElem?_zip_eq_some.2 ⟨hx.1.symm, hy.1.symm⟩).symm
    | [], _, hx, _ => simp at hx
    | _ :: _, [], _, hy => simp at hy

variable [Field K] [LinearOrder K] [IsStrictOrderedRing K]

/-- What the kept points are: same count in x and y, taken in increasing positions from the sorted arrays, the
first and the last always among them. -/
structure Downsampled (x y xs ys : List K) (s : Nat) : Prop where
  same_length : ys.length = xs.length
  count : xs.length = (x.length + s - 1) / s
  x_sub : xs <+ Np.sort x
  y_sub : ys <+ Np.sort y
  first : xs.head? = (Np.sort x).head? ∧ ys.head? = (Np.sort y).head?
  last : xs.getLast? = (Np.sort x).getLast? ∧ ys.getLast? = (Np.sort y).getLast?
  pairs : xs.zip ys <+ (Np.sort x).zip (Np.sort y)
  every : ∀ i, i + 1 < xs.length → xs[i]? = (Np.sort x)[i * s]? ∧ ys[i]? = (Np.sort y)[i * s]?

theorem downsampled_of {x y : List K} {s : Nat} (hl : y.length = x.length) (hs : 1 ≤ s) (hn : 2 * s ≤ x.length) :
    ∃ xs ys, gather (Np.sort x) (indices x.length s) = .ok xs ∧ gather (Np.sort y) (indices x.length s) = .ok ys ∧
      Downsampled x y xs ys s := by
  have lx : (Np.sort x).length = x.length := (Np.sort_perm x).length_eq
  have ly : (Np.sort y).length = x.length := (Np.sort_perm y).length_eq.trans hl
  obtain ⟨xs, hxs, hxm⟩ := gather_ok (l := Np.sort x) (fun i hi => by rw [lx]; exact indices_lt hs hn i hi)
  obtain ⟨ys, hys, hym⟩ := gather_ok (l := Np.sort y) (fun i hi => by rw [ly]; exact indices_lt hs hn i hi)
  obtain ⟨h2, -, -⟩ := ceil_facts hs hn
  have cx : xs.length = (x.length + s - 1) / s := by
    have := congrArg length hxm; simpa [indices_length] using this
  have cy : ys.length = (x.length + s - 1) / s := by
    have := congrArg length hym; simpa [indices_length] using this
  have gx : ∀ i : Nat, i < xs.length → xs[i]? = (Np.sort x)[if i + 1 = xs.length then x.length - 1 else i * s]? := by
    intro i hi
    have h1 : (xs.map some)[i]? = ((indices x.length s).map fun i => (Np.sort x)[i]?)[i]? := by rw [hxm]
    rw [getElem?_map, getElem?_map, indices_get hs hn i (by omega), getElem?_eq_getElem hi] at h1
    simp only [Option.map_some, Option.some.injEq] at h1
    rw [getElem?_eq_getElem hi, h1, cx]
  have gy : ∀ i : Nat, i < ys.length → ys[i]? = (Np.sort y)[if i + 1 = ys.length then x.length - 1 else i * s]? := by
    intro i hi
    have h1 : (ys.map some)[i]? = ((indices x.length s).map fun i => (Np.sort y)[i]?)[i]? := by rw [hym]
    rw [getElem?_map, getElem?_map, indices_get hs hn i (by omega), getElem?_eq_getElem hi] at h1
    simp only [Option.map_some, Option.some.injEq] at h1
    rw [getElem?_eq_getElem hi, h1, cy]
  refine ⟨xs, ys, hxs, hys, ⟨by omega, cx, picked_sublist (indices_sorted hs hn) hxm,
    picked_sublist (indices_sorted hs hn) hym, ⟨?_, ?_⟩, ⟨?_, ?_⟩, ?_, fun i hi => ⟨?_, ?_⟩⟩⟩
  · rw [head?_eq_getElem?, head?_eq_getElem?, gx 0 (by omega), if_neg (by omega), Nat.zero_mul]
  · rw [head?_eq_getElem?, head?_eq_getElem?, gy 0 (by omega), if_neg (by omega), Nat.zero_mul]
  · rw [getLast?_eq_getElem?, getLast?_eq_getElem?, gx _ (by omega), if_pos (by omega), lx]
  · rw [getLast?_eq_getElem?, getLast?_eq_getElem?, gy _ (by omega), if_pos (by omega), ly]
  · apply picked_sublist (indices_sorted hs hn)
    exact picked_zip hxm hym
  · rw [gx i (by omega), if_neg (by omega)]
  · rw [gy i (by omega), if_neg (by omega)]

/-- **C55 (no downsampling).** `False`, or the default with fewer than the maximum number of values, or a factor of
more than half the number of values, returns both arrays as they were given. -/
theorem C55_unchanged (x y : List K) (M : Nat) :
    xyDownsample x y (.bool false) M = .ok (x, y) ∧
    (x.length < M → xyDownsample x y .none M = .ok (x, y) ∧ xyDownsample x y (.bool true) M = .ok (x, y)) ∧
    (∀ f : ℚ, f ≠ 1 → f ≠ 0 → (x.length : ℚ) / f < 2 → xyDownsample x y (.num f) M = .ok (x, y)) := by
  refine ⟨?_, fun h => ⟨?_, ?_⟩, fun f h1 h0 h2 => ?_⟩
  · unfold xyDownsample; simp
  · unfold xyDownsample; simp only; rw [if_neg (by simp), if_pos ⟨rfl, h⟩]
  · unfold xyDownsample; simp only; rw [if_neg (by simp), if_pos ⟨rfl, h⟩]
  · unfold xyDownsample
    have he : effectiveFactor x.length M (.num f) = .ok f := by
      unfold effectiveFactor; rw [if_neg (by simp [isDefault, h1])]
    simp only
    rw [if_neg (by simp), if_neg (by simp [isDefault, h1]), he]
    simp only
    rw [if_neg h0, if_pos h2]

/-- **C55 (explicit factor).** For a factor `f > 1` not exceeding half the number of values, every `⌊f⌋`-th point of
the sorted arrays is returned, the first and last being always among them. -/
theorem C55_factor (x y : List K) (hl : y.length = x.length) (M : Nat) (f : ℚ) (hf : 1 < f)
    (hn : 2 ≤ (x.length : ℚ) / f) :
    ∃ xs ys, xyDownsample x y (.num f) M = .ok (xs, ys) ∧ Downsampled x y xs ys ⌊f⌋.toNat := by
  have hfl : 1 ≤ ⌊f⌋ := Int.le_floor.2 (by exact_mod_cast hf.le)
  have hs : 1 ≤ ⌊f⌋.toNat := by omega
  have hn2 : 2 * ⌊f⌋.toNat ≤ x.length := by
    have h1 : (⌊f⌋ : ℚ) ≤ f := Int.floor_le f
    rw [le_div_iff₀ (by linarith)] at hn
    have h2 : ((2 * ⌊f⌋.toNat : ℕ) : ℚ) ≤ (x.length : ℚ) := by
      push_cast
      have h3 : ((⌊f⌋.toNat : ℕ) : ℚ) = (⌊f⌋ : ℚ) := by
        have : ((⌊f⌋.toNat : ℕ) : ℤ) = ⌊f⌋ := Int.toNat_of_nonneg (by omega)
        exact_mod_cast this
      rw [h3]; linarith
    exact_mod_cast h2
  obtain ⟨xs, ys, h1, h2, h3⟩ := downsampled_of hl hs hn2
  refine ⟨xs, ys, ?_, h3⟩
  have he : effectiveFactor x.length M (.num f) = .ok f := by
    unfold effectiveFactor; rw [if_neg (by simp [isDefault]; linarith)]
  unfold xyDownsample
  simp only
  rw [if_neg (by simp), if_neg (by simp [isDefault]; intro h; linarith), he]
  simp only
  rw [if_neg (by linarith), if_neg (by linarith), if_neg (by omega), h1, h2]

/-- **C55 (default).** By default at least `M` values are thinned to between `M/2` and `M` points (`M ≥ 4`; the
default `M` is 1000), the first and last being always among them. -/
theorem C55_default (x y : List K) (hl : y.length = x.length) (M : Nat) (hM : 4 ≤ M) (hx : M ≤ x.length) :
    ∃ xs ys s, xyDownsample x y .none M = .ok (xs, ys) ∧ xyDownsample x y (.bool true) M = .ok (xs, ys) ∧
      Downsampled x y xs ys s ∧ 2 ≤ s ∧ M ≤ 2 * xs.length ∧ xs.length ≤ M := by
  set q : ℚ := (x.length : ℚ) / (1 / 2 * (M : ℚ)) with hq
  have hM0 : (0 : ℚ) < M := by exact_mod_cast (by omega : 0 < M)
  have hxM : (M : ℚ) ≤ x.length := by exact_mod_cast hx
  have hq2 : 2 ≤ q := by rw [hq, le_div_iff₀ (by positivity)]; linarith
  have hfl2 : 2 ≤ ⌊q⌋ := Int.le_floor.2 (by exact_mod_cast hq2)
  obtain ⟨s, hs⟩ : ∃ s : ℕ, (s : ℤ) = ⌊q⌋ := ⟨⌊q⌋.toNat, Int.toNat_of_nonneg (by omega)⟩
  have hs2 : 2 ≤ s := by omega
  have hsq : (s : ℚ) ≤ q := by
    have := Int.floor_le q; rw [← hs] at this; exact_mod_cast this
  have hsq1 : q < s + 1 := by
    have := Int.lt_floor_add_one q; rw [← hs] at this; exact_mod_cast this
  have hs0 : (0 : ℚ) < s := by exact_mod_cast (by omega : 0 < s)
  have e1 : s * M ≤ 2 * x.length := by
    rw [hq, le_div_iff₀ (by positivity)] at hsq
    have : ((s * M : ℕ) : ℚ) ≤ ((2 * x.length : ℕ) : ℚ) := by push_cast; linarith
    exact_mod_cast this
  have e2 : 2 * x.length < (s + 1) * M := by
    rw [hq, div_lt_iff₀ (by positivity)] at hsq1
    have : ((2 * x.length : ℕ) : ℚ) < (((s + 1) * M : ℕ) : ℚ) := by push_cast; linarith
    exact_mod_cast this
  have hn : 2 * s ≤ x.length := by nlinarith
  obtain ⟨xs, ys, h1, h2, h3⟩ := downsampled_of hl (by omega) hn
  have hcount := h3.count
  obtain ⟨-, c1, c2⟩ := ceil_facts (by omega : 1 ≤ s) hn
  rw [← hcount] at c1 c2
  have hpos : 2 ≤ xs.length := by rw [hcount]; exact (ceil_facts (by omega : 1 ≤ s) hn).1
  have run : ∀ fac, isDefault fac = true → fac ≠ .bool false → xyDownsample x y fac M = .ok (xs, ys) := by
    intro fac hd hne
    have he : effectiveFactor x.length M fac = .ok ((s : ℤ) : ℚ) := by
      unfold effectiveFactor; rw [if_pos hd, if_neg (by omega), hs]
    unfold xyDownsample
    simp only
    rw [if_neg hne, if_neg (by omega), he]
    simp only
    have hfloor : ⌊((s : ℤ) : ℚ)⌋.toNat = s := by rw [Int.floor_intCast]; simp
    rw [hfloor, if_neg (by exact_mod_cast (by omega : s ≠ 0)), if_neg, if_neg (by omega), h1, h2]
    rw [not_lt, le_div_iff₀ (by exact_mod_cast hs0)]
    exact_mod_cast hn
  refine ⟨xs, ys, s, run _ rfl (by simp), run _ rfl (by simp), h3, hs2, ?_, ?_⟩
  · by_contra hlt
    have h5 : (2 * xs.length + 1) * s ≤ M * s := Nat.mul_le_mul_right _ (by omega)
    rw [Nat.add_mul, Nat.mul_assoc, Nat.one_mul, Nat.mul_comm M s] at h5
    omega
  · obtain ⟨k, hk⟩ : ∃ k, xs.length = k + 1 := ⟨xs.length - 1, by omega⟩
    rw [hk, Nat.add_sub_cancel] at c1
    by_contra hgt
    have h5 : M * s ≤ k * s := Nat.mul_le_mul_right _ (by omega)
    rw [Nat.add_mul, Nat.one_mul, Nat.mul_comm s M] at e2
    have h6 : M * 2 ≤ M * s := Nat.mul_le_mul_left _ hs2
    omega

/-- **C55 (pairing).** When x and y are both ascending the returned points are points of the input. -/
theorem C55_pairs_kept (x y xs ys : List K) (s : Nat) (h : Downsampled x y xs ys s)
    (hx : x.Pairwise (· ≤ ·)) (hy : y.Pairwise (· ≤ ·)) : xs.zip ys <+ x.zip y := by
  have := h.pairs
  rwa [Np.sort_eq_self hx, Np.sort_eq_self hy] at this

/-- **C55, finding.** x and y are sorted separately: for decreasing data the points returned are not data points.
And a factor of 1 is taken for `True`. -/
theorem C55_unpaired_finding :
    xyDownsample [(1 : ℚ), 2, 3, 4] [8, 7, 6, 5] (.num 2) 1000 = .ok ([1, 4], [5, 8]) ∧
    ((1 : ℚ), (5 : ℚ)) ∉ [(1 : ℚ), 2, 3, 4].zip [8, 7, 6, 5] ∧
    ∀ (x y : List ℚ) M, xyDownsample x y (.num 1) M = xyDownsample x y .none M := by
  refine ⟨?_, by decide +kernel, fun x y M => ?_⟩
  · have hx : gather (Np.sort [(1 : ℚ), 2, 3, 4]) (indices 4 2) = .ok [1, 4] := by
      have h1 : Np.sort [(1 : ℚ), 2, 3, 4] = [1, 2, 3, 4] := by decide +kernel
      rw [h1]; rfl
    have hy : gather (Np.sort [(8 : ℚ), 7, 6, 5]) (indices 4 2) = .ok [5, 8] := by
      have h1 : Np.sort [(8 : ℚ), 7, 6, 5] = [5, 6, 7, 8] := by decide +kernel
      rw [h1]; rfl
    unfold xyDownsample
    have hfl : ⌊(2 : ℚ)⌋.toNat = 2 := by
      have : ⌊(2 : ℚ)⌋ = 2 := by norm_num
      rw [this]; rfl
    have he : effectiveFactor 4 1000 (.num 2) = .ok 2 := by
      unfold effectiveFactor; rw [if_neg (by simp [isDefault])]
    simp only [length_cons, length_nil, Nat.zero_add, Nat.reduceAdd]
    rw [if_neg (by simp), if_neg (by simp [isDefault]), he]
    simp only []
    rw [hfl, if_neg (by norm_num), if_neg (by norm_num), if_neg (by norm_num), hx, hy]
  · unfold xyDownsample effectiveFactor
    simp [isDefault]

example : ∃ xs ys s, xyDownsample (K := ℚ) ((List.range 1500).map fun i : Nat => (i : ℚ))
    ((List.range 1500).map fun i : Nat => (i : ℚ)) .none 1000 = .ok (xs, ys) ∧ 2 ≤ s ∧
    1000 ≤ 2 * xs.length ∧ xs.length ≤ 1000 := by
  obtain ⟨xs, ys, s, h1, -, -, h2, h3, h4⟩ := C55_default (K := ℚ) ((List.range 1500).map fun i : Nat => (i : ℚ))
    ((List.range 1500).map fun i : Nat => (i : ℚ)) rfl 1000 (by norm_num) (by simp)
  exact ⟨xs, ys, s, h1, h2, h3, h4⟩

end downsample

/-! ## C73: no_reverse -/

section noreverse

variable {K : Type _} [Field K] [LinearOrder K]

/-- `flat m i x`: `x` up to position `i`, then constantly `m`. -/
theorem noReverse_cases (x : List K) (ct pt : String) (h2 : 2 ≤ x.length) :
    ∃ m i, x[i]? = some m ∧ (∀ j v, j < i → x[j]? = some v → v ≠ m) ∧
      noReverse x ct pt = .ok (x.take i ++ replicate (x.length - i) m) ∧
      (if ct = "time" ∧ pt = "CHF" then ∀ v ∈ x, v ≤ m else ∀ v ∈ x, m ≤ v) := by
  have hne : x ≠ [] := by rintro rfl; simp at h2
  have core : ∀ m, m ∈ x → ∃ i, x.findIdx? (fun v => decide (v = m)) = some i ∧ x[i]? = some m ∧
      (∀ j v, j < i → x[j]? = some v → v ≠ m) ∧
      (if i < x.length - 1 then x.take i ++ replicate (x.length - i) m else x) =
        x.take i ++ replicate (x.length - i) m := by
    intro m hm
    cases hf : x.findIdx? (fun v => decide (v = m)) with
    | none =>
      rw [findIdx?_eq_none_iff] at hf
      have := hf m hm
      simp at this
    | some i =>
      rw [findIdx?_eq_some_iff_getElem] at hf
      obtain ⟨hi, he, hb⟩ := hf
      have he : x[i] = m := by simpa using he
      refine ⟨i, rfl, by rw [getElem?_eq_getElem hi, he], ?_, ?_⟩
      · intro j v hj hv
        obtain ⟨hj', rfl⟩ := List.getElem?_eq_some_iff.1 hv
        simpa using hb j hj
      · by_cases hl : i < x.length - 1
        · rw [if_pos hl]
        · rw [if_neg hl]
          have : x.length - i = 1 := by omega
          rw [this, replicate_one, ← he]
          conv_lhs => rw [← take_append_drop i x]
          congr 1
          rw [drop_eq_getElem_cons hi, drop_eq_nil_of_le (by omega)]
  unfold noReverse
  rw [if_neg (by omega)]
  by_cases hc : ct = "time" ∧ pt = "CHF"
  · rw [if_pos hc]
    cases hm : x.max? with
    | none => rw [max?_eq_none_iff] at hm; exact absurd hm hne
    | some m =>
      have hmax := (Np.max?_iff x m).1 hm
      obtain ⟨i, h1, h3, h4, h5⟩ := core m hmax.1
      refine ⟨m, i, h3, h4, ?_, ?_⟩
      · simp only [h1, h5]
      · rw [if_pos hc]; exact hmax.2
  · rw [if_neg hc]
    cases hm : x.min? with
    | none => rw [min?_eq_none_iff] at hm; exact absurd hm hne
    | some m =>
      have hmin := (Np.min?_iff x m).1 hm
      obtain ⟨i, h1, h3, h4, h5⟩ := core m hmin.1
      refine ⟨m, i, h3, h4, ?_, ?_⟩
      · simp only [h1, h5]
      · rw [if_neg hc]; exact hmin.2

/-- **C73.** `no_reverse` keeps the length and the values up to the first extreme (minimum, or maximum for time
bounds on the CHF), and repeats that extreme from there on; so if the array was monotone up to its extreme the
result is monotone throughout.  Applying it again changes nothing; shorter arrays are a ValueError. -/
theorem C73_no_reverse (x : List K) (ct pt : String) :
    (x.length < 2 → noReverse x ct pt = .error .valueError) ∧
    (2 ≤ x.length → ∃ r m i, noReverse x ct pt = .ok r ∧ r.length = x.length ∧ i < x.length ∧ x[i]? = some m ∧
      (∀ j, j < i → r[j]? = x[j]? ∧ x[j]? ≠ some m) ∧ (∀ j, i ≤ j → j < x.length → r[j]? = some m) ∧
      (¬ (ct = "time" ∧ pt = "CHF") → (∀ v ∈ x, m ≤ v) ∧
        ((x.take i).Pairwise (· ≥ ·) → r.Pairwise (· ≥ ·))) ∧
      ((ct = "time" ∧ pt = "CHF") → (∀ v ∈ x, v ≤ m) ∧
        ((x.take i).Pairwise (· ≤ ·) → r.Pairwise (· ≤ ·))) ∧
      noReverse r ct pt = .ok r) := by
  refine ⟨fun h => by unfold noReverse; rw [if_pos h], fun h2 => ?_⟩
  obtain ⟨m, i, hi, hb, hr, hext⟩ := noReverse_cases x ct pt h2
  have hil : i < x.length := (List.getElem?_eq_some_iff.1 hi).1
  have htl : (x.take i).length = i := by rw [length_take]; omega
  have hmem : ∀ v ∈ x.take i ++ replicate (x.length - i) m, v ∈ x := by
    intro v hv
    rcases mem_append.1 hv with hv | hv
    · exact mem_of_mem_take hv
    · rw [mem_replicate] at hv; rw [hv.2]; exact mem_of_getElem? hi
  have hlen : (x.take i ++ replicate (x.length - i) m).length = x.length := by
    rw [length_append, htl, length_replicate]; omega
  have hbefore : ∀ j, j < i → (x.take i ++ replicate (x.length - i) m)[j]? = x[j]? := by
    intro j hj
    rw [getElem?_append_left (by omega), getElem?_take_of_lt hj]
  have hafter : ∀ j, i ≤ j → j < x.length → (x.take i ++ replicate (x.length - i) m)[j]? = some m := by
    intro j hj hjl
    rw [getElem?_append_right (by omega), htl, getElem?_replicate, if_pos (by omega)]
  refine ⟨_, m, i, hr, hlen, hil, hi, fun j hj => ⟨hbefore j hj, ?_⟩, hafter, fun hc => ⟨?_, ?_⟩, fun hc => ⟨?_, ?_⟩, ?_⟩
  · intro he; exact hb j m hj he rfl
  · rw [if_neg hc] at hext; exact hext
  · rw [if_neg hc] at hext
    intro hp
    rw [pairwise_append]
    refine ⟨hp, pairwise_replicate.2 (.inr (le_refl _)), ?_⟩
    intro a ha b hb'
    rw [mem_replicate] at hb'
    rw [hb'.2]; exact hext a (mem_of_mem_take ha)
  · rw [if_pos hc] at hext; exact hext
  · rw [if_pos hc] at hext
    intro hp
    rw [pairwise_append]
    refine ⟨hp, pairwise_replicate.2 (.inr (le_refl _)), ?_⟩
    intro a ha b hb'
    rw [mem_replicate] at hb'
    rw [hb'.2]; exact hext a (mem_of_mem_take ha)
  · set r := x.take i ++ replicate (x.length - i) m with hrdef
    obtain ⟨m', i', hi', hb', hr', hext'⟩ := noReverse_cases r ct pt (by omega)
    have hmr : m ∈ r := mem_of_getElem? (hafter i (le_refl _) hil)
    have hm'r : m' ∈ r := mem_of_getElem? hi'
    have hmm : m' = m := by
      by_cases hc : ct = "time" ∧ pt = "CHF"
      · rw [if_pos hc] at hext hext'
        exact le_antisymm (hext m' (hmem m' hm'r)) (hext' m hmr)
      · rw [if_neg hc] at hext hext'
        exact le_antisymm (hext' m hmr) (hext m' (hmem m' hm'r))
    subst hmm
    have hii : i' = i := by
      rcases lt_trichotomy i' i with h | h | h
      · rw [hbefore i' h] at hi'
        exact absurd rfl (hb i' m' h hi')
      · exact h
      · exact absurd rfl (hb' i m' h (hafter i (le_refl _) hil))
    subst hii
    rw [hr', hlen]
    congr 1
    rw [hrdef, take_append_of_le_length (by omega), take_take, min_self]

example : noReverse [(5 : ℚ), 3, 1, 2, 4] "reliability" "CDF" = .ok [5, 3, 1, 1, 1] := by
  have h1 : [(5 : ℚ), 3, 1, 2, 4].min? = some 1 := by decide +kernel
  have h2 : [(5 : ℚ), 3, 1, 2, 4].findIdx? (fun v => decide (v = 1)) = some 2 := by decide +kernel
  unfold noReverse
  simp only [h1, h2]
  simp

end noreverse

end Reliability.Props

import Verif.Model.Histogram
import Verif.Lemmas.NumPy
import Verif.Props.InputCheck
import Mathlib.Tactic.Linarith
import Mathlib.Tactic.NormNum
import Mathlib.Data.Real.Basic

/-! # C124: histogram -/

namespace Reliability.Props.Histogram

open Reliability Reliability.Histogram
open Reliability.Props (bind_ok)

/-- The value of the first of the keywords that the caller gave, else the default. -/
def Chosen (kwargs : List (String × Val)) (keys : List String) (default v : Val) : Prop :=
  (∃ pre k post, keys = pre ++ k :: post ∧ (∀ j ∈ pre, ∀ p ∈ kwargs, p.1 ≠ j) ∧ kwargs.lookup k = some v) ∨
    ((∀ j ∈ keys, ∀ p ∈ kwargs, p.1 ≠ j) ∧ v = default)

theorem lookup_none {kwargs : List (String × Val)} {k : String} (h : kwargs.lookup k = none) : ∀ p ∈ kwargs, p.1 ≠ k := by
  intro p hp hk
  have := List.lookup_eq_none_iff.1 h p hp
  simp [hk] at this

theorem popFirst_chosen (keys : List String) (default : Val) (kwargs : List (String × Val)) :
    Chosen kwargs keys default (popFirst keys default kwargs).1 ∧
      ∀ k, k ∉ keys → ((popFirst keys default kwargs).2).lookup k = kwargs.lookup k := by
  induction keys with
  | nil => exact ⟨.inr ⟨by simp, rfl⟩, fun _ _ => rfl⟩
  | cons k ks ih =>
    unfold popFirst
    cases h : kwargs.lookup k with
    | some v =>
      refine ⟨.inl ⟨[], k, ks, rfl, by simp, h⟩, fun j hj => ?_⟩
      have hjk : j ≠ k := fun e => hj (e ▸ List.mem_cons_self)
      dsimp only
      clear h ih hj
      induction kwargs with
      | nil => rfl
      | cons p l ih =>
        obtain ⟨a, b⟩ := p
        rw [List.filter_cons]
        by_cases hak : a = k
        · subst hak
          rw [if_neg (by simp), ih, List.lookup_cons, beq_eq_false_iff_ne.2 hjk]
        · rw [if_pos (by simpa using hak), List.lookup_cons, List.lookup_cons, ih]
    | none =>
      refine ⟨?_, fun j hj => ih.2 j fun h => hj (List.mem_cons_of_mem _ h)⟩
      rcases ih.1 with ⟨pre, k', post, e, h1, h2⟩ | ⟨h1, h2⟩
      · refine .inl ⟨k :: pre, k', post, by rw [e]; rfl, ?_, h2⟩
        intro j hj
        rcases List.mem_cons.1 hj with rfl | hj
        · exact lookup_none h
        · exact h1 j hj
      · refine .inr ⟨?_, h2⟩
        intro j hj
        rcases List.mem_cons.1 hj with rfl | hj
        · exact lookup_none h
        · exact h1 j hj

theorem minimum_ok {l : List ℝ} {m : ℝ} (h : minimum l = .ok m) : m ∈ l ∧ ∀ x ∈ l, m ≤ x := by
  cases l with
  | nil => cases h
  | cons a l =>
    simp only [minimum, Except.ok.injEq] at h
    subst h
    have key : ∀ (l : List ℝ) (a : ℝ), (l.foldl min a = a ∨ l.foldl min a ∈ l) ∧ l.foldl min a ≤ a ∧
        ∀ x ∈ l, l.foldl min a ≤ x := by
      intro l
      induction l with
      | nil => intro a; simp
      | cons b l ih =>
        intro a
        obtain ⟨h1, h2, h3⟩ := ih (min a b)
        simp only [List.foldl_cons, List.mem_cons]
        refine ⟨?_, h2.trans (min_le_left _ _), ?_⟩
        · rcases h1 with h1 | h1
          · rw [h1]
            rcases min_choice a b with h | h <;> rw [h] <;> simp
          · exact .inr (.inr h1)
        · rintro x (rfl | hx)
          · exact h2.trans (min_le_right _ _)
          · exact h3 x hx
    obtain ⟨h1, h2, h3⟩ := key l a
    refine ⟨List.mem_cons.2 h1, ?_⟩
    intro x hx
    rcases List.mem_cons.1 hx with rfl | hx
    · exact h2
    · exact h3 x hx

/-- A drawing that was made: what is known about its parts. -/
theorem parts {hist : HistCall → List ℝ} {data : DataArg} {white : WhiteArg} {bins : Option Val} {density cumulative : Bool}
    {kwargs : List (String × Val)} {d : Drawn} (h : histogram hist data white bins density cumulative kwargs = .ok d) :
    ∃ l w, (data = .array l ∨ data = .list l) ∧ checkWhite l white = .ok w ∧ d.edges = hist d.call ∧
      shade d.call.color d.edges w = .ok d.faces ∧ d.call.data = l ∧ d.call.density = density ∧
      d.call.cumulative = cumulative ∧ d.call.bins = bins.getD (.str "auto") ∧
      d.call.color = (popFirst ["color", "c"] (.str "lightgrey") kwargs).1 ∧
      d.call.edgecolor = (popFirst ["edgecolor"] (.str "k") (popFirst ["color", "c"] (.str "lightgrey") kwargs).2).1 ∧
      d.call.linewidth = (popFirst ["linewidth", "lw"] (.num 0.5) (popFirst ["edgecolor"] (.str "k")
        (popFirst ["color", "c"] (.str "lightgrey") kwargs).2).2).1 ∧
      d.call.kwargs = (popFirst ["linewidth", "lw"] (.num 0.5) (popFirst ["edgecolor"] (.str "k")
        (popFirst ["color", "c"] (.str "lightgrey") kwargs).2).2).2 := by
  unfold histogram at h
  simp only [bind_ok] at h
  obtain ⟨l, hl, w, hw, faces, hf, h⟩ := h
  cases h
  refine ⟨l, w, ?_, hw, rfl, hf, rfl, rfl, rfl, rfl, rfl, rfl, rfl, rfl⟩
  cases data with
  | array l => cases hl; exact .inl rfl
  | list l => cases hl; exact .inr rfl
  | other => cases hl

/-- **C124 (what is shaded).** With `white_above = w`, whatever (ascending) edges matplotlib chose: there is one face for each
bin, white exactly if `w` is at or below the middle of the bin, and of the chosen colour otherwise. -/
theorem C124_shading (hist : HistCall → List ℝ) (data : DataArg) (w : ℝ) (bins : Option Val) (density cumulative : Bool)
    (kwargs : List (String × Val)) (d : Drawn)
    (h : histogram hist data (.num w) bins density cumulative kwargs = .ok d) (hs : d.edges.Pairwise (· < ·)) :
    d.faces.length = d.edges.length - 1 ∧
    ∀ i a b, d.edges[i]? = some a → d.edges[i + 1]? = some b →
      (w ≤ (a + b) / 2 → d.faces[i]? = some (.str "white")) ∧ ((a + b) / 2 < w → d.faces[i]? = some d.call.color) := by
  obtain ⟨l, w', -, hw, -, hsh, -⟩ := parts h
  have : w' = some w := by
    unfold checkWhite at hw
    simp only [bind, Except.bind] at hw
    split at hw
    · cases hw
    · split_ifs at hw
      cases hw; rfl
  subst this
  unfold shade at hsh
  dsimp only at hsh
  split at hsh
  · cases hsh
  · rename_i k hk
    have hsh := (Except.ok.inj hsh).symm
    refine ⟨by rw [hsh]; simp, ?_⟩
    intro i a b ha hb
    obtain ⟨m, hm, hle, hlt⟩ := Np.argmin_spec hk
    rw [List.getElem?_map] at hm
    cases he : d.edges[k]? with
    | none => rw [he] at hm; cases hm
    | some e =>
      rw [he] at hm
      simp only [Option.map_some, Option.some.injEq] at hm
      subst hm
      have hi : i + 1 < d.edges.length := (List.getElem?_eq_some_iff.1 hb).1
      have hget : ∀ v : Val, (if k ≤ i then Val.str "white" else d.call.color) = v →
          d.faces[i]? = some v := by
        intro v hv
        rw [hsh, List.getElem?_map, List.getElem?_range (by omega), Option.map_some, hv]
      have mono : ∀ {i j : ℕ} {x y : ℝ}, d.edges[i]? = some x → d.edges[j]? = some y → i ≤ j → x ≤ y := by
        intro i j x y hx hy hij
        obtain ⟨h1, rfl⟩ := List.getElem?_eq_some_iff.1 hx
        obtain ⟨h2, rfl⟩ := List.getElem?_eq_some_iff.1 hy
        rcases Nat.lt_or_eq_of_le hij with h | h
        · exact (List.pairwise_iff_getElem.1 hs _ _ h1 h2 h).le
        · subst h; exact le_rfl
      have hab : a < b := by
        obtain ⟨h1, rfl⟩ := List.getElem?_eq_some_iff.1 ha
        obtain ⟨h2, rfl⟩ := List.getElem?_eq_some_iff.1 hb
        exact List.pairwise_iff_getElem.1 hs _ _ h1 h2 (Nat.lt_succ_self i)
      constructor
      · intro hmid
        refine hget _ (if_pos ?_)
        by_contra hki
        push Not at hki
        have h1 : |e - w| < |a - w| := hlt i _ (by rw [List.getElem?_map, ha]; rfl) hki
        have h2 : b ≤ e := mono hb he hki
        have h3 : |a - w| ≤ e - w := abs_le.2 ⟨by linarith, by linarith⟩
        have h4 := le_abs_self (e - w)
        linarith
      · intro hmid
        refine hget _ (if_neg ?_)
        intro hki
        have h1 : |e - w| ≤ |b - w| := hle _ (List.mem_map.2 ⟨b, List.mem_of_getElem? hb, rfl⟩)
        have h2 : e ≤ a := mono he ha hki
        have h3 : |b - w| < w - e := abs_lt.2 ⟨by linarith, by linarith⟩
        have h4 := neg_abs_le (e - w)
        linarith

/-- **C124 (bins above and below).** A bin wholly at or above `white_above` is white, and one wholly at or below it is not
(it has the chosen colour). -/
theorem C124_above_below (hist : HistCall → List ℝ) (data : DataArg) (w : ℝ) (bins : Option Val) (density cumulative : Bool)
    (kwargs : List (String × Val)) (d : Drawn)
    (h : histogram hist data (.num w) bins density cumulative kwargs = .ok d) (hs : d.edges.Pairwise (· < ·))
    (i : ℕ) (a b : ℝ) (ha : d.edges[i]? = some a) (hb : d.edges[i + 1]? = some b) :
    (w ≤ a → d.faces[i]? = some (.str "white")) ∧ (b ≤ w → d.faces[i]? = some d.call.color) := by
  have hab : a < b := by
    obtain ⟨h1, rfl⟩ := List.getElem?_eq_some_iff.1 ha
    obtain ⟨h2, rfl⟩ := List.getElem?_eq_some_iff.1 hb
    exact List.pairwise_iff_getElem.1 hs _ _ h1 h2 (Nat.lt_succ_self i)
  obtain ⟨-, key⟩ := C124_shading hist data w bins density cumulative kwargs d h hs
  exact ⟨fun hw => (key i a b ha hb).1 (by linarith), fun hw => (key i a b ha hb).2 (by linarith)⟩

/-- **C124 (no threshold).** Without `white_above` every bin has the chosen colour. -/
theorem C124_plain (hist : HistCall → List ℝ) (data : DataArg) (bins : Option Val) (density cumulative : Bool)
    (kwargs : List (String × Val)) (d : Drawn) (h : histogram hist data .none bins density cumulative kwargs = .ok d) :
    d.faces = List.replicate (d.edges.length - 1) d.call.color := by
  obtain ⟨l, w', -, hw, -, hsh, -⟩ := parts h
  cases hw
  exact (Except.ok.inj hsh).symm

/-- **C124 (acceptance).** As long as matplotlib answers some edges, the call is refused (ValueError) exactly if `data` is
neither an array nor a list, or `white_above` is neither None nor a number, or there is a `white_above` that is below every
observation (in particular if there are none). -/
theorem C124_accepts_iff (hist : HistCall → List ℝ) (data : DataArg) (white : WhiteArg) (bins : Option Val)
    (density cumulative : Bool) (kwargs : List (String × Val)) (hh : ∀ c, hist c ≠ []) :
    ((∃ d, histogram hist data white bins density cumulative kwargs = .ok d) ↔
      ∃ l, (data = .array l ∨ data = .list l) ∧ (white = .none ∨ ∃ w, white = .num w ∧ ∃ x ∈ l, x ≤ w)) ∧
    ∀ e, histogram hist data white bins density cumulative kwargs = .error e → e = .valueError := by
  have minimum_cases : ∀ l : List ℝ, (l = [] ∧ minimum l = .error .valueError) ∨ ∃ m, minimum l = .ok m := by
    intro l
    cases l with
    | nil => exact .inl ⟨rfl, rfl⟩
    | cons a l => exact .inr ⟨_, rfl⟩
  have check_err : ∀ l e, checkWhite l white = .error e → e = .valueError := by
    intro l e h
    cases white with
    | none => cases h
    | other => cases h; rfl
    | num w =>
      rcases minimum_cases l with ⟨-, hm⟩ | ⟨m, hm⟩
      · simp only [checkWhite, hm, bind, Except.bind] at h; cases h; rfl
      · simp only [checkWhite, hm, bind, Except.bind] at h
        split_ifs at h
        · cases h; rfl
        · cases h
  have check_ok : ∀ l, (∃ w, checkWhite l white = .ok w) ↔ (white = .none ∨ ∃ w, white = .num w ∧ ∃ x ∈ l, x ≤ w) := by
    intro l
    cases white with
    | none => simp [checkWhite]
    | other => simp [checkWhite]
    | num w =>
      rcases minimum_cases l with ⟨rfl, hm⟩ | ⟨m, hm⟩
      · simp [checkWhite, hm, bind, Except.bind]
      · obtain ⟨h1, h2⟩ := minimum_ok hm
        simp only [checkWhite, hm, bind, Except.bind, reduceCtorEq, WhiteArg.num.injEq, false_or]
        split_ifs with hw
        · simp only [reduceCtorEq, exists_false, false_iff, not_exists, not_and]
          rintro w' rfl x hx
          exact not_le.2 (hw.trans_le (h2 x hx))
        · simp only [pure, Except.pure, Except.ok.injEq, exists_eq', true_iff]
          exact ⟨w, rfl, m, h1, not_lt.1 hw⟩
  have shade_ok : ∀ c e w, e ≠ [] → ∃ f, shade c e w = .ok f := by
    intro c e w he
    cases w with
    | none => exact ⟨_, rfl⟩
    | some w =>
      obtain ⟨k, hk⟩ := Np.argmin_isSome (l := e.map fun e => |e - w|) (by simpa using he)
      exact ⟨_, by rw [shade, hk]⟩
  have key : ∀ l, (data = .array l ∨ data = .list l) →
      ((∃ w, checkWhite l white = .ok w) → ∃ d, histogram hist data white bins density cumulative kwargs = .ok d) ∧
      ∀ e, checkWhite l white = .error e → histogram hist data white bins density cumulative kwargs = .error e := by
    intro l hl
    constructor
    · rintro ⟨w, hw⟩
      have hl' : asList data = .ok l := by rcases hl with rfl | rfl <;> rfl
      obtain ⟨f, hf⟩ := shade_ok (callOf l bins density cumulative kwargs).color (hist (callOf l bins density cumulative kwargs))
        w (hh _)
      exact ⟨_, by simp only [histogram, bind_ok]; exact ⟨l, hl', w, hw, f, hf, rfl⟩⟩
    · intro e he
      have hl' : asList data = .ok l := by rcases hl with rfl | rfl <;> rfl
      simp only [histogram, hl', he, bind, Except.bind]
  constructor
  · constructor
    · rintro ⟨d, hd⟩
      obtain ⟨l, w, hl, hw, -⟩ := parts hd
      exact ⟨l, hl, (check_ok l).1 ⟨w, hw⟩⟩
    · rintro ⟨l, hl, hw⟩
      exact (key l hl).1 ((check_ok l).2 hw)
  · intro e he
    have : ∀ l, (data = .array l ∨ data = .list l) → e = .valueError := by
      intro l hl
      cases hc : checkWhite l white with
      | ok w =>
        obtain ⟨d, hd⟩ := (key l hl).1 ⟨w, hc⟩
        rw [hd] at he; cases he
      | error e' =>
        rw [(key l hl).2 e' hc] at he
        cases he
        exact check_err l _ hc
    cases data with
    | array l => exact this l (.inl rfl)
    | list l => exact this l (.inr rfl)
    | other => unfold histogram at he; cases he; rfl

/-- **C124 (style).** The data, `density` and `cumulative` reach matplotlib as given; bins default to "auto"; the colour is the
caller's `color`, else `c`, else light grey; the edges `edgecolor` else black; the line width `linewidth`, else `lw`, else
0.5; every other keyword is passed on as it was given. -/
theorem C124_style (hist : HistCall → List ℝ) (data : DataArg) (white : WhiteArg) (bins : Option Val)
    (density cumulative : Bool) (kwargs : List (String × Val)) (d : Drawn)
    (h : histogram hist data white bins density cumulative kwargs = .ok d) :
    (data = .array d.call.data ∨ data = .list d.call.data) ∧ d.edges = hist d.call ∧
    d.call.density = density ∧ d.call.cumulative = cumulative ∧
    d.call.bins = bins.getD (.str "auto") ∧ Chosen kwargs ["color", "c"] (.str "lightgrey") d.call.color ∧
    (kwargs.lookup "edgecolor" = some d.call.edgecolor ∨
      kwargs.lookup "edgecolor" = none ∧ d.call.edgecolor = .str "k") ∧
    (kwargs.lookup "linewidth" = some d.call.linewidth ∨ kwargs.lookup "linewidth" = none ∧
      (kwargs.lookup "lw" = some d.call.linewidth ∨ kwargs.lookup "lw" = none ∧ d.call.linewidth = .num 0.5)) ∧
    ∀ k, k ∉ ["color", "c", "edgecolor", "linewidth", "lw"] → d.call.kwargs.lookup k = kwargs.lookup k := by
  obtain ⟨l, w, hl, -, he, -, h1, h2, h3, h4, h5, h6, h7, h8⟩ := parts h
  have one : ∀ (ks : List (String × Val)) (k : String) (dflt : Val),
      ks.lookup k = some (popFirst [k] dflt ks).1 ∨ ks.lookup k = none ∧ (popFirst [k] dflt ks).1 = dflt := by
    intro ks k dflt
    unfold popFirst
    cases h : ks.lookup k with
    | some v => exact .inl rfl
    | none => exact .inr ⟨rfl, rfl⟩
  have two : ∀ (ks : List (String × Val)) (k k' : String) (dflt : Val),
      ks.lookup k = some (popFirst [k, k'] dflt ks).1 ∨ ks.lookup k = none ∧
        (ks.lookup k' = some (popFirst [k, k'] dflt ks).1 ∨ ks.lookup k' = none ∧ (popFirst [k, k'] dflt ks).1 = dflt) := by
    intro ks k k' dflt
    unfold popFirst
    cases h : ks.lookup k with
    | some v => exact .inl rfl
    | none => exact .inr ⟨rfl, one ks k' dflt⟩
  have p1 := popFirst_chosen ["color", "c"] (.str "lightgrey") kwargs
  have p2 := popFirst_chosen ["edgecolor"] (.str "k") (popFirst ["color", "c"] (.str "lightgrey") kwargs).2
  have p3 := popFirst_chosen ["linewidth", "lw"] (.num 0.5) (popFirst ["edgecolor"] (.str "k")
    (popFirst ["color", "c"] (.str "lightgrey") kwargs).2).2
  refine ⟨by rw [h1]; exact hl, he, h2, h3, h4, by rw [h5]; exact p1.1, ?_, ?_, ?_⟩
  · rw [h6, ← p1.2 "edgecolor" (by decide)]
    exact one _ _ _
  · rw [h7, ← p1.2 "linewidth" (by decide), ← p1.2 "lw" (by decide), ← p2.2 "linewidth" (by decide), ← p2.2 "lw" (by decide)]
    exact two _ _ _ _
  · intro k hk
    rw [h8]
    simp only [List.mem_cons, List.not_mem_nil, or_false, not_or] at hk
    rw [p3.2 k (by simp [hk]), p2.2 k (by simp [hk]), p1.2 k (by simp [hk])]

/-- **C124 (finding).** "Bins above this value will be shaded white": a bin that only begins below `white_above` is shaded too
when its left edge is the nearer one, so observations below the threshold are drawn as censored.  Data 1, 3, 5 with edges
1, 3, 5 and `white_above = 2`: the bin from 1 to 3, which holds the observation 1, is white. -/
theorem C124_straddling_finding :
    ∃ d, histogram (fun _ => [1, 3, 5]) (.list [1, 3, 5]) (.num 2) none true false [] = .ok d ∧
      d.faces[0]? = some (.str "white") := by
  obtain ⟨d, hd⟩ := (C124_accepts_iff (fun _ => [1, 3, 5]) (.list [1, 3, 5]) (.num 2) none true false [] (by simp)).1.2
    ⟨_, .inr rfl, .inr ⟨2, rfl, 1, by simp, by norm_num⟩⟩
  have he : d.edges = [1, 3, 5] := (C124_style _ _ _ _ _ _ _ d hd).2.1
  refine ⟨d, hd, ?_⟩
  refine ((C124_shading _ _ _ _ _ _ _ d hd (by rw [he]; norm_num)).2 0 1 3 (by rw [he]; rfl) (by rw [he]; rfl)).1 ?_
  norm_num

/-- The same histogram with `white_above = 3`: the first bin keeps the caller's colour, the second is white. -/
example : ∃ d, histogram (fun _ => [1, 3, 5]) (.list [1, 3, 5]) (.num 3) none true false [("c", .str "r"), ("alpha", .num 1)] =
      .ok d ∧ d.faces[0]? = some (.str "r") ∧ d.faces[1]? = some (.str "white") := by
  obtain ⟨d, hd⟩ := (C124_accepts_iff (fun _ => [1, 3, 5]) (.list [1, 3, 5]) (.num 3) none true false
    [("c", .str "r"), ("alpha", .num 1)] (by simp)).1.2 ⟨_, .inr rfl, .inr ⟨3, rfl, 3, by simp, by norm_num⟩⟩
  obtain ⟨-, he, -, -, -, hc, -⟩ := C124_style _ _ _ _ _ _ _ d hd
  have hc' : d.call.color = .str "r" := by
    obtain ⟨l, w, -, -, -, -, -, -, -, -, h, -⟩ := parts hd
    rw [h]; rfl
  have hs : d.edges.Pairwise (· < ·) := by rw [he]; norm_num
  refine ⟨d, hd, ?_, ?_⟩
  · rw [← hc']
    exact (C124_above_below _ _ _ _ _ _ _ d hd hs 0 1 3 (by rw [he]; rfl) (by rw [he]; rfl)).2 (by norm_num)
  · exact (C124_above_below _ _ _ _ _ _ _ d hd hs 1 3 5 (by rw [he]; rfl) (by rw [he]; rfl)).1 (by norm_num)

end Reliability.Props.Histogram

import Verif.Props.OtherFunctions
import Verif.Lemmas.NumPy
import Verif.Lemmas.Title

/-!
# C58: make_ALT_data
-/

namespace Reliability.Props

open Reliability OtherFunctions Spec List

/-- The name and parameters given describe the life-stress model `ls` (the spelling is case-insensitive). -/
inductive Describes : String → Params → LifeStress → Prop
  | exponential {s p a b} : SameName s "Exponential" → p.a = some a → p.b = some b → Describes s p (.exponential a b)
  | eyring {s p a c} : SameName s "Eyring" → p.a = some a → p.c = some c → Describes s p (.eyring a c)
  | power {s p a n} : SameName s "Power" → p.a = some a → p.n = some n → Describes s p (.power a n)
  | dualExponential {s p a b c} : SameName s "Dual_Exponential" → p.a = some a → p.b = some b → p.c = some c →
      Describes s p (.dualExponential a b c)
  | powerExponential {s p a c n} : SameName s "Power_Exponential" → p.a = some a → p.c = some c → p.n = some n →
      Describes s p (.powerExponential a c n)
  | dualPower {s p c m n} : SameName s "Dual_Power" → p.c = some c → p.m = some m → p.n = some n →
      Describes s p (.dualPower c m n)

theorem sameName_Exponential (s : String) : SameName s "Exponential" ↔ title s = "Exponential" := (title_eq_iff (by decide +kernel) s).symm
theorem sameName_Eyring (s : String) : SameName s "Eyring" ↔ title s = "Eyring" := (title_eq_iff (by decide +kernel) s).symm
theorem sameName_Power (s : String) : SameName s "Power" ↔ title s = "Power" := (title_eq_iff (by decide +kernel) s).symm
theorem sameName_Dual_Exponential (s : String) : SameName s "Dual_Exponential" ↔ title s = "Dual_Exponential" := (title_eq_iff (by decide +kernel) s).symm
theorem sameName_Power_Exponential (s : String) : SameName s "Power_Exponential" ↔ title s = "Power_Exponential" := (title_eq_iff (by decide +kernel) s).symm
theorem sameName_Dual_Power (s : String) : SameName s "Dual_Power" ↔ title s = "Dual_Power" := (title_eq_iff (by decide +kernel) s).symm

theorem Describes.unique {s : String} {p : Params} {a b : LifeStress} (h : Describes s p a) (h' : Describes s p b) :
    a = b := by
  cases h <;> cases h' <;> simp only [sameName_Exponential, sameName_Eyring, sameName_Power, sameName_Dual_Exponential,
    sameName_Power_Exponential, sameName_Dual_Power] at * <;> simp_all

/-- Whether a model has two stresses. -/
def isDual : LifeStress → Bool
  | .exponential _ _ => false
  | .eyring _ _ => false
  | .power _ _ => false
  | .dualExponential _ _ _ => true
  | .powerExponential _ _ _ => true
  | .dualPower _ _ _ => true

/-- The name and shape parameter given describe the life distribution. -/
inductive DescribesDist : String → Option ℝ → Option ℝ → LifeDist → Prop
  | weibull {beta sigma b} : beta = some b → DescribesDist "Weibull" beta sigma (.weibull b)
  | lognormal {beta sigma s} : sigma = some s → DescribesDist "Lognormal" beta sigma (.lognormal s)
  | normal {beta sigma s} : sigma = some s → DescribesDist "Normal" beta sigma (.normal s)
  | exponential {beta sigma} : DescribesDist "Exponential" beta sigma .exponential

theorem makeDist_ok {dist : String} {beta sigma : Option ℝ} {life : ℝ} {d : Distributions.Dist}
    (h : makeDist dist beta sigma life = .ok d) :
    ∃ ld, DescribesDist dist beta sigma ld ∧ makeDist dist beta sigma = fun x => .ok (ld.dist x) := by
  unfold makeDist at h
  split at h
  · rename_i e; subst e
    cases hb : beta with
    | none => rw [hb] at h; cases h
    | some b => exact ⟨.weibull b, .weibull rfl, by funext x; simp [makeDist, LifeDist.dist]⟩
  split at h
  · rename_i e; subst e
    cases hb : sigma with
    | none => rw [hb] at h; cases h
    | some b => exact ⟨.lognormal b, .lognormal rfl, by funext x; simp [makeDist, LifeDist.dist]⟩
  split at h
  · rename_i e; subst e
    cases hb : sigma with
    | none => rw [hb] at h; cases h
    | some b => exact ⟨.normal b, .normal rfl, by funext x; simp [makeDist, LifeDist.dist]⟩
  split at h
  · rename_i e; subst e
    exact ⟨.exponential, .exponential, by funext x; simp [makeDist, LifeDist.dist]⟩
  · cases h

theorem makeDist_described {dist : String} {beta sigma : Option ℝ} {ld : LifeDist}
    (h : DescribesDist dist beta sigma ld) : makeDist dist beta sigma = fun x => .ok (ld.dist x) := by
  funext x
  cases h with
  | weibull h => subst h; simp [makeDist, LifeDist.dist]
  | lognormal h => subst h; simp [makeDist, LifeDist.dist]
  | normal h => subst h; simp [makeDist, LifeDist.dist]
  | exponential => simp [makeDist, LifeDist.dist]

theorem eyring_life (a c s : ℝ) : (1 / s) * Real.exp (-(c - a / s)) = Real.exp (a / s - c) / s := by
  rw [neg_sub]; ring

theorem lifeModel_ok {s : String} {p : Params} {m : Model} (hm : parseModel s = some m) {life : ℝ → ℝ → ℝ}
    (h : lifeModel m p = .ok life) : ∃ ls, Describes s p ls ∧ ls.Valid ∧ life = ls.life ∧ m.dual = isDual ls := by
  unfold parseModel at hm
  dsimp only at hm
  split at hm
  · rename_i e; cases hm
    unfold lifeModel at h; dsimp only at h
    split at h
    · rename_i a b ha hb
      split at h
      · cases h
      · rename_i hp; cases h
        exact ⟨.exponential a b, .exponential ((title_eq_iff (by decide +kernel) _).1 e) ha hb, not_le.1 hp, rfl, rfl⟩
    · cases h
  split at hm
  · rename_i e; cases hm
    unfold lifeModel at h; dsimp only at h
    split at h
    · rename_i a b ha hb
      cases h
      exact ⟨.eyring a b, .eyring ((title_eq_iff (by decide +kernel) _).1 e) ha hb, trivial, by funext x y; exact eyring_life _ _ _, rfl⟩
    · cases h
  split at hm
  · rename_i e; cases hm
    unfold lifeModel at h; dsimp only at h
    split at h
    · rename_i a b ha hb
      split at h
      · cases h
      · rename_i hp; cases h
        exact ⟨.power a b, .power ((title_eq_iff (by decide +kernel) _).1 e) ha hb, not_le.1 hp, rfl, rfl⟩
    · cases h
  split at hm
  · rename_i e; cases hm
    unfold lifeModel at h; dsimp only at h
    split at h
    · rename_i a b c ha hb hc
      split at h
      · cases h
      · rename_i hp; cases h
        exact ⟨.dualExponential a b c, .dualExponential ((title_eq_iff (by decide +kernel) _).1 e) ha hb hc, not_le.1 hp, rfl, rfl⟩
    · cases h
  split at hm
  · rename_i e; cases hm
    unfold lifeModel at h; dsimp only at h
    split at h
    · rename_i a b c ha hb hc
      split at h
      · cases h
      · rename_i hp; cases h
        exact ⟨.powerExponential a b c, .powerExponential ((title_eq_iff (by decide +kernel) _).1 e) ha hb hc, not_le.1 hp, rfl, rfl⟩
    · cases h
  split at hm
  · rename_i e; cases hm
    unfold lifeModel at h; dsimp only at h
    split at h
    · rename_i c n m hc hn hm'
      split at h
      · cases h
      · rename_i hp; cases h
        exact ⟨.dualPower c m n, .dualPower ((title_eq_iff (by decide +kernel) _).1 e) hc hm' hn, not_le.1 hp, rfl, rfl⟩
    · cases h
  · cases hm

theorem lifeModel_described {s : String} {p : Params} {ls : LifeStress} (hd : Describes s p ls) (hv : ls.Valid) :
    ∃ m, parseModel s = some m ∧ lifeModel m p = .ok ls.life ∧ m.dual = isDual ls := by
  cases hd with
  | exponential e ha hb =>
    replace e := (title_eq_iff (t := "Exponential") (by decide +kernel) s).2 e
    refine ⟨.exponential, by simp [parseModel, e], ?_, rfl⟩
    simp only [lifeModel, ha, hb]; rw [if_neg (not_le.2 hv)]; rfl
  | eyring e ha hb =>
    replace e := (title_eq_iff (t := "Eyring") (by decide +kernel) s).2 e
    refine ⟨.eyring, by simp [parseModel, e], ?_, rfl⟩
    simp only [lifeModel, ha, hb]
    congr 1; funext x y; exact eyring_life _ _ _
  | power e ha hb =>
    replace e := (title_eq_iff (t := "Power") (by decide +kernel) s).2 e
    refine ⟨.power, by simp [parseModel, e], ?_, rfl⟩
    simp only [lifeModel, ha, hb]; rw [if_neg (not_le.2 hv)]; rfl
  | dualExponential e ha hb hc =>
    replace e := (title_eq_iff (t := "Dual_Exponential") (by decide +kernel) s).2 e
    refine ⟨.dualExponential, by simp [parseModel, e], ?_, rfl⟩
    simp only [lifeModel, ha, hb, hc]; rw [if_neg (not_le.2 hv)]; rfl
  | powerExponential e ha hb hc =>
    replace e := (title_eq_iff (t := "Power_Exponential") (by decide +kernel) s).2 e
    refine ⟨.powerExponential, by simp [parseModel, e], ?_, rfl⟩
    simp only [lifeModel, ha, hb, hc]; rw [if_neg (not_le.2 hv)]; rfl
  | dualPower e ha hb hc =>
    replace e := (title_eq_iff (t := "Dual_Power") (by decide +kernel) s).2 e
    refine ⟨.dualPower, by simp [parseModel, e], ?_, rfl⟩
    simp only [lifeModel, ha, hb, hc]; rw [if_neg (not_le.2 hv)]; rfl

/-- The random numbers are proper: every sample has `N` values, shuffling permutes, uniforms lie in `[0, 1)`. -/
structure Proper (dr : Draws) (N : ℕ) : Prop where
  sample : ∀ d i, (dr.sample d i).length = N
  shuffle : ∀ i l, (dr.shuffle i l).Perm l
  rand : ∀ i k, (dr.rand i k).length = k ∧ ∀ u ∈ dr.rand i k, 0 ≤ u ∧ u < 1

/-- What is recorded for the `i`-th level: a sample of the distribution with the life at that level's stresses, all
positive, right censored in the requested proportion. -/
structure LevelOK (mk : ℝ → Distributions.Dist) (life : ℝ → ℝ → ℝ) (dr : Draws) (N : ℕ) (frac : ℝ) (i : ℕ) (l : Level) :
    Prop where
  raw : l.raw = dr.sample (mk (life l.S1 l.S2)) i
  pos : ∀ x ∈ l.raw, 0 < x
  censoring : RightCensoring l.raw l.failures l.censored
  censored : l.censored.length = ⌊(N : ℝ) * frac⌋₊
  total : l.censored.length + l.failures.length = N

theorem step_spec {mk : ℝ → Distributions.Dist} {life : ℝ → ℝ → ℝ} {dual : Bool} {frac : ℝ} (h0 : 0 ≤ frac) (h1 : frac < 1)
    {dr : Draws} {N : ℕ} (hp : Proper dr N) (i : ℕ) (s1 s2 : ℝ) (acc : Acc) :
    (∃ x ∈ dr.sample (mk (life s1 s2)) i, x ≤ 0) ∨ N = 0 ∧
        step (fun x => .ok (mk x)) life dual frac dr i s1 s2 acc = .error .valueError ∨
    0 < N ∧ (∀ x ∈ dr.sample (mk (life s1 s2)) i, 0 < x) ∧
    ∃ l : Level, l.S1 = s1 ∧ l.S2 = s2 ∧ LevelOK mk life dr N frac i l ∧
      step (fun x => .ok (mk x)) life dual frac dr i s1 s2 acc = .ok
        { f := acc.f ++ l.failures
          rc := acc.rc ++ l.censored
          fs1 := acc.fs1 ++ replicate l.failures.length l.S1
          rs1 := acc.rs1 ++ replicate l.censored.length l.S1
          fs2 := if dual then acc.fs2 ++ replicate l.failures.length l.S2 else acc.fs2
          rs2 := if dual then acc.rs2 ++ replicate l.censored.length l.S2 else acc.rs2 } := by
  have hN := hp.sample (mk (life s1 s2)) i
  unfold step
  dsimp only
  generalize hraw : dr.sample (mk (life s1 s2)) i = raw at hN
  cases hmin : raw.min? with
  | none =>
    rw [min?_eq_none_iff] at hmin
    right; left
    subst hmin
    exact ⟨hN.symm, rfl⟩
  | some lo =>
    rw [Np.min?_iff] at hmin
    have hNpos : 0 < N := by rw [← hN]; exact length_pos_of_mem hmin.1
    by_cases hlo : lo ≤ 0
    · left; exact ⟨lo, hmin.1, hlo⟩
    right; right
    push Not at hlo
    have hpos : ∀ x ∈ raw, 0 < x := fun x hx => lt_of_lt_of_le hlo (hmin.2 x hx)
    refine ⟨hNpos, hpos, ?_⟩
    dsimp only
    rw [if_neg (not_le.2 hlo)]
    by_cases hf : frac = 0
    · subst hf
      rw [if_pos rfl]
      refine ⟨⟨s1, s2, raw, raw, []⟩, rfl, rfl, ⟨hraw.symm, hpos, ⟨[], by simp, .nil⟩, by simp, by simpa using hN⟩, ?_⟩
      simp [map_const']
    · rw [if_neg hf]
      obtain ⟨f, c, hfc, hrc, hcl, htl⟩ := C57_fraction (.ndarray raw) (by simp) (some frac) h0 h1 (dr.shuffle i) (dr.rand i)
        (hp.shuffle i) (hp.rand i) (fun x hx => (hpos x hx).le)
      simp only [Data.values, Option.getD_some] at hcl htl hrc
      rw [hfc]
      refine ⟨⟨s1, s2, raw, f, c⟩, rfl, rfl, ⟨hraw.symm, hpos, hrc, by rw [hcl, hN], by rw [htl, hN]⟩, ?_⟩
      simp [map_const']

theorem loop_spec {mk : ℝ → Distributions.Dist} {life : ℝ → ℝ → ℝ} {dual : Bool} {frac : ℝ} (h0 : 0 ≤ frac) (h1 : frac < 1)
    {dr : Draws} {N : ℕ} (hp : Proper dr N) (levels : List (ℝ × ℝ)) :
    ∀ (i : ℕ) (acc res : Acc), loop (fun x => .ok (mk x)) life dual frac dr i levels acc = .ok res →
    ∃ L : List Level, L.map (fun l => (l.S1, l.S2)) = levels ∧
      (∀ j (hj : j < L.length), LevelOK mk life dr N frac (i + j) L[j]) ∧
      res.f = acc.f ++ L.flatMap (·.failures) ∧ res.rc = acc.rc ++ L.flatMap (·.censored) ∧
      res.fs1 = acc.fs1 ++ L.flatMap (fun l => replicate l.failures.length l.S1) ∧
      res.rs1 = acc.rs1 ++ L.flatMap (fun l => replicate l.censored.length l.S1) ∧
      (dual = true → res.fs2 = acc.fs2 ++ L.flatMap (fun l => replicate l.failures.length l.S2) ∧
        res.rs2 = acc.rs2 ++ L.flatMap (fun l => replicate l.censored.length l.S2)) := by
  induction levels with
  | nil =>
    intro i acc res h
    simp only [loop] at h
    cases h
    exact ⟨[], rfl, fun j hj => absurd hj (by simp), by simp, by simp, by simp, by simp, fun _ => by simp⟩
  | cons s rest ih =>
    intro i acc res h
    obtain ⟨s1, s2⟩ := s
    simp only [loop] at h
    have hstep : step (fun x => .ok (mk x)) life dual frac dr i s1 s2 acc ≠ .error .valueError →
        ∃ l : Level, l.S1 = s1 ∧ l.S2 = s2 ∧ LevelOK mk life dr N frac i l ∧
      step (fun x => .ok (mk x)) life dual frac dr i s1 s2 acc = .ok
        { f := acc.f ++ l.failures
          rc := acc.rc ++ l.censored
          fs1 := acc.fs1 ++ replicate l.failures.length l.S1
          rs1 := acc.rs1 ++ replicate l.censored.length l.S1
          fs2 := if dual then acc.fs2 ++ replicate l.failures.length l.S2 else acc.fs2
          rs2 := if dual then acc.rs2 ++ replicate l.censored.length l.S2 else acc.rs2 } := by
      intro hne
      rcases step_spec (dual := dual) h0 h1 hp (mk := mk) (life := life) i s1 s2 acc with ⟨x, hx, hx0⟩ | ⟨-, h⟩ | ⟨-, -, h⟩
      · exfalso
        apply hne
        unfold step
        dsimp only
        cases hmin : (dr.sample (mk (life s1 s2)) i).min? with
        | none => rfl
        | some lo =>
          rw [Np.min?_iff] at hmin
          dsimp only
          rw [if_pos (le_trans (hmin.2 x hx) hx0)]
      · exact absurd h hne
      · exact h
    by_cases hne : step (fun x => .ok (mk x)) life dual frac dr i s1 s2 acc = .error .valueError
    · rw [hne] at h; cases h
    · obtain ⟨l, e1, e2, hl, hs⟩ := hstep hne
      rw [hs] at h
      obtain ⟨L, hL, hok, k1, k2, k3, k4, k5⟩ := ih (i + 1) _ res h
      refine ⟨l :: L, by simp [hL, e1, e2], ?_, ?_, ?_, ?_, ?_, ?_⟩
      · intro j hj
        cases j with
        | zero => simpa using hl
        | succ j =>
          have := hok j (by simpa using hj)
          rw [show i + (j + 1) = i + 1 + j by omega]
          simpa using this
      · rw [k1]; simp
      · rw [k2]; simp
      · rw [k3]; simp
      · rw [k4]; simp
      · intro hdual
        obtain ⟨k6, k7⟩ := k5 hdual
        rw [k6, k7]; simp [hdual]

theorem loop_total {mk : ℝ → Distributions.Dist} {life : ℝ → ℝ → ℝ} {dual : Bool} {frac : ℝ} (h0 : 0 ≤ frac) (h1 : frac < 1)
    {dr : Draws} {N : ℕ} (hp : Proper dr N) (hN : 0 < N) (hpos : ∀ d i, ∀ x ∈ dr.sample d i, 0 < x)
    (levels : List (ℝ × ℝ)) : ∀ (i : ℕ) (acc : Acc),
    ∃ res, loop (fun x => .ok (mk x)) life dual frac dr i levels acc = .ok res := by
  induction levels with
  | nil => intro i acc; exact ⟨acc, rfl⟩
  | cons s rest ih =>
    intro i acc
    obtain ⟨s1, s2⟩ := s
    simp only [loop]
    rcases step_spec (dual := dual) h0 h1 hp (mk := mk) (life := life) i s1 s2 acc with ⟨x, hx, hx0⟩ | ⟨h, -⟩ | ⟨-, -, l, -, -, -, h⟩
    · exact absurd hx0 (not_le.2 (hpos _ _ x hx))
    · omega
    · rw [h]; exact ih _ _

/-- The use level given: a number (or a one-element list) for one stress, a pair for two. -/
inductive UseIs (dual : Bool) : Option Use → Option (ℝ × ℝ) → Prop
  | none : UseIs dual none none
  | scalar {u} : dual = false → UseIs dual (some (.scalar u)) (some (u, 0))
  | single {u} : dual = false → UseIs dual (some (.list [u])) (some (u, 0))
  | pair {u1 u2} : dual = true → UseIs dual (some (.list [u1, u2])) (some (u1, u2))

theorem stresses_ok {dual : Bool} {stress1 : List ℝ} {stress2 : Option (List ℝ)} {use : Option Use}
    {useAt : Option (ℝ × ℝ)} (hu : UseIs dual use useAt) {levels : List (ℝ × ℝ)} {useLevel : Option (ℝ × ℝ)}
    (h : stresses dual stress1 stress2 use = .ok (levels, useLevel)) :
    useLevel = useAt ∧ levels.map (·.1) = stress1 ∧ (dual = true → stress2 = some (levels.map (·.2))) := by
  have hzip : ∀ l2 : List ℝ, ¬ l2.length ≠ stress1.length →
      (stress1.zip l2).map (·.1) = stress1 ∧ some l2 = some ((stress1.zip l2).map (·.2)) := by
    intro l2 hl
    push Not at hl
    exact ⟨map_fst_zip (by omega), by rw [show (fun x : ℝ × ℝ => x.2) = Prod.snd from rfl, map_snd_zip (by omega)]⟩
  cases hu with
  | none =>
    cases dual with
    | false =>
      simp only [stresses, if_true] at h
      cases h
      exact ⟨rfl, by simp [Function.comp_def], fun h => by cases h⟩
    | true =>
      simp only [stresses, Bool.true_eq_false, if_false] at h
      cases stress2 with
      | none => cases h
      | some l2 =>
        simp only at h
        split at h
        · cases h
        · rename_i hl; cases h
          exact ⟨rfl, (hzip l2 hl).1, fun _ => (hzip l2 hl).2⟩
  | scalar hd =>
    subst hd
    simp only [stresses, if_true] at h
    cases h
    exact ⟨rfl, by simp [Function.comp_def], fun h => by cases h⟩
  | single hd =>
    subst hd
    simp only [stresses, if_true, getLast?_append, getLast?_singleton, Option.some_or] at h
    cases h
    exact ⟨rfl, by simp [Function.comp_def], fun h => by cases h⟩
  | pair hd =>
    subst hd
    simp only [stresses, Bool.true_eq_false, if_false] at h
    cases stress2 with
    | none => cases h
    | some l2 =>
      simp only at h
      split at h
      · cases h
      · rename_i hl; cases h
        exact ⟨rfl, (hzip l2 hl).1, fun _ => (hzip l2 hl).2⟩

/-- **C58.** Whatever the random numbers: if `make_ALT_data` returns, there is one record per requested stress level
(in order), each a sample of `N` positive times from the distribution whose life is the life-stress model's at that
level, right censored in `⌊N·fraction⌋` places; the failures, the censored times and their stresses are exactly those
records put together, so every time is paired with the stress it was generated at.  The use-level distribution is the
one with the life at the use stress. -/
theorem C58_data (dist mdl : String) (stress1 : List ℝ) (stress2 : Option (List ℝ)) (p : Params)
    (beta sigma : Option ℝ) (use : Option Use) (useAt : Option (ℝ × ℝ)) (frac : ℝ) (dr : Draws) (N : ℕ)
    (hp : Proper dr N) (hne : stress1 ≠ []) (ls : LifeStress) (hls : Describes mdl p ls)
    (hu : UseIs (isDual ls) use useAt) (res : ALTData)
    (h : makeALTData dist mdl stress1 stress2 p beta sigma use frac dr = .ok res) :
    0 ≤ frac ∧ frac < 1 ∧ ls.Valid ∧ ∃ ld, DescribesDist dist beta sigma ld ∧
    ∃ L : List Level, L.map (·.S1) = stress1 ∧ (isDual ls = true → stress2 = some (L.map (·.S2))) ∧
      (∀ i (hi : i < L.length), LevelOK ld.dist ls.life dr N frac i L[i]) ∧
      res.failures = L.flatMap (·.failures) ∧
      res.failureStresses1 = L.flatMap (fun l => replicate l.failures.length l.S1) ∧
      (isDual ls = true → res.failureStresses2 = some (L.flatMap fun l => replicate l.failures.length l.S2)) ∧
      (0 < frac → res.rightCensored = some (L.flatMap (·.censored)) ∧
        res.rightCensoredStresses1 = some (L.flatMap fun l => replicate l.censored.length l.S1) ∧
        (isDual ls = true → res.rightCensoredStresses2 = some (L.flatMap fun l => replicate l.censored.length l.S2))) ∧
      (frac = 0 → res.rightCensored = none ∧ L.flatMap (·.censored) = []) ∧
      res.useDist = useAt.map fun u => ld.dist (ls.life u.1 u.2) := by
  unfold makeALTData at h
  cases hm : parseModel mdl with
  | none => rw [hm] at h; cases h
  | some m =>
  rw [hm] at h
  dsimp only at h
  cases hst : stresses m.dual stress1 stress2 use with
  | error e => rw [hst] at h; cases h
  | ok lv =>
  obtain ⟨levels, useLevel⟩ := lv
  rw [hst] at h
  dsimp only at h
  split at h
  · cases h
  rename_i hfr
  rw [not_or, not_lt, ge_iff_le, not_le] at hfr
  obtain ⟨h0, h1⟩ := hfr
  cases hlm : lifeModel m p with
  | error e => rw [hlm] at h; cases h
  | ok life =>
  rw [hlm] at h
  dsimp only at h
  obtain ⟨ls', hd', hv, hlife, hdual⟩ := lifeModel_ok hm hlm
  have hlseq : ls' = ls := by
    exact hd'.unique hls
  subst hlseq
  subst hlife
  rw [hdual] at hst h
  obtain ⟨hul, hs1, hs2⟩ := stresses_ok hu hst
  refine ⟨h0, h1, hv, ?_⟩
  cases hloop : loop (makeDist dist beta sigma) ls'.life (isDual ls') frac dr 0 levels {} with
  | error e => rw [hloop] at h; cases h
  | ok acc =>
  rw [hloop] at h
  dsimp only at h
  -- the distribution exists since there is at least one level
  obtain ⟨ld, hld⟩ : ∃ ld, DescribesDist dist beta sigma ld := by
    cases levels with
    | nil => exfalso; exact hne (by rw [← hs1]; rfl)
    | cons s rest =>
      obtain ⟨s1, s2⟩ := s
      simp only [loop, step] at hloop
      cases hmk : makeDist dist beta sigma (ls'.life s1 s2) with
      | error e => rw [hmk] at hloop; cases hloop
      | ok d => exact (makeDist_ok hmk).imp fun ld h => h.1
  have hmk := makeDist_described hld
  rw [hmk] at hloop
  obtain ⟨L, hL, hok, k1, k2, k3, k4, k5⟩ := loop_spec h0 h1 hp levels 0 {} acc hloop
  refine ⟨ld, hld, L, ?_, ?_, ?_, ?_⟩
  · rw [← hs1, ← hL]; simp [Function.comp_def]
  · intro hdl; rw [hs2 hdl, ← hL]; simp [Function.comp_def]
  · intro i hi
    have := hok i hi
    rwa [Nat.zero_add] at this
  · have hcen : frac = 0 → L.flatMap (·.censored) = [] := by
      intro hf
      rw [flatMap_eq_nil_iff]
      intro l hl
      obtain ⟨i, hi, rfl⟩ := getElem_of_mem hl
      have := (hok i hi).censored
      rw [hf] at this
      simpa using this
    have hbase : ∀ r : ALTData, r = { failures := acc.f
                                      failureStresses1 := acc.fs1
                                      failureStresses2 := if isDual ls' then some acc.fs2 else none
                                      rightCensored := if frac > 0 then some acc.rc else none
                                      rightCensoredStresses1 := if frac > 0 then some acc.rs1 else none
                                      rightCensoredStresses2 := if isDual ls' then (if frac > 0 then some acc.rs2 else none) else none
                                      useDist := r.useDist } →
        r.failures = L.flatMap (·.failures) ∧
        r.failureStresses1 = L.flatMap (fun l => replicate l.failures.length l.S1) ∧
        (isDual ls' = true → r.failureStresses2 = some (L.flatMap fun l => replicate l.failures.length l.S2)) ∧
        (0 < frac → r.rightCensored = some (L.flatMap (·.censored)) ∧
          r.rightCensoredStresses1 = some (L.flatMap fun l => replicate l.censored.length l.S1) ∧
          (isDual ls' = true → r.rightCensoredStresses2 = some (L.flatMap fun l => replicate l.censored.length l.S2))) ∧
        (frac = 0 → r.rightCensored = none ∧ L.flatMap (·.censored) = []) := by
      intro r hr
      rw [hr]
      refine ⟨by simpa using k1, by simpa using k3, ?_, ?_, ?_⟩
      · intro hdl
        simp only [hdl, if_true]
        rw [(k5 hdl).1]; simp
      · intro hf
        simp only [gt_iff_lt, hf, if_true]
        refine ⟨by rw [k2]; simp, by rw [k4]; simp, ?_⟩
        intro hdl
        simp only [hdl, if_true]
        rw [(k5 hdl).2]; simp
      · intro hf
        refine ⟨?_, hcen hf⟩
        simp [hf]
    rw [hul] at h
    cases useAt with
    | none =>
      have h := Except.ok.inj h
      obtain ⟨a1, a2, a3, a4, a5⟩ := hbase res (by rw [← h])
      exact ⟨a1, a2, a3, a4, a5, by rw [← h]; rfl⟩
    | some u =>
      dsimp only at h
      rw [hmk] at h
      have h := Except.ok.inj h
      obtain ⟨a1, a2, a3, a4, a5⟩ := hbase res (by rw [← h])
      exact ⟨a1, a2, a3, a4, a5, by rw [← h]; rfl⟩

/-- **C58 (total).** With a described model and distribution, valid parameters, a fraction in `[0,1)`, matching stress
lists and positive samples `make_ALT_data` returns. -/
theorem C58_total (dist mdl : String) (stress1 : List ℝ) (stress2 : Option (List ℝ)) (p : Params)
    (beta sigma : Option ℝ) (use : Option Use) (useAt : Option (ℝ × ℝ)) (frac : ℝ) (dr : Draws) (N : ℕ)
    (hp : Proper dr N) (ls : LifeStress) (hls : Describes mdl p ls) (hv : ls.Valid) (ld : LifeDist)
    (hld : DescribesDist dist beta sigma ld) (hu : UseIs (isDual ls) use useAt)
    (h2 : isDual ls = true → ∃ l2, stress2 = some l2 ∧ l2.length = stress1.length)
    (h0 : 0 ≤ frac) (h1 : frac < 1) (hN : 0 < N) (hpos : ∀ d i, ∀ x ∈ dr.sample d i, 0 < x) :
    ∃ res, makeALTData dist mdl stress1 stress2 p beta sigma use frac dr = .ok res := by
  obtain ⟨m, hm, hlm, hdual⟩ := lifeModel_described hls hv
  have hmk := makeDist_described hld
  have hst : ∃ levels, stresses m.dual stress1 stress2 use = .ok (levels, useAt) := by
    rw [hdual]
    cases hu with
    | none =>
      cases hb : isDual ls with
      | false => exact ⟨_, rfl⟩
      | true =>
        obtain ⟨l2, rfl, hl⟩ := h2 hb
        refine ⟨stress1.zip l2, ?_⟩
        simp only [stresses, Bool.true_eq_false, if_false]
        rw [if_neg (not_not.2 hl)]
    | scalar hd => rw [hd]; exact ⟨_, rfl⟩
    | single hd =>
      rw [hd]
      refine ⟨stress1.map fun s => (s, 0), ?_⟩
      simp only [stresses, if_true, getLast?_append, getLast?_singleton, Option.some_or]
    | pair hd =>
      obtain ⟨l2, rfl, hl⟩ := h2 hd
      rw [hd]
      refine ⟨stress1.zip l2, ?_⟩
      simp only [stresses, Bool.true_eq_false, if_false]
      rw [if_neg (not_not.2 hl)]
  obtain ⟨levels, hst⟩ := hst
  obtain ⟨acc, hacc⟩ := loop_total (mk := ld.dist) (life := ls.life) (dual := m.dual) h0 h1 hp hN hpos levels 0 {}
  unfold makeALTData
  simp only [hm, hst, hlm, hmk, hacc]
  rw [if_neg (by push Not; exact ⟨h0, h1⟩)]
  cases useAt with
  | none => exact ⟨_, rfl⟩
  | some u => exact ⟨_, rfl⟩

/-- **C58 (errors).** A fraction outside `[0,1)`, or parameters with the wrong sign, raise ValueError (single-stress
models without use level). -/
theorem C58_errors (dist mdl : String) (stress1 : List ℝ) (p : Params) (beta sigma : Option ℝ) (frac : ℝ) (dr : Draws)
    (ls : LifeStress) (hls : Describes mdl p ls) (hs : isDual ls = false)
    (hbad : ¬ (0 ≤ frac ∧ frac < 1) ∨ ¬ ls.Valid) :
    makeALTData dist mdl stress1 none p beta sigma none frac dr = .error .valueError := by
  have key : ∃ m, parseModel mdl = some m ∧ m.dual = false ∧ (¬ ls.Valid → lifeModel m p = .error .valueError) := by
    cases hls with
    | exponential e ha hb =>
      replace e := (sameName_Exponential _).1 e
     
      refine ⟨.exponential, by simp [parseModel, e], rfl, fun hv => ?_⟩
      simp only [lifeModel, ha, hb]; rw [if_pos (not_lt.1 hv)]
    | eyring e ha hb =>
      replace e := (sameName_Eyring _).1 e
      exact ⟨.eyring, by simp [parseModel, e], rfl, fun hv => absurd trivial hv⟩
    | power e ha hb =>
      replace e := (sameName_Power _).1 e
     
      refine ⟨.power, by simp [parseModel, e], rfl, fun hv => ?_⟩
      simp only [lifeModel, ha, hb]; rw [if_pos (not_lt.1 hv)]
    | dualExponential e ha hb hc => cases hs
    | powerExponential e ha hb hc => cases hs
    | dualPower e ha hb hc => cases hs
  obtain ⟨m, hm, hd, hl⟩ := key
  unfold makeALTData
  simp only [hm, hd, stresses, if_true]
  split
  · rfl
  · rename_i hf
    rw [not_or, not_lt, ge_iff_le, not_le] at hf
    rcases hbad with hbad | hbad
    · exact absurd hf hbad
    · rw [hl hbad]

/-- **C58 (dual stresses).** A dual-stress model without `stress_2`, or with stress lists of different lengths, raises
ValueError. -/
theorem C58_dual_errors (dist mdl : String) (stress1 : List ℝ) (stress2 : Option (List ℝ)) (p : Params)
    (beta sigma : Option ℝ) (useAt : Option (ℝ × ℝ)) (use : Option Use) (frac : ℝ) (dr : Draws) (ls : LifeStress)
    (hls : Describes mdl p ls) (hs : isDual ls = true) (hu : UseIs true use useAt)
    (hbad : ∀ l2, stress2 = some l2 → l2.length ≠ stress1.length) :
    makeALTData dist mdl stress1 stress2 p beta sigma use frac dr = .error .valueError := by
  have key : ∃ m, parseModel mdl = some m ∧ m.dual = true := by
    cases hls with
    | exponential e ha hb => cases hs
    | eyring e ha hb => cases hs
    | power e ha hb => cases hs
    | dualExponential e ha hb hc =>
      replace e := (sameName_Dual_Exponential _).1 e
      exact ⟨.dualExponential, by simp [parseModel, e], rfl⟩
    | powerExponential e ha hb hc =>
      replace e := (sameName_Power_Exponential _).1 e
      exact ⟨.powerExponential, by simp [parseModel, e], rfl⟩
    | dualPower e ha hb hc =>
      replace e := (sameName_Dual_Power _).1 e
      exact ⟨.dualPower, by simp [parseModel, e], rfl⟩
  obtain ⟨m, hm, hd⟩ := key
  have hst : stresses true stress1 stress2 use = .error .valueError := by
    cases hu with
    | none =>
      cases stress2 with
      | none => rfl
      | some l2 => simp only [stresses, Bool.true_eq_false, if_false]; rw [if_pos (hbad l2 rfl)]
    | scalar h => cases h
    | single h => cases h
    | pair h =>
      cases stress2 with
      | none => rfl
      | some l2 => simp only [stresses, Bool.true_eq_false, if_false]; rw [if_pos (hbad l2 rfl)]
  unfold makeALTData
  simp only [hm, hd, hst]

/-- Spelling does not matter: `life_stress_model` is title-cased first. -/
example : title "dual_EXPONENTIAL" = "Dual_Exponential" := by decide +kernel

example : SameName "dual_EXPONENTIAL" "Dual_Exponential" := by decide +kernel

/-- Concrete, non-trivial instance: two stress levels, a use level, ten samples each, a fraction of censoring. -/
example : ∃ res, makeALTData "Weibull" "exponential" [300, 350] none { a := some 1500, b := some 2 } (some 3) none
    (some (.scalar 290)) 0.25
    ⟨fun _ _ => replicate 10 7, fun _ l => l.reverse, fun _ k => replicate k 0.5⟩ = .ok res :=
  C58_total _ _ _ _ _ _ _ _ (some (290, 0)) _ _ 10
    ⟨fun _ _ => by simp, fun _ l => reverse_perm l, fun _ k => ⟨by simp, fun u hu => by rw [eq_of_mem_replicate hu]; norm_num⟩⟩
    (.exponential 1500 2) (.exponential (by decide +kernel) rfl rfl) (by norm_num [LifeStress.Valid]) (.weibull 3)
    (.weibull rfl) (.scalar rfl) (fun h => by cases h) (by norm_num) (by norm_num) (by norm_num)
    (fun _ _ x hx => by rw [eq_of_mem_replicate hx]; norm_num)

end Reliability.Props

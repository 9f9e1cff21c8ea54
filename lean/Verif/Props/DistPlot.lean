import Verif.Model.DistPlot
import Verif.Props.AxesLimits

namespace Reliability.Props.DistPlot

open Reliability Reliability.Explorer Reliability.DistPlot
open Reliability.Props (bind_ok)

/-- The distribution functions of the package, by the name of the method: what the call with the x-values `X` returns. -/
noncomputable def method (d : Distributions.Dist) (X : List ℝ) : String → Except Err (List ℝ)
  | "PDF" => Distributions.PDF d X
  | "CDF" => Distributions.CDF d X
  | "SF" => Distributions.SF d X
  | "HF" => Distributions.HF d X
  | _ => Distributions.CHF d X

/-- The five functions, with the headings of their plots. -/
def headings : List (String × String) :=
  [("PDF", "Probability Density\nFunction"), ("CDF", "Cumulative Distribution\nFunction"), ("SF", "Survival Function"),
    ("HF", "Hazard Function"), ("CHF", "Cumulative Hazard\nFunction")]

/-- The x-values are in the range of the distribution (the check of the methods accepts them). -/
def InRange (d : Distributions.Dist) (X : List ℝ) : Prop := Distributions.checkX d.fam X = .ok ()

theorem zip_map (f g : ℝ → ℝ) (X : List ℝ) : List.zipWith (fun a b => a / b) (X.map f) (X.map g) = X.map fun x => f x / g x := by
  induction X with
  | nil => rfl
  | cons a l ih => simp only [List.map_cons, List.zipWith_cons_cons, ih]

/-- The five curves, in order, with their functions. -/
def listed (c : Curves) : List (String × List ℝ) := [("PDF", c.pdf), ("CDF", c.cdf), ("SF", c.sf), ("HF", c.hf), ("CHF", c.chf)]

theorem curves_spec (m : Made) (X : List ℝ) (h : InRange (objectOf m) X) :
    ∀ p ∈ listed (curves m X), method (objectOf m) X p.1 = .ok p.2 := by
  have hc : Distributions.checkX (objectOf m).fam X = .ok () := h
  intro p hp
  simp only [listed, List.mem_cons, List.not_mem_nil, or_false] at hp
  rcases hp with rfl | rfl | rfl | rfl | rfl <;>
    simp only [method, Distributions.PDF, Distributions.CDF, Distributions.SF, Distributions.HF, Distributions.CHF, hc] <;>
    congr 1 <;> cases m <;>
    simp [curves, quotientCurves, formulaCurves, zip_map, objectOf, Distributions.weibull, Distributions.exponential, Distributions.loglogistic,
      Distributions.gumbel, Distributions.normal, Distributions.lognormal, Distributions.gammaDist, Distributions.betaDist, Distributions.ofScipy,
      Function.comp_def]

/-- **C138 (curves).** The figure has five plots, in this order and with these headings; each shows at the x-values exactly what the
method PDF, CDF, SF, HF or CHF returns for them. For every distribution, with any parameters. -/
theorem C138_curves (fmt : ℝ → String) (a : AxesLimits.Axes) (d : AxesLimits.Dist) (drawn : String → (ℝ × ℝ) × (ℝ × ℝ)) (m : Made) (attrs : Attrs)
    (X : List ℝ) (xvals : Option (List ℝ)) (xmin xmax : Option ℝ) (hX : InRange (objectOf m) X) (f : Figure)
    (h : plot fmt a d drawn m attrs (.array X xvals xmin xmax) = .ok f) :
    List.Forall₂ (fun p g => p.title = g.2 ∧ p.X = X ∧ method (objectOf m) X g.1 = .ok p.Y) f.panels headings := by
  have hc := curves_spec m X hX
  simp only [plot, panel, bind_ok] at h
  obtain ⟨p1, ⟨b1, -, h1⟩, p2, ⟨b2, -, h2⟩, p3, ⟨b3, -, h3⟩, p4, ⟨b4, -, h4⟩, p5, ⟨b5, -, h5⟩, t, -, hf⟩ := h
  cases h1; cases h2; cases h3; cases h4; cases h5; cases hf
  refine .cons ⟨rfl, rfl, ?_⟩ (.cons ⟨rfl, rfl, ?_⟩ (.cons ⟨rfl, rfl, ?_⟩ (.cons ⟨rfl, rfl, ?_⟩ (.cons ⟨rfl, rfl, ?_⟩ .nil))))
  · exact hc ("PDF", _) (by simp [listed])
  · exact hc ("CDF", _) (by simp [listed])
  · exact hc ("SF", _) (by simp [listed])
  · exact hc ("HF", _) (by simp [listed])
  · exact hc ("CHF", _) (by simp [listed])

/-- **C138 (limits).** The limits of each of the five plots are those that the method itself leaves when it is called on new axes
with the same arguments. -/
theorem C138_limits (fmt : ℝ → String) (a : AxesLimits.Axes) (ha : a.xlim = (0, 1) ∧ a.ylim = (0, 1)) (d : AxesLimits.Dist)
    (drawn : String → (ℝ × ℝ) × (ℝ × ℝ)) (m : Made) (attrs : Attrs)
    (X : List ℝ) (xvals : Option (List ℝ)) (xmin xmax : Option ℝ) (hX : InRange (objectOf m) X) (f : Figure)
    (h : plot fmt a d drawn m attrs (.array X xvals xmin xmax) = .ok f) :
    List.Forall₂ (fun p g => ∃ Y, method (objectOf m) X g.1 = .ok Y ∧
      AxesLimits.plot a ⟨d, g.1, X, Y.map Real.toEReal, xvals, xmin, xmax, drawn g.1⟩ = .ok p.axes) f.panels headings := by
  have hc := curves_spec m X hX
  have hl : AxesLimits.getAxesLimits a = ⟨(0, 1), (0, 1), false⟩ := by
    simp [AxesLimits.getAxesLimits, ha]
  simp only [plot, panel, bind_ok] at h
  obtain ⟨p1, ⟨b1, e1, h1⟩, p2, ⟨b2, e2, h2⟩, p3, ⟨b3, e3, h3⟩, p4, ⟨b4, e4, h4⟩, p5, ⟨b5, e5, h5⟩, t, -, hf⟩ := h
  cases h1; cases h2; cases h3; cases h4; cases h5; cases hf
  rw [← hl] at e1 e2 e3 e4 e5
  exact .cons ⟨_, hc ("PDF", _) (by simp [listed]), e1⟩ (.cons ⟨_, hc ("CDF", _) (by simp [listed]), e2⟩
    (.cons ⟨_, hc ("SF", _) (by simp [listed]), e3⟩ (.cons ⟨_, hc ("HF", _) (by simp [listed]), e4⟩
      (.cons ⟨_, hc ("CHF", _) (by simp [listed]), e5⟩ .nil))))

/-- Which attributes can be messages: of a Loglogistic distribution the moments, of a Beta distribution the mode; the others are
numbers. -/
def Usual (m : Made) (a : Attrs) : Prop :=
  (∀ s, a.median ≠ .msg s) ∧ (∀ s, a.b5 ≠ .msg s) ∧ (∀ s, a.b95 ≠ .msg s) ∧
  ((∃ x y, m = .beta x y) ∨ ∀ s, a.mode ≠ .msg s) ∧
  ((∃ x y z, m = .loglogistic x y z) ∨
    ∀ s, a.mean ≠ .msg s ∧ a.standard_deviation ≠ .msg s ∧ a.variance ≠ .msg s ∧ a.skewness ≠ .msg s ∧ a.excess_kurtosis ≠ .msg s)

/-- What is written of an attribute: the formatted number, or the message. -/
def written (fmt : ℝ → String) : Attr → String
  | .num v => fmt v
  | .msg s => s

theorem plain_ok (fmt : ℝ → String) {a : Attr} (h : ∀ s, a ≠ .msg s) : plain fmt a = .ok (written fmt a) := by
  cases a with
  | num v => rfl
  | msg s => exact absurd rfl (h s)

theorem checked_ok (fmt : ℝ → String) (a : Attr) : checked fmt a = .ok (written fmt a) := by cases a <;> rfl

theorem texts_ok (fmt : ℝ → String) (m : Made) (a : Attrs) (h : Usual m a) :
    texts fmt m a = .ok ["Mean = " ++ written fmt a.mean, "Median = " ++ written fmt a.median, "Mode = " ++ written fmt a.mode,
      "$5^{th}$ quantile = " ++ written fmt a.b5, "$95^{th}$ quantile = " ++ written fmt a.b95,
      "Standard deviation = " ++ written fmt a.standard_deviation, "Variance = " ++ written fmt a.variance,
      "Skewness = " ++ written fmt a.skewness, "Excess kurtosis = " ++ written fmt a.excess_kurtosis] := by
  obtain ⟨h1, h2, h3, h4, h5⟩ := h
  have hmode : modeText fmt m a.mode = .ok (written fmt a.mode) := by
    rcases h4 with ⟨x, y, rfl⟩ | h4
    · exact checked_ok fmt _
    · cases m <;> first | exact plain_ok fmt h4 | exact checked_ok fmt _
  have hmom : ∀ b ∈ [a.mean, a.standard_deviation, a.variance, a.skewness, a.excess_kurtosis],
      momentText fmt m b = .ok (written fmt b) := by
    intro b hb
    rcases h5 with ⟨x, y, z, rfl⟩ | h5
    · exact checked_ok fmt _
    · have : ∀ s, b ≠ .msg s := by
        intro s
        obtain ⟨a1, a2, a3, a4, a5⟩ := h5 s
        simp only [List.mem_cons, List.not_mem_nil, or_false] at hb
        rcases hb with rfl | rfl | rfl | rfl | rfl <;> assumption
      cases m <;> first | exact plain_ok fmt this | exact checked_ok fmt _
  simp only [List.mem_cons, List.not_mem_nil, or_false, forall_eq_or_imp, forall_eq] at hmom
  obtain ⟨m1, m2, m3, m4, m5⟩ := hmom
  simp only [texts, hmode, plain_ok fmt h1, plain_ok fmt h2, plain_ok fmt h3, m1, m2, m3, m4, m5, bind, Except.bind]

/-- **C138 (statistics).** The nine descriptive statistics are written in full, as numbers or as the message why there is none. -/
theorem C138_texts (fmt : ℝ → String) (a : AxesLimits.Axes) (d : AxesLimits.Dist) (drawn : String → (ℝ × ℝ) × (ℝ × ℝ)) (m : Made) (attrs : Attrs)
    (hu : Usual m attrs) (x : XArg) (f : Figure) (h : plot fmt a d drawn m attrs x = .ok f) :
    f.texts = ["Mean = " ++ written fmt attrs.mean, "Median = " ++ written fmt attrs.median, "Mode = " ++ written fmt attrs.mode,
      "$5^{th}$ quantile = " ++ written fmt attrs.b5, "$95^{th}$ quantile = " ++ written fmt attrs.b95,
      "Standard deviation = " ++ written fmt attrs.standard_deviation, "Variance = " ++ written fmt attrs.variance,
      "Skewness = " ++ written fmt attrs.skewness, "Excess kurtosis = " ++ written fmt attrs.excess_kurtosis] := by
  cases x with
  | scalar x => cases h
  | array X xvals xmin xmax =>
    simp only [plot, bind_ok] at h
    obtain ⟨p1, -, p2, -, p3, -, p4, -, p5, -, t, ht, hf⟩ := h
    rw [texts_ok fmt m attrs hu, Except.ok.injEq] at ht
    cases hf
    exact ht.symm

/-- The names under which `restore_axes_limits` knows the eight distributions. -/
def nameOf : Made → String
  | .weibull _ _ _ => "Weibull"
  | .gamma _ _ _ => "Gamma"
  | .loglogistic _ _ _ => "Loglogistic"
  | .lognormal _ _ _ => "Lognormal"
  | .normal _ _ => "Normal"
  | .gumbel _ _ => "Gumbel"
  | .exponential _ _ => "Exponential"
  | .beta _ _ => "Beta"

theorem curves_length (m : Made) (X : List ℝ) (hX : InRange (objectOf m) X) : ∀ p ∈ listed (curves m X), p.2.length = X.length := by
  intro p hp
  have zl : ∀ (Y : List ℝ) (g : ℝ), (Distributions.zeroise X Y g).length = Y.length := by
    intro Y g
    unfold Distributions.zeroise
    split_ifs
    · split <;> simp
    · rfl
  simp only [listed, List.mem_cons, List.not_mem_nil, or_false] at hp
  rcases hp with rfl | rfl | rfl | rfl | rfl <;> cases m <;>
    simp [curves, quotientCurves, formulaCurves, zip_map, zl]

/-- **C138 (accepted).** With x-values in the range of the distribution the figure is made without an error. -/
theorem C138_accepts (fmt : ℝ → String) (a : AxesLimits.Axes) (d : AxesLimits.Dist) (drawn : String → (ℝ × ℝ) × (ℝ × ℝ)) (m : Made) (attrs : Attrs)
    (hu : Usual m attrs) (hd : d.name = nameOf m) (X : List ℝ) (xvals : Option (List ℝ)) (xmin xmax : Option ℝ)
    (hX : InRange (objectOf m) X) (hv : xvals ≠ some []) :
    ∃ f, plot fmt a d drawn m attrs (.array X xvals xmin xmax) = .ok f := by
  have hne : X ≠ [] := by
    rintro rfl
    cases hX
  have hn : d.name ∈ Spec.AxesLimits.Names := by
    rw [hd]; cases m <;> simp [nameOf, Spec.AxesLimits.Names]
  have key : ∀ (func : String) (Y : List ℝ) (title : String), Y.length = X.length → func ∈ Spec.AxesLimits.Functions →
      ∃ p, panel a d (drawn func) title func X Y xvals xmin xmax = .ok p := by
    intro func Y title hl hf
    let a' : AxesLimits.Axes := { a with xlim := (0, 1), ylim := (0, 1) }
    have hY : Y.map Real.toEReal ≠ [] := by
      intro h
      rw [List.map_eq_nil_iff] at h
      rw [h] at hl
      exact hne (List.length_eq_zero_iff.1 hl.symm)
    obtain ⟨b, hb⟩ := (Props.AxesLimits.C127_errors a' ⟨d, func, X, Y.map Real.toEReal, xvals, xmin, xmax, drawn func⟩ hY (by simp [hl])).1.2
      ⟨hf, hv, fun _ _ => hn⟩
    have : AxesLimits.restoreAxesLimits ⟨(0, 1), (0, 1), false⟩ { a with xlim := (drawn func).1, ylim := (drawn func).2 } d func X
        (Y.map Real.toEReal) xvals xmin xmax = .ok b := by
      rw [← hb]
      unfold AxesLimits.plot
      simp [AxesLimits.getAxesLimits, a']
    refine ⟨⟨title, X, Y, b⟩, ?_⟩
    unfold panel
    rw [this]
    rfl
  have len := curves_length m X hX
  obtain ⟨p1, h1⟩ := key "PDF" (curves m X).pdf "Probability Density\nFunction" (len ("PDF", (curves m X).pdf) (by simp [listed])) (by simp [Spec.AxesLimits.Functions])
  obtain ⟨p2, h2⟩ := key "CDF" (curves m X).cdf "Cumulative Distribution\nFunction" (len ("CDF", (curves m X).cdf) (by simp [listed])) (by simp [Spec.AxesLimits.Functions])
  obtain ⟨p3, h3⟩ := key "SF" (curves m X).sf "Survival Function" (len ("SF", (curves m X).sf) (by simp [listed])) (by simp [Spec.AxesLimits.Functions])
  obtain ⟨p4, h4⟩ := key "HF" (curves m X).hf "Hazard Function" (len ("HF", (curves m X).hf) (by simp [listed])) (by simp [Spec.AxesLimits.Functions])
  obtain ⟨p5, h5⟩ := key "CHF" (curves m X).chf "Cumulative Hazard\nFunction" (len ("CHF", (curves m X).chf) (by simp [listed])) (by simp [Spec.AxesLimits.Functions])
  obtain ⟨t, ht⟩ : ∃ t, texts fmt m attrs = .ok t := ⟨_, texts_ok fmt m attrs hu⟩
  refine ⟨⟨[p1, p2, p3, p4, p5], t⟩, ?_⟩
  simp only [plot, h1, h2, h3, h4, h5, ht, bind, Except.bind]

/-- **C138 (finding).** `plot(xvals=x)` with a single number, which the five methods accept, raises a TypeError (`min` of a
number). -/
theorem C138_scalar_finding (fmt : ℝ → String) (a : AxesLimits.Axes) (d : AxesLimits.Dist) (drawn : String → (ℝ × ℝ) × (ℝ × ℝ)) (m : Made)
    (attrs : Attrs) (x : ℝ) : plot fmt a d drawn m attrs (.scalar x) = .error .typeError := rfl

/-- Attributes of a distribution: the median is 8, all other numbers are 1. -/
def someAttrs : Attrs := ⟨.num 1, .num 8, .num 1, .num 1, .num 1, .num 1, .num 1, .num 1, .num 1⟩

/-- The hypotheses are met: the figure of a Weibull distribution at 1, 2 and 20. -/
example (a : AxesLimits.Axes) (drawn : String → (ℝ × ℝ) × (ℝ × ℝ)) (d : AxesLimits.Dist) (hd : d.name = "Weibull") :
    InRange (objectOf (.weibull 10 2 0)) [1, 2, 20] ∧ Usual (.weibull 10 2 0) someAttrs ∧
    ∃ f, plot (fun _ => "x") a d drawn (.weibull 10 2 0) someAttrs (.array [1, 2, 20] (some [1, 2, 20]) none none) = .ok f ∧
      f.texts.take 2 = ["Mean = x", "Median = x"] := by
  have h1 : InRange (objectOf (.weibull 10 2 0)) [1, 2, 20] := by
    unfold InRange
    simp [objectOf, Distributions.weibull, Distributions.checkX]
  have h2 : Usual (.weibull 10 2 0) someAttrs := by simp [Usual, someAttrs]
  refine ⟨h1, h2, ?_⟩
  obtain ⟨f, hf⟩ := C138_accepts (fun _ => "x") a d drawn (.weibull 10 2 0) someAttrs h2 (by rw [hd]; rfl) [1, 2, 20] (some [1, 2, 20]) none none h1 (by simp)
  refine ⟨f, hf, ?_⟩
  rw [C138_texts _ a d drawn _ _ h2 _ f hf]
  rfl

end Reliability.Props.DistPlot

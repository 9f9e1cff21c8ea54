/-! ## Concrete, non-trivial instances -/

/-- Weibull_Exponential (Arrhenius) on three failures and a censored unit at two temperatures, used at 300 K. -/
example : IsALTFit (.weibull 2) 3 (fun s => (LifeStress.exponential 3000 (1 / 50)).life s 1)
    [(500, 350), (620, 350), (150, 400)] [(200, 400)] (some 300) [350, 400]
    (Weibull_Exponential.fit 3000 (1 / 50) 2 none 1.96 [500, 620, 150] [200] [350, 350, 400] [400] (some 300)
      [350, 400]) := by
  have h := C59_Weibull_Exponential 3000 (1 / 50) 2 (by norm_num) (by norm_num) none 1.96
    [(500, 350), (620, 350), (150, 400)] [(200, 400)] (some 300) [350, 400] (by norm_num) (by norm_num) (by norm_num)
  simpa using h

/-- A dual-stress model. -/
example : IsALTFit (.lognormal (1 / 2)) 4 (fun s => (LifeStress.dualPower 500 (-1) (-2)).life s.1 s.2)
    [(100, 2, 3), (40, 3, 4)] [] (some (1, 1)) [(2, 3), (3, 4)]
    (Lognormal_Dual_Power.fit 500 (-1) (-2) (1 / 2) none 1.96 [100, 40] [] [2, 3] [3, 4] [] [] (some (1, 1))
      [(2, 3), (3, 4)]) := by
  have h := C59_Lognormal_Dual_Power 500 (-1) (-2) (1 / 2) (by norm_num) (by norm_num) none 1.96
    [(100, 2, 3), (40, 3, 4)] [] (some (1, 1)) [(2, 3), (3, 4)] (by norm_num) (by norm_num) (by norm_num)
  simpa using h

/-- Standard errors for every parameter. -/
example : EnclosedBy [(.real, 3000), (.positive, 1 / 50), (.positive, 2)]
    (Weibull_Exponential.fit 3000 (1 / 50) 2 (some [100, 1 / 100, 1 / 5]) 1.96 [] [] [] [] none []).bounds :=
  C76_Weibull_Exponential 3000 (1 / 50) 2 (by norm_num) (by norm_num) _
    (fun se h => by cases h; norm_num) 1.96 (by norm_num) [] [] [] [] none []

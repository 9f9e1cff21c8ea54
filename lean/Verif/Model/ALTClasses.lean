import Verif.Model.ALTGlue

/-!
# The 24 ALT fitter classes as records (generated by tools/gen_altglue.py from ALT_fitters.py)

Parameter names are those of `results_data["Parameter"]`, the order is that of `params = [...]`, which the generator checks to
be the same.
-/

namespace Reliability.ALTGlue

open Reliability Reliability.ALT

/-- `Fit_Weibull_Exponential` (ALT_fitters.py:2913-3139). -/
noncomputable def weibullExponential : Cls (ℝ) where
  n := 3
  dist := "Weibull"
  model := "Exponential"
  names := ["a", "b", "beta"]
  guess g s := ![g.getD 0 0, g.getD 1 0, s]
  shape p := p 2
  LL p F C Fs Cs := Weibull_Exponential.LL [p 0, p 1, p 2] F C Fs Cs
  fit p SE Z F C Fs Cs := Weibull_Exponential.fit (p 0) (p 1) (p 2) SE Z F C Fs Cs
  life p s := Weibull_Exponential.life_func (p 0) (p 1) s

/-- `Fit_Weibull_Eyring` (ALT_fitters.py:3372-3598). -/
noncomputable def weibullEyring : Cls (ℝ) where
  n := 3
  dist := "Weibull"
  model := "Eyring"
  names := ["a", "c", "beta"]
  guess g s := ![g.getD 0 0, g.getD 1 0, s]
  shape p := p 2
  LL p F C Fs Cs := Weibull_Eyring.LL [p 0, p 1, p 2] F C Fs Cs
  fit p SE Z F C Fs Cs := Weibull_Eyring.fit (p 0) (p 1) (p 2) SE Z F C Fs Cs
  life p s := Weibull_Eyring.life_func (p 0) (p 1) s

/-- `Fit_Weibull_Power` (ALT_fitters.py:3819-4045). -/
noncomputable def weibullPower : Cls (ℝ) where
  n := 3
  dist := "Weibull"
  model := "Power"
  names := ["a", "n", "beta"]
  guess g s := ![g.getD 0 0, g.getD 1 0, s]
  shape p := p 2
  LL p F C Fs Cs := Weibull_Power.LL [p 0, p 1, p 2] F C Fs Cs
  fit p SE Z F C Fs Cs := Weibull_Power.fit (p 0) (p 1) (p 2) SE Z F C Fs Cs
  life p s := Weibull_Power.life_func (p 0) (p 1) s

/-- `Fit_Weibull_Dual_Exponential` (ALT_fitters.py:4289-4558). -/
noncomputable def weibullDualExponential : Cls (ℝ × ℝ) where
  n := 4
  dist := "Weibull"
  model := "Dual_Exponential"
  names := ["a", "b", "c", "beta"]
  guess g s := ![g.getD 0 0, g.getD 1 0, g.getD 2 0, s]
  shape p := p 3
  LL p F C Fs Cs := Weibull_Dual_Exponential.LL [p 0, p 1, p 2, p 3] F C (Fs.map (·.1)) (Fs.map (·.2)) (Cs.map (·.1)) (Cs.map (·.2))
  fit p SE Z F C Fs Cs := Weibull_Dual_Exponential.fit (p 0) (p 1) (p 2) (p 3) SE Z F C (Fs.map (·.1)) (Fs.map (·.2)) (Cs.map (·.1)) (Cs.map (·.2))
  life p s := Weibull_Dual_Exponential.life_func (p 0) (p 1) (p 2) s.1 s.2

/-- `Fit_Weibull_Power_Exponential` (ALT_fitters.py:4811-5080). -/
noncomputable def weibullPowerExponential : Cls (ℝ × ℝ) where
  n := 4
  dist := "Weibull"
  model := "Power_Exponential"
  names := ["a", "c", "n", "beta"]
  guess g s := ![g.getD 0 0, g.getD 1 0, g.getD 2 0, s]
  shape p := p 3
  LL p F C Fs Cs := Weibull_Power_Exponential.LL [p 0, p 1, p 2, p 3] F C (Fs.map (·.1)) (Fs.map (·.2)) (Cs.map (·.1)) (Cs.map (·.2))
  fit p SE Z F C Fs Cs := Weibull_Power_Exponential.fit (p 0) (p 1) (p 2) (p 3) SE Z F C (Fs.map (·.1)) (Fs.map (·.2)) (Cs.map (·.1)) (Cs.map (·.2))
  life p s := Weibull_Power_Exponential.life_func (p 0) (p 1) (p 2) s.1 s.2

/-- `Fit_Weibull_Dual_Power` (ALT_fitters.py:5330-5599). -/
noncomputable def weibullDualPower : Cls (ℝ × ℝ) where
  n := 4
  dist := "Weibull"
  model := "Dual_Power"
  names := ["c", "m", "n", "beta"]
  guess g s := ![g.getD 0 0, g.getD 1 0, g.getD 2 0, s]
  shape p := p 3
  LL p F C Fs Cs := Weibull_Dual_Power.LL [p 0, p 1, p 2, p 3] F C (Fs.map (·.1)) (Fs.map (·.2)) (Cs.map (·.1)) (Cs.map (·.2))
  fit p SE Z F C Fs Cs := Weibull_Dual_Power.fit (p 0) (p 1) (p 2) (p 3) SE Z F C (Fs.map (·.1)) (Fs.map (·.2)) (Cs.map (·.1)) (Cs.map (·.2))
  life p s := Weibull_Dual_Power.life_func (p 0) (p 1) (p 2) s.1 s.2

/-- `Fit_Lognormal_Exponential` (ALT_fitters.py:5830-6060). -/
noncomputable def lognormalExponential : Cls (ℝ) where
  n := 3
  dist := "Lognormal"
  model := "Exponential"
  names := ["a", "b", "sigma"]
  guess g s := ![g.getD 0 0, g.getD 1 0, s]
  shape p := p 2
  LL p F C Fs Cs := Lognormal_Exponential.LL [p 0, p 1, p 2] F C Fs Cs
  fit p SE Z F C Fs Cs := Lognormal_Exponential.fit (p 0) (p 1) (p 2) SE Z F C Fs Cs
  life p s := Lognormal_Exponential.life_func (p 0) (p 1) s

/-- `Fit_Lognormal_Eyring` (ALT_fitters.py:6296-6526). -/
noncomputable def lognormalEyring : Cls (ℝ) where
  n := 3
  dist := "Lognormal"
  model := "Eyring"
  names := ["a", "c", "sigma"]
  guess g s := ![g.getD 0 0, g.getD 1 0, s]
  shape p := p 2
  LL p F C Fs Cs := Lognormal_Eyring.LL [p 0, p 1, p 2] F C Fs Cs
  fit p SE Z F C Fs Cs := Lognormal_Eyring.fit (p 0) (p 1) (p 2) SE Z F C Fs Cs
  life p s := Lognormal_Eyring.life_func (p 0) (p 1) s

/-- `Fit_Lognormal_Power` (ALT_fitters.py:6752-6982). -/
noncomputable def lognormalPower : Cls (ℝ) where
  n := 3
  dist := "Lognormal"
  model := "Power"
  names := ["a", "n", "sigma"]
  guess g s := ![g.getD 0 0, g.getD 1 0, s]
  shape p := p 2
  LL p F C Fs Cs := Lognormal_Power.LL [p 0, p 1, p 2] F C Fs Cs
  fit p SE Z F C Fs Cs := Lognormal_Power.fit (p 0) (p 1) (p 2) SE Z F C Fs Cs
  life p s := Lognormal_Power.life_func (p 0) (p 1) s

/-- `Fit_Lognormal_Dual_Exponential` (ALT_fitters.py:7229-7498). -/
noncomputable def lognormalDualExponential : Cls (ℝ × ℝ) where
  n := 4
  dist := "Lognormal"
  model := "Dual_Exponential"
  names := ["a", "b", "c", "sigma"]
  guess g s := ![g.getD 0 0, g.getD 1 0, g.getD 2 0, s]
  shape p := p 3
  LL p F C Fs Cs := Lognormal_Dual_Exponential.LL [p 0, p 1, p 2, p 3] F C (Fs.map (·.1)) (Fs.map (·.2)) (Cs.map (·.1)) (Cs.map (·.2))
  fit p SE Z F C Fs Cs := Lognormal_Dual_Exponential.fit (p 0) (p 1) (p 2) (p 3) SE Z F C (Fs.map (·.1)) (Fs.map (·.2)) (Cs.map (·.1)) (Cs.map (·.2))
  life p s := Lognormal_Dual_Exponential.life_func (p 0) (p 1) (p 2) s.1 s.2

/-- `Fit_Lognormal_Power_Exponential` (ALT_fitters.py:7752-8021). -/
noncomputable def lognormalPowerExponential : Cls (ℝ × ℝ) where
  n := 4
  dist := "Lognormal"
  model := "Power_Exponential"
  names := ["a", "c", "n", "sigma"]
  guess g s := ![g.getD 0 0, g.getD 1 0, g.getD 2 0, s]
  shape p := p 3
  LL p F C Fs Cs := Lognormal_Power_Exponential.LL [p 0, p 1, p 2, p 3] F C (Fs.map (·.1)) (Fs.map (·.2)) (Cs.map (·.1)) (Cs.map (·.2))
  fit p SE Z F C Fs Cs := Lognormal_Power_Exponential.fit (p 0) (p 1) (p 2) (p 3) SE Z F C (Fs.map (·.1)) (Fs.map (·.2)) (Cs.map (·.1)) (Cs.map (·.2))
  life p s := Lognormal_Power_Exponential.life_func (p 0) (p 1) (p 2) s.1 s.2

/-- `Fit_Lognormal_Dual_Power` (ALT_fitters.py:8272-8541). -/
noncomputable def lognormalDualPower : Cls (ℝ × ℝ) where
  n := 4
  dist := "Lognormal"
  model := "Dual_Power"
  names := ["c", "m", "n", "sigma"]
  guess g s := ![g.getD 0 0, g.getD 1 0, g.getD 2 0, s]
  shape p := p 3
  LL p F C Fs Cs := Lognormal_Dual_Power.LL [p 0, p 1, p 2, p 3] F C (Fs.map (·.1)) (Fs.map (·.2)) (Cs.map (·.1)) (Cs.map (·.2))
  fit p SE Z F C Fs Cs := Lognormal_Dual_Power.fit (p 0) (p 1) (p 2) (p 3) SE Z F C (Fs.map (·.1)) (Fs.map (·.2)) (Cs.map (·.1)) (Cs.map (·.2))
  life p s := Lognormal_Dual_Power.life_func (p 0) (p 1) (p 2) s.1 s.2

/-- `Fit_Normal_Exponential` (ALT_fitters.py:8777-9007). -/
noncomputable def normalExponential : Cls (ℝ) where
  n := 3
  dist := "Normal"
  model := "Exponential"
  names := ["a", "b", "sigma"]
  guess g s := ![g.getD 0 0, g.getD 1 0, s]
  shape p := p 2
  LL p F C Fs Cs := Normal_Exponential.LL [p 0, p 1, p 2] F C Fs Cs
  fit p SE Z F C Fs Cs := Normal_Exponential.fit (p 0) (p 1) (p 2) SE Z F C Fs Cs
  life p s := Normal_Exponential.life_func (p 0) (p 1) s

/-- `Fit_Normal_Eyring` (ALT_fitters.py:9238-9468). -/
noncomputable def normalEyring : Cls (ℝ) where
  n := 3
  dist := "Normal"
  model := "Eyring"
  names := ["a", "c", "sigma"]
  guess g s := ![g.getD 0 0, g.getD 1 0, s]
  shape p := p 2
  LL p F C Fs Cs := Normal_Eyring.LL [p 0, p 1, p 2] F C Fs Cs
  fit p SE Z F C Fs Cs := Normal_Eyring.fit (p 0) (p 1) (p 2) SE Z F C Fs Cs
  life p s := Normal_Eyring.life_func (p 0) (p 1) s

/-- `Fit_Normal_Power` (ALT_fitters.py:9689-9919). -/
noncomputable def normalPower : Cls (ℝ) where
  n := 3
  dist := "Normal"
  model := "Power"
  names := ["a", "n", "sigma"]
  guess g s := ![g.getD 0 0, g.getD 1 0, s]
  shape p := p 2
  LL p F C Fs Cs := Normal_Power.LL [p 0, p 1, p 2] F C Fs Cs
  fit p SE Z F C Fs Cs := Normal_Power.fit (p 0) (p 1) (p 2) SE Z F C Fs Cs
  life p s := Normal_Power.life_func (p 0) (p 1) s

/-- `Fit_Normal_Dual_Exponential` (ALT_fitters.py:10161-10430). -/
noncomputable def normalDualExponential : Cls (ℝ × ℝ) where
  n := 4
  dist := "Normal"
  model := "Dual_Exponential"
  names := ["a", "b", "c", "sigma"]
  guess g s := ![g.getD 0 0, g.getD 1 0, g.getD 2 0, s]
  shape p := p 3
  LL p F C Fs Cs := Normal_Dual_Exponential.LL [p 0, p 1, p 2, p 3] F C (Fs.map (·.1)) (Fs.map (·.2)) (Cs.map (·.1)) (Cs.map (·.2))
  fit p SE Z F C Fs Cs := Normal_Dual_Exponential.fit (p 0) (p 1) (p 2) (p 3) SE Z F C (Fs.map (·.1)) (Fs.map (·.2)) (Cs.map (·.1)) (Cs.map (·.2))
  life p s := Normal_Dual_Exponential.life_func (p 0) (p 1) (p 2) s.1 s.2

/-- `Fit_Normal_Power_Exponential` (ALT_fitters.py:10683-10952). -/
noncomputable def normalPowerExponential : Cls (ℝ × ℝ) where
  n := 4
  dist := "Normal"
  model := "Power_Exponential"
  names := ["a", "c", "n", "sigma"]
  guess g s := ![g.getD 0 0, g.getD 1 0, g.getD 2 0, s]
  shape p := p 3
  LL p F C Fs Cs := Normal_Power_Exponential.LL [p 0, p 1, p 2, p 3] F C (Fs.map (·.1)) (Fs.map (·.2)) (Cs.map (·.1)) (Cs.map (·.2))
  fit p SE Z F C Fs Cs := Normal_Power_Exponential.fit (p 0) (p 1) (p 2) (p 3) SE Z F C (Fs.map (·.1)) (Fs.map (·.2)) (Cs.map (·.1)) (Cs.map (·.2))
  life p s := Normal_Power_Exponential.life_func (p 0) (p 1) (p 2) s.1 s.2

/-- `Fit_Normal_Dual_Power` (ALT_fitters.py:11202-11471). -/
noncomputable def normalDualPower : Cls (ℝ × ℝ) where
  n := 4
  dist := "Normal"
  model := "Dual_Power"
  names := ["c", "m", "n", "sigma"]
  guess g s := ![g.getD 0 0, g.getD 1 0, g.getD 2 0, s]
  shape p := p 3
  LL p F C Fs Cs := Normal_Dual_Power.LL [p 0, p 1, p 2, p 3] F C (Fs.map (·.1)) (Fs.map (·.2)) (Cs.map (·.1)) (Cs.map (·.2))
  fit p SE Z F C Fs Cs := Normal_Dual_Power.fit (p 0) (p 1) (p 2) (p 3) SE Z F C (Fs.map (·.1)) (Fs.map (·.2)) (Cs.map (·.1)) (Cs.map (·.2))
  life p s := Normal_Dual_Power.life_func (p 0) (p 1) (p 2) s.1 s.2

/-- `Fit_Exponential_Exponential` (ALT_fitters.py:11692-11906). -/
noncomputable def exponentialExponential : Cls (ℝ) where
  n := 2
  dist := "Exponential"
  model := "Exponential"
  names := ["a", "b"]
  guess g _ := ![g.getD 0 0, g.getD 1 0]
  shape _ := 1
  LL p F C Fs Cs := Exponential_Exponential.LL [p 0, p 1] F C Fs Cs
  fit p SE Z F C Fs Cs := Exponential_Exponential.fit (p 0) (p 1) SE Z F C Fs Cs
  life p s := Exponential_Exponential.life_func (p 0) (p 1) s

/-- `Fit_Exponential_Eyring` (ALT_fitters.py:12125-12339). -/
noncomputable def exponentialEyring : Cls (ℝ) where
  n := 2
  dist := "Exponential"
  model := "Eyring"
  names := ["a", "c"]
  guess g _ := ![g.getD 0 0, g.getD 1 0]
  shape _ := 1
  LL p F C Fs Cs := Exponential_Eyring.LL [p 0, p 1] F C Fs Cs
  fit p SE Z F C Fs Cs := Exponential_Eyring.fit (p 0) (p 1) SE Z F C Fs Cs
  life p s := Exponential_Eyring.life_func (p 0) (p 1) s

/-- `Fit_Exponential_Power` (ALT_fitters.py:12550-12764). -/
noncomputable def exponentialPower : Cls (ℝ) where
  n := 2
  dist := "Exponential"
  model := "Power"
  names := ["a", "n"]
  guess g _ := ![g.getD 0 0, g.getD 1 0]
  shape _ := 1
  LL p F C Fs Cs := Exponential_Power.LL [p 0, p 1] F C Fs Cs
  fit p SE Z F C Fs Cs := Exponential_Power.fit (p 0) (p 1) SE Z F C Fs Cs
  life p s := Exponential_Power.life_func (p 0) (p 1) s

/-- `Fit_Exponential_Dual_Exponential` (ALT_fitters.py:12998-13254). -/
noncomputable def exponentialDualExponential : Cls (ℝ × ℝ) where
  n := 3
  dist := "Exponential"
  model := "Dual_Exponential"
  names := ["a", "b", "c"]
  guess g _ := ![g.getD 0 0, g.getD 1 0, g.getD 2 0]
  shape _ := 1
  LL p F C Fs Cs := Exponential_Dual_Exponential.LL [p 0, p 1, p 2] F C (Fs.map (·.1)) (Fs.map (·.2)) (Cs.map (·.1)) (Cs.map (·.2))
  fit p SE Z F C Fs Cs := Exponential_Dual_Exponential.fit (p 0) (p 1) (p 2) SE Z F C (Fs.map (·.1)) (Fs.map (·.2)) (Cs.map (·.1)) (Cs.map (·.2))
  life p s := Exponential_Dual_Exponential.life_func (p 0) (p 1) (p 2) s.1 s.2

/-- `Fit_Exponential_Power_Exponential` (ALT_fitters.py:13497-13753). -/
noncomputable def exponentialPowerExponential : Cls (ℝ × ℝ) where
  n := 3
  dist := "Exponential"
  model := "Power_Exponential"
  names := ["a", "c", "n"]
  guess g _ := ![g.getD 0 0, g.getD 1 0, g.getD 2 0]
  shape _ := 1
  LL p F C Fs Cs := Exponential_Power_Exponential.LL [p 0, p 1, p 2] F C (Fs.map (·.1)) (Fs.map (·.2)) (Cs.map (·.1)) (Cs.map (·.2))
  fit p SE Z F C Fs Cs := Exponential_Power_Exponential.fit (p 0) (p 1) (p 2) SE Z F C (Fs.map (·.1)) (Fs.map (·.2)) (Cs.map (·.1)) (Cs.map (·.2))
  life p s := Exponential_Power_Exponential.life_func (p 0) (p 1) (p 2) s.1 s.2

/-- `Fit_Exponential_Dual_Power` (ALT_fitters.py:13993-14249). -/
noncomputable def exponentialDualPower : Cls (ℝ × ℝ) where
  n := 3
  dist := "Exponential"
  model := "Dual_Power"
  names := ["c", "m", "n"]
  guess g _ := ![g.getD 0 0, g.getD 1 0, g.getD 2 0]
  shape _ := 1
  LL p F C Fs Cs := Exponential_Dual_Power.LL [p 0, p 1, p 2] F C (Fs.map (·.1)) (Fs.map (·.2)) (Cs.map (·.1)) (Cs.map (·.2))
  fit p SE Z F C Fs Cs := Exponential_Dual_Power.fit (p 0) (p 1) (p 2) SE Z F C (Fs.map (·.1)) (Fs.map (·.2)) (Cs.map (·.1)) (Cs.map (·.2))
  life p s := Exponential_Dual_Power.life_func (p 0) (p 1) (p 2) s.1 s.2

/-- The single-stress classes. -/
noncomputable def singleClasses : List (Cls (ℝ)) :=
  [weibullExponential, weibullEyring, weibullPower, lognormalExponential, lognormalEyring, lognormalPower,
   normalExponential, normalEyring, normalPower, exponentialExponential, exponentialEyring, exponentialPower]

/-- The dual-stress classes. -/
noncomputable def dualClasses : List (Cls (ℝ × ℝ)) :=
  [weibullDualExponential, weibullPowerExponential, weibullDualPower, lognormalDualExponential, lognormalPowerExponential, lognormalDualPower,
   normalDualExponential, normalPowerExponential, normalDualPower, exponentialDualExponential, exponentialPowerExponential, exponentialDualPower]

end Reliability.ALTGlue

#!/usr/bin/env python3
"""Generates lean/Verif/Model/ALT.lean and lean/Verif/Props/ALT.lean from the regular structure of the 24 ALT fitters.
Every formula emitted is asserted to be, textually, what /repo/reliability/ALT_fitters.py contains for that class."""
import re
SRC='/repo/reliability/ALT_fitters.py'
L=open(SRC).read().split('\n')
cls=[(i,re.match(r'class Fit_(\w+):',l).group(1)) for i,l in enumerate(L) if re.match(r'class Fit_\w+:',l)]
rng={n:(i,(cls[j+1][0] if j+1<len(cls) else len(L))) for j,(i,n) in enumerate(cls)}
norm=lambda s:re.sub(r'\s+','',re.sub(r'#.*','',s))
# model -> (params, life in logf (py), life_func (py), life lean (with stress names), kinds, spec constructor)
MODELS={
 'Exponential':(['a','b'],'b*anp.exp(a/T)','self.b*np.exp(self.a/S1)','b * Real.exp (a / {S1})','rp','exponential a b'),
 'Eyring':(['a','c'],'1/T*anp.exp(-(c-a/T))','1/S1*np.exp(-(self.c-self.a/S1))','1 / {S1} * Real.exp (-(c - a / {S1}))','rr','eyring a c'),
 'Power':(['a','n'],'a*T**n','self.a*S1**self.n','a * {S1} ^ n','pr','power a n'),
 'Dual_Exponential':(['a','b','c'],'c*anp.exp(a/S1+b/S2)','self.c*np.exp(self.a/S1+self.b/S2)','c * Real.exp (a / {S1} + b / {S2})','rrp','dualExponential a b c'),
 'Power_Exponential':(['a','c','n'],'c*S2**n*anp.exp(a/S1)','self.c*(S2**self.n)*np.exp(self.a/S1)','c * {S2} ^ n * Real.exp (a / {S1})','rpr','powerExponential a c n'),
 'Dual_Power':(['c','m','n'],'c*(S1**m)*(S2**n)','self.c*(S1**self.m)*(S2**self.n)','c * ({S1} ^ m) * ({S2} ^ n)','prr','dualPower c m n'),
}
DISTS={
 'Weibull':('beta','((beta-1)*anp.log(t/life)+anp.log(beta/life)-(t/life)**beta)','-((t/life)**beta)',
   '(beta - 1) * Real.log (t / life) + Real.log (beta / life) - (t / life) ^ beta','-((t / life) ^ beta)',
   'self.alpha_at_use_stress=life_func({U})self.distribution_at_use_stress=Weibull_Distribution(alpha=self.alpha_at_use_stress,beta=self.beta)',
   'new_alphas.append(life_func({G}))','Distributions.weibull {u} beta 0','{u}','weibull beta'),
 'Lognormal':('sigma','anp.log(anp.exp(-0.5*(((anp.log(t)-anp.log(life))/sigma)**2))/(t*sigma*(2*anp.pi)**0.5))',
   'anp.log(0.5-0.5*erf((anp.log(t)-anp.log(life))/(sigma*2**0.5)))',
   'Real.log (Real.exp (-0.5 * (((Real.log t - Real.log life) / sigma) ^ 2)) / (t * sigma * Real.sqrt (2 * Real.pi)))',
   'Real.log (0.5 - 0.5 * erf ((Real.log t - Real.log life) / (sigma * Real.sqrt 2)))',
   'self.mu_at_use_stress=np.log(life_func({U}))self.distribution_at_use_stress=Lognormal_Distribution(mu=self.mu_at_use_stress,sigma=self.sigma)',
   'new_mus.append(np.log(life_func({G})))','Distributions.lognormal (Real.log ({u})) sigma 0','Real.log ({u})','lognormal sigma'),
 'Normal':('sigma','anp.log(anp.exp(-0.5*(((t-life)/sigma)**2)))-anp.log((sigma*(2*anp.pi)**0.5))','anp.log((1+erf(((life-t)/sigma)/2**0.5))/2)',
   'Real.log (Real.exp (-0.5 * (((t - life) / sigma) ^ 2))) - Real.log (sigma * Real.sqrt (2 * Real.pi))',
   'Real.log ((1 + erf (((life - t) / sigma) / Real.sqrt 2)) / 2)',
   'self.mu_at_use_stress=life_func({U})self.distribution_at_use_stress=Normal_Distribution(mu=self.mu_at_use_stress,sigma=self.sigma)',
   'new_mus.append(life_func({G}))','Distributions.normal {u} sigma','{u}','normal sigma'),
 'Exponential':(None,'anp.log(1/life)-1/life*t','-(1/life*t)','Real.log (1 / life) - 1 / life * t','-(1 / life * t)',
   'self.Lambda_at_use_stress=1/life_func({U})self.distribution_at_use_stress=Exponential_Distribution(Lambda=self.Lambda_at_use_stress)',
   'new_alphas.append(life_func({G}))','Distributions.exponential (1 / {u}) 0','{u}','exponential'),
}
M=[];P=[]
M.append('''import Mathlib.Analysis.SpecialFunctions.Log.Basic
import Mathlib.Analysis.SpecialFunctions.Pow.Real
import Verif.Model.Likelihood
import Verif.Model.Distributions

/-!
# The 24 ALT fitters of reliability/ALT_fitters.py: likelihoods, life functions, reported results

Generated by tools/gen_alt.py, which checks that each formula is literally the one in the class's source text.
Exact real arithmetic; `x ** 0.5` of a constant is `Real.sqrt`.  The optimiser's answer (the estimates) and the
standard errors (square roots of the diagonal of the inverse Hessian; `none` when the Hessian is singular) are
arguments.  Not modelled here: initial guesses, printing, plots, the "original" columns of the change-of-parameters
table, `mean_life` (an attribute of the distribution).
-/

namespace Reliability.ALT

open Likelihood Distributions

/-- The results the fitters report. -/
structure Fit where
  loglik : ℝ
  AICc : Option ℝ
  BIC : ℝ
  bounds : List (ℝ × ℝ)
  useDist : Option Dist
  newScale : List ℝ
  AF : List ℝ

/-- The sum of a function of a time and its stress over two arrays of the same length (`.sum()` of a vectorised call;
the lengths are equal by ALT_fitters_input_checking). -/
def sum1 (g : ℝ → ℝ → ℝ) (t T : List ℝ) : ℝ := (List.zipWith g t T).sum

/-- The same for two stresses. -/
def sum2 (g : ℝ → ℝ → ℝ → ℝ) (t S1 S2 : List ℝ) : ℝ :=
  (List.zipWith (fun t (S : ℝ × ℝ) => g t S.1 S.2) t (S1.zip S2)).sum

/-- The bounds of a list of estimates: `x ± Z·SE` for a real parameter, `x·exp(±Z·SE/x)` for a positive one (flag
`true`); the estimate itself when the Hessian could not be inverted.  E.g. ALT_fitters.py:3004-3041. -/
noncomputable def ciBounds (positive : List Bool) (x : List ℝ) (SE : Option (List ℝ)) (Z : ℝ) : List (ℝ × ℝ) :=
  match SE with
  | none => x.map fun v => (v, v)
  | some se => (positive.zip (x.zip se)).map fun p => if p.1 then ciPositive p.2.1 p.2.2 Z else ciReal p.2.1 p.2.2 Z
''')
P.append('''import Verif.Lemmas.ALT

/-! # C59 and C76 for the 24 ALT fitters (generated by tools/gen_alt.py; the lemmas are in Verif/Lemmas/ALT.lean) -/

namespace Reliability.Props.ALT

open Reliability ALT Spec Likelihood Distributions

''')
for d,(shape,pf,pR,lf,lR,use,new,ud,ns,ctor) in DISTS.items():
  for m,(ps,pl,plf,ll,kinds,lsc) in MODELS.items():
    name=f'{d}_{m}'
    i,e=rng[name]
    body=L[i:e]
    def find(pat,start=0):
        for k in range(start,len(body)):
            if pat in body[k]: return k
        raise Exception((name,pat))
    dual=m in('Dual_Exponential','Power_Exponential','Dual_Power')
    sn=['S1','S2'] if dual else ['T']
    allp=ps+([shape] if shape else [])
    # logf
    k1=find('def logf('); k2=find('@staticmethod',k1); k3=find('def logR('); k4=find('@staticmethod',k3); k5=find('def LL(')
    txt=norm(''.join(x+'\n' for x in body[k1:k2]))
    assert norm('\n'.join(body[k1:k2]))==f"deflogf(t,{','.join(sn)},{','.join(allp)}):life={pl}return{pf}" or norm('\n'.join(re.sub('#.*','',x) for x in body[k1:k2]))==f"deflogf(t,{','.join(sn)},{','.join(allp)}):life={pl}return{pf}",(name,[re.sub('#.*','',x) for x in body[k1:k2]])
    assert norm('\n'.join(re.sub('#.*','',x) for x in body[k3:k4]))==f"deflogR(t,{','.join(sn)},{','.join(allp)}):life={pl}return{pR}",(name,)
    pr=','.join(f'params[{j}]' for j in range(len(allp)))
    fa=','.join(f'{s}_f' for s in sn); ra=','.join(f'{s}_rc' for s in sn)
    assert norm('\n'.join(re.sub('#.*','',x) for x in body[k5:])).replace(',)',')')==f"defLL(params,t_f,t_rc,{fa},{ra}):LL_f=Fit_{name}.logf(t_f,{fa},{pr}).sum()LL_rc=Fit_{name}.logR(t_rc,{ra},{pr}).sum()return-(LL_f+LL_rc)",(name,norm('\n'.join(re.sub('#.*','',x) for x in body[k5:])))
    kl=find('def life_func('); kn=find('# change of parameters')
    U='S1=use_level_stress[0],S2=use_level_stress[1]' if dual else 'S1=use_level_stress'
    G='S1=stress[0],S2=stress[1]' if dual else 'S1=stress'
    A='S1,S2' if dual else 'S1'
    assert norm('\n'.join(re.sub('#.*','',x) for x in body[kl:kn]))==f"deflife_func({A}):return{plf}ifuse_level_stressisnotNone:{use.format(U=U)}self.mean_life=self.distribution_at_use_stress.mean",(name,norm('\n'.join(body[kl:kn])))
    ka=find('AF = []',kn); ke=find('change_of_parameters_data = {',ka)
    t=norm('\n'.join(re.sub('#.*','',x) for x in body[kn:ke]))
    assert new.format(G=G) in t and f'AF.append(life_func({U})/life_func({G}))' in t,name
    # bounds, goodness of fit
    kz=find('Z = -ss.norm.ppf((1 - CI) / 2)'); kx=find('# results dataframe'); kg=find('# goodness of fit dataframe')
    t=norm('\n'.join(re.sub('#.*','',x) for x in body[kz:kx]))
    assert 'params=['+','.join('self.'+x for x in allp)+']' in t
    kd=kinds+('p' if shape else '')
    for j,(x,k) in enumerate(zip(allp,kd)):
        assert f'self.{x}_SE=abs(covariance_matrix[{j}][{j}])**0.5' in t
        if k=='p': assert f'self.{x}_upper=self.{x}*(np.exp(Z*(self.{x}_SE/self.{x})))self.{x}_lower=self.{x}*(np.exp(-Z*(self.{x}_SE/self.{x})))' in t,(name,x)
        else: assert f'self.{x}_upper=self.{x}+(Z*self.{x}_SE)self.{x}_lower=self.{x}+(-Z*self.{x}_SE)' in t,(name,x)
        assert f'self.{x}_upper=self.{x}self.{x}_lower=self.{x}' in t
    t=norm('\n'.join(re.sub('#.*','',x) for x in body[kg:kl]))
    args='failures,right_censored,failure_stress,right_censored_stress' if not dual else 'failures,right_censored,failure_stress_1,failure_stress_2,right_censored_stress_1,right_censored_stress_2'
    assert t.replace(',)',')').startswith(f'n=len(failures)+len(right_censored)k=len(guess)LL2=2*LL_func(params,{args})self.loglik2=LL2self.loglik=LL2*-0.5ifn-k-1>0:self.AICc=2*k+LL2+(2*k**2+2*k)/(n-k-1)else:self.AICc="InsufficientData"self.BIC=np.log(n)*k+LL2'.replace('InsufficientData','Insufficientdata')),(name,t)
    # guess has as many entries as parameters
    t=norm('\n'.join(re.sub('#.*','',x) for x in body[:kz]))
    gm=re.findall(r'guess=\[([^=]*?)\]MLE',t) or re.findall(r'guess=(life_stress_guess)MLE',t) or re.findall(r'initial_guess=(life_stress_guess)',t)
    assert len(gm)==1 and len(gm[0].rstrip(',').split(','))==len(allp),(name,gm)
    def r(k): return i+k+1
    ln=lambda a,b:f'ALT_fitters.py:{r(a)}-{r(b)-1}'
    while not body[k2-1].strip(): k2-=1
    while not body[k4-1].strip(): k4-=1
    end=len(body)
    while not body[end-1].strip(): end-=1
    lnm=' '.join(allp)
    sl={'S1':'S1','S2':'S2'} if dual else {'S1':'T','S2':''}
    M.append(f'/-! ## Fit_{name} -/\n')
    M.append(f'/-- {ln(k1,k2)}. -/\nnoncomputable def {name}.logf (t {" ".join(sn)} {lnm} : ℝ) : ℝ :=\n  let life := {ll.format(**sl)};\n  {lf}\n')
    M.append(f'/-- {ln(k3,k4)}. -/\nnoncomputable def {name}.logR (t {" ".join(sn)} {lnm} : ℝ) : ℝ :=\n  let life := {ll.format(**sl)};\n  {lR}\n')
    pars=' '.join(f'(params.getD {j} 0)' for j in range(len(allp)))
    fs=' '.join(f'{s}_f' for s in sn); rs=' '.join(f'{s}_rc' for s in sn)
    sm='sum2' if dual else 'sum1'
    M.append(f'/-- {ln(k5,end)}. -/\nnoncomputable def {name}.LL (params t_f t_rc {fs} {rs} : List ℝ) : ℝ :=\n  -({sm} (fun t {" ".join(sn)} => {name}.logf t {" ".join(sn)} {pars}) t_f {fs} +\n    {sm} (fun t {" ".join(sn)} => {name}.logR t {" ".join(sn)} {pars}) t_rc {rs})\n')
    l2={'S1':'S1','S2':'S2'}
    M.append(f'/-- ALT_fitters.py:{r(kl)}-{r(kl)+1}. -/\nnoncomputable def {name}.life_func ({" ".join(ps)} S1{" S2" if dual else ""} : ℝ) : ℝ := {ll.format(**l2)}\n')
    st='ℝ × ℝ' if dual else 'ℝ'
    ap=lambda x:(f'{x}.1 {x}.2' if dual else x)
    lifeat=lambda x:f'({name}.life_func {" ".join(ps)} {ap(x)})'
    fsn='failure_stress_1 failure_stress_2' if dual else 'failure_stress'
    rsn='right_censored_stress_1 right_censored_stress_2' if dual else 'right_censored_stress'
    llcall=f'{name}.LL [{", ".join(allp)}] failures right_censored {fsn} {rsn}'
    M.append(f'''/-- ALT_fitters.py:{r(kz)}-{r(ke)-1}: bounds, goodness of fit, use-level distribution, change of parameters. -/
noncomputable def {name}.fit ({lnm} : ℝ) (SE : Option (List ℝ)) (Z : ℝ)
    (failures right_censored {fsn} {rsn} : List ℝ) (use : Option ({st}))
    (groups : List ({st})) : Fit :=
  let LL2 := 2 * {llcall}
  {{ loglik := LL2 * (-0.5)
    AICc := AICc (failures.length + right_censored.length) {len(allp)} LL2
    BIC := BIC (failures.length + right_censored.length) {len(allp)} LL2
    bounds := ciBounds [{", ".join("true" if k=="p" else "false" for k in kd)}] [{", ".join(allp)}] SE Z
    useDist := use.map fun u => {ud.format(u=lifeat("u"))}
    newScale := groups.map fun g => {ns.format(u=lifeat("g"))}
    AF := match use with
      | none => []
      | some u => groups.map fun g => {lifeat("u")} / {lifeat("g")} }}
''')
    # theorems
    pt='ℝ × ℝ × ℝ' if dual else 'ℝ × ℝ'
    lists=('(F.map Prod.fst) (C.map Prod.fst) '+('(F.map fun i => i.2.1) (F.map fun i => i.2.2) (C.map fun i => i.2.1) (C.map fun i => i.2.2)' if dual else '(F.map Prod.snd) (C.map Prod.snd)'))
    life='fun s => (LifeStress.%s).life %s'%(lsc,'s.1 s.2' if dual else 's 1')
    posh='0 < s.1 ∧ 0 < s.2' if dual else '0 < s'
    vh=' '.join(f'(h{x} : 0 < {x})' for x,k in zip(allp,kd) if k=='p')
    valid='trivial' if m=='Eyring' else 'h'+[x for x,k in zip(ps,kinds) if k=='p'][0]
    hshape='trivial' if not shape else 'h'+shape
    lt=f'(ls := .{lsc})'
    eq='eyring_life_eq _ _ _' if m=='Eyring' else 'rfl'
    LF={'Weibull':'weibull2P_logf','Lognormal':'lognormal_logf, sub_zero','Normal':'normal2P_logf','Exponential':'exponential1P_logf'}[d]
    LR=LF.replace('logf','logR')
    P.append(f'''/-- **C59, Fit_{name}** (ALT_fitters.py:{i+1}). -/
theorem C59_{name} ({lnm} : ℝ) {vh} (SE : Option (List ℝ)) (Z : ℝ)
    (F C : List ({pt})) (use : Option ({st})) (groups : List ({st}))
    (hF : ∀ i ∈ F, 0 < i.1 ∧ {posh.replace('s','i.2')}) (hC : ∀ i ∈ C, 0 < i.1 ∧ {posh.replace('s','i.2')})
    (hG : ∀ s ∈ groups, {posh}) :
    IsALTFit (.{ctor}) {len(allp)} ({life}) F C use groups
      ({name}.fit {lnm} SE Z {lists} use groups) := by
  refine isALTFit_{"dual" if dual else "single"} (ls := .{lsc}) (ld := .{ctor}) {valid}
    {hshape} ({name}.logf · {"· · " if dual else "· "}{lnm})
    ({name}.logR · {"· · " if dual else "· "}{lnm}) ({name}.life_func {" ".join(ps)}) F C use groups hF hC hG ?_ ?_ ?_ _ ?_ ?_ ?_ ?_ ?_ ?_
  · intro t {"S1 S2" if dual else "S1"}
    simp only [{name}.logf, baseLogf, LifeStress.life, {LF}{", eyring_life_eq" if m=="Eyring" else ""}]
  · intro t {"S1 S2" if dual else "S1"}
    simp only [{name}.logR, baseLogR, LifeStress.life, {LR}{", eyring_life_eq" if m=="Eyring" else ""}]
  · intro {"S1 S2" if dual else "S1"}
    simp only [{name}.life_func, LifeStress.life{", eyring_life_eq" if m=="Eyring" else ""}]
  · rfl
  · simp only [{name}.fit, List.length_map]; rfl
  · simp only [{name}.fit, List.length_map]; rfl
  · rfl
  · rfl
  · rintro u rfl; rfl

/-- **C76, Fit_{name}**. -/
theorem C76_{name} ({lnm} : ℝ) {vh} (SE : Option (List ℝ))
    (hSE : ∀ se, SE = some se → se.length = {len(allp)} ∧ ∀ s ∈ se, 0 ≤ s) (Z : ℝ) (hZ : 0 ≤ Z)
    (failures censored {fsn} {rsn} : List ℝ) (use : Option ({st})) (groups : List ({st})) :
    EnclosedBy [{", ".join(f"(.{'positive' if k=='p' else 'real'}, {x})" for x,k in zip(allp,kd))}]
      ({name}.fit {lnm} SE Z failures censored {fsn} {rsn} use groups).bounds := by
  refine ciBounds_enclosed [{", ".join(f"(.{'positive' if k=='p' else 'real'}, {x})" for x,k in zip(allp,kd))}] ?_ SE hSE Z hZ
  simp only [List.forall_mem_cons, ParamKind.Ok{", *" if 'p' in kd else ""}]; simp

''')
M.append('end Reliability.ALT\n'); P.append('''@@TAIL@@
end Reliability.Props.ALT
''')
open('/verif/lean/Verif/Model/ALT.lean','w').write('\n'.join(M))
tail=open('/verif/tools/alt_tail.txt').read()
open('/verif/lean/Verif/Props/ALT.lean','w').write(''.join(P).replace('@@TAIL@@',tail))

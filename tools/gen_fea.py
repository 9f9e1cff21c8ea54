#!/usr/bin/env python3
"""Generates the branch tables of lean/Verif/Model/FitEverythingALT.lean; asserts the source text of Fit_Everything_ALT."""
import re,sys
sys.argv=['x']
src=open('/verif/tools/gen_alt.py').read().split("M=[];P=[]")[0]
exec(src)
i,e=rng['Everything_ALT']
body=L[i:e]
T=norm('\n'.join(re.sub('#.*','',x) for x in body))
order=re.findall(r'if"(\w+)"notinself\.excluded_models',T)
single=[f'{d}_{m}' for d in DISTS for m in ['Exponential','Eyring','Power']]
dual=[f'{d}_{m}' for d in DISTS for m in ['Dual_Exponential','Power_Exponential','Dual_Power']]
assert order==single+dual
assert 'single_stress_ALT_models_list=['+','.join(f'"{x}"' for x in single)+',]' in T
assert 'dual_stress_ALT_models_list=['+','.join(f'"{x}"' for x in dual)+',]' in T
# row contents
for X in order:
    d=[d for d in DISTS if X.startswith(d+'_') and X[len(d)+1:] in MODELS][0]; m=X[len(d)+1:]
    ps=MODELS[m][0]+([DISTS[d][0]] if DISTS[d][0] else [])
    blk=T.split(f'if"{X}"notinself.excluded_models:')[1].split('if"')[0]
    for p in ps+['loglik','BIC','AICc']:
        assert f'self.{X}_{p}=self.__{X}_params.{p}self' in blk.replace('(','').replace(')','') ,(X,p)
    cols=['a','b','c']+(['m'] if X in dual else [])+['n','beta','sigma']
    for c in cols:
        assert (f'"{c}":[self.{X}_{c}]' if c in ps else f'"{c}":[""]') in blk,(X,c)
    assert f'"Log-likelihood":[self.{X}_loglik' in blk and f'"AICc":[self.{X}_AICc]' in blk and f'"BIC":[self.{X}_BIC]' in blk
    assert f'__{X}_params=Fit_{X}(' in blk.replace('=(','=')
    assert f'"optimizer":[self.{X}_optimizer]' in blk.replace('(','').replace(')','') and f'self.{X}_optimizer=self.__{X}_params.optimizer' in blk.replace('=(','=')
    args=('failures=failures,failure_stress_1=failure_stress_1,failure_stress_2=failure_stress_2,right_censored=right_censored,'
      'right_censored_stress_1=right_censored_stress_1,right_censored_stress_2=right_censored_stress_2,' if X in dual else
      'failures=failures,failure_stress=failure_stress_1,right_censored=right_censored,right_censored_stress=right_censored_stress_1,')
    args+='use_level_stress=use_level_stress,CI=CI,optimizer=optimizer,show_probability_plot=False,show_life_stress_plot=False,print_results=False,)'
    assert f'Fit_{X}('+args in blk,(X,blk[:600])
# use-level branches
us=T.split('ifuse_level_stressisnotNone:')[1].split('ifprint_resultsisTrue')[0]
br=re.split(r'(?:el)?ifbest_model=="(\w+)":',us)[1:]
names=br[0::2]; bodies=br[1::2]
assert names==order
life_py={'Exponential':'b*np.exp(a/U)','Eyring':'(1/U)*np.exp(-(c-a/U))','Power':'a*U**n',
 'Dual_Exponential':'c*np.exp(a/U[0]+b/U[1])','Power_Exponential':'c*U[1]**n*np.exp(a/U[0])','Dual_Power':'c*U[0]**m*U[1]**n'}
life_lean={'Exponential':'p.b * Real.exp (p.a / u.1)','Eyring':'(1 / u.1) * Real.exp (-(p.c - p.a / u.1))','Power':'p.a * u.1 ^ p.n',
 'Dual_Exponential':'p.c * Real.exp (p.a / u.1 + p.b / u.2)','Power_Exponential':'p.c * u.2 ^ p.n * Real.exp (p.a / u.1)','Dual_Power':'p.c * u.1 ^ p.m * u.2 ^ p.n'}
out=[]
lines={}
for k,x in enumerate(body):
    mm=re.search(r'if best_model == "(\w+)"',x)
    if mm: lines[mm.group(1)]=i+k+1
for X,b in zip(names,bodies):
    d=[d for d in DISTS if X.startswith(d+'_') and X[len(d)+1:] in MODELS][0]; m=X[len(d)+1:]
    b=b.replace(f'self.{X}_','').replace('use_level_stress','U').replace(',)',')')
    lp=life_py[m]; ll=life_lean[m]
    cand={'Weibull':[(f'self.best_model_at_U=Weibull_Distribution(alpha={lp},beta=beta)',f'Distributions.weibull ({ll}) p.beta 0')],
     'Lognormal':[(f'self.best_model_at_U=Lognormal_Distribution(mu=np.log({lp}),sigma=sigma)',f'Distributions.lognormal (Real.log ({ll})) p.sigma 0'),
                  (f'self.best_model_at_U=Lognormal_Distribution(mu=1/({lp}),sigma=sigma)',f'Distributions.lognormal (1 / ({ll})) p.sigma 0')],
     'Normal':[(f'self.best_model_at_U=Normal_Distribution(mu={lp},sigma=sigma)',f'Distributions.normal ({ll}) p.sigma')],
     'Exponential':[(f'self.best_model_at_U=Exponential_Distribution(Lambda=1/({lp}))',f'Distributions.exponential (1 / ({ll})) 0'),
                    (f'self.best_model_at_U=Exponential_Distribution(Lambda={lp})',f'Distributions.exponential ({ll}) 0')]}[d]
    b=b.replace('best_model_at_use_stress','best_model_at_U').replace('best_model_at_U_stress','best_model_at_U')
    hit=[l for p,l in cand if p==b]
    assert len(hit)==1,(X,b,cand)
    out.append((X,lines[X],hit[0]))
s='''/-- ALT_fitters.py:%d-%d — the distribution object of the best model at the use stress: one branch per model, each with
its own copy of the formula. `u = (use_level_stress, _)` for single-stress models.  (Generated by tools/gen_fea.py,
which checks each branch against the source text.) -/
noncomputable def bestUse (best : String) (p : Params) (u : ℝ × ℝ) : Option Distributions.Dist :=
'''%(out[0][1]-1,out[-1][1]+5)
for k,(X,ln,l) in enumerate(out):
    s+=f'  {"else " if k else ""}if best = "{X}" then some ({l}) -- {ln}\n'
s+='  else none\n'
t='''/-- The documented meaning of the model names. -/
def modelOf (p : Params) : List (String × LifeStress × LifeDist) :=
  ['''
rows=[]
for X in order:
    d=[d for d in DISTS if X.startswith(d+'_') and X[len(d)+1:] in MODELS][0]; m=X[len(d)+1:]
    ls=re.sub(r' (\w)',r' p.\1',MODELS[m][5]); ld=re.sub(r' (\w+)',r' p.\1',DISTS[d][9])
    rows.append(f'("{X}", .{ls}, .{ld})')
t+=',\n   '.join(rows)+']\n'
open('/tmp/bestUse.lean','w').write(s); open('/tmp/modelOf.lean','w').write(t)
print('single',single);print('dual',dual)

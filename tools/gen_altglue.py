"""Generates lean/Verif/Model/ALTClasses.lean: one record per ALT fitter class, from the text of ALT_fitters.py."""
import re
src = open('/repo/reliability/ALT_fitters.py').read().split('\n')
cls = [(i, l.split()[1].rstrip(':')) for i, l in enumerate(src) if l.startswith('class Fit_') and 'Everything' not in l]
cls.append((len(src), None))
out = '''import Verif.Model.ALTGlue

/-!
# The 24 ALT fitter classes as records (generated by tools/gen_altglue.py from ALT_fitters.py)

Parameter names are those of `results_data["Parameter"]`, the order is that of `params = [...]`, which the generator checks to
be the same.
-/

namespace Reliability.ALTGlue

open Reliability Reliability.ALT

'''
single, dual = [], []
for (a, n), (b, _) in zip(cls, cls[1:]):
    body = '\n'.join(src[a:b])
    D, M = n.split('_')[1], '_'.join(n.split('_')[2:])
    names = [x.strip().strip('"') for x in re.search(r'"Parameter": \[(.*?)\]', body, re.S).group(1).split(',') if x.strip()]
    params = [x.strip().replace('self.', '') for x in re.search(r'params = \[(.*?)\]', body, re.S).group(1).split(',') if x.strip()]
    assert names == params, n
    line = lambda pat: next(i + 1 for i in range(a, b) if re.search(pat, src[i]))
    l1 = line(r'inputs = ALT_fitters_input_checking'); l2 = line(r'self.change_of_parameters = ')
    pos = []
    for p in names:
        m = re.search(r'self\.%s_upper = self\.%s (\*|\+)' % (p, p), body)
        pos.append('true' if m.group(1) == '*' else 'false')
    k = len(names)
    hasShape = D != 'Exponential'
    dualS = len(names) - (1 if hasShape else 0) == 3
    ps = ' '.join('(p %d)' % i for i in range(k))
    pl = ', '.join('p %d' % i for i in range(k))
    guess = ', '.join('g.getD %d 0' % i for i in range(k - (1 if hasShape else 0))) + (', s' if hasShape else '')
    name = D.lower() + M.replace('_', '')
    (dual if dualS else single).append(name)
    sig = 'ℝ × ℝ' if dualS else 'ℝ'
    lf = re.search(r'def %s_%s\.life_func \((.*?) : ℝ\)' % (D, M), open('/verif/lean/Verif/Model/ALT.lean').read()).group(1).split()
    lp = ' '.join('(p %d)' % names.index(x) for x in lf if x not in ('S1', 'S2'))
    larg = 's.1 s.2' if dualS else 's'
    cols = '(Fs.map (·.1)) (Fs.map (·.2)) (Cs.map (·.1)) (Cs.map (·.2))' if dualS else 'Fs Cs'
    out += f'''/-- `{n}` (ALT_fitters.py:{l1}-{l2}). -/
noncomputable def {name} : Cls ({sig}) where
  n := {k}
  dist := "{D}"
  model := "{M}"
  names := {str(names).replace("'", '"')}
  guess g {'s' if hasShape else '_'} := ![{guess}]
  shape {'p' if hasShape else '_'} := {'p %d' % (k-1) if hasShape else '1'}
  LL p F C Fs Cs := {D}_{M}.LL [{pl}] F C {cols}
  fit p SE Z F C Fs Cs := {D}_{M}.fit {ps} SE Z F C {cols}
  life p s := {D}_{M}.life_func {lp} {larg}

'''
for nm, l, s in (('singleClasses', single, 'ℝ'), ('dualClasses', dual, 'ℝ × ℝ')):
    out += f'/-- The {nm[:-7]}-stress classes. -/\nnoncomputable def {nm} : List (Cls ({s})) :=\n  [{", ".join(l[:6])},\n   {", ".join(l[6:])}]\n\n'
out += 'end Reliability.ALTGlue\n'
open('/verif/lean/Verif/Model/ALTClasses.lean', 'w').write(out)
print(single, dual)

MODELS={"Exponential":(1,["a","b"],["b"],"exponential"),"Eyring":(1,["a","c"],[],"eyring"),"Power":(1,["a","n"],["a"],"power"),
"Dual_Exponential":(2,["a","b","c"],["c"],"dualExponential"),"Power_Exponential":(2,["a","c","n"],["c"],"powerExponential"),"Dual_Power":(2,["c","m","n"],["c"],"dualPower")}
DISTS={"Weibull":"beta","Lognormal":"sigma","Normal":"sigma","Exponential":None}
out=['''import Verif.Lemmas.ALTGlue

/-! # The 24 ALT classes are lawful (generated by tools/gen_altlawful.py) -/

namespace Reliability.Props.ALTGlue

open Reliability Reliability.ALT Reliability.ALTGlue Reliability.Spec Reliability.Spec.ALTGlue
''']
singles=[];duals=[]
for d,sh in DISTS.items():
  for m,(k,ps,pos,ctor) in MODELS.items():
    X=f"{d}_{m}"; cls=d.lower()+m.replace("_","")
    params=ps+([sh] if sh else [])
    n=len(params)
    posall=[params.index(q) for q in pos]+([n-1] if sh else [])
    vals=" ".join(f"(p {i})" for i in range(n))
    ms=f"(.{ctor} "+" ".join(f"(p {i})" for i in range(len(ps)))+")"
    ds=f"(.{d.lower()} (p {n-1}))" if sh else ".exponential"
    hyps=("hm" if pos else "")+(" hd" if sh else "")
    extra=", Reliability.Props.ALT.eyring_life_eq" if m=="Eyring" else ""
    life="lifeAt1" if k==1 else "lifeAt2"
    posd="(fun s : ℝ => 0 < s)" if k==1 else "(fun s : ℝ × ℝ => 0 < s.1 ∧ 0 < s.2)"
    lf=f"{X}.life_func "+" ".join(f"(p {i})" for i in range(len(ps)))
    (singles if k==1 else duals).append((cls))
    sv = "s" if k==1 else "s.1 s.2"
    gv = "g" if k==1 else "g.1 g.2"
    uv = "u" if k==1 else "u.1 u.2"
    ty = "ℝ" if k==1 else "ℝ × ℝ"
    fitproof=f"exact Reliability.Props.ALT.C59_{X} {vals} {hyps} SE Z F C use groups hF hC hG" if k==1 else f'''have := Reliability.Props.ALT.C59_{X} {vals} {hyps} SE Z F C use groups hF hC hG
      rw [← map_snd1, ← map_snd2, ← map_snd1, ← map_snd2] at this
      exact this'''
    legal=" ∧ ".join(f"0 < v {i}" for i in posall) or "True"
    opens="isOpen_univ" if not posall else None
    if posall:
      o=f"isOpen_pos ({posall[0]} : Fin {n})"
      for i in posall[1:]: o=f"({o}).inter (isOpen_pos ({i} : Fin {n}))"
      opens=o
    seteq = "Set.univ" if not posall else " ∩ ".join("{v : Fin %d → ℝ | 0 < v %d}"%(n,i) for i in posall)
    vm=ms.replace("p ","v "); vd=ds.replace("p ","v ")
    mv = "hm" if pos else "-"
    mparts=[]
    # destruct to conj
    fw = {(True,True):"⟨hm, hd⟩",(True,False):"hm",(False,True):"hd",(False,False):"trivial"}[(bool(pos),bool(sh))]
    bw_pat={(True,True):"⟨hm, hd⟩",(True,False):"hm",(False,True):"hd",(False,False):"-"}[(bool(pos),bool(sh))]
    bw=f"⟨{ms.replace('p ','v ')}, {ds.replace('p ','v ')}, rfl, {'hm' if pos else 'trivial'}, {'hd' if sh else 'trivial'}⟩"
    guess="\n".join([])
    out.append(f'''
theorem lawful_{cls} : Lawful {cls} {life} {posd} where
  names := rfl
  count := rfl
  model := by
    intro (p : Fin {n} → ℝ)
    have hl : ∀ s : {ty}, {lf} {sv} = {life} {ms} s := by
      intro s
      simp only [{X}.life_func, {life}, LifeStress.life{extra}]
    refine ⟨{ms}, {ds}, rfl, rfl, ?_, ?_⟩
    · intro SE Z F C Fs Cs use groups
      refine ⟨rfl, rfl, ?_, ?_, ?_⟩
      · change (groups.map fun g => LifeDist.scale {ds} ({lf} {gv})) = _
        simp only [hl]
      · rintro u rfl
        change (groups.map fun g => {lf} {uv} / {lf} {gv}) = _
        simp only [hl]
      · rintro rfl; rfl
    · intro hm hd SE Z F C use groups hF hC hG
      {fitproof}
  isOpen := by
    have : {{v : Fin {n} → ℝ | Legal "{d}" "{m}" v}} = {seteq} := by
      ext v
      constructor
      · rintro ⟨m, d, h, hm, hd⟩
        have h : some ({vm}, {vd}) = some (m, d) := h
        cases h
        exact {fw}
      · {'intro _' if bw_pat=='-' else 'rintro '+bw_pat}
        exact {bw}
    change IsOpen {{v : Fin {n} → ℝ | Legal "{d}" "{m}" v}}
    rw [this]
    exact {opens}
  guess := by
    intro ls s h
    match ls, h with
    | [{', '.join('xyz'[:len(ps)])}], _ => rfl
''')
out.append(f'''
theorem lawful_single : ∀ c ∈ singleClasses, Lawful c lifeAt1 (fun s : ℝ => 0 < s) := by
  intro c hc
  simp only [singleClasses, List.mem_cons, List.not_mem_nil, or_false] at hc
  rcases hc with {' | '.join(['rfl']*12)}
'''+"".join(f"  · exact lawful_{c}\n" for c in singles)+f'''
theorem lawful_dual : ∀ c ∈ dualClasses, Lawful c lifeAt2 (fun s : ℝ × ℝ => 0 < s.1 ∧ 0 < s.2) := by
  intro c hc
  simp only [dualClasses, List.mem_cons, List.not_mem_nil, or_false] at hc
  rcases hc with {' | '.join(['rfl']*12)}
'''+"".join(f"  · exact lawful_{c}\n" for c in duals)+'''
end Reliability.Props.ALTGlue
''')
open('/verif/lean/Verif/Lemmas/ALTClasses.lean','w').write("".join(out))

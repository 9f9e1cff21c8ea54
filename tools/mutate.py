#!/usr/bin/env python3
"""Mutation testing of the model (run on a scratch copy, never on /verif/lean).
usage: mutate.py gen > muts.jsonl ; mutate.py run muts.jsonl results.jsonl
Each mutant is a one-token edit of one definition in Verif/Model; the whole project is rebuilt and the
declarations whose proof no longer checks are recorded."""
import re,sys,json,glob,os,subprocess,random
SRC=os.environ.get("MUT_BASE","/verif/lean"); BASE=SRC; SCR="/tmp/mut/lean"
OPS=[(r" < "," ≤ "),(r" ≤ "," < "),(r" > "," ≥ "),(r" ≥ "," > "),
 (r" \+ "," - "),(r"(?<=[\w\)\]]) - "," + "),(r" \* "," / "),(r" / "," * "),
 (r" ∧ "," ∨ "),(r" ∨ "," ∧ "),(r" && "," || "),(r" \|\| "," && "),
 (r"\btrue\b","false"),(r"\bfalse\b","true"),
 (r"\bmin\b","max"),(r"\bmax\b","min"),
 (r" = "," ≠ "),(r" ≠ "," = "),(r" == "," != "),(r" != "," == "),
 (r"\.ValueError\b",".TypeError"),
 (r"\.reverse\b",""),(r"\.tail\b",""),(r"\btake\b","drop"),(r"\bdrop\b","take"),
 (r"\.head\?",".getLast?"),(r"\.getLast\?",".head?"),(r"∈","∉"),(r"∉","∈"),(r"\.all\b",".any"),(r"\.any\b",".all"),
 (r"\.some\b",".none"),(r"\.1\b",".2"),(r"\.2\b",".1"),(r"\bfst\b","snd"),(r"\bsnd\b","fst"),
 (r"\bfloor\b","ceil"),(r"\bceil\b","floor"),
]
DECL=re.compile(r"^(?:@\[[^\]]*\]\s*)?(?:private |protected |noncomputable |nonrec |partial )*(theorem|lemma|example|def|abbrev|structure|inductive|instance|class)\b\s*(\S*)")
def decls(lines):
    out=[];cur=None;com=0
    for i,l in enumerate(lines):
        st=com>0
        com+=l.count("/-")-l.count("-/")
        if not st:
            m=DECL.match(l)
            if m: cur=(m.group(1),m.group(2))
        out.append((cur,st or l.lstrip().startswith(("--","/-","@[simp] theorem"))))
        if l.strip()=="" : pass
    return out
def gen():
    random.seed(1)
    muts=[]
    for f in sorted(glob.glob(SRC+"/Verif/Model/*.lean")):
        rel=os.path.relpath(f,SRC); lines=open(f).read().split("\n"); ds=decls(lines)
        for i,l in enumerate(lines):
            cur,com=ds[i]
            if com or cur is None or cur[0] not in("def","abbrev"): continue
            if l.startswith(("namespace","open","end","variable","import","section","@[","set_option","/-")): continue
            # body only: skip signature up to :=
            start=0
            if DECL.match(l):
                j=l.find(":=")
                if j<0: continue
                start=j+2
            code=l.split("--")[0]
            cands=[]
            for a,b in OPS:
                for m in re.finditer(a,code):
                    if m.start()<start: continue
                    if a==r" = " and not re.search(r"\bif\b|decide|filter|∧|∨",code): continue
                    cands.append((m.start(),m.end(),b))
            for m in re.finditer(r"(?<![\w.\"₀-₉])(\d+)(?![\w\"])(?!\.\d)",code):
                if m.start()<start: continue
                cands.append((m.start(),m.end(),str(int(m.group(1))+1)))
            for s,e,b in cands:
                muts.append(dict(file=rel,line=i+1,decl=cur[1],old=l,new=l[:s]+b+l[e:]))
    return muts
ERR=re.compile(r"error: (?:\S*?)(Verif/\S+\.lean):(\d+):(\d+): (.*)")
def run(mfile,rfile,target):
    muts=[json.loads(x) for x in open(mfile)]
    done=set()
    if os.path.exists(rfile):
        for x in open(rfile):
            r=json.loads(x); done.add((r["file"],r["line"],r["new"]))
    prev=None
    for m in muts:
        key=(m["file"],m["line"],m["new"])
        if key in done: continue
        p=SCR+"/"+m["file"]
        if prev and prev!=m["file"]:
            subprocess.run("rm -rf %s; cp -a %s %s"%(SCR,BASE,SCR),shell=True)
        prev=m["file"]
        orig=open(SRC+"/"+m["file"]).read()
        ls=orig.split("\n"); assert ls[m["line"]-1]==m["old"],m
        ls[m["line"]-1]=m["new"]; open(p,"w").write("\n".join(ls))
        try:
            r=subprocess.run(["nice","lake","build"]+target,cwd=SCR,capture_output=True,text=True,timeout=1500)
            out=r.stdout+r.stderr; rc=r.returncode
        except subprocess.TimeoutExpired: out="";rc=-1
        finally: open(p,"w").write(orig)
        failed=[];cache={}
        for x in ERR.finditer(out):
            f,ln=x.group(1),int(x.group(2))
            if f not in cache: cache[f]=decls(open(SRC+"/"+f).read().split("\n"))
            d=cache[f][min(ln,len(cache[f]))-1][0]
            # declaration may begin after attribute/doc lines
            failed.append((f,d[0] if d else "?",d[1] if d else "?"))
        failed=sorted(set(failed))
        if any(f.startswith("Verif/Model/") and k in("def","abbrev") for f,k,n in failed): st="invalid"
        elif rc==0: st="survived"
        elif any(k in("theorem","lemma") for f,k,n in failed): st="killed"
        elif failed: st="only_examples"
        else: st="timeout"
        m2=dict(m,status=st,failed=failed)
        open(rfile,"a").write(json.dumps(m2,ensure_ascii=False)+"\n")
        print(st,m["decl"],m["line"],flush=True)
if __name__=="__main__":
    if sys.argv[1]=="gen":
        for m in gen(): print(json.dumps(m,ensure_ascii=False))
    else: run(sys.argv[2],sys.argv[3],sys.argv[4:])

#!/usr/bin/env python3
"""Generates lean/Verif/Model/PrimeTable.lean and lean/Verif/Lemmas/PrimeCerts.lean from
/repo/source/ReconstHelper.cpp (Pocklington certificates; coreutils `factor` is used as an oracle,
the certificates are checked by Lean's kernel)."""
import re,subprocess,sys
src=open('/repo/source/ReconstHelper.cpp').read()
i=src.index('primes()'); j=src.index('primes_128()')
P63=[int(x) for x in re.findall(r'(\d+)uLL',src[i:j])]
P128=[int(x) for x in re.findall(r'"(\d+)"',src[j:])]
assert len(P63)==300 and len(P128)==10
def factor(n):
    o=subprocess.check_output(['factor',str(n)],text=True).split(':')[1].split()
    d={}
    for q in o: d[int(q)]=d.get(int(q),0)+1
    return d
cache={}
from math import gcd
def cert(p):
    if p in cache: return cache[p]
    f=factor(p-1)
    F=1; use=[]
    for q in sorted(f,reverse=True):
        use.append((q,f[q])); F*=q**f[q]
        if F*F>p: break
    assert F*F>p
    a=2
    while True:
        if pow(a,p-1,p)==1 and all(gcd(pow(a,(p-1)//q,p)+p-1,p)==1 for q,_ in use): break
        a+=1
        assert a<2000
    cache[p]=(a,use); return cache[p]
def chain(p):
    out=[];seen={2}
    def go(p):
        if p in seen: return
        a,use=cert(p)
        for q,_ in use: go(q)
        seen.add(p); out.append((p,a,use))
    go(p); return out
def show(ch):
    return "["+", ".join("(%d, %d, [%s])"%(p,a,", ".join("(%d, %d)"%u for u in use)) for p,a,use in ch)+"]"
with open('/verif/lean/Verif/Model/PrimeTable.lean','w') as f:
    f.write("/-! # The prime tables (source/ReconstHelper.cpp 23-127 and 129-141)\n\nGenerated by tools/genprimes.py from the source text; values only. -/\nnamespace FireFly\n\n")
    f.write("/-- `primes()` (source/ReconstHelper.cpp 23-127). -/\ndef primes63 : List Nat := [\n  "+",\n  ".join(", ".join(map(str,P63[k:k+4])) for k in range(0,300,4))+"]\n\n")
    f.write("/-- `primes_128()` (source/ReconstHelper.cpp 129-141): decimal strings in the source. -/\ndef primes128 : List Nat := [\n  "+",\n  ".join(map(str,P128))+"]\n\nend FireFly\n")
with open('/verif/lean/Verif/Lemmas/PrimeCerts.lean','w') as f:
    f.write("import Verif.Lemmas.Pocklington\n/-! Generated by tools/genprimes.py: Pocklington certificates, checked by the kernel. -/\nnamespace FireFly\nset_option maxRecDepth 100000\n\n")
    n=0
    for name,P,step in (("63",P63,25),("128",P128,10)):
        for k in range(0,len(P),step):
            f.write("/-- certificates of table entries %d.. -/\ndef certs%s_%d : List (List CertEntry) := [\n  %s]\n"%(k,name,k//step,",\n  ".join(show(chain(p)) for p in P[k:k+step])))
            f.write("lemma certs%s_%d_ok : certs%s_%d.all (fun c => checkChain c [2]) = true := by decide +kernel\n\n"%(name,k//step,name,k//step))
    f.write("def certs63 : List (List CertEntry) := "+" ++ ".join("certs63_%d"%k for k in range(12))+"\n")
    f.write("lemma certs63_ok : certs63.all (fun c => checkChain c [2]) = true := by\n  simp only [certs63, List.all_append, Bool.and_eq_true]\n  exact "+"⟨"*11+"certs63_0_ok, "+", ".join("certs63_%d_ok⟩"%k for k in range(1,12))+"\n\nend FireFly\n")

# Pratt certificates for the primes of mylib/mystl/hashtable.h -> lean/Verif/PrattData.lean
import re,random
def isp(n):
    if n<2: return False
    for p in (2,3,5,7,11,13,17,19,23,29,31,37):
        if n%p==0: return n==p
    d=n-1;r=0
    while d%2==0: d//=2;r+=1
    for a in (2,3,5,7,11,13,17,19,23,29,31,37):
        x=pow(a,d,n)
        if x in(1,n-1): continue
        for _ in range(r-1):
            x=x*x%n
            if x==n-1: break
        else: return False
    return True
from math import gcd
def rho(n):
    for p in (2,3,5,7,11,13):
        if n%p==0: return p
    while True:
        c=random.randrange(1,n); x=y=2; d=1
        while d==1:
            x=(x*x+c)%n; y=(y*y+c)%n; y=(y*y+c)%n; d=gcd(abs(x-y),n)
        if d!=n: return d
def fac(n):
    if n==1: return []
    if isp(n): return [n]
    d=rho(n); return sorted(fac(d)+fac(n//d))
random.seed(1)
s=open('/repo/mylib/mystl/hashtable.h').read()
l=[int(x) for x in re.findall(r'(\d+)u',re.search(r'ht_prime_list\[\] = \{(.*?)\};',s,re.S).group(1))]
certs={}
def cert(p):
    if p==2 or p in certs: return
    f=fac(p-1)
    for q in f: cert(q)
    a=2
    while not (pow(a,p-1,p)==1 and all(pow(a,(p-1)//q,p)!=1 for q in f)): a+=1
    certs[p]=(a,f)
for p in l: cert(p)
ps=sorted(certs)
ch=[ps[i:i+60] for i in range(0,len(ps),60)]
o="import Mathlib.Data.Nat.Notation\n\n/-! Generated by tools/gen_primes.py: for every prime a primitive root and the prime factors of p - 1. -/\n\nnamespace Verif.Hash\n\n"
for i,c in enumerate(ch):
    o+=f"def certs{i} : List (ℕ × ℕ × List ℕ) := [\n  "+",\n  ".join(f"({p}, {certs[p][0]}, {certs[p][1]})" for p in c)+"]\n\n"
o+="def certs : List (ℕ × ℕ × List ℕ) := "+" ++ ".join(f"certs{i}" for i in range(len(ch)))+"\n\nend Verif.Hash\n"
open('/verif/lean/Verif/PrattData.lean','w').write(o)
print(len(ps),len(ch))

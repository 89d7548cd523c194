"""Writes lean/Verif/Proofs/Primes.lean: Pratt certificates of the six moduli.
Needs the factoring helpers in ecm.py next to this file."""
import sys
import os
sys.path.insert(0, os.path.dirname(os.path.abspath(__file__)))
from ecm import isp, factor, PR
known={17627503553531704781201602214972145569028026719617221564518:[2, 5351, 94966524181, 641789383260088793, 27024818929985996770866473]}
from collections import Counter
def fac(n):
    if n in known: return Counter(known[n])
    c=[];
    for p in PR:
        while n%p==0: c.append(p); n//=p
    if n>1: c+=factor(n,5000,300000)
    return Counter(c)
done={}
order=[]
def cert(p,g=None):
    if p in done: return
    if p<2000: done[p]=None; order.append(p); return
    f=fac(p-1)
    for q in sorted(f): cert(q)
    a=g or 2
    while not all(pow(a,(p-1)//q,p)!=1 for q in f):
        assert g is None
        a+=1
    done[p]=(a,sorted(f.items())); order.append(p)
fields=[('babybear',2013265921,31),('goldilocks',18446744069414584321,7),('bls12',52435875175126190479447740508185965837690552500527637822603658699938581184513,7),('bn256',21888242871839275222246405745257275088548364400416034343698204186575808495617,7),('pallas',28948022309329048855892746252171976963363056481941560715954676764349967630337,5),('vesta',28948022309329048855892746252171976963363056481941647379679742748393362948097,5)]
if __name__=='__main__':
    for n,p,g in fields: cert(p,g)
    out=["""import Verif.Proofs.Pratt
import Mathlib.Tactic.NormNum.Prime

set_option autoImplicit false

/-!
# Primality certificates of the field moduli

Generated by `tools/gen_primes.py`: for each prime a witness and the factors of `p - 1`, down to primes below 2000.
For the six moduli the witness is the declared generator.
-/

namespace ZkHash.Primes
"""]
    for p in order:
        if done[p] is None:
            out.append(f"theorem prime_{p} : Nat.Prime {p} := by norm_num")
            continue
        a,fs=done[p]
        cl=", ".join(f"({q}, {e})" for q,e in fs)
        pr="".join(f"(.cons prime_{q} " for q,e in fs)+".nil"+")"*len(fs)
        out.append(f"theorem order_{p} :\n    Nat.Prime {p} ∧\n    orderOf (({a} : Nat) : ZMod {p}) =\n      {p} - 1 :=\n  pratt {p} {a}\n    [{cl}]\n    (by decide +kernel) {pr}\ntheorem prime_{p} :\n    Nat.Prime {p} := order_{p}.1")
    out.append("\nend ZkHash.Primes\n")
    open(os.path.join(os.path.dirname(os.path.abspath(__file__)),'../lean/Verif/Proofs/Primes.lean'),'w').write("\n".join(out))

#!/usr/bin/env python3
"""Writes lean/Verif/Model/Benches.lean from /repo/benches/*.rs."""
import re, os, glob
R='/repo/benches/'
SH=open('/verif/lean/Verif/Instances/Shapes.lean').read()
AL=open('/verif/lean/Verif/Instances/All.lean').read()
def names(text, d):
    body=text.split('def %s : '%d)[1].split('\n\n')[0]
    return re.findall(r'`?([A-Z0-9_]+_PARAMS)`?', body)
IDX={}
for d,t in (('poseidon2',AL),('poseidon',AL),('gmimc',SH),('neptune',SH)):
    for i,n in enumerate(names(t,d)): IDX[n]=(d,i)
out='''import Verif.Model.Client

set_option autoImplicit false

/-!
# The benchmark programs of the repository

Generated by `tools/gen_benches.py` from `benches/*.rs`. A benchmark constructs permutations over some parameter sets and
then, for each of them, lets Criterion call one method again and again on one input; Criterion chooses the numbers.
-/

namespace ZkHash.Benches

open Statics Client

/-- A benchmark function: its parameter sets, the method, and for the Merkle trees the logarithm of the number of leaves. -/
structure Bench where
  statics : List Name
  op : Op
  logSetSize : Option Nat := none

/-- The argument of the measured call: `(0..t).map(|i| Scalar::from(i as u64)).collect()`, e.g. `benches/plain_bn256.rs`
line 13, or `sample_set(1 << log_set_size)`, e.g. `benches/mt_bn256.rs` lines 11-13 and 18. -/
def Bench.call (b : Bench) (i : Name) : Call :=
  match b.logSetSize with
  | none => ⟨i, b.op, List.range (width i)⟩
  | some l => ⟨i, b.op, List.range (1 <<< l)⟩

/-- A benchmark function as a program; `iters i` is the number of calls that Criterion makes on parameter set `i`. -/
def Bench.program (b : Bench) (iters : Name → Nat) : List Call :=
  b.statics.map (fun i => ⟨i, .new, []⟩) ++ b.statics.flatMap fun i => List.replicate (iters i) (b.call i)

'''
files=[]
for f in sorted(glob.glob(R+'*.rs')):
    src=open(f).read(); lines=src.split('\n'); base=os.path.basename(f)[:-3]
    # functions
    fns={}
    i=0
    while i<len(lines):
        m=re.match(r'fn (\w+)\(c: &mut Criterion',lines[i])
        if m:
            j=i
            while lines[j]!='}': j+=1
            fns[m.group(1)]=(i+1,j+1,'\n'.join(lines[i:j+1])); i=j
        i+=1
    order=None; defs=[]
    for n,(a,b,body) in fns.items():
        if n.startswith('criterion_benchmark'):
            order=[x for x in re.findall(r'(\w+)\(c[,)]',body)[1:] if x in fns] if False else [x for x in re.findall(r'\b(\w+)\(c(?:, log_set_size)?\);',body)]
            logs=re.search(r'vec!\[(\d+)\]',body)
            continue
    for n in order:
        a,b,body=fns[n]
        st=re.findall(r'::new\(&([A-Z0-9_]+_PARAMS)\)',body)
        op=None
        if '.accumulate(' in body: op='accumulate'
        elif '.permutation_not_opt(' in body: op='permutationNotOpt'
        elif '.permutation(' in body: op='permutation'
        ent=', '.join('.%s ⟨%d, by decide⟩'%IDX[s] for s in st)
        cm=', '.join('`%s`'%s for s in st)
        lg=(', some %s'%logs.group(1)) if op=='accumulate' else ''
        if op!='accumulate': assert 'Scalar::from(i as u64)' in body
        out+='/-- `fn %s`, `benches/%s.rs` lines %d-%d: %s. -/\ndef %s_%s : Bench :=\n  { statics := [%s]\n    op := .%s%s }\n\n'%(n,base,a,b,cm,base,n,ent,op,('\n    logSetSize := some %s'%logs.group(1)) if op=='accumulate' else '')
        defs.append('%s_%s'%(base,n))
    la=[k for k in fns if k.startswith('criterion_benchmark')][0]
    out+='/-- The program `benches/%s.rs`: `fn %s`, lines %d-%d. -/\ndef %s : List Bench :=\n  [%s]\n\n'%(base,la,fns[la][0],fns[la][1],base,',\n   '.join(defs))
    files.append(base)
out+='/-- The benchmark programs of `Cargo.toml` lines 39-73. -/\ndef all : List (List Bench) :=\n  [%s]\n\nend ZkHash.Benches\n'%', '.join(files)
open('/verif/lean/Verif/Model/Benches.lean','w').write(out)

#!/usr/bin/env python3
"""Writes lean/Verif/Tests/Kats.lean: the known-answer tests (`fn kats`) of the two permutations with literal vectors."""
import re
R = '/repo/src/'
OUT = '/verif/lean/Verif/Tests/Kats.lean'

def collect(path):
    """[(line of fn kats, params name, [outputs])] in source order"""
    lines = open(R + path).read().split('\n')
    res = []
    i = 0
    while i < len(lines):
        if lines[i].strip() == 'fn kats() {':
            start = i + 1
            cur = {}
            order = []
            j = i + 1
            while not re.match(r'    }$', lines[j]):
                m = re.search(r'let (\w+) = Poseidon2?::new\(&(\w+)\)', lines[j])
                if m:
                    cur[m.group(1)] = m.group(2)
                    order.append((m.group(2), []))
                m = re.search(r'from_hex\("(0x[0-9a-f]+)"\)', lines[j])
                if m:
                    order[-1][1].append(m.group(1))
                j += 1
            res.append((start, j + 1, order))
            i = j
        i += 1
    return res

def module(name):
    m = re.match(r'(POSEIDON2?)_([A-Z0-9]+?)(_\d+)?_PARAMS$', name)
    fam = {'POSEIDON': 'Poseidon', 'POSEIDON2': 'Poseidon2'}[m.group(1)]
    f = {'GOLDILOCKS': 'Goldilocks', 'BABYBEAR': 'Babybear', 'BLS': 'Bls12', 'BN256': 'Bn256', 'BN': 'Bn256',
         'PALLAS': 'Pallas', 'VESTA': 'Vesta'}[m.group(2)]
    return fam + f

o = ['''import Verif.Theorems.PoseidonInstances
import Verif.Theorems.Poseidon2Instances

set_option autoImplicit false

/-!
# The known-answer tests of the repository, run on the model

Generated by `tools/gen_kats.py`. These are tests of the model, not proofs of a property: each one evaluates the
model on the input `[0, 1, .., t-1]` of a `fn kats` of the source and compares the output with the vector written there.
The evaluation is done by the kernel. For Poseidon the plain permutation is evaluated and property C17 carries the
result to the optimized one, which is the function the source calls.
-/

namespace ZkHash.Tests

open Instances

set_option maxRecDepth 1000000

/-- The input of every known-answer test of the source. -/
def katInput (p t : Nat) : List (ZMod p) := (List.range t).map fun n : Nat => (n : ZMod p)

/-- The integers of a vector as field elements. -/
def elems (p : Nat) (v : List Nat) : List (ZMod p) := v.map fun n : Nat => (n : ZMod p)

/-- The permutation of a shipped Poseidon2 table, on the test input. -/
def poseidon2Out (dbg : Bool) (S : Poseidon2Source) : Option (List (ZMod S.modulus)) := do
  let P ← S.params dbg
  Poseidon2.permutation dbg P (katInput S.modulus S.t)

/-- A Poseidon parameter value with the plain tables only. -/
def plainParams (S : PoseidonSource) : PoseidonParams (ZMod S.modulus) where
  t := S.t
  d := S.d
  rounds_f_beginning := S.rounds_f / 2
  rounds_p := S.rounds_p
  rounds_f_end := S.rounds_f / 2
  rounds := S.rounds_f + S.rounds_p
  mds := S.mdsF
  round_constants := S.rcF
  opt_round_constants := []
  w_hat := []
  v := []
  m_i := []

/-- The plain permutation of a shipped Poseidon table, on the test input. -/
def poseidonPlainOut (dbg : Bool) (S : PoseidonSource) : Option (List (ZMod S.modulus)) :=
  Poseidon.permutationNotOpt dbg (plainParams S) (katInput S.modulus S.t)

/-- The plain permutation reads only the plain tables. -/
theorem permutationNotOpt_params {S : PoseidonSource} [ArkInverse (ZMod S.modulus)] {dbg : Bool}
    {P : PoseidonParams (ZMod S.modulus)} (hP : S.params dbg = some P) (hfit : S.rounds_f + S.rounds_p < 2 ^ 64)
    (dbg' : Bool) (x : List (ZMod S.modulus)) :
    Poseidon.permutationNotOpt dbg' P x = Poseidon.permutationNotOpt dbg' (plainParams S) x := by
  unfold PoseidonSource.params PoseidonParams.new at hP
  simp only [uadd_fits dbg hfit, Option.bind_eq_bind, Option.bind_some, Option.bind_eq_some_iff, Option.pure_def,
    Option.some.injEq] at hP
  obtain ⟨_, _, _, _, _, _, ⟨m_i, v, w⟩, _, _, _, rfl⟩ := hP
  rfl

/-- What a known-answer test of Poseidon asserts, from the evaluation of the plain permutation. -/
theorem poseidon_kat {S : PoseidonSource} (hS : S ∈ Instances.poseidon) [Fact S.modulus.Prime] {dbg : Bool}
    {out : List (ZMod S.modulus)} (h : poseidonPlainOut dbg S = some out) :
    ∃ P, S.params dbg = some P ∧ Poseidon.permutation dbg P (katInput S.modulus S.t) = some out := by
  obtain ⟨P, hP, hopt, _⟩ := C17_shipped S hS dbg
  exact ⟨P, hP, by rw [hopt, permutationNotOpt_params hP (poseidon_good S hS).shaped.fits]; exact h⟩
''']
for a, b, order in collect('poseidon2/poseidon2.rs'):
    for name, vec in order:
        q = module(name) + '.' + name
        o.append(f'''
/-- `src/poseidon2/poseidon2.rs` lines {a}-{b}, `{name}`, in both profiles. -/
example (dbg : Bool) : poseidon2Out dbg {q} = some (elems _
    [{(","+chr(10)+"     ").join(vec)}]) := by
  cases dbg <;> decide +kernel
''')
names = []
for a, b, order in collect('poseidon/poseidon.rs'):
    for name, vec in order:
        q = module(name) + '.' + name
        short = 'plain_' + name
        o.append(f'''
theorem {short} (dbg : Bool) : poseidonPlainOut dbg {q} = some (elems _
    [{(","+chr(10)+"     ").join(vec)}]) := by
  cases dbg <;> decide +kernel

/-- `src/poseidon/poseidon.rs` lines {a}-{b}, `{name}`, in both profiles. -/
example (dbg : Bool) [Fact {q}.modulus.Prime] :
    ∃ P, {q}.params dbg = some P ∧
      Poseidon.permutation dbg P (katInput _ {q}.t) = some (elems _
        [{(","+chr(10)+"         ").join(vec)}]) :=
  poseidon_kat (by simp [Instances.poseidon]) ({short} dbg)
''')
o.append('\nend ZkHash.Tests\n')
open(OUT, 'w').write(''.join(o))

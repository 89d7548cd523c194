#!/usr/bin/env python3
"""Write lean/Verif/Proofs/RoundNumbers.lean: for every shipped Poseidon2 instance, the integers that stand for the bounds of
sat_inequiv_alpha in the check of lean/Verif/Proofs/SearchCheck.lean."""
import os, re
HERE = os.path.dirname(os.path.abspath(__file__))
INST = os.path.join(HERE, "../lean/Verif/Instances")
MOD = {"Goldilocks": 18446744069414584321, "Babybear": 2013265921,
       "Bls12": 52435875175126190479447740508185965837690552500527637822603658699938581184513,
       "Bn256": 21888242871839275222246405745257275088548364400416034343698204186575808495617,
       "Pallas": 28948022309329048855892746252171976963363056481941560715954676764349967630337,
       "Vesta": 28948022309329048855892746252171976963363056481941647379679742748393362948097}
M = 128


def clog(a, y, e=1):
    k = 0
    while a ** (e * k) < y:
        k += 1
    return k


L = ["import Verif.Instances.All", "import Verif.Proofs.SearchCheck", "", "set_option autoImplicit false", "", "/-!",
     "# The round numbers of the shipped Poseidon2 instances pass the check of `SearchCheck.lean`", "",
     "Generated by `tools/gen_rounds.py`.", "-/", "", "namespace ZkHash.Instances", "", "set_option maxRecDepth 100000", ""]
order = re.findall(r"Poseidon2(\w+)\.(POSEIDON2_\w+)",
                   re.search(r"def poseidon2 : .*?\]", open(os.path.join(INST, "All.lean")).read(), re.S).group(0))
done = {}
names = []
for fld, name in order:
    s = open(os.path.join(INST, "Poseidon2%s.lean" % fld)).read()
    src = re.search(r"def %s : Poseidon2Source where(.*?)\n\n" % name, s, re.S).group(1)
    g = lambda k: int(re.search(r"%s := (\S+)" % k, src).group(1))
    p, t, al, rf, rp = MOD[fld], g("t"), g("d"), g("rounds_f"), g("rounds_p")
    n = p.bit_length()
    a = (al - 1) // 2
    c = [a, 6 if M <= (n - 1 - a) * (t + 1) else 10, clog(al, 2 ** min(M, n)), clog(al, t), clog(al, min(2 ** M, p)),
         clog(al, min(2 ** (2 * M), p ** (t + 1)), 2 * (t + 1)), clog(al, 2 ** M, 2)]
    # the search depends on the modulus only through these numbers
    L += ["theorem %s_rounds : ∃ a c1 k2 kt k3 k4 k5," % name,
          "    Sage.searchOk (Poseidon2%s.%s.modulus.log2 + 1) Poseidon2%s.%s.modulus %d %d a c1 k2 kt k3 k4 k5 %d %d = true :=" % (
              fld, name, fld, name, t, al, rf, rp),
          "  ⟨%s, by decide +kernel⟩" % ", ".join(map(str, c)), ""]
L += ["theorem poseidon2_rounds (S : Poseidon2Source) (hS : S ∈ poseidon2) : ∃ a c1 k2 kt k3 k4 k5,",
      "    Sage.searchOk (S.modulus.log2 + 1) S.modulus S.t S.d a c1 k2 kt k3 k4 k5 S.rounds_f S.rounds_p = true := by",
      "  simp only [poseidon2, List.mem_cons, List.not_mem_nil, or_false] at hS",
      "  rcases hS with " + " | ".join(["rfl"] * len(order))]
L += ["  · exact %s_rounds" % n for _, n in order]
L += ["", "end ZkHash.Instances"]
open(os.path.join(HERE, "../lean/Verif/Proofs/RoundNumbers.lean"), "w").write("\n".join(L) + "\n")

"""Generates lean/Verif/Proofs/PoseidonMds.lean: for every shipped Poseidon matrix M numbers x_i, y_j with
M_ij * (x_i + y_j) = 1 modulo p, checked by the kernel."""
import os, re
HERE = os.path.dirname(os.path.abspath(__file__))
INST = os.path.join(HERE, "../lean/Verif/Instances")
MOD = {"Goldilocks": 18446744069414584321, "Babybear": 2013265921,
       "Bls12": 52435875175126190479447740508185965837690552500527637822603658699938581184513,
       "Bn256": 21888242871839275222246405745257275088548364400416034343698204186575808495617,
       "Pallas": 28948022309329048855892746252171976963363056481941560715954676764349967630337,
       "Vesta": 28948022309329048855892746252171976963363056481941647379679742748393362948097}
L = ["import Verif.Instances.All", "import Verif.Proofs.MdsCheck", "", "set_option autoImplicit false", "", "/-!",
     "# The shipped Poseidon matrices are Cauchy matrices", "", "Generated by `tools/gen_mds.py`.", "-/", "",
     "namespace ZkHash.Instances", ""]
names = []
for fld, p in MOD.items():
    s = open(os.path.join(INST, "Poseidon%s.lean" % fld)).read()
    tabs = {m.group(1): [[int(x, 16) for x in re.findall(r"0x[0-9a-fA-F]+", r)] for r in re.findall(r"\[([^\[\]]*)\]", m.group(2))]
            for m in re.finditer(r"def (\w+) : List \(List Nat\) :=\n(.*?)\n\n", s, re.S)}
    for m in re.finditer(r"def (\w+) : PoseidonSource where.*?mds := (\w+)", s, re.S):
        M = tabs[m.group(2)]
        t = len(M)
        a = [pow(M[i][0], -1, p) for i in range(t)]
        b = [(pow(M[0][j], -1, p) - a[0]) % p for j in range(t)]
        assert all(M[i][j] * (a[i] + b[j]) % p == 1 for i in range(t) for j in range(t))
        names.append(m.group(1))
        L.append("theorem %s_cauchy : Poseidon%s.%s.cauchyOk\n    [%s]\n    [%s] = true := by\n  decide +kernel\n" % (
            m.group(1), fld, m.group(1), ", ".join(map(hex, a)), ", ".join(map(hex, b))))
order = re.findall(r"Poseidon\w+\.(POSEIDON_\w+)", re.search(r"def poseidon : .*?\]", open(os.path.join(INST, "All.lean")).read(), re.S).group(0))
assert sorted(order) == sorted(names)
L += ["theorem poseidon_cauchy (S : PoseidonSource) (hS : S ∈ poseidon) : ∃ xs ys, S.cauchyOk xs ys = true := by",
      "  simp only [poseidon, List.mem_cons, List.not_mem_nil, or_false] at hS",
      "  rcases hS with " + " | ".join(["rfl"] * len(order))]
L += ["  · exact ⟨_, _, %s_cauchy⟩" % k for k in order]
L += ["", "end ZkHash.Instances"]
open(os.path.join(HERE, "../lean/Verif/Proofs/PoseidonMds.lean"), "w").write("\n".join(L) + "\n")

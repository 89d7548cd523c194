#!/usr/bin/env python3
"""Write lean/Verif/Proofs/PoseidonScript.lean: for every shipped Poseidon instance, the parameters of the check of
lean/Verif/Proofs/MdsScriptCheck.lean, and the coordinates of M^t e_0 in the basis M^j e_0."""
import os, re
HERE = os.path.dirname(os.path.abspath(__file__))
INST = os.path.join(HERE, "../lean/Verif/Instances")
src = open(os.path.join(HERE, "gen_script.py")).read()
exec(src[src.index("MOD ="):src.index("class Grain")])
exec(src[src.index("class Grain"):src.index("def trim")].replace("{0:04b}", "{1:04b}"))


def solve(A, b, p):
    """x with sum_j x_j A[j] = b."""
    t = len(b)
    M = [[A[j][i] for j in range(t)] + [b[i]] for i in range(t)]
    for k in range(t):
        r = next(i for i in range(k, t) if M[i][k])
        M[k], M[r] = M[r], M[k]
        iv = pow(M[k][k], -1, p)
        M[k] = [x * iv % p for x in M[k]]
        for i in range(t):
            if i != k and M[i][k]:
                a = M[i][k]
                M[i] = [(x - a * y) % p for x, y in zip(M[i], M[k])]
    return [M[i][t] for i in range(t)]


L = ["import Verif.Instances.All", "import Verif.Proofs.MdsScriptCheck", "", "set_option autoImplicit false", "", "/-!",
     "# The shipped Poseidon tables pass the checks of `MdsScriptCheck.lean`", "",
     "Generated by `tools/gen_poseidon_script.py`.", "-/", "", "namespace ZkHash.Instances", "",
     "set_option maxRecDepth 100000", ""]
order = re.findall(r"Poseidon(\w+)\.(POSEIDON_\w+)",
                   re.search(r"def poseidon : .*?\]", open(os.path.join(INST, "All.lean")).read(), re.S).group(0))
for fld, name in order:
    s = open(os.path.join(INST, "Poseidon%s.lean" % fld)).read()
    sr = re.search(r"def %s : PoseidonSource where(.*?)\n\n" % name, s, re.S).group(1)
    g = lambda k: re.search(r"%s := (\S+)" % k, sr).group(1)
    p = MOD[fld]
    t, rf, rp = int(g("t")), int(g("rounds_f")), int(g("rounds_p"))
    tab = lambda nm: [[int(x, 16) for x in re.findall(r"0x[0-9a-fA-F]+", row)] for row in re.findall(
        r"\[([^\[\]]*)\]", re.search(r"def %s : List \(List Nat\) :=(.*?)\n\n" % nm, s, re.S).group(1))]
    mds = tab(g("mds"))
    n = p.bit_length()
    G = Grain(n, t, rf, rp)
    for _ in range((rf + rp) * t):
        while G.bits(n) >= p:
            pass
    for _ in range(2 * t):
        G.bits(n)
    vs = [[int(i == 0) for i in range(t)]]
    for _ in range(t):
        vs.append([sum(a * b for a, b in zip(row, vs[-1])) % p for row in mds])
    c = solve(vs[:t], vs[t], p)
    blocks = (G.steps - 160) // 384 + 1
    m, q, ext = 80, 1, 0
    while m < 240 + 384 * blocks:
        m += 18 * q
        ext += 1
        if 160 * q <= m:
            q *= 2
    print(name, "blocks", blocks, "ext", ext, "words", G.words, flush=True)
    full = "Poseidon%s.%s" % (fld, name)
    L.append("theorem %s_tables : ∃ ext blocks W, Sage.tablesOk %s ext blocks W = true :=" % (name, full))
    L.append("  ⟨%d, %d, %d, by decide +kernel⟩\n" % (ext, blocks, G.words))
    L.append("theorem %s_cyclic : ∃ c, Sage.cyclicOk %s.modulus %s.t %s.mds c = true :=" % (name, full, full, full))
    L.append("  ⟨[%s],\n   by decide +kernel⟩\n" % ",\n    ".join(map(hex, c)))
for nm, st in [("tables", "∃ ext blocks W, Sage.tablesOk S ext blocks W = true"),
               ("cyclic", "∃ c, Sage.cyclicOk S.modulus S.t S.mds c = true")]:
    L += ["theorem poseidon_%s (S : PoseidonSource) (hS : S ∈ poseidon) :" % nm,
          "    %s := by" % st,
          "  simp only [poseidon, List.mem_cons, List.not_mem_nil, or_false] at hS",
          "  rcases hS with " + " | ".join(["rfl"] * len(order))]
    L += ["  · exact %s_%s" % (n, nm) for _, n in order]
    L += [""]
L += ["end ZkHash.Instances"]
open(os.path.join(HERE, "../lean/Verif/Proofs/PoseidonScript.lean"), "w").write("\n".join(L) + "\n")

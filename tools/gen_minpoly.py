"""Generates lean/Verif/Proofs/Poseidon2Minpoly.lean: for every shipped Poseidon2 internal matrix of width other than 3,
the coefficients of its characteristic polynomial and the inverses needed for the check of
lean/Verif/Proofs/MinpolyCheck.lean, which the kernel runs."""
import os, re
HERE = os.path.dirname(os.path.abspath(__file__))
INST = os.path.join(HERE, "../lean/Verif/Instances")
MOD = {"Goldilocks": 18446744069414584321, "Babybear": 2013265921,
       "Bls12": 52435875175126190479447740508185965837690552500527637822603658699938581184513,
       "Bn256": 21888242871839275222246405745257275088548364400416034343698204186575808495617,
       "Pallas": 28948022309329048855892746252171976963363056481941560715954676764349967630337,
       "Vesta": 28948022309329048855892746252171976963363056481941647379679742748393362948097}


def charpoly(M, p):
    t = len(M); c = [0] * t + [1]
    N = [[0] * t for _ in range(t)]
    for k in range(1, t + 1):
        N = [[(sum(M[i][l] * N[l][j] for l in range(t)) + (c[t - k + 1] if i == j else 0)) % p for j in range(t)]
             for i in range(t)]
        c[t - k] = -sum(M[i][l] * N[l][i] for i in range(t) for l in range(t)) * pow(k, -1, p) % p
    return c


def mul(a, b, f, p):
    t = len(f) - 1
    r = [0] * (2 * t - 1)
    for i, x in enumerate(a):
        for j, y in enumerate(b):
            r[i + j] = (r[i + j] + x * y) % p
    for k in range(2 * t - 2, t - 1, -1):
        c = r[k]
        for j in range(t):
            r[k - t + j] = (r[k - t + j] - c * f[j]) % p
    return r[:t]


def trim(a):
    while a and a[-1] == 0:
        a.pop()
    return a


def inverse(a, f, p):
    r0, r1, s0, s1 = trim(list(f)), trim(list(a)), [], [1]
    while r1:
        q, r, iv = [0] * max(len(r0) - len(r1) + 1, 0), list(r0), pow(r1[-1], -1, p)
        while r and len(r) >= len(r1):
            c, d = r[-1] * iv % p, len(r) - len(r1)
            q[d] = c
            for j in range(len(r1)):
                r[d + j] = (r[d + j] - c * r1[j]) % p
            trim(r)
        s = [0] * max(len(s0), len(q) + len(s1) - 1)
        for i, x in enumerate(s0):
            s[i] = x
        for i, x in enumerate(q):
            for j, y in enumerate(s1):
                s[i + j] = (s[i + j] - x * y) % p
        r0, r1, s0, s1 = r1, r, s1, trim(s)
    assert len(r0) == 1
    iv = pow(r0[0], -1, p)
    return [x * iv % p for x in s0] + [0] * (len(f) - 1 - len(s0))


def frobenius(f, p):
    t = len(f) - 1
    x = [0, 1] + [0] * (t - 2)
    y = [1] + [0] * (t - 1)
    for b in bin(p)[2:]:
        y = mul(y, y, f, p)
        if b == "1":
            y = mul(y, x, f, p)
    ys = [[1] + [0] * (t - 1)]
    for _ in range(t - 1):
        ys.append(mul(ys[-1], y, f, p))
    zs = [x]
    for _ in range(t):
        zs.append([sum(zs[-1][k] * ys[k][j] for k in range(t)) % p for j in range(t)])
    return zs


def hexes(l):
    return "[" + ", ".join(map(hex, l)) + "]"


L = ["import Verif.Instances.All", "import Verif.Proofs.MinpolyCheck", "", "set_option autoImplicit false", "", "/-!",
     "# The powers of the shipped Poseidon2 internal matrices pass the check", "", "Generated by `tools/gen_minpoly.py`.",
     "-/", "", "namespace ZkHash.Instances", "", "set_option maxRecDepth 100000", ""]
done = {}
for fld, p in MOD.items():
    s = open(os.path.join(INST, "Poseidon2%s.lean" % fld)).read()
    tabs = {m.group(1): [[int(x, 16) for x in re.findall(r"0x[0-9a-fA-F]+", r)]
                         for r in re.findall(r"\[([^\[\]]*)\]", m.group(2))]
            for m in re.finditer(r"def (\w+) : List \(List Nat\) :=\n(.*?)\n\n", s, re.S)}
    for m in re.finditer(r"def (\w+) : Poseidon2Source where.*?matInternal := (\w+)", s, re.S):
        M = tabs[m.group(2)]
        t = len(M)
        if t == 3:
            continue
        f = charpoly(M, p)
        zs = frobenius(f, p)
        assert zs[t] == zs[0]
        qus = []
        for q in [q for q in range(2, t + 1) if t % q == 0 and all(q % r for r in range(2, q))]:
            w = list(zs[t // q])
            w[1] = (w[1] - 1) % p
            qus.append((q, inverse(w, f, p)[::-1]))
        done[m.group(1)] = fld
        bits = "[" + ", ".join("true" if b == "1" else "false" for b in bin(p)[2:]) + "]"
        L.append("theorem %s_minpoly : ∃ nf bits qus, MinCheck.check %d %d Poseidon2%s.%s.diag nf bits qus = true :=" % (
            m.group(1), p, t, fld, m.group(1)))
        L.append("  ⟨%s,\n   %s,\n   [%s],\n   by decide +kernel⟩\n" % (
            hexes([(-c) % p for c in f[:t]][::-1]), bits, ",\n    ".join("(%d, %s)" % (q, hexes(u)) for q, u in qus)))
order = re.findall(r"Poseidon2(\w+)\.(POSEIDON2_\w+)",
                   re.search(r"def poseidon2 : .*?\]", open(os.path.join(INST, "All.lean")).read(), re.S).group(0))
L += ["theorem poseidon2_minpoly (S : Poseidon2Source) (hS : S ∈ poseidon2) (ht : S.t ≠ 3) :",
      "    ∃ nf bits qus, MinCheck.check S.modulus S.t S.diag nf bits qus = true := by",
      "  simp only [poseidon2, List.mem_cons, List.not_mem_nil, or_false] at hS",
      "  rcases hS with " + " | ".join(["rfl"] * len(order))]
L += ["  · exact %s_minpoly" % n if n in done else "  · exact absurd rfl ht" for _, n in order]
L += ["", "end ZkHash.Instances"]
open(os.path.join(HERE, "../lean/Verif/Proofs/Poseidon2Minpoly.lean"), "w").write("\n".join(L) + "\n")

#!/usr/bin/env python3
"""Write lean/Verif/Proofs/Poseidon2Script.lean: for every shipped Poseidon2 instance, the parameters of the check of
lean/Verif/Proofs/ScriptCheck.lean, and a certificate for every diagonal that the script draws and rejects."""
import os, random, re
HERE = os.path.dirname(os.path.abspath(__file__))
INST = os.path.join(HERE, "../lean/Verif/Instances")
random.seed(1)
MOD = {"Goldilocks": 18446744069414584321, "Babybear": 2013265921,
       "Bls12": 52435875175126190479447740508185965837690552500527637822603658699938581184513,
       "Bn256": 21888242871839275222246405745257275088548364400416034343698204186575808495617,
       "Pallas": 28948022309329048855892746252171976963363056481941560715954676764349967630337,
       "Vesta": 28948022309329048855892746252171976963363056481941647379679742748393362948097}


class Grain:
    def __init__(self, n, t, rf, rp):
        b = f"{1:02b}{0:04b}{n:012b}{t:012b}{rf:010b}{rp:010b}" + "1" * 30
        self.st = sum(int(c) << i for i, c in enumerate(b))
        self.steps = self.words = 0
        for _ in range(160):
            self.step()

    def step(self):
        x = self.st
        b = ((x >> 62) ^ (x >> 51) ^ (x >> 38) ^ (x >> 23) ^ (x >> 13) ^ x) & 1
        self.st = (x >> 1) | (b << 79)
        self.steps += 1
        return b

    def bit(self):
        while self.step() == 0:
            self.step()
        return self.step()

    def bits(self, n):
        r = 0
        for _ in range(n):
            r = 2 * r + self.bit()
        self.words += 1
        return r


def trim(a):
    while a and a[-1] == 0:
        a.pop()
    return a


def divmod_(a, b, p):
    r, q, iv = trim(list(a)), [0] * max(len(a) - len(b) + 1, 0), pow(b[-1], -1, p)
    while len(r) >= len(b):
        c, d = r[-1] * iv % p, len(r) - len(b)
        q[d] = c
        for j, y in enumerate(b):
            r[d + j] = (r[d + j] - c * y) % p
        trim(r)
    return trim(q), r


def gcd(a, b, p):
    a, b = trim(list(a)), trim(list(b))
    while b:
        a, b = b, divmod_(a, b, p)[1]
    return [x * pow(a[-1], -1, p) % p for x in a]


def mulmod(a, b, f, p):
    r = [0] * max(len(a) + len(b) - 1, 0)
    for i, x in enumerate(a):
        for j, y in enumerate(b):
            r[i + j] = (r[i + j] + x * y) % p
    return divmod_(r, f, p)[1]


def powmod(a, e, f, p):
    y = [1]
    for b in bin(e)[2:]:
        y = mulmod(y, y, f, p)
        if b == "1":
            y = mulmod(y, a, f, p)
    return y


def sub(a, b, p):
    n = max(len(a), len(b))
    return trim([((a[i] if i < len(a) else 0) - (b[i] if i < len(b) else 0)) % p for i in range(n)])


def factor(f, p):
    """A proper monic factor, or None."""
    t = len(f) - 1
    z = [0, 1]
    for k in range(1, t // 2 + 1):
        z = powmod(z, p, f, p)
        g = gcd(f, sub(z, [0, 1], p), p)
        if 1 < len(g) <= t:
            return g
        if len(g) == t + 1:
            while True:
                a = [random.randrange(p) for _ in range(t)]
                g = gcd(f, sub(powmod(a, (p ** k - 1) // 2, f, p), [1], p), p)
                if 1 < len(g) <= t:
                    return g
    return None


def charpoly(d, p):
    """Of the all-ones matrix plus the diagonal d: prod (X - d_i) - sum_i prod_{j != i} (X - d_j)."""
    def prod(l):
        r = [1]
        for x in l:
            r = [((r[i - 1] if i else 0) - (x * r[i] if i < len(r) else 0)) % p for i in range(len(r) + 1)]
        return r
    f = prod(d)
    for i in range(len(d)):
        for j, c in enumerate(prod(d[:i] + d[i + 1:])):
            f[j] = (f[j] - c) % p
    return f


def app(poly, d, v, p):
    r = [0] * len(d)
    for c in reversed(poly):
        s = sum(r)
        r = [(s + x * y + c * z) % p for x, y, z in zip(d, r, v)]
    return r


def hexes(l):
    return "[" + ", ".join(map(hex, l)) + "]"


L = ["import Verif.Instances.All", "import Verif.Proofs.ScriptCheck", "", "set_option autoImplicit false", "", "/-!",
     "# The shipped Poseidon2 tables pass the check of `ScriptCheck.lean`", "", "Generated by `tools/gen_script.py`.",
     "-/", "", "namespace ZkHash.Instances", "", "set_option maxRecDepth 100000", ""]
order = re.findall(r"Poseidon2(\w+)\.(POSEIDON2_\w+)",
                   re.search(r"def poseidon2 : .*?\]", open(os.path.join(INST, "All.lean")).read(), re.S).group(0))
for fld, name in order:
    s = open(os.path.join(INST, "Poseidon2%s.lean" % fld)).read()
    src = re.search(r"def %s : Poseidon2Source where(.*?)\n\n" % name, s, re.S).group(1)
    g = lambda k: re.search(r"%s := (\S+)" % k, src).group(1)
    p = MOD[fld]
    t, rf, rp = int(g("t")), int(g("rounds_f")), int(g("rounds_p"))
    diag = [int(x, 16) for x in re.findall(r"0x[0-9a-fA-F]+", re.search(r"def %s : List Nat :=(.*?)\n\n" % g("diag"), s, re.S).group(1))]
    n = p.bit_length()
    G = Grain(n, t, rf, rp)
    for _ in range(rf * t + rp):
        while G.bits(n) >= p:
            pass
    certs = []
    if t > 3:
        while True:
            d = [(G.bits(n) - 1) % p for _ in range(t)]
            if d == diag:
                break
            f = charpoly(d, p)
            q = factor(f, p)
            assert q, (name, len(certs))
            h = divmod_(f, q, p)[0]
            i = 0
            while True:
                v = app(h, d, [int(j == i) for j in range(t)], p)
                if any(v):
                    break
                i += 1
            assert not any(app(q, d, v, p))
            certs.append((v, q[::-1]))
    blocks = (G.steps - 160) // 384 + 1
    m, q, ext = 80, 1, 0
    while m < 240 + 384 * blocks:
        m += 18 * q
        ext += 1
        if 160 * q <= m:
            q *= 2
    print(name, "rejected", len(certs), "blocks", blocks, "ext", ext, "words", G.words, flush=True)
    L.append("theorem %s_script : ∃ ext blocks W certs, Sage.scriptOk Poseidon2%s.%s ext blocks W certs = true :=" % (
        name, fld, name))
    L.append("  ⟨%d, %d, %d,\n   [%s],\n   by decide +kernel⟩\n" % (
        ext, blocks, G.words, ",\n    ".join("(%s,\n     %s)" % (hexes(v), hexes(q)) for v, q in certs)))
L += ["theorem poseidon2_script (S : Poseidon2Source) (hS : S ∈ poseidon2) :",
      "    ∃ ext blocks W certs, Sage.scriptOk S ext blocks W certs = true := by",
      "  simp only [poseidon2, List.mem_cons, List.not_mem_nil, or_false] at hS",
      "  rcases hS with " + " | ".join(["rfl"] * len(order))]
L += ["  · exact %s_script" % n for _, n in order]
L += ["", "end ZkHash.Instances"]
open(os.path.join(HERE, "../lean/Verif/Proofs/Poseidon2Script.lean"), "w").write("\n".join(L) + "\n")

"""Generates lean/Verif/Instances/{Poseidon2,Poseidon}*.lean from the instance files in /repo.  The hex literals are
copied as they stand."""
import os, re, sys
HERE = os.path.dirname(os.path.abspath(__file__))
REPO = sys.argv[1] if len(sys.argv) > 1 else "/repo"
OUT = os.path.join(HERE, "../lean/Verif/Instances")
FIELDS = [("goldilocks", "Goldilocks"), ("babybear", "Babybear"), ("bls12", "Bls12"), ("bn256", "Bn256"),
          ("pallas", "Pallas"), ("vesta", "Vesta")]

def line(s, pos): return s.count("\n", 0, pos) + 1

def hexes(body):
    h = re.findall(r'from_hex\("(0x[0-9a-fA-F]+)"\)', body)
    rest = re.sub(r'from_hex\("0x[0-9a-fA-F]+"\)', "", body)
    assert re.fullmatch(r"[\s,]*", rest), rest[:200]
    return h

def row_text(h): return "[" + ", ".join(h) + "]"

names = {"Poseidon2": [], "Poseidon": []}
for fam in ("Poseidon2", "Poseidon"):
    for fld, Fld in FIELDS:
        rel = "src/%s/%s_instance_%s.rs" % (fam.lower(), fam.lower(), fld)
        s = open(os.path.join(REPO, rel)).read()
        ns = fam + Fld
        L = ["import Verif.Model.Instances", "", "set_option autoImplicit false", "",
             "/-!", "# Tables of `%s`" % rel, "", "Generated by `tools/gen_instances.py`.", "-/", "",
             "namespace ZkHash.Instances.%s" % ns, "", "set_option maxRecDepth 100000", ""]
        tables = set()
        for m in re.finditer(r"pub static ref (\w+): (Vec<Scalar>|Vec<Vec<Scalar>>) = vec!\[(.*?)\];", s, re.S):
            name, ty, body = m.groups()
            l1, l2 = line(s, m.start()), line(s, m.end())
            L.append("/-- `%s`, `%s` lines %d-%d. -/" % (name, rel, l1, l2))
            tables.add(name)
            if ty == "Vec<Scalar>":
                L.append("def %s : List Nat :=\n  %s" % (name, row_text(hexes(body))))
            else:
                rows = re.findall(r"vec!\[(.*?)\]", body, re.S)
                rest = re.sub(r"vec!\[.*?\]", "", body, flags=re.S)
                assert re.fullmatch(r"[\s,]*", rest), rest[:200]
                L.append("def %s : List (List Nat) :=\n  [%s]" % (name, ",\n   ".join(row_text(hexes(r)) for r in rows)))
            L.append("")
        n_static = len(re.findall(r"pub static ref", s)); n_inst = 0
        for m in re.finditer(r"pub static ref (\w+): Arc<%sParams<Scalar>>\s*=\s*Arc::new\(\s*%sParams::new\((.*?)\)\s*,?\s*\);" % (fam, fam), s, re.S):
            name, args = m.group(1), [a.strip() for a in m.group(2).split(",")]
            args = [a for a in args if a]
            nums, tabs = args[:4], [a.lstrip("&") for a in args[4:]]
            assert all(a.startswith("&") for a in args[4:])
            assert all(t in tables for t in tabs), tabs
            assert len(tabs) == (3 if fam == "Poseidon2" else 2)
            n_inst += 1
            keys = ["diag", "matInternal", "rc"] if fam == "Poseidon2" else ["mds", "rc"]
            L.append("/-- `%s`, `%s` lines %d-%d. -/" % (name, rel, line(s, m.start()), line(s, m.end())))
            L.append("def %s : %sSource where" % (name, fam))
            L.append("  modulus := Fields.%sModulus" % fld)
            for k, v in zip(["t", "d", "rounds_f", "rounds_p"], nums): L.append("  %s := %s" % (k, v))
            for k, v in zip(keys, tabs): L.append("  %s := %s" % (k, v))
            L.append("")
            names[fam].append("%s.%s" % (ns, name))
        assert n_static == n_inst + len(tables), (rel, n_static, n_inst, len(tables))
        L.append("end ZkHash.Instances.%s" % ns)
        open(os.path.join(OUT, ns + ".lean"), "w").write("\n".join(L) + "\n")
L = []
for fam in ("Poseidon2", "Poseidon"):
    for fld, Fld in FIELDS: L.append("import Verif.Instances.%s%s" % (fam, Fld))
L += ["", "set_option autoImplicit false", "", "/-!", "# All shipped parameter sets with tables", "", "Generated by `tools/gen_instances.py`.", "-/", "",
      "namespace ZkHash.Instances", ""]
for fam in ("Poseidon2", "Poseidon"):
    L.append("/-- The `lazy_static` parameter sets of `src/%s/%s_instance_*.rs`. -/" % (fam.lower(), fam.lower()))
    L.append("def %s : List %sSource :=" % ("poseidon2" if fam == "Poseidon2" else "poseidon", fam))
    L.append("  [" + ",\n   ".join(names[fam]) + "]\n")
L.append("end ZkHash.Instances")
open(os.path.join(OUT, "All.lean"), "w").write("\n".join(L) + "\n")

# Neptune and GMiMC: only shape arguments
FT = {"FpBN256": "bn256", "FpBLS12": "bls12", "FpGoldiLocks": "goldilocks", "FpBabyBear": "babybear",
      "FpPallas": "pallas", "FpVesta": "vesta"}
L = ["import Verif.Model.Instances", "", "set_option autoImplicit false", "", "/-!", "# Shape arguments of the Neptune and GMiMC parameter sets", "",
     "Generated by `tools/gen_instances.py`.", "-/", "", "namespace ZkHash.Instances", ""]
rel = "src/neptune/neptune_instances.rs"
s = open(os.path.join(REPO, rel)).read()
items = []
for m in re.finditer(r"pub static ref (\w+): Arc<NeptuneParams<(\w+)>>\s*=\s*Arc::new\(\s*NeptuneParams::new\((.*?)\)\s*\);", s, re.S):
    t, d, rf, rp = [a.strip() for a in m.group(3).split(",") if a.strip()]
    items.append((m.group(1), "  -- `%s`, line %d" % (m.group(1), line(s, m.start())),
                  "⟨Fields.%sModulus, %s, %s, %s, %s⟩" % (FT[m.group(2)], t, d, rf, rp)))
assert len(items) == s.count("pub static ref")
def emit(name, doc, items):
    L.append("/-- %s -/" % doc)
    L.append("def %s : List Shape := [" % name)
    for k, (_, c, v) in enumerate(items):
        L.append("%s\n  %s%s" % (c, v, "," if k + 1 < len(items) else "]"))
    L.append("")
emit("neptune", "Arguments `(t, d, rounds_f, rounds_p)` of the `NeptuneParams::new` calls in `%s`." % rel, items)
n_nep = len(items)
items = []
for fld, Fld in FIELDS:
    rel = "src/gmimc/gmimc_instance_%s.rs" % fld
    s = open(os.path.join(REPO, rel)).read()
    k = len(items)
    for m in re.finditer(r"pub static ref (\w+): Arc<GmimcParams<Scalar>>\s*=\s*Arc::new\(\s*GmimcParams::new\((.*?)\)\s*,?\s*\);", s, re.S):
        t, d, r = [a.strip() for a in m.group(2).split(",") if a.strip()]
        items.append((m.group(1), "  -- `%s`, `%s` line %d" % (m.group(1), rel, line(s, m.start())),
                      "⟨Fields.%sModulus, %s, %s, %s, 0⟩" % (fld, t, d, r)))
    assert len(items) - k == s.count("pub static ref"), rel
emit("gmimc", "Arguments `(t, d, rounds)` of the `GmimcParams::new` calls in `src/gmimc/gmimc_instance_*.rs` (`rounds` in the field `rounds_f`; `rounds_p` is unused and 0).", items)
L.append("end ZkHash.Instances")
open(os.path.join(OUT, "Shapes.lean"), "w").write("\n".join(L) + "\n")
print({k: len(v) for k, v in names.items()}, n_nep, len(items))

L = ["import Verif.Instances.All", "import Verif.Proofs.PoseidonCheck", "", "set_option autoImplicit false", "", "/-!",
     "# The kernel evaluates the check on every shipped Poseidon table", "", "Generated by `tools/gen_instances.py`.",
     "-/", "", "namespace ZkHash.Instances", ""]
short = [n.split(".")[1] for n in names["Poseidon"]]
L += ["theorem %s_checked : %s.check = true := by decide +kernel" % (k, n) for k, n in zip(short, names["Poseidon"])]
L += ["", "theorem poseidon_checked (S : PoseidonSource) (hS : S ∈ poseidon) : S.check = true := by",
      "  simp only [poseidon, List.mem_cons, List.not_mem_nil, or_false] at hS",
      "  rcases hS with " + " | ".join(["rfl"] * len(short))]
L += ["  · exact %s_checked" % k for k in short]
L += ["", "end ZkHash.Instances"]
open(os.path.join(OUT, "../Proofs/PoseidonTables.lean"), "w").write("\n".join(L) + "\n")

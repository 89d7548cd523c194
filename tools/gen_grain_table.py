#!/usr/bin/env python3
"""Write lean/Verif/Proofs/GrainTable.lean: the lookup table of Verif/Proofs/GrainCheck.lean as a literal."""
import os

def entry(c):
    out = []
    for i in range(6):
        if c >> (2 * i) & 1:
            out.append(c >> (2 * i + 1) & 1)
    v = 0
    for b in out:
        v = 2 * v + b
    return len(out) * 64 + v

T = sum(entry(c) << (9 * c) for c in range(4096))
path = os.path.join(os.path.dirname(os.path.abspath(__file__)), "..", "lean", "Verif", "Proofs", "GrainTable.lean")
with open(path, "w") as f:
    f.write("""import Verif.Proofs.GrainCheck

set_option autoImplicit false

/-!
# The lookup table of `GrainCheck.lean` as a literal

Generated by `tools/gen_grain_table.py`; `tableLit_eq` is the check.
-/

namespace ZkHash.Sage

/-- The value of `table`. -/
def tableLit : Nat := 0x%x

theorem tableLit_eq : tableLit = table := by decide +kernel

end ZkHash.Sage
""" % T)

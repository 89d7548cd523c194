import Verif.Spec.Common

set_option autoImplicit false

/-!
# Which tables are enough for Poseidon2
-/

namespace ZkHash.Spec

variable {F : Type _}

/-- The tables suffice: every row of a full round has at least `t` entries, every row of a partial round at least one, and
the diagonal has at least `t` entries if it is read (width at least 4 and some partial round). -/
structure Suffices (t rounds_f rounds_p : Nat) (diag : List F) (rc : List (List F)) : Prop where
  full : ∀ r, r < rounds_f / 2 ∨ (rounds_f / 2 + rounds_p ≤ r ∧ r < rounds_f + rounds_p) → ∃ row, rc[r]? = some row ∧ t ≤ row.length
  part : ∀ r, rounds_f / 2 ≤ r → r < rounds_f / 2 + rounds_p → ∃ row, rc[r]? = some row ∧ 1 ≤ row.length
  diag : rounds_p = 0 ∨ t < 4 ∨ t ≤ diag.length

end ZkHash.Spec

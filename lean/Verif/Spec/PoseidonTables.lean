import Verif.Spec.Common

set_option autoImplicit false

/-!
# Tables of any shape that the Poseidon constructor accepts (C81)
-/

namespace ZkHash.Spec

/-- A matrix the Poseidon constructor can work with: `t` rows, the first of exactly `t` entries, no row shorter; in
debug builds further entries are zero (the assertion at the end of the inversion compares them too). -/
structure MatrixFits {F : Type _} [Zero F] (dbg : Bool) (t : Nat) (mds : List (List F)) : Prop where
  len : mds.length = t
  first : (mds.getD 0 []).length = t
  rows : ∀ row ∈ mds, t ≤ row.length
  surplus : dbg = true → ∀ row ∈ mds, ∀ v ∈ row.drop t, v = 0

/-- The rows of constants of the `rp` partial rounds (rows `rf`, ..., `rf + rp - 1`) as far as the constructor
constrains them: they exist; and unless there is only one, the first has at least `t` entries, those in the middle
exactly `t`, and the last at most `t` (in debug builds exactly `t`). -/
structure PartialRowsFit {F : Type _} (dbg : Bool) (t rf rp : Nat) (rc : List (List F)) : Prop where
  exist : rf + rp ≤ rc.length
  first : 2 ≤ rp → t ≤ (rc.getD rf []).length
  middle : ∀ r, rf < r → r + 1 < rf + rp → (rc.getD r []).length = t
  last : 2 ≤ rp → (rc.getD (rf + rp - 1) []).length ≤ t
  last_debug : 2 ≤ rp → dbg = true → (rc.getD (rf + rp - 1) []).length = t

/-- The upper left square of a table. -/
def squarePart {F : Type _} [Zero F] (t : Nat) (mds : List (List F)) : Matrix (Fin t) (Fin t) F :=
  Matrix.of fun i j => tab mds i j

end ZkHash.Spec

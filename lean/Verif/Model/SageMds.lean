import Verif.Model.SageMatrix

set_option autoImplicit false

/-!
# Model of the MDS matrix generator in `/repo/poseidon2_rust_params.sage`

The call (line 629) is commented out in the script, which generates Poseidon2 parameters; the functions are there.
-/

namespace ZkHash.Sage

open Matrix

variable (F : Type _) [Field F]

open Classical in
/-- `rand_list`, `poseidon2_rust_params.sage` lines 210-212: `m` numbers, drawn again until they are different. The list
comprehension is the one of lines 446 and 450 (`drawDiagonal`). -/
noncomputable def drawDistinct (n m : Nat) (s : List Bool) : Option ((Fin m → F) × List Bool) := do
  let r ← drawDiagonal F n m s
  if ¬ Function.Injective r.1 then drawDistinct n m r.2 else some r
partial_fixpoint

open Classical in
/-- `create_mds_p(n, t)`, lines 204-226: `xs` and `ys` are the halves of `rand_list`. Once `flag` is `False` it stays so, and
`M` is filled completely if it is `True` at the end, so the two loops are one test. -/
noncomputable def createMdsP (n t : Nat) (s : List Bool) : Option (Matrix (Fin t) (Fin t) F × List Bool) := do
  let r ← drawDistinct F n (2 * t) s
  let xs : Fin t → F := fun i => r.1 ⟨i.val, by omega⟩
  let ys : Fin t → F := fun j => r.1 ⟨t + j.val, by omega⟩
  if ∃ i j, xs i + ys j = 0 then createMdsP n t r.2
  else some (Matrix.of fun i j => (xs i + ys j)⁻¹, r.2)
partial_fixpoint

open Classical in
/-- `generate_matrix(FIELD, FIELD_SIZE, NUM_CELLS)` for `FIELD = 1`, lines 393-407: draw until the three tests pass. -/
noncomputable def generateMatrix (n t : Nat) (s : List Bool) : Option (Matrix (Fin t) (Fin t) F × List Bool) := do
  let r ← createMdsP F n t s
  if ¬ Algorithm1 r.1 ∨ ¬ Algorithm2 r.1 ∨ ¬ Algorithm3 r.1 then generateMatrix n t r.2 else some r
partial_fixpoint

/-- Constants and matrix of Poseidon from the functions of the script: `init_generator` with the given value of `SBOX`,
`generate_constants` with `R_F + R_P` rounds of `t` constants each (no partial round), `generate_matrix`. It is lines
622-629 with `MDS` in place of the two matrices of Poseidon2. -/
noncomputable def generatePoseidon (SBOX p t R_F R_P : Nat) [Fact p.Prime] :
    Option (List Nat × Matrix (Fin t) (Fin t) (ZMod p)) := do
  let n := p.log2 + 1
  let s ← warmUp (initGenerator 1 SBOX n t R_F R_P)
  let rc ← generateConstants n t (R_F + R_P) 0 p s
  let mds ← generateMatrix (ZMod p) n t rc.2
  pure (rc.1, mds.1)

end ZkHash.Sage

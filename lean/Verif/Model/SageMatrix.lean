import Verif.Model.SageGen
import Verif.Spec.Common
import Mathlib.LinearAlgebra.Eigenspace.Basic
import Mathlib.LinearAlgebra.Matrix.ToLin
import Mathlib.LinearAlgebra.FiniteDimensional.Lemmas
import Mathlib.FieldTheory.Minpoly.Field
import Mathlib.Algebra.Field.ZMod
import Verif.Model.Sage

set_option autoImplicit false

/-!
# Model of the matrix generator in `/repo/poseidon2_rust_params.sage`

Matrices and subspaces of the script are Mathlib matrices and submodules over `F`; minimal polynomials, eigenspaces and
dimensions are Mathlib's. Tests that Sage computes are therefore propositions here, decided classically. A check that
returns `[True, ..]` or `[False, ..]` is modelled by the proposition that it returns `[True, ..]`.
-/

namespace ZkHash.Sage

open Matrix Module

variable {F : Type _} [Field F] {t : Nat}

/-- `check_minpoly_condition(M, NUM_CELLS)`, `poseidon2_rust_params.sage` lines 382-391: the loop goes through
`M, M^2, ..., M^(2t)` and stops at the first failure. -/
def CheckMinpolyCondition (M : Matrix (Fin t) (Fin t) F) : Prop :=
  ∀ i, 1 ≤ i → i ≤ 2 * t → (minpoly F (M ^ i)).natDegree = t ∧ Irreducible (minpoly F (M ^ i))

/-- `generate_vectorspace(round_num, M, M_round, NUM_CELLS)` for `round_num >= 1`, lines 228-247: the vectors with first
entry 0 whose other entries are in the right kernel of the matrix with the rows `M_round[i].rows()[0][1:]`, for
`i < round_num - 1`, where `M_round[i] = M^(i+1)`. -/
def generateVectorspace (round_num : Nat) (M : Matrix (Fin t) (Fin t) F) : Submodule F (Fin t → F) where
  carrier := {x | (∀ j : Fin t, j.val = 0 → x j = 0) ∧
    ∀ i, i + 1 < round_num → ∀ j0 : Fin t, j0.val = 0 →
      ∑ j : Fin t, (if j.val = 0 then 0 else (M ^ (i + 1)) j0 j) * x j = 0}
  add_mem' := by
    rintro x y ⟨hx1, hx2⟩ ⟨hy1, hy2⟩
    refine ⟨fun j hj => by rw [Pi.add_apply, hx1 j hj, hy1 j hj, add_zero], fun i hi j0 hj0 => ?_⟩
    simp only [Pi.add_apply, mul_add, Finset.sum_add_distrib, hx2 i hi j0 hj0, hy2 i hi j0 hj0, add_zero]
  zero_mem' := ⟨fun _ _ => rfl, fun i _ j0 _ => by simp only [Pi.zero_apply, mul_zero, Finset.sum_const_zero]⟩
  smul_mem' := by
    rintro c x ⟨hx1, hx2⟩
    refine ⟨fun j hj => by rw [Pi.smul_apply, hx1 j hj, smul_zero], fun i hi j0 hj0 => ?_⟩
    simp only [Pi.smul_apply, smul_eq_mul, mul_left_comm _ c, ← Finset.mul_sum, hx2 i hi j0 hj0, mul_zero]

/-- The span of the bases of `S.intersection(E)`, for the eigenspaces `E` of `mat_test` with an eigenvalue in `F`, lines
284-291. -/
def eigenIntersection (S : Submodule F (Fin t → F)) (mat_test : Matrix (Fin t) (Fin t) F) : Submodule F (Fin t → F) :=
  ⨆ e : F, S ⊓ End.eigenspace (Matrix.toLin' mat_test) e

/-- `algorithm_1(M, NUM_CELLS)[0] == True`, lines 262-299 (`s = 1`, so `r = t - 1`): no turn of the loop returns
`[False, ..]`. `mat_target` is the scalar matrix of the entry `[0, 0]`. `subspace_times_matrix` is the image of the
subspace. -/
def Algorithm1 (M : Matrix (Fin t) (Fin t) F) : Prop :=
  ∀ i, 1 ≤ i → i ≤ t - 1 →
    (∀ j0 : Fin t, j0.val = 0 → M ^ i - Matrix.scalar (Fin t) ((M ^ i) j0 j0) ≠ 0) ∧
    ¬ (1 ≤ finrank F (eigenIntersection (generateVectorspace i M) (M ^ i)) ∧
      eigenIntersection (generateVectorspace i M) (M ^ i) ≠ ⊤) ∧
    ∀ j, 1 ≤ j → j ≤ i → generateVectorspace i M ≠ (generateVectorspace i M).map (Matrix.toLin' (M ^ j))

open Classical in
/-- The `while True` loop of `algorithm_2`, lines 321-329; `some true` is the first `break` (`test_next = True`), `some
false` the second. `full_iota_space` is the whole space, as `I_s = [0]` and all other basis vectors are added. -/
noncomputable def algorithm2Loop (M : Matrix (Fin t) (Fin t) F) (v : Fin t → F) (IS : Submodule F (Fin t → F)) :
    Option Bool :=
  let delta := finrank F IS
  let v := M *ᵥ v
  let IS := IS ⊔ Submodule.span F {v}
  if finrank F IS = t ∨ IS ⊓ ⊤ ≠ IS then some true
  else if finrank F IS ≤ delta then some false
  else algorithm2Loop M v IS
partial_fixpoint

/-- `algorithm_2(M, NUM_CELLS)[0] == True`, lines 302-338. With `s = 1` the only nonempty subset of `range(0, s)` is `[0]`,
so the loops over `I_s` and `l` have one turn, from the first basis vector. -/
def Algorithm2 (M : Matrix (Fin t) (Fin t) F) : Prop :=
  ∀ j0 : Fin t, j0.val = 0 →
    algorithm2Loop M (Pi.single j0 1) (Submodule.span F {(Pi.single j0 1 : Fin t → F)}) = some true

/-- `algorithm_3(M, NUM_CELLS)[0] == True`, lines 341-380. -/
def Algorithm3 (M : Matrix (Fin t) (Fin t) F) : Prop := ∀ r, 2 ≤ r → r ≤ 4 * t → Algorithm2 (M ^ r)

/-- `M_circulant + M_diagonal`, lines 445-447: `M_circulant` has zeros on the diagonal and ones elsewhere. -/
def circulantPlusDiagonal (diagonal : Fin t → F) : Matrix (Fin t) (Fin t) F :=
  Matrix.of (fun i j => if i = j then (0 : F) else 1) + Matrix.diagonal diagonal

variable (F)

/-- `matrix.diagonal([F(grain_random_bits(entry_max_bit_size)) for _ in range(0, NUM_CELLS)])`, lines 446 and 450: the
entries. -/
def drawDiagonal (n t : Nat) (s : List Bool) : Option ((Fin t → F) × List Bool) := do
  let r ← (List.range t).foldlM (fun (st : List F × List Bool) _ => do
    let x ← grainRandomBits n st.2
    pure (st.1 ++ [((x.1 : Nat) : F)], x.2)) ([], s)
  pure (fun i => r.1.getD i 0, r.2)

open Classical in
/-- Lines 446-451: draw until `check_minpoly_condition` holds. -/
noncomputable def drawMatrix (n t : Nat) (s : List Bool) : Option (Matrix (Fin t) (Fin t) F × List Bool) := do
  let r ← drawDiagonal F n t s
  if CheckMinpolyCondition (circulantPlusDiagonal r.1) then some (circulantPlusDiagonal r.1, r.2)
  else drawMatrix n t r.2
partial_fixpoint

open Classical in
/-- `generate_matrix_partial(FIELD, FIELD_SIZE, NUM_CELLS)` for `FIELD = 1`, lines 433-456. The final state of the generator is
not used by the script and is dropped. -/
noncomputable def generateMatrixPartial (n t : Nat) (s : List Bool) : Option (Matrix (Fin t) (Fin t) F) := do
  let M ← if h : t = 2 then some (h ▸ !![2, 1; 1, 3])
    else if h : t = 3 then some (h ▸ !![2, 1, 1; 1, 2, 1; 1, 1, 3])
    else (drawMatrix F n t s).map Prod.fst
  if Algorithm1 M ∧ Algorithm2 M ∧ Algorithm3 M then some M else none

/-- The parameters that the script computes for a prime `p`, a width and round numbers: `RC`, `MATRIX_FULL`,
`MATRIX_PARTIAL` and `MATRIX_PARTIAL_DIAGONAL_M_1`, lines 14-24 and 621-632. The matrices are lists of rows. -/
noncomputable def generate (p t R_F R_P : Nat) [Fact p.Prime] :
    Option (List Nat × List (List (ZMod p)) × List (List (ZMod p)) × List (ZMod p)) := do
  let n := p.log2 + 1
  let s ← warmUp (initGenerator 1 0 n t R_F R_P)
  let rc ← generateConstants n t R_F R_P p s
  let matrix_full ← generateMatrixFull t
  let matrix_partial ← generateMatrixPartial (ZMod p) n t rc.2
  pure (rc.1, matrix_full, Spec.rowsOf matrix_partial, List.ofFn fun i => matrix_partial i i - 1)

end ZkHash.Sage

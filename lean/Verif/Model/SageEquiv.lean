import Verif.Model.Rust
import Mathlib.Data.Matrix.Basic
import Mathlib.Algebra.Field.Basic
import Mathlib.LinearAlgebra.Matrix.NonsingularInverse

set_option autoImplicit false

/-!
# Model of `calc_equivalent_matrices` and `calc_equivalent_constants` in `/repo/poseidon2_rust_params.sage`

Matrices of the script are Mathlib matrices; `inverse()` raises an error (`none`) on a singular matrix. The width `t` is
`s + 1`. The script's globals `t`, `R_F_FIXED` and `R_P_FIXED` are arguments.
-/

namespace ZkHash.Sage

open Matrix

variable {F : Type _} [Field F] [DecidableEq F] {s : Nat}

/-- `M.inverse()`. -/
noncomputable def inverse {n : Nat} (M : Matrix (Fin n) (Fin n) F) : Option (Matrix (Fin n) (Fin n) F) :=
  if M.det = 0 then none else some M⁻¹

/-- Loop state of `calc_equivalent_matrices`. -/
structure EqState (F : Type _) (s : Nat) where
  w_hat_collection : List (List F)
  v_collection : List (List F)
  M_mul : Matrix (Fin (s + 1)) (Fin (s + 1)) F
  M_i : Matrix (Fin (s + 1)) (Fin (s + 1)) F

/-- Body of the loop, `poseidon2_rust_params.sage` lines 506-517. `matrix.identity(t)` has integer entries in the script and
`M_hat` is written into it as integers; the product with a matrix over `F` reads them in `F` again, so here `M_i` is over
`F`. -/
noncomputable def equivMatStep (MT : Matrix (Fin (s + 1)) (Fin (s + 1)) F) (st : EqState F s) : Option (EqState F s) := do
  let M_hat : Matrix (Fin s) (Fin s) F := Matrix.of fun i j => st.M_mul i.succ j.succ
  let w : Fin s → F := fun i => st.M_mul i.succ 0
  let v : Fin s → F := fun j => st.M_mul 0 j.succ
  let M_hat_inv ← inverse M_hat
  let w_hat := M_hat_inv *ᵥ w
  let M_i : Matrix (Fin (s + 1)) (Fin (s + 1)) F :=
    Matrix.of fun i j => Fin.cases (Fin.cases 1 (fun _ => 0) j) (fun i => Fin.cases 0 (fun j => M_hat i j) j) i
  pure { w_hat_collection := st.w_hat_collection ++ [List.ofFn w_hat]
         v_collection := st.v_collection ++ [List.ofFn v]
         M_mul := MT * M_i, M_i }

/-- `calc_equivalent_matrices(MDS_matrix_field)`, lines 494-519: `M_i, v_collection, w_hat_collection` and the entry
`[0, 0]` of the transpose. -/
noncomputable def calcEquivalentMatrices (R_P : Nat) (MDS : Matrix (Fin (s + 1)) (Fin (s + 1)) F) :
    Option (Matrix (Fin (s + 1)) (Fin (s + 1)) F × List (List F) × List (List F) × F) := do
  let MT := MDSᵀ
  let st ← (List.range R_P).foldlM (fun st _ => equivMatStep MT st)
    { w_hat_collection := [], v_collection := [], M_mul := MT, M_i := 0 }
  pure (st.M_i, st.v_collection, st.w_hat_collection, MT 0 0)

/-- `[constants[index:index+t] for index in range(0, len(constants), t)]`, line 522 (`t > 0`). -/
def splitRows (t : Nat) (constants : List F) : List (List F) :=
  (List.range ((constants.length + t - 1) / t)).map fun k => (constants.drop (k * t)).take t

/-- `list(vector(c) * M)`: an error unless `c` has as many entries as `M` has rows. -/
noncomputable def rowTimes {n : Nat} (c : List F) (M : Matrix (Fin n) (Fin n) F) : Option (List F) :=
  if c.length = n then some (List.ofFn ((fun i : Fin n => c.getD i 0) ᵥ* M)) else none

/-- `list(vector(a) + vector(b))`: an error unless the lengths agree. -/
def addRows (a b : List F) : Option (List F) :=
  if a.length = b.length then some (List.zipWith (· + ·) a b) else none

/-- Body of the loop of `calc_equivalent_constants`, lines 533-535. -/
noncomputable def equivConstStep (MT : Matrix (Fin (s + 1)) (Fin (s + 1)) F) (constants_temp : List (List F)) (i : Nat) :
    Option (List (List F)) := do
  let c1 ← constants_temp[i + 1]?
  let inv ← inverse MT
  let inv_cip1 ← rowTimes c1 inv
  let c0 ← constants_temp[i]?
  let row ← addRows c0 ([0] ++ inv_cip1.drop 1)
  let constants_temp ← setAt constants_temp i row
  let x ← inv_cip1[0]?
  setAt constants_temp (i + 1) ([x] ++ List.replicate s 0)

/-- `calc_equivalent_constants(constants, MDS_matrix_field)`, lines 521-538. For an odd `R_F_FIXED` the quotient
`R_F_FIXED / 2` is not an integer and `range` raises an error. The range goes from `num_rounds - 2 - R_f` down to `R_f`. -/
noncomputable def calcEquivalentConstants (R_F R_P : Nat) (constants : List F)
    (MDS : Matrix (Fin (s + 1)) (Fin (s + 1)) F) : Option (List (List F)) :=
  let constants_temp := splitRows (s + 1) constants
  let num_rounds := R_F + R_P
  let R_f := R_F / 2
  if R_F % 2 = 1 then none
  else ((List.range' R_f (num_rounds - 1 - R_f - R_f)).reverse).foldlM (equivConstStep MDSᵀ) constants_temp

end ZkHash.Sage

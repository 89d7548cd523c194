import Verif.Model.SageRounds
import Verif.Model.SagePrint
import Verif.Model.Sage

set_option autoImplicit false

/-!
# Model of the text that `/repo/poseidon2_rust_params.sage` prints

Strings are lists of ASCII bytes. Only complete runs have a text; what an aborted run has already printed is not modelled.
-/

namespace ZkHash.Sage

/-- The bytes of a string literal of the script. -/
def ascii (s : String) : List UInt8 := s.toList.map fun c => UInt8.ofNat c.toNat

/-- `print(s)`. -/
def println (s : List UInt8) : List UInt8 := s ++ [10]

/-- `"{}".format(n)` for an integer `n ≥ 0`. -/
def dec (n : Nat) : List UInt8 :=
  if n = 0 then [48] else (Nat.digits 10 n).reverse.map fun d => UInt8.ofNat (48 + d)

/-- `to_hex(value)` with its `print`, `poseidon2_rust_params.sage` lines 634-640. -/
def printHex (p value : Nat) : List UInt8 := println (ascii "from_hex(\"" ++ toHex p value ++ ascii "\"),")

/-- `for vec in MATRIX: print("vec![", end=""); for val in vec: to_hex(val); print("],")`, lines 670-674. -/
def printMatrix (p : Nat) (rows : List (List Nat)) : List UInt8 :=
  rows.flatMap fun vec => ascii "vec![" ++ (vec.flatMap fun val => printHex p val) ++ println (ascii "],")

/-- `for (i,val) in enumerate(values): if i % t == 0: print("vec![", end=""); to_hex(val); if i % t == t - 1: print("],")`,
lines 680-685, 699-704 and 707-712. -/
def printGrouped (p t : Nat) (values : List Nat) : List UInt8 :=
  values.zipIdx.flatMap fun (val, i) =>
    (if i % t == 0 then ascii "vec![" else []) ++ printHex p val ++ (if i % t == t - 1 then println (ascii "],") else [])

/-- What a complete run prints, for a prime `p` and a width `t` (lines 9 and 17): line 110, and lines 642-713. -/
noncomputable def scriptText (p t : Nat) [Fact p.Prime] : Option (List UInt8) := do
  let (alpha, R_F, R_P, round_constants, MATRIX_FULL, MATRIX_PARTIAL, MATRIX_PARTIAL_DIAGONAL_M_1) ← script p t
  let state_in : List (ZMod p) := (List.range t).map fun i : Nat => (i : ZMod p)
  let state_out ← poseidon2 t alpha R_F R_P MATRIX_FULL MATRIX_PARTIAL
    (round_constants.map fun n : Nat => (n : ZMod p)) state_in
  pure <|
    println (ascii "+++ R_F = " ++ dec R_F ++ ascii ", R_P = " ++ dec R_P ++ ascii " +++") ++
    println (ascii "use super::poseidon::PoseidonParams;") ++
    println (ascii "use bellman_ce::pairing::{bls12_381::Bls12, ff::ScalarEngine, from_hex};") ++
    println (ascii "type Scalar = <Bls12 as ScalarEngine>::Fr;") ++
    println (ascii "use lazy_static::lazy_static;") ++
    println (ascii "use std::sync::Arc;") ++
    println [] ++
    println (ascii "lazy_static! {") ++
    println (ascii "pub static ref MAT_DIAG" ++ dec t ++ ascii "_M_1: Vec<Scalar> = vec![") ++
    (MATRIX_PARTIAL_DIAGONAL_M_1.flatMap fun val => printHex p val.val) ++
    println (ascii "];") ++
    println [] ++
    println (ascii "pub static ref MAT_INTERNAL" ++ dec t ++ ascii ": Vec<Vec<Scalar>> = vec![") ++
    printMatrix p (MATRIX_PARTIAL.map fun vec => vec.map ZMod.val) ++
    println (ascii "];") ++
    println [] ++
    println (ascii "pub static ref RC" ++ dec t ++ ascii ": Vec<Vec<Scalar>> = vec![") ++
    printGrouped p t round_constants ++
    println (ascii "];") ++
    println [] ++
    println (ascii "pub static ref POSEIDON_" ++ dec t ++
      ascii "_PARAMS: Arc<PoseidonParams<Scalar>> = Arc::new(PoseidonParams::new(" ++ dec t ++ ascii ", " ++ dec alpha ++
      ascii ", " ++ dec R_F ++ ascii ", " ++ dec R_P ++ ascii ", &MAT_DIAG" ++ dec t ++ ascii "_M_1, &RC" ++ dec t ++
      ascii "));") ++
    println (ascii "}") ++
    println [] ++
    println [] ++
    printGrouped p t (state_in.map ZMod.val) ++
    println (ascii "];") ++
    printGrouped p t (state_out.map ZMod.val) ++
    println (ascii "];")

end ZkHash.Sage

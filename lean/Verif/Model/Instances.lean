import Verif.Model.Poseidon
import Verif.Model.Poseidon2
import Verif.Model.Fields
import Mathlib.Data.ZMod.Basic

set_option autoImplicit false

/-!
# Model of the shipped parameter sets

`Verif/Instances/*.lean` (generated from the source text by `tools/gen_instances.py`) holds the tables; each literal
`from_hex("0x...")` of the source is the same literal there. This file says how a table becomes a parameter value.
-/

namespace ZkHash

/-- The arguments of one `Poseidon2Params::new` call in `src/poseidon2/poseidon2_instance_*.rs`, the tables as the
integers denoted by their hex strings. -/
structure Poseidon2Source where
  modulus : Nat
  t : Nat
  d : Nat
  rounds_f : Nat
  rounds_p : Nat
  diag : List Nat
  matInternal : List (List Nat)
  rc : List (List Nat)

namespace Poseidon2Source
variable (S : Poseidon2Source)

/-- The table `MAT_DIAGt_M_1` as field elements (`from_hex` reduces modulo `p`, property C32). -/
def diagF : List (ZMod S.modulus) := S.diag.map fun n : Nat => (n : ZMod S.modulus)
/-- The table `MAT_INTERNALt` as field elements. -/
def matInternalF : List (List (ZMod S.modulus)) := S.matInternal.map fun row => row.map fun n : Nat => (n : ZMod S.modulus)
/-- The table `RCt` as field elements. -/
def rcF : List (List (ZMod S.modulus)) := S.rc.map fun row => row.map fun n : Nat => (n : ZMod S.modulus)

/-- The `lazy_static` initializer `Arc::new(Poseidon2Params::new(t, d, rounds_f, rounds_p, &MAT_DIAG, &MAT_INTERNAL,
&RC))` of the instance files, e.g. `src/poseidon2/poseidon2_instance_bls12.rs` line 1529. -/
def params (dbg : Bool) : Option (Poseidon2Params (ZMod S.modulus)) :=
  Poseidon2Params.new dbg S.t S.d S.rounds_f S.rounds_p S.diagF S.matInternalF S.rcF

end Poseidon2Source

/-- The arguments of one `PoseidonParams::new` call in `src/poseidon/poseidon_instance_*.rs`. -/
structure PoseidonSource where
  modulus : Nat
  t : Nat
  d : Nat
  rounds_f : Nat
  rounds_p : Nat
  mds : List (List Nat)
  rc : List (List Nat)

namespace PoseidonSource
variable (S : PoseidonSource)

/-- The table `MDSt` as field elements. -/
def mdsF : List (List (ZMod S.modulus)) := S.mds.map fun row => row.map fun n : Nat => (n : ZMod S.modulus)
/-- The table `RCt` as field elements. -/
def rcF : List (List (ZMod S.modulus)) := S.rc.map fun row => row.map fun n : Nat => (n : ZMod S.modulus)

/-- The `lazy_static` initializer of the instance files, e.g. `src/poseidon/poseidon_instance_bls12.rs` line 1500. -/
def params [ArkInverse (ZMod S.modulus)] (dbg : Bool) : Option (PoseidonParams (ZMod S.modulus)) :=
  PoseidonParams.new dbg S.t S.d S.rounds_f S.rounds_p S.mdsF S.rcF

end PoseidonSource

/-- Shape arguments of a parameter set that has no tables in the source (Neptune, GMiMC). -/
structure Shape where
  modulus : Nat
  t : Nat
  d : Nat
  rounds_f : Nat
  rounds_p : Nat
deriving DecidableEq

end ZkHash

import Verif.Model.Statics
import Verif.Model.Merkle

set_option autoImplicit false

/-!
# Model of programs that use the crate

A program holds references to the global parameter sets and calls the methods of the permutations and of the Merkle tree
built over them. `permutation` and its relatives take `&self`, and the `Arc` inside is never written, so a call reads
the value of its static and nothing else; `MerkleTree::accumulate` takes `&mut self`, but writes no field of the tree
(`src/merkle_tree/merkle_tree_fp.rs` lines 8-66).
-/

namespace ZkHash.Client

open Statics Merkle

/-- The calls a program makes on a shipped parameter set. `new` is `Poseidon2::new(&PARAMS)` and the like: it dereferences
the static and clones the `Arc` (`src/poseidon2/poseidon2.rs` lines 15-19). -/
inductive Op where
  | new
  | permutation
  | permutationNotOpt
  | compress
  | accumulate
deriving DecidableEq

/-- One call: the parameter set, the method and its argument. The field elements are given by integers. -/
structure Call where
  static : Name
  op : Op
  input : List Nat

/-- The width that `get_t()` returns for a parameter set, e.g. `src/poseidon2/poseidon2.rs` lines 21-23. -/
def width : Name → Nat
  | .poseidon2 k => Instances.poseidon2[k].t
  | .poseidon k => Instances.poseidon[k].t
  | .gmimc k => Instances.gmimc[k].t
  | .neptune k => Instances.neptune[k].t
  | _ => 0

/-- The field elements of a list of integers. -/
def elems (p : Nat) (l : List Nat) : List (ZMod p) := l.map fun n : Nat => (n : ZMod p)

/-- The integers below the modulus that stand for the field elements. -/
def ints {p : Nat} (l : List (ZMod p)) : List Nat := l.map ZMod.val

/-- What a call returns, given the value of its static; `none` is a panic. (`permutation_not_opt` exists for Poseidon,
`src/poseidon/poseidon.rs` line 53, and GMiMC, `src/gmimc/gmimc.rs` line 101, only; the tables have no methods.) -/
def Call.exec (dbg : Bool) (c : Call) : Value → Option (List Nat)
  | .row _ => none
  | .table _ => none
  | .poseidon2 k P =>
    let x := elems Instances.poseidon2[k].modulus c.input
    match c.op with
    | .new => some []
    | .permutation => (Poseidon2.permutation dbg P x).map ints
    | .permutationNotOpt => none
    | .compress => (Poseidon2.compress dbg P x).map fun y => ints [y]
    | .accumulate => (accumulate dbg (Poseidon2.compress dbg P) x).map fun y => ints [y]
  | .poseidon k P =>
    let x := elems Instances.poseidon[k].modulus c.input
    match c.op with
    | .new => some []
    | .permutation => (Poseidon.permutation dbg P x).map ints
    | .permutationNotOpt => (Poseidon.permutationNotOpt dbg P x).map ints
    | .compress => (Poseidon.compress dbg P x).map fun y => ints [y]
    | .accumulate => (accumulate dbg (Poseidon.compress dbg P) x).map fun y => ints [y]
  | .gmimc k P =>
    let x := elems Instances.gmimc[k].modulus c.input
    match c.op with
    | .new => some []
    | .permutation => (Gmimc.permutation dbg P x).map ints
    | .permutationNotOpt => (Gmimc.permutationNotOpt dbg P x).map ints
    | .compress => (Gmimc.compress dbg P x).map fun y => ints [y]
    | .accumulate => (accumulate dbg (Gmimc.compress dbg P) x).map fun y => ints [y]
  | .neptune k P =>
    let x := elems Instances.neptune[k].modulus c.input
    match c.op with
    | .new => some []
    | .permutation => (Neptune.permutation dbg P x).map ints
    | .permutationNotOpt => none
    | .compress => (Neptune.compress dbg P x).map fun y => ints [y]
    | .accumulate => (accumulate dbg (Neptune.compress dbg P) x).map fun y => ints [y]

variable {n : Nat}

/-- A process whose threads run the programs `prog`, after the schedule `sched`: the statics and what each thread has got
of them. (A thread goes on after a call even if `exec` gives `none` for it; the theorems about
whole programs are about programs in which that does not happen. Programs in which it does are in `Model/World.lean`.) -/
noncomputable def process (dbg : Bool)
    [∀ k : Fin Instances.poseidon.length, ArkInverse (ZMod Instances.poseidon[k].modulus)]
    (prog : Fin n → List Call) (gen : Fin n → Gen) (sched : List (Fin n)) : State n Name Value Gen :=
  run (crate dbg) (start (fun τ => (prog τ).map Call.static) gen) sched

/-- The results of the calls that a thread has made so far, in order. -/
def outputs (dbg : Bool) (prog : Fin n → List Call) (s : State n Name Value Gen) (τ : Fin n) : List (Option (List Nat)) :=
  List.zipWith (fun c (iv : Name × Value) => c.exec dbg iv.2) (prog τ) (s.thread τ).seen.reverse

end ZkHash.Client

import Verif.Model.Instances
import Verif.Model.Gmimc
import Verif.Model.Neptune
import Verif.Instances.All
import Verif.Instances.Shapes
import Mathlib.Logic.Function.Basic
import Mathlib.Tactic.DeriveFintype

set_option autoImplicit false

/-!
# Model of the `lazy_static!` parameter sets under concurrent use

Every parameter set and every table of the crate is a `lazy_static!` (`src/*/..._instance*.rs`): its initializer runs on
the first dereference, in whichever thread that happens; other threads that dereference it meanwhile wait; after a panic
in the initializer every dereference panics. The crate `lazy_static` 1.4 (over `std::sync::Once`) is modelled by that
contract. The initializers of the parameter sets dereference the tables, so initializations nest.
-/

namespace ZkHash.Statics

/-- One `lazy_static!` cell. The thread in `running` is there for the proofs only: nothing reads it. -/
inductive Cell (n : Nat) (V : Type) where
  | empty
  | running (thread : Fin n)
  | ready (v : V)
  | poisoned

/-- A set of statics named by `ι`: the statics each initializer dereferences, in order, and what it computes from their
values and the generator of the thread that runs it. `none` is a panic. -/
structure Program (ι V R : Type) where
  deps : ι → List ι
  init : ι → List V → R → Option (V × R)

/-- An initializer that is being run: its static, what it still has to dereference, and the values it has got. -/
structure Frame (ι V : Type) where
  static : ι
  deps : List ι
  args : List V

/-- A thread: the statics its program will dereference, what it has got so far (latest first), the initializers it is
inside of (innermost first), its generator, and whether it has panicked. -/
structure Thread (ι V R : Type) where
  todo : List ι
  seen : List (ι × V)
  stack : List (Frame ι V)
  gen : R
  dead : Bool

/-- The statics of a process and its `n` threads. -/
structure State (n : Nat) (ι V R : Type) where
  cell : ι → Cell n V
  thread : Fin n → Thread ι V R

variable {n : Nat} {ι V R : Type} [DecidableEq ι]

/-- A panic in thread `τ` unwinds all initializers it is inside of; their statics are poisoned. -/
def panic (s : State n ι V R) (τ : Fin n) : State n ι V R where
  cell i := if (s.thread τ).stack.any (fun f => decide (f.static = i)) then .poisoned else s.cell i
  thread := Function.update s.thread τ { s.thread τ with stack := [], dead := true }

/-- Dereference of the static `j` in thread `τ`: run its initializer, wait (`none`), go on with the value, or panic. -/
def deref (P : Program ι V R) (s : State n ι V R) (τ : Fin n) (j : ι) (deliver : V → Thread ι V R) :
    Option (State n ι V R) :=
  match s.cell j with
  | .empty => some
      { cell := Function.update s.cell j (.running τ)
        thread := Function.update s.thread τ { s.thread τ with stack := ⟨j, P.deps j, []⟩ :: (s.thread τ).stack } }
  | .running _ => none
  | .ready v => some { s with thread := Function.update s.thread τ (deliver v) }
  | .poisoned => some (panic s τ)

/-- One step of thread `τ`; `none` if it has finished, has panicked or has to wait. The computation of an initializer,
once it has its arguments, is one step: it touches no other static. -/
def step (P : Program ι V R) (s : State n ι V R) (τ : Fin n) : Option (State n ι V R) :=
  if (s.thread τ).dead then none
  else match (s.thread τ).stack with
    | [] => match (s.thread τ).todo with
      | [] => none
      | j :: rest => deref P s τ j fun v => { s.thread τ with todo := rest, seen := (j, v) :: (s.thread τ).seen }
    | f :: below => match f.deps with
      | j :: rest => deref P s τ j fun v => { s.thread τ with stack := ⟨f.static, rest, f.args ++ [v]⟩ :: below }
      | [] => match P.init f.static f.args (s.thread τ).gen with
        | some (v, gen) => some
            { cell := Function.update s.cell f.static (.ready v)
              thread := Function.update s.thread τ { s.thread τ with stack := below, gen := gen } }
        | none => some (panic s τ)

/-- A schedule names the thread that is given the processor next; a thread that cannot move loses its turn. -/
def run (P : Program ι V R) (s : State n ι V R) (sched : List (Fin n)) : State n ι V R :=
  sched.foldl (fun s τ => (step P s τ).getD s) s

/-- The start of the process: nothing is initialized; thread `τ` will dereference `todo τ`. -/
def start (todo : Fin n → List ι) (gen : Fin n → R) : State n ι V R where
  cell _ := .empty
  thread τ := ⟨todo τ, [], [], gen τ, false⟩

/-! ## The statics of the crate -/

/-- The names of the statics: for each of the parameter sets its tables and itself. -/
inductive Name where
  | poseidon2Diag (k : Fin Instances.poseidon2.length)
  | poseidon2Internal (k : Fin Instances.poseidon2.length)
  | poseidon2Rc (k : Fin Instances.poseidon2.length)
  | poseidon2 (k : Fin Instances.poseidon2.length)
  | poseidonMds (k : Fin Instances.poseidon.length)
  | poseidonRc (k : Fin Instances.poseidon.length)
  | poseidon (k : Fin Instances.poseidon.length)
  | gmimc (k : Fin Instances.gmimc.length)
  | neptune (k : Fin Instances.neptune.length)
deriving DecidableEq, Fintype

/-- The values of the statics; the elements of the tables are given by the integers of their hex strings. -/
inductive Value where
  | row (l : List Nat)
  | table (l : List (List Nat))
  | poseidon2 (k : Fin Instances.poseidon2.length) (P : Poseidon2Params (ZMod Instances.poseidon2[k].modulus))
  | poseidon (k : Fin Instances.poseidon.length) (P : PoseidonParams (ZMod Instances.poseidon[k].modulus))
  | gmimc (k : Fin Instances.gmimc.length) (P : GmimcParams (ZMod Instances.gmimc[k].modulus))
  | neptune (k : Fin Instances.neptune.length) (P : NeptuneParams (ZMod Instances.neptune[k].modulus))

/-- The generator of a thread (`thread_rng`, `src/fields/utils.rs` lines 14-17): the elements it will deliver, for each
of the fields. (What it delivers for one field does not depend on what was drawn for another one only in that the
theorems are for all such families.) -/
abbrev Gen := (p : Nat) → Nat → ZMod p

open Classical in
/-- A computation that draws, on an endless supply of elements: it uses up the shortest beginning of it with which it
returns. `none` if it panics (or draws for ever). -/
noncomputable def draw {F α : Type} (f : Fields.Draw F α) (s : Nat → F) : Option (α × (Nat → F)) :=
  if h : ∃ m a, f ((List.range m).map s) = some (a, []) then
    some (Classical.choose (Nat.find_spec h), fun i => s (Nat.find h + i))
  else none

/-- Draw from the elements of the field `p`. -/
noncomputable def drawIn {α : Type} (p : Nat) (f : Fields.Draw (ZMod p) α) (g : Gen) : Option (α × Gen) :=
  (draw f (g p)).map fun r => (r.1, Function.update g p r.2)

/-- The `lazy_static!` blocks of `src/poseidon2/poseidon2_instance_*.rs`, `src/poseidon/poseidon_instance_*.rs`,
`src/gmimc/gmimc_instance_*.rs` and `src/neptune/neptune_instances.rs`: e.g. `POSEIDON2_BN256_PARAMS`,
`src/poseidon2/poseidon2_instance_bn256.rs` line 293, dereferences `MAT_DIAG3_M_1`, `MAT_INTERNAL3` and `RC3` and calls
`Poseidon2Params::new`. -/
noncomputable def crate (dbg : Bool) [∀ k : Fin Instances.poseidon.length, ArkInverse (ZMod Instances.poseidon[k].modulus)]
    : Program Name Value Gen where
  deps
    | .poseidon2 k => [.poseidon2Diag k, .poseidon2Internal k, .poseidon2Rc k]
    | .poseidon k => [.poseidonMds k, .poseidonRc k]
    | _ => []
  init
    | .poseidon2Diag k, _, g => some (.row Instances.poseidon2[k].diag, g)
    | .poseidon2Internal k, _, g => some (.table Instances.poseidon2[k].matInternal, g)
    | .poseidon2Rc k, _, g => some (.table Instances.poseidon2[k].rc, g)
    | .poseidonMds k, _, g => some (.table Instances.poseidon[k].mds, g)
    | .poseidonRc k, _, g => some (.table Instances.poseidon[k].rc, g)
    | .poseidon2 k, [.row diag, .table matInternal, .table rc], g =>
      let S : Poseidon2Source := { Instances.poseidon2[k] with diag, matInternal, rc }
      (S.params dbg).map fun P => (.poseidon2 k P, g)
    | .poseidon k, [.table mds, .table rc], g =>
      let S : PoseidonSource := { Instances.poseidon[k] with mds, rc }
      let _ : ArkInverse (ZMod S.modulus) := inferInstanceAs (ArkInverse (ZMod Instances.poseidon[k].modulus))
      (S.params dbg).map fun P => (.poseidon k P, g)
    | .gmimc k, _, g =>
      let S := Instances.gmimc[k]
      (drawIn S.modulus (GmimcParams.new S.t S.d S.rounds_f) g).map fun r => (.gmimc k r.1, r.2)
    | .neptune k, _, g =>
      let S := Instances.neptune[k]
      (drawIn S.modulus (NeptuneParams.new dbg S.t S.d S.rounds_f S.rounds_p) g).map fun r => (.neptune k r.1, r.2)
    | _, _, _ => none

end ZkHash.Statics

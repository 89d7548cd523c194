import Verif.Model.World

set_option autoImplicit false

/-!
# Model of programs whose threads communicate and draw random numbers

In `Model/World.lean` a thread decides from its own results. Here the threads of a process share memory: what a thread does
next may depend on everything that has happened so far in all threads. A thread may also draw field elements from the
`thread_rng()` of its thread, which is the one the initializers of the statics draw from when this thread runs them
(`utils::random_scalar`, `src/fields/utils.rs` lines 14-17).

Simplified: a thread sees what the others do at once, with no delay (a program may ignore what it sees); a call computes its
result in the same step in which it gets the value of its static.
-/

namespace ZkHash.Client

open Statics

/-- What a thread does next. -/
inductive Act where
  /-- call a method on a global parameter set -/
  | call (c : Call)
  /-- draw one element of the field with `p` elements -/
  | draw (p : Nat)
  /-- nothing: it is done, or waits until something happens in another thread -/
  | rest

/-- What has happened in a thread: a call with its result (`none` if it panicked), or an element drawn. -/
inductive Entry where
  | called (c : Call) (r : Option (List Nat))
  | drew (p : Nat) (x : ZMod p)

/-- What has happened so far in a process, in order. -/
abbrev Log (n : Nat) := List (Fin n × Entry)

/-- The program of a thread: what it does next, given all that has happened in the process. -/
abbrev Talk (n : Nat) := Log n → Act

/-- A process: the statics, the call that each thread is in, and what has happened. -/
structure Net (n : Nat) where
  base : State n Name Value Gen
  asked : Fin n → Option Call
  log : Log n

variable {n : Nat}

/-- The thread has panicked. -/
def crashed (log : Log n) (τ : Fin n) : Prop := ∃ c, (τ, Entry.called c none) ∈ log

/-- The generator of thread `τ` after one element of the field with `p` elements has been drawn from it. -/
def drawOne (s : State n Name Value Gen) (τ : Fin n) (p : Nat) : State n Name Value Gen :=
  { s with thread := Function.update s.thread τ { s.thread τ with
      gen := Function.update (s.thread τ).gen p fun j => (s.thread τ).gen p (1 + j) } }

open Classical in
/-- One step of thread `τ`. In a call it goes on with dereferencing the static of the call (`Statics.step`), running
initializers if need be; with the value it computes the result. Otherwise it asks its program what to do. `none` if the
thread has to wait, or has panicked, or its program has nothing to do. -/
noncomputable def Net.step (dbg : Bool)
    [∀ k : Fin Instances.poseidon.length, ArkInverse (ZMod Instances.poseidon[k].modulus)]
    (prog : Fin n → Talk n) (w : Net n) (τ : Fin n) : Option (Net n) :=
  match w.asked τ with
  | some c => (Statics.step (crate dbg) w.base τ).map fun b =>
      match (b.thread τ).todo, (b.thread τ).seen with
      | [], (_, v) :: _ => ⟨b, Function.update w.asked τ none, w.log ++ [(τ, .called c (c.exec dbg v))]⟩
      | _, _ => ⟨b, w.asked, w.log⟩
  | none =>
    if crashed w.log τ then none else
    match prog τ w.log with
    | .rest => none
    | .call c => some ⟨want w.base τ c.static, Function.update w.asked τ (some c), w.log⟩
    | .draw p => some ⟨drawOne w.base τ p, w.asked, w.log ++ [(τ, .drew p ((w.base.thread τ).gen p 0))]⟩

/-- The start of the process. -/
def Net.start (gen : Fin n → Gen) : Net n := ⟨Statics.start (fun _ => []) gen, fun _ => none, []⟩

/-- The process after a schedule; a thread that cannot move loses its turn. -/
noncomputable def Net.runFrom (dbg : Bool)
    [∀ k : Fin Instances.poseidon.length, ArkInverse (ZMod Instances.poseidon[k].modulus)]
    (prog : Fin n → Talk n) (w : Net n) (sched : List (Fin n)) : Net n :=
  sched.foldl (fun w τ => (w.step dbg prog τ).getD w) w

/-- The process, from its start. -/
noncomputable def net (dbg : Bool)
    [∀ k : Fin Instances.poseidon.length, ArkInverse (ZMod Instances.poseidon[k].modulus)]
    (prog : Fin n → Talk n) (gen : Fin n → Gen) (sched : List (Fin n)) : Net n :=
  Net.runFrom dbg prog (Net.start gen) sched

end ZkHash.Client

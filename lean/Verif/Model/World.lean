import Verif.Model.Client

set_option autoImplicit false

/-!
# Model of programs that decide what to call next from the results they have got

`Model/Client.lean` has programs that are lists of calls. Here a thread runs any (deterministic) program over the crate:
which call it makes next, if any, depends on the results of the calls it has made. A call that panics ends its thread; no
initializer is being run then, so it poisons nothing.
-/

namespace ZkHash.Client

open Statics

/-- A program: the call it makes next, given the results of its calls so far (in order), or `none` when it is done. -/
abbrev Prog := List (List Nat) → Option Call

/-- A call that was made, and its result; `none` if it panicked. -/
abbrev Event := Call × Option (List Nat)

/-- The next call of a thread with the given past: none after a panic. -/
def next (p : Prog) (past : List Event) : Option Call :=
  if past.any fun e => e.2.isNone then none else p (past.filterMap Prod.snd)

/-- A process: the statics, and the calls every thread has made. -/
structure World (n : Nat) where
  base : State n Name Value Gen
  past : Fin n → List Event

variable {n : Nat}

/-- The thread `τ` is about to dereference the static `i`. -/
def want (s : State n Name Value Gen) (τ : Fin n) (i : Name) : State n Name Value Gen :=
  { s with thread := Function.update s.thread τ { s.thread τ with todo := [i] } }

/-- One step of thread `τ`. Inside an initializer it goes on with that (`Statics.step`); otherwise it dereferences the static
of its next call, e.g. `Poseidon2::new(&POSEIDON2_BN256_PARAMS)`, and if it gets the value, makes the call. `none` if the
program is done or the thread has to wait or has panicked. -/
noncomputable def World.step (dbg : Bool)
    [∀ k : Fin Instances.poseidon.length, ArkInverse (ZMod Instances.poseidon[k].modulus)]
    (prog : Fin n → Prog) (w : World n) (τ : Fin n) : Option (World n) :=
  match (w.base.thread τ).stack with
  | _ :: _ => (Statics.step (crate dbg) w.base τ).map fun b => ⟨b, w.past⟩
  | [] => match next (prog τ) (w.past τ) with
    | none => none
    | some c => (Statics.step (crate dbg) (want w.base τ c.static) τ).map fun b =>
        ⟨b, match (b.thread τ).todo, (b.thread τ).seen with
          | [], (_, v) :: _ => Function.update w.past τ (w.past τ ++ [(c, c.exec dbg v)])
          | _, _ => w.past⟩

/-- The start of the process. -/
def World.start (gen : Fin n → Gen) : World n := ⟨Statics.start (fun _ => []) gen, fun _ => []⟩

/-- The process after a schedule; a thread that cannot move loses its turn. -/
noncomputable def world (dbg : Bool)
    [∀ k : Fin Instances.poseidon.length, ArkInverse (ZMod Instances.poseidon[k].modulus)]
    (prog : Fin n → Prog) (gen : Fin n → Gen) (sched : List (Fin n)) : World n :=
  sched.foldl (fun w τ => (w.step dbg prog τ).getD w) (World.start gen)

end ZkHash.Client

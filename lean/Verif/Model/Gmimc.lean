import Verif.Model.Fields

set_option autoImplicit false

/-!
# Model of `/repo/src/gmimc/gmimc_params.rs` and `/repo/src/gmimc/gmimc.rs`
-/

namespace ZkHash

open Fields

variable {F : Type} [Zero F] [One F] [Add F] [Sub F] [Mul F]

/-- `struct GmimcParams`, `src/gmimc/gmimc_params.rs` lines 6-11. -/
structure GmimcParams (F : Type _) where
  t : Nat
  d : Nat
  rounds : Nat
  round_constants : List F

namespace GmimcParams

/-- `GmimcParams::new`, `src/gmimc/gmimc_params.rs` lines 16-28, with `instantiate_rc` (lines 39-43): `rounds`
scalars are drawn from the generator. -/
def new (t d rounds : Nat) : Draw F (GmimcParams F) := do
  StateT.lift (assertThat (d == 3 || d == 5 || d == 7))
  let round_constants ← repeatDraw randomScalar rounds
  pure { t, d, rounds, round_constants }

end GmimcParams

namespace Gmimc

/-- `Gmimc::sbox`, `src/gmimc/gmimc.rs` lines 25-54. -/
def sbox (P : GmimcParams F) (state_0 : F) (round : Nat) : Option F := do
  let c ← P.round_constants[round]?
  let input := state_0 + c
  let input2 := input * input
  match P.d with
  | 3 => some (input2 * input)
  | 5 => some (input2 * input2 * input)
  | 7 => some (input2 * input2 * input2 * input)
  | _ => none

/-- `Gmimc::round`, `src/gmimc/gmimc.rs` lines 56-59. -/
def round (P : GmimcParams F) (state : List F) (r : Nat) : Option (List F) := do
  let x0 ← state[0]?
  let power ← sbox P x0 r
  pure (state.take 1 ++ (state.drop 1).map (· + power))

/-- `Gmimc::permutation_not_opt`, `src/gmimc/gmimc.rs` lines 101-113. -/
def permutationNotOpt (dbg : Bool) (P : GmimcParams F) (input : List F) : Option (List F) := do
  assertThat (P.t == input.length)
  let hi ← usub dbg P.rounds 1
  let state ← (List.range hi).foldlM (fun state r => do
    let state ← round P state r
    rotateRight1 state) input
  let last ← usub dbg P.rounds 1
  round P state last

/-- Loop state of the optimized permutation: `current_state`, `acc`, `acc_queue`. -/
structure OptState (F : Type _) where
  state : List F
  acc : F
  queue : List F

/-- The accumulator update `src/gmimc/gmimc.rs` lines 73-77 (and 84-88). -/
def accStep (P : GmimcParams F) (st : OptState F) (r : Nat) : Option (OptState F) := do
  let x0 ← st.state[0]?
  let power ← sbox P x0 r
  let queue ← rotateRight1 st.queue
  let q0 ← queue[0]?
  let acc := st.acc - q0
  let queue ← setAt queue 0 power
  let acc := acc + power
  pure { state := st.state, acc, queue }

/-- Body of the main loop of the optimized permutation, `src/gmimc/gmimc.rs` lines 72-81. -/
def optStep (P : GmimcParams F) (st : OptState F) (r : Nat) : Option (OptState F) := do
  let st ← accStep P st r
  let state ← rotateRight1 st.state
  let x0 ← state[0]?
  let state ← setAt state 0 (x0 + st.acc)
  pure { st with state }

/-- Body of the final loop, `src/gmimc/gmimc.rs` lines 92-96, for the element at index `i`. -/
def finalStep (st : OptState F) (i : Nat) : Option (OptState F) := do
  let queue ← rotateRight1 st.queue
  let q0 ← queue[0]?
  let acc := st.acc - q0
  let el ← st.state[i]?
  let state ← setAt st.state i (el + acc)
  pure { state, acc, queue }

/-- `Gmimc::permutation`, `src/gmimc/gmimc.rs` lines 61-99. The iterator `skip(1).take(t - 2).rev()` visits the
indices `t-2, ..., 1` (the state has length `t`). -/
def permutation (dbg : Bool) (P : GmimcParams F) (input : List F) : Option (List F) := do
  let t := P.t
  if t < 8 then
    permutationNotOpt dbg P input
  else do
    assertThat (t == input.length)
    let hi ← usub dbg P.rounds 1
    let st ← (List.range hi).foldlM (optStep P)
      { state := input, acc := 0, queue := List.replicate (t - 1) 0 }
    let last ← usub dbg P.rounds 1
    let st ← accStep P st last
    let x ← st.state[t - 1]?
    let state ← setAt st.state (t - 1) (x + st.acc)
    let st ← ((List.range' 1 (t - 2)).reverse).foldlM finalStep { st with state }
    pure st.state

/-- `MerkleTreeHash::compress` for `Gmimc`, `src/gmimc/gmimc.rs` lines 116-120. -/
def compress (dbg : Bool) (P : GmimcParams F) (input : List F) : Option F := do
  let a ← input[0]?
  let b ← input[1]?
  let out ← permutation dbg P [a, b, 0]
  out[0]?

end Gmimc

end ZkHash

import Verif.Model.Neptune
import Verif.Model.Utils

set_option autoImplicit false

/-!
# Model of the randomized tests of the repository

A test draws its inputs from the generator (`Fields.Draw`). Its outcome is `some (true, rest)` when it passes,
`some (false, rest)` when an assertion fails or a call panics, and `none` when it does not come to an end with the
elements the generator delivers (then it would go on drawing).
-/

namespace ZkHash

namespace SelfTests

open Fields

variable {F : Type} [Zero F] [One F] [Add F] [Sub F] [Mul F] [DecidableEq F]

/-- `static TESTRUNS: usize = 5`, in every test module (e.g. `src/poseidon2/poseidon2.rs` line 247). -/
def TESTRUNS : Nat := 5

/-- `loop { input2 = (0..t).map(|_| random_scalar()).collect(); if input1 != input2 { break; } }`,
e.g. `src/poseidon2/poseidon2.rs` lines 262-267. -/
def drawOther (t : Nat) (input1 : List F) (s : List F) : Option (List F × List F) := do
  let input2 ← repeatDraw randomScalar t s
  if input1 ≠ input2.1 then some input2 else drawOther t input1 input2.2
partial_fixpoint

/-- The body of the inner loop of `consistent_perm`, e.g. `src/poseidon2/poseidon2.rs` lines 260-274 (the same text in
all test modules): a run fails if a call panics or an assertion does not hold. -/
def consistentRun (t : Nat) (permutation : List F → Option (List F)) : Draw F Bool := do
  let input1 ← repeatDraw randomScalar t
  let input2 ← drawOther t input1
  let checks : Option Unit := do
    let perm1 ← permutation input1
    let perm2 ← permutation input1
    let perm3 ← permutation input2
    assertThat (perm1 == perm2)
    assertThat (perm1 != perm3)
  pure checks.isSome

/-- The body of the inner loop of `opt_equals_not_opt`, e.g. `src/poseidon/poseidon.rs` lines 252-256. -/
def equalRun (t : Nat) (permutation permutation_not_opt : List F → Option (List F)) : Draw F Bool := do
  let input ← repeatDraw randomScalar t
  let checks : Option Unit := do
    let perm1 ← permutation input
    let perm2 ← permutation_not_opt input
    assertThat (perm1 == perm2)
  pure checks.isSome

/-- `for _ in 0..n { body }` in a test: the first failing run ends the test. -/
def runs (body : Draw F Bool) : Nat → Draw F Bool
  | 0 => pure true
  | n + 1 => do
      let ok ← body
      if ok then runs body n else pure false

/-- `for instance in instances { for _ in 0..TESTRUNS { .. } }`. -/
def overInstances {ι : Type} (body : ι → Draw F Bool) : List ι → Draw F Bool
  | [] => pure true
  | i :: rest => do
      let ok ← runs (body i) TESTRUNS
      if ok then overInstances body rest else pure false

/-- `consistent_perm`, e.g. `src/poseidon2/poseidon2.rs` lines 250-276, `src/poseidon/poseidon.rs` lines 182-210,
`src/gmimc/gmimc.rs` lines 133-153, `src/neptune/neptune.rs` lines 358-378. An instance is its width with its permutation. -/
def consistentPerm (instances : List (Nat × (List F → Option (List F)))) : Draw F Bool :=
  overInstances (fun i => consistentRun i.1 i.2) instances

/-- `opt_equals_not_opt`, e.g. `src/poseidon/poseidon.rs` lines 242-259, `src/gmimc/gmimc.rs` lines 156-166. -/
def optEqualsNotOpt (instances : List (Nat × (List F → Option (List F)) × (List F → Option (List F)))) : Draw F Bool :=
  overInstances (fun i => equalRun i.1 i.2.1 i.2.2) instances

/-- The test helper `matmul`, e.g. `src/neptune/neptune.rs` lines 278-290. -/
def matmul (dbg : Bool) (input : List F) (mat : List (List F)) : Option (List F) := do
  let t := mat.length
  debugAssert dbg (t == input.length)
  (List.range t).foldlM (fun out row =>
    ((input.zipIdx).take t).foldlM (fun out (inp, col) => do
      let tmp ← get2 mat row col
      let cur ← out[row]?
      setAt out row (cur + tmp * inp)) out)
    (List.replicate t (0 : F))

/-- The test helper `build_mi`, e.g. `src/neptune/neptune.rs` lines 292-300. -/
def buildMi (P : NeptuneParams F) : Option (List (List F)) :=
  (List.range P.t).foldlM (fun mi i => do
    let m ← P.mu[i]?
    let mi ← set2 mi i i m
    let x ← get2 mi i i
    set2 mi i i (x + 1)) (List.replicate P.t (List.replicate P.t (1 : F)))

/-- The checks of the external matrix in `matmul_equalities`, e.g. `src/neptune/neptune.rs` lines 307-317. -/
def checkExternal (t : Nat) (me : List (List F)) : Option Unit :=
  ((me.zipIdx).take t).foldlM (fun _ (matrow : List F × Nat) =>
    ((matrow.1.zipIdx).take t).foldlM (fun _ (matrowcol : F × Nat) =>
      if (matrow.2 + matrowcol.2) % 2 = 0 then assertThat (matrowcol.1 != 0)
      else assertThat (matrowcol.1 == 0)) ()) ()

/-- The body of the loop of `matmul_equalities`, e.g. `src/neptune/neptune.rs` lines 320-329. -/
def matmulRun (dbg : Bool) (P : NeptuneParams F) (mi : List (List F)) : Draw F Bool := do
  let input ← repeatDraw randomScalar P.t
  let checks : Option Unit := do
    let external1 ← Neptune.externalMatmul P input
    let external2 ← matmul dbg input P.m_e
    assertThat (external1 == external2)
    let internal1 ← Neptune.internalMatmul P input
    let internal2 ← matmul dbg input mi
    assertThat (internal1 == internal2)
  pure checks.isSome

/-- `matmul_equalities`, e.g. `src/neptune/neptune.rs` lines 302-330. `NeptuneParams::new(t, 3, 2, 1)` does not panic
for even `t`, so `none` from it means that the generator's elements did not suffice. -/
def matmulEqualities [NatCast F] (dbg : Bool) (t : Nat) : Draw F Bool := do
  let P ← NeptuneParams.new dbg t 3 2 1
  match checkExternal P.t P.m_e with
  | none => pure false
  | some () =>
    match buildMi P with
    | none => pure false
    | some mi => runs (matmulRun dbg P mi) TESTRUNS

end SelfTests

end ZkHash

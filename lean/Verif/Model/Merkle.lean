import Verif.Model.Rust

set_option autoImplicit false

/-!
# Model of `/repo/src/merkle_tree/*.rs`

The four trees share the padding code; it is modelled once (`paddedNodes`, `roundUpPowN`) and each `accumulate`
separately.
-/

namespace ZkHash

set_option linter.unusedVariables false

namespace Merkle

/-- Result of a loop that may run forever. `outOfFuel` means "not finished after the given number of
iterations". -/
inductive Loop (α : Type _) where
  | done (a : α)
  | panic
  | outOfFuel
  deriving DecidableEq, Repr

/-- The `loop` of `round_up_pow_n`, with an iteration budget: `res *= n; if res >= input { break; }`.
`merkle_tree_fp.rs` lines 26-31, `merkle_tree_f2.rs` lines 26-31, `merkle_tree_orchard.rs` and
`merkle_tree_sapling.rs` lines 23-28. -/
def roundUpLoop (dbg : Bool) (input n : Nat) : Nat → Nat → Loop Nat
  | 0, _ => .outOfFuel
  | fuel + 1, res =>
    match umul dbg res n with
    | none => .panic
    | some res => if res ≥ input then .done res else roundUpLoop dbg input n fuel res

/-- `round_up_pow_n`, `merkle_tree_fp.rs` lines 22-33 (same text in the other three files), run for at most `fuel`
iterations. -/
def roundUpPowN (dbg : Bool) (fuel input n : Nat) : Loop Nat :=
  if dbg && decide (n < 1) then .panic else roundUpLoop dbg input n fuel 1

/-- The `loop { if bound >= 2 { break; } bound *= 2; }` of `accumulate`, `merkle_tree_fp.rs` lines 38-43, with an
iteration budget. -/
def atLeast2 (dbg : Bool) : Nat → Nat → Loop Nat
  | 0, _ => .outOfFuel
  | fuel + 1, bound =>
    if bound ≥ 2 then .done bound
    else match umul dbg bound 2 with
      | none => .panic
      | some bound => atLeast2 dbg fuel bound

/-- The padded size computed by `accumulate`, `merkle_tree_fp.rs` lines 36-43. 64 iterations are enough for every
input on which the loop terminates (proved in `Theorems/Merkle.lean`). `none` is "no value": a panic, or an
infinite loop (only possible for more than 2^63 leaves, which no slice can hold). -/
def paddedSize (dbg : Bool) (len : Nat) : Option Nat :=
  match roundUpPowN dbg 64 len 2 with
  | .done b => match atLeast2 dbg 64 b with
    | .done b => some b
    | _ => none
  | _ => none

/-- `for _ in nodes.len()..bound { nodes.push(nodes[set_size - 1].to_owned()) }`, `merkle_tree_fp.rs`
lines 49-51. `set_size - 1` is a `usize` subtraction: on an empty set it panics (debug) or wraps and the index
panics (release). -/
def padLoop {F : Type _} (dbg : Bool) (setSize : Nat) : Nat → List F → Option (List F)
  | 0, nodes => some nodes
  | k + 1, nodes => do
      let i ← usub dbg setSize 1
      let x ← nodes[i]?
      padLoop dbg setSize k (nodes ++ [x])

/-- Lines 36-51 of `merkle_tree_fp.rs`: the leaves followed by the padding. -/
def paddedNodes {F : Type _} (dbg : Bool) (set : List F) : Option (List F) := do
  let bound ← paddedSize dbg set.length
  padLoop dbg set.length (bound - set.length) set

/-- The inner `for i in (0..nodes.len()).step_by(2)` loop, `merkle_tree_fp.rs` lines 54-61: one level. `compress`
receives the slice `[&nodes[i], &nodes[i + 1]]` and may panic; `nodes[i + 1]` panics if the length is odd. -/
def levelPass {F : Type _} (compress : List F → Option F) (nodes : List F) : Option (List F) :=
  (stepBy2 nodes.length).foldlM (fun new_nodes i => do
    let a ← nodes[i]?
    let b ← nodes[i + 1]?
    let dig ← compress [a, b]
    pure (new_nodes ++ [dig])) []

/-! Facts about the loop that the termination of the outer loop needs. -/

/-- A loop over consecutive pairs, by recursion: the form in which the loop of `merkle_tree_fp.rs` lines 54-61 is
reasoned about (it is not a function of the source). -/
def pairFold {α β : Type _} (g : β → α → α → Option β) : List α → β → Option β
  | [], s => some s
  | [_], _ => none
  | a :: b :: rest, s => (g s a b).bind (pairFold g rest)

theorem stepBy2_succ (n : Nat) : stepBy2 (n + 2) = 0 :: (stepBy2 n).map (· + 2) := by
  unfold stepBy2
  rw [show (n + 2 + 1) / 2 = (n + 1) / 2 + 1 by omega, List.range_succ_eq_map, List.map_cons, List.map_map,
    List.map_map]
  rfl

theorem stepBy2_loop {α β : Type _} (g : β → α → α → Option β) : ∀ (l : List α) (s : β),
    (stepBy2 l.length).foldlM (fun s i => do
      let a ← l[i]?
      let b ← l[i + 1]?
      g s a b) s = pairFold g l s
  | [], s => by simp [stepBy2, pairFold]
  | [_], s => by simp [stepBy2, pairFold]
  | a :: b :: rest, s => by
      rw [List.length_cons, List.length_cons, stepBy2_succ, List.foldlM_cons, pairFold]
      simp only [List.getElem?_cons_zero, List.getElem?_cons_succ, Nat.zero_add, Option.bind_eq_bind, Option.bind_some,
        List.foldlM_map]
      congr 1
      funext s'
      have := stepBy2_loop g rest s'
      simp only [Option.bind_eq_bind] at this
      rw [← this]

theorem pairFold_length {α β : Type _} {g : β → α → α → Option β} {len : β → Nat}
    (hg : ∀ s a b s', g s a b = some s' → len s' = len s + 1) : ∀ (l : List α) (s s' : β),
    pairFold g l s = some s' → 2 * len s' = 2 * len s + l.length
  | [], s, s', h => by simp [pairFold] at h; simp [h]
  | [_], s, s', h => by simp [pairFold] at h
  | a :: b :: rest, s, s', h => by
      simp only [pairFold, Option.bind_eq_some_iff] at h
      obtain ⟨s1, h1, h2⟩ := h
      have := pairFold_length hg rest s1 s' h2
      have := hg s a b s1 h1
      simp only [List.length_cons]; omega

theorem levelPass_fold {F : Type _} (compress : List F → Option F) (l : List F) :
    levelPass compress l = pairFold (fun new_nodes a b => (compress [a, b]).bind fun dig => some (new_nodes ++ [dig])) l [] :=
  stepBy2_loop _ l []

theorem levelPass_length {F : Type _} (compress : List F → Option F) (l l' : List F)
    (h : levelPass compress l = some l') : 2 * l'.length = l.length := by
  rw [levelPass_fold] at h
  have := pairFold_length (len := List.length) (by
    intro s a b s' h
    simp only [Option.bind_eq_some_iff, Option.some.injEq] at h
    obtain ⟨dig, _, rfl⟩ := h
    simp) l [] l' h
  simpa using this

/-- `while nodes.len() > 1 { .. }` and `nodes[0].to_owned()`, `merkle_tree_fp.rs` lines 53-63. -/
def treeLoop {F : Type _} (compress : List F → Option F) (nodes : List F) : Option F :=
  if h : nodes.length > 1 then
    match hp : levelPass compress nodes with
    | none => none
    | some nodes' => treeLoop compress nodes'
  else nodes[0]?
termination_by nodes.length
decreasing_by
  have := levelPass_length compress nodes nodes' hp
  omega

/-- `MerkleTree::accumulate` over field elements, `src/merkle_tree/merkle_tree_fp.rs` lines 35-64. -/
def accumulate {F : Type _} (dbg : Bool) (compress : List F → Option F) (set : List F) : Option F := do
  let nodes ← paddedNodes dbg set
  treeLoop compress nodes

/-! The same functions with a counter of the calls of `compress` (`merkle_tree_fp.rs` line 58); erasing the counter
gives the functions above (`accumulateN_erase` in the proofs). -/

/-- `levelPass` (`merkle_tree_fp.rs` lines 54-61), counting the calls of `compress`. -/
def levelPassN {F : Type _} (compress : List F → Option F) (n : Nat) (nodes : List F) : Option (List F × Nat) :=
  (stepBy2 nodes.length).foldlM (fun st i => do
    let a ← nodes[i]?
    let b ← nodes[i + 1]?
    let dig ← compress [a, b]
    pure (st.1 ++ [dig], st.2 + 1)) ([], n)

theorem levelPassN_fold {F : Type _} (compress : List F → Option F) (n : Nat) (l : List F) :
    levelPassN compress n l = pairFold (fun (st : List F × Nat) a b =>
      (compress [a, b]).bind fun dig => some (st.1 ++ [dig], st.2 + 1)) l ([], n) :=
  stepBy2_loop _ l ([], n)

theorem levelPassN_length {F : Type _} (compress : List F → Option F) (n : Nat) (l : List F) (r : List F × Nat)
    (h : levelPassN compress n l = some r) : 2 * r.1.length = l.length := by
  rw [levelPassN_fold] at h
  have := pairFold_length (len := fun st : List F × Nat => st.1.length) (by
    intro s a b s' h
    simp only [Option.bind_eq_some_iff, Option.some.injEq] at h
    obtain ⟨dig, _, rfl⟩ := h
    simp) l ([], n) r h
  simpa using this

/-- `treeLoop` (`merkle_tree_fp.rs` lines 53-63), counting the calls of `compress`. -/
def treeLoopN {F : Type _} (compress : List F → Option F) (n : Nat) (nodes : List F) : Option (F × Nat) :=
  if h : nodes.length > 1 then
    match hp : levelPassN compress n nodes with
    | none => none
    | some r => treeLoopN compress r.2 r.1
  else do
    let x ← nodes[0]?
    pure (x, n)
termination_by nodes.length
decreasing_by
  have := levelPassN_length compress n nodes r hp
  omega

/-- `accumulate` (`merkle_tree_fp.rs` lines 35-64), counting the calls of `compress`. -/
def accumulateN {F : Type _} (dbg : Bool) (compress : List F → Option F) (set : List F) : Option (F × Nat) := do
  let nodes ← paddedNodes dbg set
  treeLoopN compress 0 nodes

/-- `while` loop of the level-indexed trees, `src/merkle_tree/merkle_tree_orchard.rs` lines 50-62 and
`src/merkle_tree/merkle_tree_sapling.rs` lines 50-62 (the same text): `compress(lv, &inp)`, `lv += 1`. -/
def treeLoopLv {F : Type _} (compress : Nat → List F → Option F) (lv : Nat) (nodes : List F) : Option F :=
  if h : nodes.length > 1 then
    match hp : levelPass (compress lv) nodes with
    | none => none
    | some nodes' => treeLoopLv compress (lv + 1) nodes'
  else nodes[0]?
termination_by nodes.length
decreasing_by
  have := levelPass_length (compress lv) nodes nodes' hp
  omega

/-- `MerkleTree::accumulate` of the Orchard tree, `src/merkle_tree/merkle_tree_orchard.rs` lines 32-63. -/
def accumulateOrchard {F : Type _} (dbg : Bool) (compress : Nat → List F → Option F) (set : List F) :
    Option F := do
  let nodes ← paddedNodes dbg set
  treeLoopLv compress 0 nodes

/-- `MerkleTree::accumulate` of the Sapling tree, `src/merkle_tree/merkle_tree_sapling.rs` lines 32-63. -/
def accumulateSapling {F : Type _} (dbg : Bool) (compress : Nat → List F → Option F) (set : List F) :
    Option F := do
  let nodes ← paddedNodes dbg set
  treeLoopLv compress 0 nodes

/-! ## The digest-based tree (`merkle_tree_f2.rs`): the hasher is mutable state -/

/-- An implementation of `Digest + FixedOutputReset`: internal state, `new`, `update`, `finalize_reset`. -/
structure DigestImpl (σ D : Type _) where
  new : σ
  update : σ → D → σ
  finalizeReset : σ → D × σ

variable {σ D : Type _}

/-- `MerkleTree::compress`, `src/merkle_tree/merkle_tree_f2.rs` lines 35-39. -/
def compressF2 (H : DigestImpl σ D) (hasher : σ) (a b : D) : D × σ :=
  H.finalizeReset (H.update (H.update hasher a) b)

/-- One level, `src/merkle_tree/merkle_tree_f2.rs` lines 60-67, threading the hasher state. The hasher state of a
panicking call is not needed: the panic unwinds the call. -/
def levelPassF2 (H : DigestImpl σ D) (h : σ) (nodes : List D) : Option (List D × σ) :=
  (stepBy2 nodes.length).foldlM (fun st i => do
    let a ← nodes[i]?
    let b ← nodes[i + 1]?
    let r := compressF2 H st.2 a b
    pure (st.1 ++ [r.1], r.2)) ([], h)

theorem levelPassF2_fold (H : DigestImpl σ D) (h : σ) (l : List D) :
    levelPassF2 H h l = pairFold (fun (st : List D × σ) a b =>
      some (st.1 ++ [(compressF2 H st.2 a b).1], (compressF2 H st.2 a b).2)) l ([], h) :=
  stepBy2_loop _ l ([], h)

theorem levelPassF2_length (H : DigestImpl σ D) (h : σ) (l : List D) (r : List D × σ)
    (hr : levelPassF2 H h l = some r) : 2 * r.1.length = l.length := by
  rw [levelPassF2_fold] at hr
  have := pairFold_length (len := fun st : List D × σ => st.1.length) (by
    intro s a b s' h
    simp only [Option.some.injEq] at h
    subst h
    simp) l ([], h) r hr
  simpa using this

/-- `while nodes.len() > 1 { .. }`, `src/merkle_tree/merkle_tree_f2.rs` lines 59-69. -/
def treeLoopF2 (H : DigestImpl σ D) (h : σ) (nodes : List D) : Option (D × σ) :=
  if hl : nodes.length > 1 then
    match hp : levelPassF2 H h nodes with
    | none => none
    | some r => treeLoopF2 H r.2 r.1
  else do
    let x ← nodes[0]?
    pure (x, h)
termination_by nodes.length
decreasing_by
  have := levelPassF2_length H h nodes r hp
  omega

/-- `MerkleTree::accumulate` of the digest tree, `src/merkle_tree/merkle_tree_f2.rs` lines 41-70: the result and the
hasher left behind in `self`. -/
def accumulateF2 (dbg : Bool) (H : DigestImpl σ D) (hasher : σ) (set : List D) : Option (D × σ) := do
  let nodes ← paddedNodes dbg set
  treeLoopF2 H hasher nodes

/-- A history of calls of `accumulate` on one tree created by `MerkleTree::new()`
(`src/merkle_tree/merkle_tree_f2.rs` lines 11-20). A call that panics before hashing (empty set) leaves the hasher
as it was; this is the only panic. -/
def historyF2 (dbg : Bool) (H : DigestImpl σ D) : σ → List (List D) → List (Option D) × σ
  | h, [] => ([], h)
  | h, set :: rest =>
    match accumulateF2 dbg H h set with
    | none => let r := historyF2 dbg H h rest; (none :: r.1, r.2)
    | some (root, h') => let r := historyF2 dbg H h' rest; (some root :: r.1, r.2)

end Merkle

end ZkHash

import Verif.Proofs.Merkle
import Mathlib.Data.List.GetD
import Mathlib.Data.Nat.Pairing

set_option autoImplicit false

/-!
# Merkle trees: C34 - C41, C47

`accumulate` is the tree over field elements, `accumulateOrchard` and `accumulateSapling` the level-indexed trees,
`accumulateF2` the digest tree. `none` is a panic. `dbg` is the build profile. A Rust slice of non-zero-sized elements
has fewer than `2^63` elements, so `set.length ≤ 2 ^ 63` holds for every slice there is.
-/

namespace ZkHash

open Spec Merkle

variable {F : Type _}

/-- The depth is what its description says: the least `k ≥ 1` with `n ≤ 2^k`. -/
theorem C34_depth (n : Nat) :
    1 ≤ depth n ∧ n ≤ 2 ^ depth n ∧ ∀ k, 1 ≤ k → n ≤ 2 ^ k → depth n ≤ k :=
  ⟨depth_pos n, le_two_pow_depth n, fun _ => depth_le⟩

/-- C34: the root is the recursive tree over the padded leaves (including: it panics iff a compression of the tree
does). -/
theorem C34_root (dbg : Bool) (c : List F → Option F) (set : List F) (hne : set ≠ []) (hlen : set.length ≤ 2 ^ 63) :
    accumulate dbg c set = tree (fun a b => c [a, b]) (depth set.length) (padded set hne) :=
  accumulate_eq dbg c hne hlen

example : accumulate true (fun l => some l.sum) [1, 2, 3, 4, 5] = some (1 + 2 + 3 + 4 + 5 + 5 + 5 + 5) := by
  rw [C34_root _ _ _ (by simp) (by simp)]
  decide

example : accumulate false (onPair fun a b => 2 * a + 3 * b + 1) [7, 9, 4] =
    some (2 * (2 * 7 + 3 * 9 + 1) + 3 * (2 * 4 + 3 * 4 + 1) + 1) := by
  rw [C34_root _ _ _ (by simp) (by simp)]
  decide

/-- C34 for a compression that always returns. -/
theorem C34_root_total (dbg : Bool) (h : F → F → F) (c : List F → Option F) (hc : ∀ a b, c [a, b] = some (h a b))
    (set : List F) (hne : set ≠ []) (hlen : set.length ≤ 2 ^ 63) :
    ∃ r, accumulate dbg c set = some r ∧
      tree (fun a b => some (h a b)) (depth set.length) (padded set hne) = some r := by
  have h1 := C34_root dbg c set hne hlen
  simp only [hc] at h1
  obtain ⟨r, hr⟩ := Option.isSome_iff_exists.mp
    (tree_isSome (fun a b => some (h a b)) (depth set.length) (fun _ _ => rfl) (padded set hne))
  exact ⟨r, h1.trans hr, hr⟩

/-! ## C35 -/

/-- C35: all four trees panic on the empty set, whatever the compression function, the hasher state and the
profile. -/
theorem C35_empty {σ : Type _} (dbg : Bool) (c : List F → Option F) (cl : Nat → List F → Option F)
    (H : DigestImpl σ F) (s : σ) :
    accumulate dbg c [] = none ∧ accumulateOrchard dbg cl [] = none ∧ accumulateSapling dbg cl [] = none ∧
      accumulateF2 dbg H s [] = none := by
  refine ⟨?_, ?_, ?_, ?_⟩
  · unfold accumulate; rw [paddedNodes_nil]; rfl
  · unfold accumulateOrchard; rw [paddedNodes_nil]; rfl
  · unfold accumulateSapling; rw [paddedNodes_nil]; rfl
  · unfold accumulateF2; rw [paddedNodes_nil]; rfl

/-- C35: on a nonempty set a tree returns if the compression does. -/
theorem C35_nonempty (dbg : Bool) (c : List F → Option F) (hc : ∀ a b, (c [a, b]).isSome) (set : List F)
    (hne : set ≠ []) (hlen : set.length ≤ 2 ^ 63) : (accumulate dbg c set).isSome := by
  rw [accumulate_eq dbg c hne hlen]
  exact tree_isSome _ _ hc _

theorem C35_nonempty_levels (dbg : Bool) (c : Nat → List F → Option F) (hc : ∀ lv a b, (c lv [a, b]).isSome)
    (set : List F) (hne : set ≠ []) (hlen : set.length ≤ 2 ^ 63) :
    (accumulateOrchard dbg c set).isSome ∧ (accumulateSapling dbg c set).isSome := by
  rw [accumulateOrchard_eq dbg c hne hlen, accumulateSapling_eq dbg c hne hlen]
  exact ⟨treeLv_isSome _ _ (fun lv _ => hc lv) _, treeLv_isSome _ _ (fun lv _ => hc lv) _⟩

/-- C35 for the digest tree: it returns on every nonempty set, from every hasher state that it can be in. -/
theorem C35_nonempty_digest {σ : Type _} (dbg : Bool) (H : DigestImpl σ F)
    (hreset : ∀ s, (H.finalizeReset s).2 = H.new) (set : List F) (hne : set ≠ []) (hlen : set.length ≤ 2 ^ 63) :
    (accumulateF2 dbg H H.new set).isSome := by
  rw [accumulateF2_eq dbg H hreset, Option.isSome_map]
  exact C35_nonempty dbg _ (fun _ _ => rfl) set hne hlen

example : (accumulate true (onPair fun a b => a + b) [3, 5, 6]).isSome :=
  C35_nonempty _ _ (fun _ _ => rfl) _ (by simp) (by simp)

/-! ## C36, C47 -/

/-- C36: two sets of the same padded size with the same root have the same padded leaves, or there are two different
node pairs, at the same height and position of the two trees, that compress to the same value. -/
theorem C36_collision (dbg dbg' : Bool) (c : List F → Option F) (s s' : List F) (hs : s ≠ []) (hs' : s' ≠ [])
    (hlen : s.length ≤ 2 ^ 63) (hlen' : s'.length ≤ 2 ^ 63) (hd : depth s.length = depth s'.length) (r : F)
    (h : accumulate dbg c s = some r) (h' : accumulate dbg' c s' = some r) :
    (∀ i, i < 2 ^ depth s.length → padded s hs i = padded s' hs' i) ∨
    ∃ k j a b a' b' v, k < depth s.length ∧ j < 2 ^ (depth s.length - 1 - k) ∧
      node (fun a b => c [a, b]) (padded s hs) k (2 * j) = some a ∧
      node (fun a b => c [a, b]) (padded s hs) k (2 * j + 1) = some b ∧
      node (fun a b => c [a, b]) (padded s' hs') k (2 * j) = some a' ∧
      node (fun a b => c [a, b]) (padded s' hs') k (2 * j + 1) = some b' ∧
      (a, b) ≠ (a', b') ∧ c [a, b] = some v ∧ c [a', b'] = some v := by
  rw [accumulate_eq dbg c hs hlen] at h
  rw [accumulate_eq dbg' c hs' hlen', ← hd] at h'
  exact tree_collision _ _ _ _ r h h'

/-- C36 for sets of equal length: different sets with equal roots yield a collision of the compression, between two
pairs at one place of the two trees. (That the compression has collisions somewhere is no news over a finite field, see
C94.) -/
theorem C36_collision_same_length (dbg dbg' : Bool) (c : List F → Option F) (s s' : List F) (hs : s ≠ []) (hs' : s' ≠ [])
    (hlen : s.length ≤ 2 ^ 63) (hl : s.length = s'.length) (hne : s ≠ s') (r : F)
    (h : accumulate dbg c s = some r) (h' : accumulate dbg' c s' = some r) :
    ∃ k j p p' v, k < depth s.length ∧ j < 2 ^ (depth s.length - 1 - k) ∧
      TreePair (fun a b => c [a, b]) (padded s hs) k j p ∧ TreePair (fun a b => c [a, b]) (padded s' hs') k j p' ∧
      p ≠ p' ∧ c [p.1, p.2] = some v ∧ c [p'.1, p'.2] = some v := by
  rcases C36_collision dbg dbg' c s s' hs hs' hlen (by omega) (by rw [hl]) r h h' with h1 | h1
  · exfalso
    apply hne
    apply List.ext_getElem hl
    intro i h2 h3
    have := h1 i (lt_of_lt_of_le h2 (le_two_pow_depth _))
    unfold padded at this
    rw [List.getD_eq_getElem _ _ h2, List.getD_eq_getElem _ _ h3] at this
    exact this
  · obtain ⟨k, j, a, b, a', b', v, h2, h3, h4, h5, h6, h7, h8⟩ := h1
    exact ⟨k, j, (a, b), (a', b'), v, h2, h3, ⟨h4, h5⟩, ⟨h6, h7⟩, h8⟩

/-- The hypotheses hold for a compression with collisions: `1 + 4 = 2 + 3`. -/
example : accumulate true (onPair fun a b => a + b) [1, 4, 5] = some 15 ∧
    accumulate true (onPair fun a b => a + b) [2, 3, 5] = some 15 := by
  constructor <;> (rw [C34_root _ _ _ (by simp) (by simp)]; decide)

/-- C47: if the compression has no collision between the pairs at one place of the two trees - it may have others, and
over a finite field it does -, then sets of equal length with equal roots are equal. -/
theorem C47_injective (dbg dbg' : Bool) (c : List F → Option F) (s s' : List F) (hs : s ≠ []) (hs' : s' ≠ [])
    (hinj : ∀ k j p p', k < depth s.length → j < 2 ^ (depth s.length - 1 - k) →
      TreePair (fun a b => c [a, b]) (padded s hs) k j p → TreePair (fun a b => c [a, b]) (padded s' hs') k j p' →
      c [p.1, p.2] = c [p'.1, p'.2] → p = p')
    (hlen : s.length ≤ 2 ^ 63) (hl : s.length = s'.length) (r : F)
    (h : accumulate dbg c s = some r) (h' : accumulate dbg' c s' = some r) : s = s' := by
  by_contra hne
  obtain ⟨k, j, p, p', v, h1, h2, h3, h4, h5, h6, h7⟩ :=
    C36_collision_same_length dbg dbg' c s s' hs hs' hlen hl hne r h h'
  exact h5 (hinj k j p p' h1 h2 h3 h4 (h6.trans h7.symm))

/-- C47, one leaf: writing another value to one leaf changes the root, unless the compression has a collision between
the two trees on the way of that leaf. -/
theorem C47_one_leaf (dbg dbg' : Bool) (c : List F → Option F) (s : List F) (hs : s ≠ []) (i : Nat) (hi : i < s.length)
    (v : F) (hv : v ≠ s[i]) (hs' : s.set i v ≠ [])
    (hinj : ∀ k j p p', k < depth s.length → j < 2 ^ (depth s.length - 1 - k) →
      TreePair (fun a b => c [a, b]) (padded s hs) k j p →
      TreePair (fun a b => c [a, b]) (padded (s.set i v) hs') k j p' → c [p.1, p.2] = c [p'.1, p'.2] → p = p')
    (hlen : s.length ≤ 2 ^ 63) (r r' : F) (h : accumulate dbg c s = some r)
    (h' : accumulate dbg' c (s.set i v) = some r') : r ≠ r' := by
  rintro rfl
  have := C47_injective dbg dbg' c s (s.set i v) hs hs' hinj hlen (by simp) r h h'
  apply hv
  have h2 : (s.set i v)[i]? = s[i]? := congrArg (·[i]?) this.symm
  rw [List.getElem?_set_self hi, List.getElem?_eq_getElem hi] at h2
  exact Option.some.inj h2

/-- The hypothesis is met over a finite field: writing 3 to the first of two leaves with `a + 2 b` modulo 7. -/
example : ∀ k j p p', k < depth ([1, 2] : List (Fin 7)).length → j < 2 ^ (depth ([1, 2] : List (Fin 7)).length - 1 - k) →
    TreePair (fun a b => onPair (fun a b => a + 2 * b) [a, b]) (padded ([1, 2] : List (Fin 7)) (by simp)) k j p →
    TreePair (fun a b => onPair (fun a b => a + 2 * b) [a, b]) (padded (([1, 2] : List (Fin 7)).set 0 3) (by simp)) k j p' →
    onPair (fun a b : Fin 7 => a + 2 * b) [p.1, p.2] = onPair (fun a b => a + 2 * b) [p'.1, p'.2] → p = p' := by
  intro k j p p' hk hj hp hp' he
  have hd : depth ([1, 2] : List (Fin 7)).length = 1 := by decide +kernel
  rw [hd] at hk hj
  obtain rfl : k = 0 := by omega
  obtain rfl : j = 0 := by simpa using hj
  obtain ⟨a, b⟩ := p
  obtain ⟨a', b'⟩ := p'
  obtain ⟨h1, h2⟩ := hp
  obtain ⟨h3, h4⟩ := hp'
  have e1 : (1 : Fin 7) = a := Option.some.inj h1
  have e2 : (2 : Fin 7) = b := Option.some.inj h2
  have e3 : (3 : Fin 7) = a' := Option.some.inj h3
  have e4 : (2 : Fin 7) = b' := Option.some.inj h4
  subst e1 e2 e3 e4
  revert he
  decide

/-! ## C37 -/

theorem padded_append_last (set : List F) (hne : set ≠ []) (h' : set ++ [set.getLast hne] ≠ []) :
    padded (set ++ [set.getLast hne]) h' = padded set hne := by
  funext i
  unfold padded
  rw [List.getLast_append_singleton]
  by_cases h1 : i < set.length
  · rw [List.getD_append _ _ _ _ h1]
  · rw [List.getD_append_right _ _ _ _ (by omega), List.getD_eq_default set _ (by omega)]
    by_cases h2 : i - set.length = 0
    · rw [h2]; rfl
    · rw [List.getD_eq_default]
      simp only [List.length_singleton]; omega

theorem depth_succ {n : Nat} (hpos : 1 ≤ n) (h : n = 1 ∨ ∀ k, n ≠ 2 ^ k) : depth (n + 1) = depth n := by
  apply depth_unique (depth_pos n)
  · rcases h with rfl | h
    · exact Nat.pow_le_pow_right (n := 2) (by omega) (depth_pos 1)
    · have := le_two_pow_depth n
      have := h (depth n)
      omega
  · intro j hj h1
    exact depth_le hj (by omega)

/-- C37: appending a copy of the last leaf to a set whose size is one or not a power of two does not change the
root. -/
theorem C37_append_last (dbg : Bool) (c : List F → Option F) (set : List F) (hne : set ≠ [])
    (hlen : set.length < 2 ^ 63) (hsize : set.length = 1 ∨ ∀ k, set.length ≠ 2 ^ k) :
    accumulate dbg c (set ++ [set.getLast hne]) = accumulate dbg c set := by
  have h' : set ++ [set.getLast hne] ≠ [] := by simp
  have hl : (set ++ [set.getLast hne]).length ≤ 2 ^ 63 := by
    rw [List.length_append, List.length_singleton]
    omega
  rw [accumulate_eq dbg c hne (by omega), accumulate_eq dbg c h' hl, padded_append_last, List.length_append, List.length_singleton,
    depth_succ (List.length_pos_of_ne_nil hne) hsize]

/-- C37 for the level-indexed trees. -/
theorem C37_append_last_levels (dbg : Bool) (c : Nat → List F → Option F) (set : List F) (hne : set ≠ [])
    (hlen : set.length < 2 ^ 63) (hsize : set.length = 1 ∨ ∀ k, set.length ≠ 2 ^ k) :
    accumulateOrchard dbg c (set ++ [set.getLast hne]) = accumulateOrchard dbg c set ∧
    accumulateSapling dbg c (set ++ [set.getLast hne]) = accumulateSapling dbg c set := by
  have h' : set ++ [set.getLast hne] ≠ [] := by simp
  have hl : (set ++ [set.getLast hne]).length ≤ 2 ^ 63 := by
    rw [List.length_append, List.length_singleton]
    omega
  rw [accumulateOrchard_eq dbg c hne (by omega), accumulateOrchard_eq dbg c h' hl,
    accumulateSapling_eq dbg c hne (by omega), accumulateSapling_eq dbg c h' hl, padded_append_last, List.length_append,
    List.length_singleton, depth_succ (List.length_pos_of_ne_nil hne) hsize]
  exact ⟨rfl, rfl⟩

theorem depth_two_pow {k : Nat} (hk : 1 ≤ k) : depth (2 ^ k) = k :=
  depth_unique hk (le_refl _) fun _ _ h => (Nat.pow_le_pow_iff_right (by omega)).mp h

/-- C37: the root over `2n ≥ 4` leaves, `n` a power of two, is the root over the `n` compressed pairs. -/
theorem C37_second_preimage (dbg : Bool) (c : List F → Option F) (set pairs : List F) (k : Nat) (hk : 1 ≤ k)
    (hk63 : k < 63) (hset : set.length = 2 * 2 ^ k) (hpairs : pairs.length = 2 ^ k)
    (hc : ∀ (i : Nat) (h0 : 2 * i < set.length) (h1 : 2 * i + 1 < set.length) (h2 : i < pairs.length),
      c [set[2 * i], set[2 * i + 1]] = some pairs[i]) :
    accumulate dbg c set = accumulate dbg c pairs := by
  have hpos : 0 < 2 ^ k := by positivity
  have hne : set ≠ [] := by rintro rfl; simp only [List.length_nil] at hset; omega
  have hne' : pairs ≠ [] := by rintro rfl; simp only [List.length_nil] at hpairs; omega
  have hle : 2 ^ (k + 1) ≤ 2 ^ 63 := Nat.pow_le_pow_right (by omega) (by omega)
  have h2 : 2 ^ (k + 1) = 2 * 2 ^ k := by rw [pow_succ, mul_comm]
  rw [accumulate_eq dbg c hne (by omega), accumulate_eq dbg c hne' (by omega), hset, hpairs, depth_two_pow hk, ← h2,
    depth_two_pow (by omega), tree_eq_treeLv, tree_eq_treeLv]
  refine treeLv_bottom _ k fun i hi => ?_
  have := hc i (by omega) (by omega) (by omega)
  unfold padded
  rw [List.getD_eq_getElem _ _ (by omega), List.getD_eq_getElem _ _ (by omega),
    List.getD_eq_getElem _ _ (by omega), this]

example : accumulate true (onPair fun a b => 2 * a + 3 * b) [1, 2, 3, 4] =
    accumulate true (onPair fun a b => 2 * a + 3 * b) [8, 18] :=
  C37_second_preimage _ _ _ _ 1 (by omega) (by omega) rfl rfl fun i _ _ h2 => by
    simp only [List.length_cons, List.length_nil] at h2
    interval_cases i <;> rfl

example : accumulate true (onPair fun a b => 2 * a + 3 * b) [1, 2, 3, 3] =
    accumulate true (onPair fun a b => 2 * a + 3 * b) [1, 2, 3] :=
  C37_append_last _ _ [1, 2, 3] (by simp) (by simp) (Or.inr fun k => by
    rcases k with _ | _ | k
    · simp
    · simp
    · simp only [List.length_cons, List.length_nil, pow_succ]; omega)

/-! ## C38 -/

/-- C38: in both level-indexed trees a node at height `h` is compressed with level `h - 1`. -/
theorem C38_levels (dbg : Bool) (c : Nat → List F → Option F) (set : List F) (hne : set ≠ [])
    (hlen : set.length ≤ 2 ^ 63) :
    accumulateOrchard dbg c set = treeLv (fun lv a b => c lv [a, b]) (depth set.length) (padded set hne) ∧
    accumulateSapling dbg c set = treeLv (fun lv a b => c lv [a, b]) (depth set.length) (padded set hne) :=
  ⟨accumulateOrchard_eq dbg c hne hlen, accumulateSapling_eq dbg c hne hlen⟩

/-- C38: levels from the depth on are never used: compressions that agree below it give the same root. -/
theorem C38_levels_above_unused (dbg : Bool) (c c' : Nat → List F → Option F) (set : List F) (hne : set ≠ [])
    (hlen : set.length ≤ 2 ^ 63) (h : ∀ lv, lv < depth set.length → c lv = c' lv) :
    accumulateOrchard dbg c set = accumulateOrchard dbg c' set ∧
    accumulateSapling dbg c set = accumulateSapling dbg c' set := by
  rw [accumulateOrchard_eq dbg c hne hlen, accumulateSapling_eq dbg c hne hlen, accumulateOrchard_eq dbg c' hne hlen,
    accumulateSapling_eq dbg c' hne hlen]
  have := treeLv_congr_c (fun lv a b => c lv [a, b]) (fun lv a b => c' lv [a, b]) (depth set.length)
    (fun lv hl => by simp only [h lv hl]) (padded set hne)
  exact ⟨this, this⟩

/-- C38: every level below the depth is used: a compression that panics on one of them makes the call panic. -/
theorem C38_levels_below_used (dbg : Bool) (c : Nat → List F → Option F) (set : List F) (hne : set ≠ [])
    (hlen : set.length ≤ 2 ^ 63) (lv : Nat) (hlv : lv < depth set.length) (h : ∀ l, c lv l = none) :
    accumulateOrchard dbg c set = none ∧ accumulateSapling dbg c set = none := by
  rw [accumulateOrchard_eq dbg c hne hlen, accumulateSapling_eq dbg c hne hlen]
  have := treeLv_none (fun lv a b => c lv [a, b]) (depth set.length) lv hlv (fun a b => h _) (padded set hne)
  exact ⟨this, this⟩

/-- C38: with a compression that ignores the level both agree with the tree over field elements (on all sets). -/
theorem C38_level_independent (dbg : Bool) (c : List F → Option F) (set : List F) :
    accumulateOrchard dbg (fun _ => c) set = accumulate dbg c set ∧
    accumulateSapling dbg (fun _ => c) set = accumulate dbg c set := by
  unfold accumulateOrchard accumulateSapling accumulate
  cases paddedNodes dbg set with
  | none => exact ⟨rfl, rfl⟩
  | some nodes =>
    simp only [Option.bind_eq_bind, Option.bind_some]
    exact ⟨(treeLoop_eq_lv c nodes 0).symm, (treeLoop_eq_lv c nodes 0).symm⟩

/-- Three leaves, padded to four: level 0 for both pairs of leaves, level 1 for the root. -/
example : accumulateOrchard true (fun lv => onPair fun a b => 100 * (lv + 1) + 2 * a + 3 * b) [1, 2, 3] =
    some (100 * 2 + 2 * (100 + 2 * 1 + 3 * 2) + 3 * (100 + 2 * 3 + 3 * 3)) := by
  rw [(C38_levels _ _ _ (by simp) (by simp)).1]
  decide

/-! ## C39 -/

/-- The contract of `Digest + FixedOutputReset`: the state holds the absorbed inputs, `finalize_reset` returns the
hash of them and leaves the initial state. -/
structure DigestContract {σ D : Type _} (H : DigestImpl σ D) (hash : List D → D) : Prop where
  exists_absorbed : ∃ absorbed : σ → List D, absorbed H.new = [] ∧
    (∀ s x, absorbed (H.update s x) = absorbed s ++ [x]) ∧
    ∀ s, H.finalizeReset s = (hash (absorbed s), H.new)

/-- C39: on one digest tree, every call in every history returns what the stateless tree over
`hash (left ‖ right)` returns on that call's set, and the hasher ends in its initial state. -/
theorem C39_history {σ D : Type _} (dbg : Bool) (H : DigestImpl σ D) (hash : List D → D) (hH : DigestContract H hash)
    (sets : List (List D)) :
    historyF2 dbg H H.new sets = (sets.map (accumulate dbg (onPair fun a b => hash [a, b])), H.new) := by
  obtain ⟨absorbed, h0, h1, h2⟩ := hH.exists_absorbed
  rw [historyF2_eq dbg H (fun s => by rw [h2])]
  have : (fun a b => (compressF2 H H.new a b).1) = fun a b => hash [a, b] := by
    funext a b
    unfold compressF2
    rw [h2, h1, h1, h0]
    rfl
  rw [this]

/-- C39: after every call the hasher is in its initial state. -/
theorem C39_state_after_call {σ D : Type _} (dbg : Bool) (H : DigestImpl σ D) (hash : List D → D)
    (hH : DigestContract H hash) (set : List D) (r : D × σ) (h : accumulateF2 dbg H H.new set = some r) :
    r.2 = H.new := by
  obtain ⟨absorbed, h0, h1, h2⟩ := hH.exists_absorbed
  rw [accumulateF2_eq dbg H (fun s => by rw [h2])] at h
  obtain ⟨x, -, rfl⟩ := Option.map_eq_some_iff.mp h
  rfl

/-- C39: each result is the recursive tree over `hash (left ‖ right)`. -/
theorem C39_root {σ D : Type _} (dbg : Bool) (H : DigestImpl σ D) (hash : List D → D) (hH : DigestContract H hash)
    (set : List D) (hne : set ≠ []) (hlen : set.length ≤ 2 ^ 63) :
    ∃ r, accumulateF2 dbg H H.new set = some (r, H.new) ∧
      tree (fun a b => some (hash [a, b])) (depth set.length) (padded set hne) = some r := by
  obtain ⟨absorbed, h0, h1, h2⟩ := hH.exists_absorbed
  have : (fun a b => (compressF2 H H.new a b).1) = fun a b => hash [a, b] := by
    funext a b
    unfold compressF2
    rw [h2, h1, h1, h0]
    rfl
  rw [accumulateF2_eq dbg H (fun s => by rw [h2]), this]
  obtain ⟨r, h3, h4⟩ := C34_root_total dbg (fun a b => hash [a, b]) (onPair fun a b => hash [a, b])
    (fun _ _ => rfl) set hne hlen
  exact ⟨r, by rw [h3]; rfl, h4⟩

/-- A digest that meets the contract. -/
def listDigest : DigestImpl (List Nat) Nat where
  new := []
  update s x := s ++ [x]
  finalizeReset s := (s.foldl (fun acc x => 31 * acc + x) 7, [])

example : DigestContract listDigest (fun l => l.foldl (fun acc x => 31 * acc + x) 7) :=
  ⟨fun s => s, rfl, fun _ _ => rfl, fun _ => rfl⟩

/-! ## C40 -/

/-- C40: up to `2^63` it returns, in both profiles, after at most 64 rounds of the loop, the least power `2^k` with
`k ≥ 1` that reaches the input. -/
theorem C40_least_power (dbg : Bool) (input : Nat) (h : input ≤ 2 ^ 63) :
    ∃ k, 1 ≤ k ∧ input ≤ 2 ^ k ∧ (∀ j, 1 ≤ j → input ≤ 2 ^ j → 2 ^ k ≤ 2 ^ j) ∧
      ∀ fuel, 64 ≤ fuel → roundUpPowN dbg fuel input 2 = .done (2 ^ k) :=
  ⟨depth input, depth_pos input, le_two_pow_depth input,
    fun _ h1 h2 => Nat.pow_le_pow_right (by omega) (depth_le h1 h2), fun _ hf => roundUp_two dbg h hf⟩

example : roundUpPowN true 64 5 2 = .done 8 ∧ roundUpPowN true 64 8 2 = .done 8 ∧
    roundUpPowN true 64 0 2 = .done 2 ∧ roundUpPowN true 64 1 2 = .done 2 := by decide

/-- C40: beyond `2^63` it panics when overflow is checked. -/
theorem C40_overflow_checked (input : Nat) (h : 2 ^ 63 < input) (fuel : Nat) (hf : 64 ≤ fuel) :
    roundUpPowN true fuel input 2 = .panic := by
  unfold roundUpPowN
  rw [if_neg (by simp)]
  have := roundUpLoop_panic (input := input) (n := 2) (k := 64) (by omega) (le_refl _) (j := 0) (by omega)
    (fun i h1 h2 => by
      have : 2 ^ i ≤ 2 ^ 63 := Nat.pow_le_pow_right (by omega) (by omega)
      omega) (fuel := fuel) (by omega)
  simpa using this

/-- C40: beyond `2^63` it never returns when overflow wraps: no number of rounds is enough. -/
theorem C40_overflow_wraps (input : Nat) (h : 2 ^ 63 < input) (fuel : Nat) :
    roundUpPowN false fuel input 2 = .outOfFuel := by
  unfold roundUpPowN
  rw [if_neg (by simp)]
  exact roundUpLoop_forever h fuel 1 (Or.inl ⟨0, by omega, rfl⟩)

/-- C40: the padded size of a set of at least two leaves is less than twice its size. -/
theorem C40_padded_size (dbg : Bool) (len : Nat) (h2 : 2 ≤ len) (h : len ≤ 2 ^ 63) :
    ∃ m, paddedSize dbg len = some m ∧ len ≤ m ∧ m < 2 * len := by
  refine ⟨2 ^ depth len, paddedSize_eq dbg h, le_two_pow_depth len, ?_⟩
  by_contra hc
  have h1 : depth len = 1 ∨ 2 ≤ depth len := by have := depth_pos len; omega
  rcases h1 with h1 | h1
  · rw [h1] at hc; omega
  · obtain ⟨j, hj⟩ : ∃ j, depth len = j + 1 := ⟨depth len - 1, by omega⟩
    rw [hj, pow_succ] at hc
    have := depth_le (n := len) (k := j) (by omega) (by omega)
    omega

/-- C40 for every base `n ≥ 2`: the least positive power that reaches the input, if it fits in 64 bits. -/
theorem C40_least_power_base (dbg : Bool) (input n k : Nat) (hn : 2 ≤ n) (hk : 1 ≤ k) (hle : input ≤ n ^ k)
    (hfit : n ^ k < 2 ^ 64) (hmin : ∀ j, 1 ≤ j → input ≤ n ^ j → k ≤ j) (fuel : Nat) (hf : 64 ≤ fuel) :
    roundUpPowN dbg fuel input n = .done (n ^ k) := by
  unfold roundUpPowN
  rw [if_neg (by simp only [Bool.and_eq_true, decide_eq_true_eq]; omega)]
  have hk64 : k < 64 := by
    by_contra hc
    have h1 : 2 ^ 64 ≤ 2 ^ k := Nat.pow_le_pow_right (by omega) (by omega)
    have h2 : 2 ^ k ≤ n ^ k := Nat.pow_le_pow_left hn k
    omega
  have := roundUpLoop_done dbg (input := input) (n := n) (k := k) hn hfit hle (j := 0) hk (fun i h1 h2 => by
    by_contra hc
    have := hmin i h1 (by omega)
    omega) (fuel := fuel) (by omega)
  simpa using this

/-! ## C41 -/

/-- C41: the counter does not change the result ... -/
theorem C41_erase (dbg : Bool) (c : List F → Option F) (set : List F) (hlen : set.length ≤ 2 ^ 63) :
    (accumulateN dbg c set).map Prod.fst = accumulate dbg c set := by
  by_cases hne : set = []
  · subst hne
    unfold accumulateN accumulate
    rw [paddedNodes_nil]
    rfl
  · rw [accumulateN_eq dbg c hne hlen, Option.map_map]
    exact Option.map_id'

/-- C41: ... and every call that returns has called the compression function one time less than the padded size. -/
theorem C41_count (dbg : Bool) (c : List F → Option F) (set : List F) (hne : set ≠ []) (hlen : set.length ≤ 2 ^ 63)
    (r : F) (h : accumulate dbg c set = some r) :
    ∃ bound, paddedSize dbg set.length = some bound ∧ accumulateN dbg c set = some (r, bound - 1) :=
  ⟨2 ^ depth set.length, paddedSize_eq dbg hlen, by rw [accumulateN_eq dbg c hne hlen, h]; rfl⟩

/-- Five leaves: padded to eight, seven compressions. -/
example : ∃ r, accumulateN true (onPair fun a b => a + b) [1, 2, 3, 4, 5] = some (r, 7) := by
  obtain ⟨r, h1, -⟩ := C34_root_total true (fun a b => a + b) (onPair fun a b : Nat => a + b) (fun _ _ => rfl)
    [1, 2, 3, 4, 5] (by simp) (by simp)
  obtain ⟨b, h2, h3⟩ := C41_count true _ [1, 2, 3, 4, 5] (by simp) (by simp) r h1
  have : paddedSize true 5 = some 8 := by decide
  rw [List.length_cons, List.length_cons, List.length_cons, List.length_cons, List.length_cons, List.length_nil,
    this] at h2
  cases h2
  exact ⟨r, h3⟩

end ZkHash

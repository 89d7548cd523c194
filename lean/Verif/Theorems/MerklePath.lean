import Verif.Spec.MerklePath
import Verif.Theorems.Merkle

set_option autoImplicit false

/-!
# Opening a leaf of a Merkle tree: C69
-/

namespace ZkHash

open Spec Merkle

variable {F : Type _}

namespace MerklePath

theorem nodeLv_zero (c : Nat → F → F → Option F) (f : Nat → F) (j : Nat) : nodeLv c f 0 j = some (f j) := by
  simp [nodeLv, treeLv, shift]

theorem nodeLv_succ (c : Nat → F → F → Option F) (f : Nat → F) (h j : Nat) :
    nodeLv c f (h + 1) j = match nodeLv c f h (2 * j), nodeLv c f h (2 * j + 1) with
      | some a, some b => c h a b
      | _, _ => none := by
  unfold nodeLv
  rw [treeLv, shift_shift]
  have e1 : j * 2 ^ (h + 1) = 2 * j * 2 ^ h := by ring
  have e2 : j * 2 ^ (h + 1) + 2 ^ h = (2 * j + 1) * 2 ^ h := by ring
  rw [e2, e1]
  rcases treeLv c h (shift (2 * j * 2 ^ h) f) with _ | a <;> rcases treeLv c h (shift ((2 * j + 1) * 2 ^ h) f) with _ | b <;> rfl

theorem nodeLv_root (c : Nat → F → F → Option F) (f : Nat → F) (k : Nat) : nodeLv c f k 0 = treeLv c k f := by
  unfold nodeLv
  rw [Nat.zero_mul]
  congr 1
  funext i
  simp [shift]

/-- The children of a node that has a value have values. -/
theorem children {c : Nat → F → F → Option F} {f : Nat → F} {h j : Nat} {v : F} (hv : nodeLv c f (h + 1) j = some v) :
    ∃ a b, nodeLv c f h (2 * j) = some a ∧ nodeLv c f h (2 * j + 1) = some b ∧ c h a b = some v := by
  rw [nodeLv_succ] at hv
  split at hv
  · rename_i a b ha hb
    exact ⟨a, b, ha, hb, hv⟩
  · cases hv

/-- The node on the way of leaf `i`, and the one beside it. -/
theorem children_on_path {c : Nat → F → F → Option F} {f : Nat → F} {h i : Nat} {v : F}
    (hv : nodeLv c f (h + 1) (i / 2) = some v) :
    ∃ x s, nodeLv c f h i = some x ∧ nodeLv c f h (sibling i) = some s ∧
      (if i % 2 = 0 then c h x s else c h s x) = some v := by
  obtain ⟨a, b, ha, hb, hc⟩ := children hv
  rcases Nat.mod_two_eq_zero_or_one i with h0 | h1
  · rw [show 2 * (i / 2) = i by omega] at ha
    rw [show 2 * (i / 2) + 1 = sibling i by unfold sibling; rw [if_pos h0]; omega] at hb
    exact ⟨a, b, ha, hb, by rw [if_pos h0]; exact hc⟩
  · rw [show 2 * (i / 2) + 1 = i by omega] at hb
    rw [show 2 * (i / 2) = sibling i by unfold sibling; rw [if_neg (by omega)]; omega] at ha
    exact ⟨b, a, hb, ha, by rw [if_neg (by omega)]; exact hc⟩

/-- Completeness, from height `h` on. -/
theorem complete (c : Nat → F → F → Option F) (f : Nat → F) {v : F} : ∀ (n h i : Nat),
    nodeLv c f (h + n) (i / 2 ^ n) = some v → ∃ (x : F) (ss : List F), nodeLv c f h i = some x ∧ ss.length = n ∧
      (∀ m < n, nodeLv c f (h + m) (sibling (i / 2 ^ m)) = ss[m]?) ∧ pathRoot c h i x ss = some v
  | 0, h, i, hv => ⟨v, [], by simpa using hv, rfl, fun m hm => absurd hm (by omega), rfl⟩
  | n + 1, h, i, hv => by
    have e : i / 2 ^ (n + 1) = i / 2 / 2 ^ n := by rw [pow_succ', Nat.div_div_eq_div_mul]
    rw [e, show h + (n + 1) = h + 1 + n by omega] at hv
    obtain ⟨y, ss, hy, hlen, hss, hp⟩ := complete c f n (h + 1) (i / 2) hv
    obtain ⟨x, s, hx, hs, hc⟩ := children_on_path hy
    refine ⟨x, s :: ss, hx, by simp [hlen], fun m hm => ?_, ?_⟩
    · cases m with
      | zero => simpa using hs
      | succ m =>
        have := hss m (by omega)
        rw [Nat.div_div_eq_div_mul, ← pow_succ'] at this
        rw [List.getElem?_cons_succ, ← this, show h + (m + 1) = h + 1 + m by omega]
    · rw [pathRoot, hc]
      exact hp

/-- Soundness, from height `h` on. -/
theorem sound (c : Nat → F → F → Option F) (f : Nat → F) {v : F} : ∀ (ss : List F) (h i : Nat) (y : F),
    nodeLv c f (h + ss.length) (i / 2 ^ ss.length) = some v → pathRoot c h i y ss = some v → nodeLv c f h i ≠ some y →
      ∃ m p p' w, m < ss.length ∧ TreePairLv c f (h + m) (i / 2 ^ (m + 1)) p ∧ (h + m, p') ∈ pathPairs c h i y ss ∧
        p ≠ p' ∧ c (h + m) p.1 p.2 = some w ∧ c (h + m) p'.1 p'.2 = some w
  | [], h, i, y, hv, hp, hne => by
    simp only [pathRoot, Option.some.injEq] at hp
    subst hp
    exact absurd (by simpa using hv) hne
  | s :: ss, h, i, y, hv, hp, hne => by
    rw [List.length_cons] at hv
    have e : i / 2 ^ (ss.length + 1) = i / 2 / 2 ^ ss.length := by rw [pow_succ', Nat.div_div_eq_div_mul]
    rw [e, show h + (ss.length + 1) = h + 1 + ss.length by omega] at hv
    rw [pathRoot] at hp
    split at hp
    · rename_i z hz
      by_cases hnode : nodeLv c f (h + 1) (i / 2) = some z
      · obtain ⟨a, b, ha, hb, hc⟩ := children hnode
        refine ⟨0, (a, b), if i % 2 = 0 then (y, s) else (s, y), z, by simp, ?_, ?_, ?_, hc, ?_⟩
        · rw [Nat.zero_add, pow_one, Nat.add_zero]
          exact ⟨ha, hb⟩
        · rw [pathPairs]
          exact List.mem_cons_self
        · rcases Nat.mod_two_eq_zero_or_one i with h0 | h1
          · rw [if_pos h0]
            rw [show 2 * (i / 2) = i by omega] at ha
            exact fun he => hne (ha.trans (congrArg some (Prod.ext_iff.mp he).1))
          · rw [if_neg (by omega)]
            rw [show 2 * (i / 2) + 1 = i by omega] at hb
            exact fun he => hne (hb.trans (congrArg some (Prod.ext_iff.mp he).2))
        · rw [Nat.add_zero]
          split <;> rename_i h0
          · rwa [if_pos h0] at hz
          · rwa [if_neg h0] at hz
      · obtain ⟨m, p, p', w, h1, h2, h3, h4⟩ := sound c f ss (h + 1) (i / 2) z hv hp hnode
        rw [show h + 1 + m = h + (m + 1) by omega] at h2 h3 h4
        refine ⟨m + 1, p, p', w, by rw [List.length_cons]; omega, ?_, ?_, h4⟩
        · rw [pow_succ', ← Nat.div_div_eq_div_mul]
          exact h2
        · rw [pathPairs]
          refine List.mem_cons_of_mem _ ?_
          have : c h (if i % 2 = 0 then (y, s) else (s, y)).1 (if i % 2 = 0 then (y, s) else (s, y)).2 = some z := by
            split <;> rename_i h0
            · rwa [if_pos h0] at hz
            · rwa [if_neg h0] at hz
          simp only [this]
          exact h3
    · cases hp

theorem nodeLv_const (c : F → F → Option F) (f : Nat → F) (h j : Nat) : nodeLv (fun _ => c) f h j = node c f h j := by
  unfold nodeLv node
  generalize shift (j * 2 ^ h) f = g
  induction h generalizing g with
  | zero => rfl
  | succ h ih => rw [treeLv, tree, ih, ih]

theorem treePair_const (c : F → F → Option F) (f : Nat → F) (h j : Nat) (p : F × F) :
    TreePairLv (fun _ => c) f h j p ↔ TreePair c f h j p := by
  unfold TreePairLv TreePair
  rw [nodeLv_const, nodeLv_const]

theorem pathRoot_level (c : F → F → Option F) : ∀ (ss : List F) (lv lv' i : Nat) (x : F),
    pathRoot (fun _ => c) lv i x ss = pathRoot (fun _ => c) lv' i x ss
  | [], _, _, _, _ => rfl
  | s :: ss, lv, lv', i, x => by
    rw [pathRoot, pathRoot]
    split
    · rename_i y _
      exact pathRoot_level c ss (lv + 1) (lv' + 1) (i / 2) y
    · rfl

theorem lt_div {i k : Nat} (h : i < 2 ^ k) : i / 2 ^ k = 0 := Nat.div_eq_of_lt h

end MerklePath

open MerklePath

/-- **C69**, completeness, for the trees over field elements: if `accumulate` returns `root`, then every leaf of the
padded set (every `i < 2^depth`) has a path of `depth` siblings - the values of the nodes beside its way to the root -
with which a verifier computes `root`. -/
theorem C69_complete (dbg : Bool) (c : List F → Option F) (set : List F) (hne : set ≠ []) (hlen : set.length ≤ 2 ^ 63)
    {root : F} (h : accumulate dbg c set = some root) (i : Nat) (hi : i < 2 ^ depth set.length) :
    ∃ ss : List F, ss.length = depth set.length ∧
      (∀ m < depth set.length, node (fun a b => c [a, b]) (padded set hne) m (sibling (i / 2 ^ m)) = ss[m]?) ∧
      pathRoot (fun _ a b => c [a, b]) 0 i (padded set hne i) ss = some root := by
  rw [C34_root dbg c set hne hlen] at h
  have hr : nodeLv (fun _ a b => c [a, b]) (padded set hne) (0 + depth set.length) (i / 2 ^ depth set.length) = some root := by
    rw [lt_div hi, Nat.zero_add, nodeLv_const, ← h, node, Nat.zero_mul]
    congr 1
    funext j
    simp [shift]
  obtain ⟨x, ss, hx, hl, hs, hp⟩ := complete _ _ _ 0 i hr
  rw [nodeLv_zero, Option.some.injEq] at hx
  subst hx
  refine ⟨ss, hl, fun m hm => ?_, hp⟩
  rw [← hs m hm, Nat.zero_add, nodeLv_const]

/-- **C69**, soundness: whoever opens position `i` of the root to a value that is not the leaf there, with a path of the
right length, exhibits a collision of the compression function: between the pair that the tree compresses on the way of
leaf `i` at some level, and the pair that the verifier compresses at that level. -/
theorem C69_sound (dbg : Bool) (c : List F → Option F) (set : List F) (hne : set ≠ []) (hlen : set.length ≤ 2 ^ 63)
    {root : F} (h : accumulate dbg c set = some root) (i : Nat) (hi : i < 2 ^ depth set.length) (y : F) (ss : List F)
    (hss : ss.length = depth set.length) (hp : pathRoot (fun _ a b => c [a, b]) 0 i y ss = some root)
    (hy : y ≠ padded set hne i) :
    ∃ m p p' w, m < depth set.length ∧ TreePair (fun a b => c [a, b]) (padded set hne) m (i / 2 ^ (m + 1)) p ∧
      (m, p') ∈ pathPairs (fun _ a b => c [a, b]) 0 i y ss ∧ p ≠ p' ∧ c [p.1, p.2] = some w ∧
      c [p'.1, p'.2] = some w := by
  rw [C34_root dbg c set hne hlen] at h
  have hr : nodeLv (fun _ a b => c [a, b]) (padded set hne) (0 + ss.length) (i / 2 ^ ss.length) = some root := by
    rw [hss, lt_div hi, Nat.zero_add, nodeLv_const, ← h, node, Nat.zero_mul]
    congr 1
    funext j
    simp [shift]
  obtain ⟨m, p, p', w, h1, h2, h3, h4⟩ := sound _ _ ss 0 i y hr hp (by
    rw [nodeLv_zero]
    exact fun he => hy (Option.some.inj he).symm)
  rw [Nat.zero_add, treePair_const] at h2
  rw [Nat.zero_add] at h3
  exact ⟨m, p, p', w, by omega, h2, h3, h4⟩

/-- **C69**, the length has to be checked: with a path shorter by one, the position `i / 2` opens to an inner node. -/
theorem C69_length_matters (dbg : Bool) (c : List F → Option F) (set : List F) (hne : set ≠ [])
    (hlen : set.length ≤ 2 ^ 63) {root : F} (h : accumulate dbg c set = some root) (i : Nat)
    (hi : 2 * i + 1 < 2 ^ depth set.length) :
    ∃ (v : F) (ss : List F), c [padded set hne (2 * i), padded set hne (2 * i + 1)] = some v ∧
      ss.length + 1 = depth set.length ∧ pathRoot (fun _ a b => c [a, b]) 0 i v ss = some root := by
  rw [C34_root dbg c set hne hlen] at h
  obtain ⟨k, hk⟩ : ∃ k, depth set.length = k + 1 := ⟨depth set.length - 1, by have := depth_pos set.length; omega⟩
  have hik : i < 2 ^ k := by rw [hk, pow_succ] at hi; omega
  have hr : nodeLv (fun _ a b => c [a, b]) (padded set hne) (1 + k) (i / 2 ^ k) = some root := by
    rw [lt_div hik, nodeLv_const, ← h, hk, Nat.add_comm 1 k, node, Nat.zero_mul]
    congr 1
    funext j
    simp [shift]
  obtain ⟨v, ss, hv, hl, -, hp⟩ := complete _ _ k 1 i hr
  rw [nodeLv_succ, nodeLv_zero, nodeLv_zero] at hv
  exact ⟨v, ss, hv, by omega, by rw [pathRoot_level _ ss 0 1]; exact hp⟩

/-- **C69** for the Orchard and Sapling trees, completeness: the verifier compresses with the level of the node. -/
theorem C69_complete_levels (dbg : Bool) (c : Nat → List F → Option F) (set : List F) (hne : set ≠ [])
    (hlen : set.length ≤ 2 ^ 63) {root : F}
    (h : accumulateOrchard dbg c set = some root ∨ accumulateSapling dbg c set = some root) (i : Nat)
    (hi : i < 2 ^ depth set.length) :
    ∃ ss : List F, ss.length = depth set.length ∧
      pathRoot (fun lv a b => c lv [a, b]) 0 i (padded set hne i) ss = some root := by
  rw [(C38_levels dbg c set hne hlen).1, (C38_levels dbg c set hne hlen).2, or_self] at h
  have hr : nodeLv (fun lv a b => c lv [a, b]) (padded set hne) (0 + depth set.length) (i / 2 ^ depth set.length) = some root := by
    rw [lt_div hi, Nat.zero_add, nodeLv_root, h]
  obtain ⟨x, ss, hx, hl, -, hp⟩ := complete _ _ _ 0 i hr
  rw [nodeLv_zero, Option.some.injEq] at hx
  subst hx
  exact ⟨ss, hl, hp⟩

/-- **C69** for the Orchard and Sapling trees, soundness: a wrong opening exhibits a collision of the compression at one
level below the depth, between a pair of the tree and a pair of the verifier. -/
theorem C69_sound_levels (dbg : Bool) (c : Nat → List F → Option F) (set : List F) (hne : set ≠ [])
    (hlen : set.length ≤ 2 ^ 63) {root : F}
    (h : accumulateOrchard dbg c set = some root ∨ accumulateSapling dbg c set = some root) (i : Nat)
    (hi : i < 2 ^ depth set.length) (y : F) (ss : List F) (hss : ss.length = depth set.length)
    (hp : pathRoot (fun lv a b => c lv [a, b]) 0 i y ss = some root) (hy : y ≠ padded set hne i) :
    ∃ lv p p' w, lv < depth set.length ∧
      TreePairLv (fun lv a b => c lv [a, b]) (padded set hne) lv (i / 2 ^ (lv + 1)) p ∧
      (lv, p') ∈ pathPairs (fun lv a b => c lv [a, b]) 0 i y ss ∧ p ≠ p' ∧ c lv [p.1, p.2] = some w ∧
      c lv [p'.1, p'.2] = some w := by
  rw [(C38_levels dbg c set hne hlen).1, (C38_levels dbg c set hne hlen).2, or_self] at h
  have hr : nodeLv (fun lv a b => c lv [a, b]) (padded set hne) (0 + ss.length) (i / 2 ^ ss.length) = some root := by
    rw [hss, lt_div hi, Nat.zero_add, nodeLv_root, h]
  obtain ⟨m, p, p', w, h1, h2, h3, h4⟩ := sound _ _ ss 0 i y hr hp (by
    rw [nodeLv_zero]
    exact fun he => hy (Option.some.inj he).symm)
  rw [Nat.zero_add] at h2 h3 h4
  exact ⟨m, p, p', w, by omega, h2, h3, h4⟩

/-- **C69** for the digest tree: both directions, for any history of earlier calls (the hasher is back in its initial
state after each of them, C39). -/
theorem C69_digest {σ D : Type _} (dbg : Bool) (H : DigestImpl σ D) (hash : List D → D) (hH : DigestContract H hash)
    (set : List D) (hne : set ≠ []) (hlen : set.length ≤ 2 ^ 63) {root : D} {s : σ}
    (h : accumulateF2 dbg H H.new set = some (root, s)) (i : Nat) (hi : i < 2 ^ depth set.length) :
    (∃ ss : List D, ss.length = depth set.length ∧
      pathRoot (fun _ a b => some (hash [a, b])) 0 i (padded set hne i) ss = some root) ∧
    ∀ (y : D) (ss : List D), ss.length = depth set.length →
      pathRoot (fun _ a b => some (hash [a, b])) 0 i y ss = some root → y ≠ padded set hne i →
        ∃ m p p', m < depth set.length ∧
          TreePair (fun a b => some (hash [a, b])) (padded set hne) m (i / 2 ^ (m + 1)) p ∧
          (m, p') ∈ pathPairs (fun _ a b => some (hash [a, b])) 0 i y ss ∧ p ≠ p' ∧
          hash [p.1, p.2] = hash [p'.1, p'.2] := by
  obtain ⟨r, hr1, hr2⟩ := C39_root dbg H hash hH set hne hlen
  rw [h] at hr1
  have he := (Prod.ext_iff.mp (Option.some.inj hr1)).1
  dsimp only at he
  rw [← he] at hr2
  have hr : ∀ n, n = depth set.length →
      nodeLv (fun _ a b => some (hash [a, b])) (padded set hne) (0 + n) (i / 2 ^ n) = some root := by
    rintro n rfl
    rw [lt_div hi, Nat.zero_add, nodeLv_const, ← hr2, node, Nat.zero_mul]
    congr 1
    funext j
    simp [shift]
  refine ⟨?_, fun y ss hss hp hy => ?_⟩
  · obtain ⟨x, ss, hx, hl, -, hp⟩ := complete _ _ _ 0 i (hr _ rfl)
    rw [nodeLv_zero, Option.some.injEq] at hx
    subst hx
    exact ⟨ss, hl, hp⟩
  · obtain ⟨m, p, p', w, h1, h2, h3, h4, h5, h6⟩ := sound _ _ ss 0 i y (hr _ hss) hp (by
      rw [nodeLv_zero]
      exact fun he => hy (Option.some.inj he).symm)
    simp only [Option.some.injEq] at h5 h6
    rw [Nat.zero_add, treePair_const] at h2
    rw [Nat.zero_add] at h3
    exact ⟨m, p, p', by omega, h2, h3, h4, h5.trans h6.symm⟩

/-- Leaf 2 of the tree over `[1, 2, 3]`, which is padded to `[1, 2, 3, 3]`: the path is `[3, 1 - 2 * 2]` for the
compression `a - 2 * b`. -/
example : accumulate true (onPair fun a b : Int => a - 2 * b) [1, 2, 3] = some 3 ∧
    pathRoot (fun _ a b => onPair (fun a b : Int => a - 2 * b) [a, b]) 0 2 3 [3, -3] = some 3 := by
  rw [C34_root _ _ _ (by simp) (by simp)]
  decide

end ZkHash

import Verif.Theorems.MerklePath

set_option autoImplicit false

/-!
# Which leaf sets share a Merkle root: C77

`node c f h j` is the value at height `h` and position `j` of the tree over the leaves `f`. A collision is a pair of
different inputs of the compression with one output.
-/

namespace ZkHash

open Spec Merkle

variable {F : Type _}

namespace MerkleBinding

open MerklePath

/-- Going down two trees from one value: the leaves of the first are the nodes at height `k` of the second, or two
different pairs are compressed to one value. -/
theorem descend (c : Nat → F → F → Option F) (f g : Nat → F) (k : Nat) : ∀ (h j : Nat) (v : F),
    nodeLv c f h j = some v → nodeLv c g (h + k) j = some v →
    (∀ i, i < 2 ^ h → nodeLv c g k (j * 2 ^ h + i) = some (f (j * 2 ^ h + i))) ∨
    ∃ lv q p p' w, lv < h ∧ q / 2 ^ (h - 1 - lv) = j ∧ TreePairLv c f lv q p ∧ TreePairLv c g (lv + k) q p' ∧ p ≠ p' ∧
      c lv p.1 p.2 = some w ∧ c (lv + k) p'.1 p'.2 = some w
  | 0, j, v, h1, h2 => by
    left
    intro i hi
    have : i = 0 := by simpa using hi
    subst this
    rw [nodeLv_zero] at h1
    rw [Nat.zero_add] at h2
    rw [pow_zero, Nat.mul_one, Nat.add_zero, h2, h1]
  | h + 1, j, v, h1, h2 => by
    rw [show h + 1 + k = h + k + 1 by omega] at h2
    obtain ⟨a, b, ha, hb, hc⟩ := children h1
    obtain ⟨a', b', ha', hb', hc'⟩ := children h2
    by_cases hab : (a, b) = (a', b')
    · simp only [Prod.mk.injEq] at hab
      obtain ⟨rfl, rfl⟩ := hab
      rcases descend c f g k h (2 * j) a ha ha' with l1 | ⟨lv, q, x, x', w, hl, hq, hr⟩
      · rcases descend c f g k h (2 * j + 1) b hb hb' with l2 | ⟨lv, q, x, x', w, hl, hq, hr⟩
        · left
          intro i hi
          rw [pow_succ] at hi
          by_cases hik : i < 2 ^ h
          · have := l1 i hik
            rw [show 2 * j * 2 ^ h + i = j * 2 ^ (h + 1) + i by ring] at this
            exact this
          · have := l2 (i - 2 ^ h) (by omega)
            rw [show (2 * j + 1) * 2 ^ h + (i - 2 ^ h) = j * 2 ^ (h + 1) + i by
              have : 2 ^ h + (i - 2 ^ h) = i := by omega
              rw [Nat.add_mul, Nat.one_mul, Nat.add_assoc, this]; ring] at this
            exact this
        · refine Or.inr ⟨lv, q, x, x', w, by omega, ?_, hr⟩
          rw [show h + 1 - 1 - lv = h - 1 - lv + 1 by omega, pow_succ, ← Nat.div_div_eq_div_mul, hq]
          omega
      · refine Or.inr ⟨lv, q, x, x', w, by omega, ?_, hr⟩
        rw [show h + 1 - 1 - lv = h - 1 - lv + 1 by omega, pow_succ, ← Nat.div_div_eq_div_mul, hq]
        omega
    · exact Or.inr ⟨h, j, (a, b), (a', b'), v, by omega, by simp, ⟨ha, hb⟩, ⟨ha', hb'⟩, hab, hc, hc'⟩

/-- A position that is under the root. -/
theorem lt_of_div {q n : Nat} (h : q / 2 ^ n = 0) : q < 2 ^ n := by
  rcases Nat.div_eq_zero_iff.mp h with h | h
  · exact absurd h (by positivity)
  · exact h

/-- Going up: a tree whose nodes at height `k` are the leaves of another has the same nodes above. -/
theorem ascend (c : F → F → Option F) (f g : Nat → F) (k : Nat) : ∀ (h j : Nat),
    (∀ i, i < 2 ^ h → node c g k (j * 2 ^ h + i) = some (f (j * 2 ^ h + i))) →
    nodeLv (fun _ => c) g (h + k) j = nodeLv (fun _ => c) f h j
  | 0, j, hl => by
    have := hl 0 (by simp)
    rw [pow_zero, Nat.mul_one, Nat.add_zero] at this
    rw [Nat.zero_add, nodeLv_zero, nodeLv_const, this]
  | h + 1, j, hl => by
    rw [show h + 1 + k = h + k + 1 by omega, nodeLv_succ, nodeLv_succ, ascend c f g k h (2 * j) fun i hi => ?_,
      ascend c f g k h (2 * j + 1) fun i hi => ?_]
    · have := hl (2 ^ h + i) (by rw [pow_succ]; omega)
      rw [show j * 2 ^ (h + 1) + (2 ^ h + i) = (2 * j + 1) * 2 ^ h + i by ring] at this
      exact this
    · have := hl i (by rw [pow_succ]; omega)
      rw [show j * 2 ^ (h + 1) + i = 2 * j * 2 ^ h + i by ring] at this
      exact this

theorem depth_mono {m n : Nat} (h : m ≤ n) : depth m ≤ depth n :=
  depth_le (depth_pos n) (le_trans h (le_two_pow_depth n))

/-- Two padded sets agree iff the longer continues the shorter with copies of its last leaf. -/
theorem padded_agree_iff (s s' : List F) (hs : s ≠ []) (hs' : s' ≠ []) (hle : s.length ≤ s'.length)
    (hd : depth s.length = depth s'.length) :
    (∀ i, i < 2 ^ depth s.length → padded s hs i = padded s' hs' i) ↔
      s' = s ++ List.replicate (s'.length - s.length) (s.getLast hs) := by
  constructor
  · intro h
    apply List.ext_getElem
    · simp; omega
    · intro i h1 h2
      have := h i (lt_of_lt_of_le h1 (by rw [hd]; exact le_two_pow_depth _))
      unfold padded at this
      rw [List.getD_eq_getElem s' _ h1] at this
      rw [← this]
      by_cases hi : i < s.length
      · rw [List.getD_eq_getElem _ _ hi, List.getElem_append_left hi]
      · rw [List.getD_eq_default _ _ (by omega), List.getElem_append_right (by omega), List.getElem_replicate]
  · intro h i _
    obtain ⟨n, hn⟩ : ∃ n, n = s'.length - s.length := ⟨_, rfl⟩
    rw [← hn] at h
    subst h
    unfold padded
    by_cases hi : i < s.length
    · rw [List.getD_append _ _ _ _ hi, List.getD_eq_getElem _ _ hi, List.getD_eq_getElem _ _ hi]
    · rw [List.getD_eq_default s _ (by omega), List.getD_append_right _ _ _ _ (by omega)]
      by_cases h2 : i - s.length < n
      · rw [List.getD_eq_getElem _ _ (by simpa using h2), List.getElem_replicate]
      · rw [List.getD_eq_default _ _ (by simpa using h2)]
        rcases Nat.eq_zero_or_pos n with h0 | h0
        · subst h0
          simp
        · rw [List.getLast_append_of_ne_nil _ (by simp; omega), List.getLast_replicate]

end MerkleBinding

open MerkleBinding MerklePath

/-- C77: two sets whose trees have one root, the first not deeper: the padded leaves of the first are the nodes of the
second at the height that is the difference of the depths, or the compression has a collision between two pairs at one
place, counted from the root, of the two trees. -/
theorem C77_binding (dbg dbg' : Bool) (c : List F → Option F) (s s' : List F) (hs : s ≠ []) (hs' : s' ≠ [])
    (hlen : s.length ≤ 2 ^ 63) (hlen' : s'.length ≤ 2 ^ 63) (hd : depth s.length ≤ depth s'.length) (r : F)
    (h : accumulate dbg c s = some r) (h' : accumulate dbg' c s' = some r) :
    (∀ i, i < 2 ^ depth s.length → node (fun a b => c [a, b]) (padded s' hs') (depth s'.length - depth s.length) i =
      some (padded s hs i)) ∨
    ∃ lv q p p' v, lv < depth s.length ∧ q < 2 ^ (depth s.length - 1 - lv) ∧
      TreePair (fun a b => c [a, b]) (padded s hs) lv q p ∧
      TreePair (fun a b => c [a, b]) (padded s' hs') (lv + (depth s'.length - depth s.length)) q p' ∧
      p ≠ p' ∧ c [p.1, p.2] = some v ∧ c [p'.1, p'.2] = some v := by
  rw [accumulate_eq dbg c hs hlen, tree_eq_treeLv, ← nodeLv_root] at h
  rw [accumulate_eq dbg' c hs' hlen', tree_eq_treeLv, ← nodeLv_root,
    show depth s'.length = depth s.length + (depth s'.length - depth s.length) by omega] at h'
  rcases descend _ (padded s hs) (padded s' hs') (depth s'.length - depth s.length) _ 0 r h h' with
    h1 | ⟨lv, q, p, p', w, h2, h3, h4, h5, h6⟩
  · left
    intro i hi
    have := h1 i hi
    rwa [Nat.zero_mul, Nat.zero_add, nodeLv_const] at this
  · exact Or.inr ⟨lv, q, p, p', w, h2, lt_of_div h3, (treePair_const _ _ _ _ _).mp h4, (treePair_const _ _ _ _ _).mp h5, h6⟩

/-- C77: for a compression without collisions between pairs at one place, counted from the root, of the two trees,
exactly these sets have the root of `s`. -/
theorem C77_iff (dbg dbg' : Bool) (c : List F → Option F)
    (s s' : List F) (hs : s ≠ []) (hs' : s' ≠ [])
    (hc : ∀ lv q p p', lv < depth s.length → TreePair (fun a b => c [a, b]) (padded s hs) lv q p →
      TreePair (fun a b => c [a, b]) (padded s' hs') (lv + (depth s'.length - depth s.length)) q p' →
      c [p.1, p.2] = c [p'.1, p'.2] → p = p')
    (hlen : s.length ≤ 2 ^ 63) (hlen' : s'.length ≤ 2 ^ 63) (hd : depth s.length ≤ depth s'.length) (r : F)
    (h : accumulate dbg c s = some r) :
    accumulate dbg' c s' = some r ↔ ∀ i, i < 2 ^ depth s.length →
      node (fun a b => c [a, b]) (padded s' hs') (depth s'.length - depth s.length) i = some (padded s hs i) := by
  constructor
  · intro h'
    rcases C77_binding dbg dbg' c s s' hs hs' hlen hlen' hd r h h' with h1 | ⟨lv, q, p, p', v, h1, -, h2, h3, h4, h5, h6⟩
    · exact h1
    · exact absurd (hc lv q p p' h1 h2 h3 (h5.trans h6.symm)) h4
  · intro hl
    rw [accumulate_eq dbg c hs hlen, tree_eq_treeLv, ← nodeLv_root] at h
    rw [accumulate_eq dbg' c hs' hlen', tree_eq_treeLv, ← nodeLv_root,
      show depth s'.length = depth s.length + (depth s'.length - depth s.length) by omega,
      ascend _ (padded s hs) _ _ _ 0 fun i hi => ?_]
    · exact h
    · rw [Nat.zero_mul, Nat.zero_add]
      exact hl i hi

/-- C77: among the sets of one depth, a set and a longer one have the same root exactly when the longer one continues
it with copies of its last leaf (or the compression has a collision between pairs at one place of the two trees). -/
theorem C77_same_depth (dbg dbg' : Bool) (c : List F → Option F) (s s' : List F) (hs : s ≠ []) (hs' : s' ≠ [])
    (hlen : s.length ≤ s'.length) (hlen' : s'.length ≤ 2 ^ 63) (hd : depth s.length = depth s'.length) (r : F)
    (h : accumulate dbg c s = some r) :
    (accumulate dbg' c s' = some r →
      s' = s ++ List.replicate (s'.length - s.length) (s.getLast hs) ∨
      ∃ lv q p p' v, lv < depth s.length ∧ q < 2 ^ (depth s.length - 1 - lv) ∧
        TreePair (fun a b => c [a, b]) (padded s hs) lv q p ∧ TreePair (fun a b => c [a, b]) (padded s' hs') lv q p' ∧
        p ≠ p' ∧ c [p.1, p.2] = some v ∧ c [p'.1, p'.2] = some v) ∧
    (s' = s ++ List.replicate (s'.length - s.length) (s.getLast hs) → accumulate dbg' c s' = some r) := by
  constructor
  · intro h'
    rcases C36_collision dbg dbg' c s s' hs hs' (by omega) hlen' hd r h h' with
      h1 | ⟨lv, q, a, b, a', b', v, h1, h2, h3, h4, h5, h6, h7⟩
    · exact Or.inl ((padded_agree_iff s s' hs hs' hlen hd).mp h1)
    · exact Or.inr ⟨lv, q, (a, b), (a', b'), v, h1, h2, ⟨h3, h4⟩, ⟨h5, h6⟩, h7⟩
  · intro h'
    rw [accumulate_eq dbg c hs (by omega)] at h
    rw [accumulate_eq dbg' c hs' hlen', ← hd,
      ← tree_congr _ _ ((padded_agree_iff s s' hs hs' hlen hd).mpr h')]
    exact h

/-- C77 for the level-indexed trees, sets of one depth: equal roots mean equal padded leaves, or two different pairs
with one compression at one place of the two trees. -/
theorem C77_levels (dbg dbg' : Bool) (c : Nat → List F → Option F) (s s' : List F) (hs : s ≠ []) (hs' : s' ≠ [])
    (hlen : s.length ≤ 2 ^ 63) (hlen' : s'.length ≤ 2 ^ 63) (hd : depth s.length = depth s'.length) (r : F)
    (h : (accumulateOrchard dbg c s = some r ∧ accumulateOrchard dbg' c s' = some r) ∨
      (accumulateSapling dbg c s = some r ∧ accumulateSapling dbg' c s' = some r)) :
    (∀ i, i < 2 ^ depth s.length → padded s hs i = padded s' hs' i) ∨
    ∃ lv q p p' v, lv < depth s.length ∧ q < 2 ^ (depth s.length - 1 - lv) ∧
      TreePairLv (fun lv a b => c lv [a, b]) (padded s hs) lv q p ∧
      TreePairLv (fun lv a b => c lv [a, b]) (padded s' hs') lv q p' ∧ p ≠ p' ∧
      c lv [p.1, p.2] = some v ∧ c lv [p'.1, p'.2] = some v := by
  rw [(C38_levels dbg c s hs hlen).1, (C38_levels dbg c s hs hlen).2, (C38_levels dbg' c s' hs' hlen').1,
    (C38_levels dbg' c s' hs' hlen').2, or_self, ← hd, ← nodeLv_root, ← nodeLv_root] at h
  rcases descend _ (padded s hs) (padded s' hs') 0 _ 0 r h.1 h.2 with
    h1 | ⟨lv, q, p, p', w, h2, h3, h4⟩
  · left
    intro i hi
    have := h1 i hi
    rw [Nat.zero_mul, Nat.zero_add, nodeLv_zero] at this
    exact (Option.some.inj this).symm
  · exact Or.inr ⟨lv, q, p, p', w, h2, lt_of_div h3, h4⟩

/-- C77 for the level-indexed trees, sets of different depths: equal roots are a collision between two levels,
of the pairs under the two roots. -/
theorem C77_levels_depth (dbg dbg' : Bool) (c : Nat → List F → Option F) (s s' : List F) (hs : s ≠ []) (hs' : s' ≠ [])
    (hlen : s.length ≤ 2 ^ 63) (hlen' : s'.length ≤ 2 ^ 63) (hd : depth s.length ≠ depth s'.length) (r : F)
    (h : (accumulateOrchard dbg c s = some r ∧ accumulateOrchard dbg' c s' = some r) ∨
      (accumulateSapling dbg c s = some r ∧ accumulateSapling dbg' c s' = some r)) :
    ∃ lv lv' p p', lv ≠ lv' ∧ lv + 1 = depth s.length ∧ lv' + 1 = depth s'.length ∧
      TreePairLv (fun lv a b => c lv [a, b]) (padded s hs) lv 0 p ∧
      TreePairLv (fun lv a b => c lv [a, b]) (padded s' hs') lv' 0 p' ∧
      c lv [p.1, p.2] = some r ∧ c lv' [p'.1, p'.2] = some r := by
  rw [(C38_levels dbg c s hs hlen).1, (C38_levels dbg c s hs hlen).2, (C38_levels dbg' c s' hs' hlen').1,
    (C38_levels dbg' c s' hs' hlen').2, or_self, ← nodeLv_root, ← nodeLv_root] at h
  obtain ⟨k, hk⟩ : ∃ k, depth s.length = k + 1 := ⟨depth s.length - 1, by have := depth_pos s.length; omega⟩
  obtain ⟨k', hk'⟩ : ∃ k, depth s'.length = k + 1 := ⟨depth s'.length - 1, by have := depth_pos s'.length; omega⟩
  rw [hk, hk'] at h hd
  obtain ⟨a, b, ha, hb, h1⟩ := children h.1
  obtain ⟨a', b', ha', hb', h2⟩ := children h.2
  exact ⟨k, k', (a, b), (a', b'), by omega, hk.symm, hk'.symm, ⟨ha, hb⟩, ⟨ha', hb'⟩, h1, h2⟩

/-- C77 for the digest tree: one root of two sets of one depth means equal padded leaves or two different pairs with
one hash at one place of the two trees. -/
theorem C77_digest {σ D : Type _} (dbg dbg' : Bool) (H : DigestImpl σ D) (hash : List D → D)
    (hH : DigestContract H hash) (s s' : List D) (hs : s ≠ []) (hs' : s' ≠ []) (hlen : s.length ≤ 2 ^ 63)
    (hlen' : s'.length ≤ 2 ^ 63) (hd : depth s.length = depth s'.length) (r : D)
    (h : (accumulateF2 dbg H H.new s).map Prod.fst = some r) (h' : (accumulateF2 dbg' H H.new s').map Prod.fst = some r) :
    (∀ i, i < 2 ^ depth s.length → padded s hs i = padded s' hs' i) ∨
    ∃ lv q p p', lv < depth s.length ∧ q < 2 ^ (depth s.length - 1 - lv) ∧
      TreePair (fun a b => some (hash [a, b])) (padded s hs) lv q p ∧
      TreePair (fun a b => some (hash [a, b])) (padded s' hs') lv q p' ∧ p ≠ p' ∧
      hash [p.1, p.2] = hash [p'.1, p'.2] := by
  obtain ⟨x, h1, h2⟩ := C39_root dbg H hash hH s hs hlen
  obtain ⟨y, h3, h4⟩ := C39_root dbg' H hash hH s' hs' hlen'
  rw [h1] at h
  rw [h3] at h'
  obtain rfl : x = r := Option.some.inj h
  obtain rfl : y = x := Option.some.inj h'
  rw [← hd] at h4
  rcases tree_collision _ _ _ _ _ h2 h4 with h5 | ⟨lv, q, a, b, a', b', v, g1, g2, g3, g4, g5, g6, hne, h6, h7⟩
  · exact Or.inl h5
  · exact Or.inr ⟨lv, q, (a, b), (a', b'), g1, g2, ⟨g3, g4⟩, ⟨g5, g6⟩, hne, Option.some.inj (h6.trans h7.symm)⟩

/-- The pairing on the naturals has no collision, so the hypothesis of `C77_iff` is met by any two sets; a set of four leaves and the set of its two compressed pairs have
one root, at different depths. -/
example : ∃ c : List Nat → Option Nat,
    (∀ a b a' b' v, c [a, b] = some v → c [a', b'] = some v → a = a' ∧ b = b') ∧
    depth [Nat.pair 1 2, Nat.pair 3 4].length < depth [1, 2, 3, 4].length ∧
    accumulate true c [Nat.pair 1 2, Nat.pair 3 4] = accumulate false c [1, 2, 3, 4] ∧
    (accumulate true c [Nat.pair 1 2, Nat.pair 3 4]).isSome := by
  refine ⟨onPair Nat.pair, fun a b a' b' v h h' => ?_, ?_, ?_, ?_⟩
  · simp only [onPair, Option.some.injEq] at h h'
    exact Nat.pair_eq_pair.mp (h.trans h'.symm)
  · rw [show [Nat.pair 1 2, Nat.pair 3 4].length = 2 ^ 1 from rfl, show [1, 2, 3, 4].length = 2 ^ 2 from rfl,
      depth_two_pow (by omega), depth_two_pow (by omega)]
    omega
  · decide +kernel
  · decide +kernel

/-- Three leaves and the same with the last one repeated have one root, at the same depth. -/
example : depth [1, 2, 3].length = depth [1, 2, 3, 3].length ∧
    ([1, 2, 3, 3] : List Nat) = [1, 2, 3] ++ List.replicate (4 - 3) 3 ∧
    (accumulate true (onPair Nat.pair) [1, 2, 3]).isSome := by
  refine ⟨?_, rfl, by decide +kernel⟩
  decide +kernel

end ZkHash

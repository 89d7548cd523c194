import Verif.Spec.MerkleAppend
import Verif.Theorems.MerklePath

set_option autoImplicit false

/-!
# Combining and updating roots: C93
-/

namespace ZkHash

open Spec Merkle MerklePath

variable {F : Type _}

namespace MerkleAppend

theorem depth_pow {k : Nat} (hk : 1 ≤ k) : depth (2 ^ k) = k :=
  depth_unique hk (le_refl _) fun j _ h => (Nat.pow_le_pow_iff_right (by omega)).mp h

theorem depth_between {k n : Nat} (h1 : 2 ^ k < n) (h2 : n ≤ 2 ^ (k + 1)) : depth n = k + 1 := by
  refine depth_unique (by omega) h2 fun j _ h => ?_
  have : 2 ^ k < 2 ^ j := by omega
  have := (Nat.pow_lt_pow_iff_right (show 1 < 2 by omega)).mp this
  omega

theorem padded_append_left {s1 s2 : List F} (hne : s1 ++ s2 ≠ []) (h1 : s1 ≠ []) {i : Nat} (hi : i < s1.length) :
    padded (s1 ++ s2) hne i = padded s1 h1 i := by
  unfold padded
  simp only [List.getD_eq_getElem?_getD]
  rw [List.getElem?_append_left hi, List.getElem?_eq_getElem hi]
  rfl

theorem padded_append_right {s1 s2 : List F} (hne : s1 ++ s2 ≠ []) (h2 : s2 ≠ []) (i : Nat) :
    padded (s1 ++ s2) hne (s1.length + i) = padded s2 h2 i := by
  unfold padded
  simp only [List.getD_eq_getElem?_getD]
  rw [List.getElem?_append_right (by omega), Nat.add_sub_cancel_left, List.getLast_append_of_ne_nil hne h2]

/-- The tree over a perfect left part and a right part. -/
theorem treeLv_append (c : Nat → F → F → Option F) {k : Nat} (hk : 1 ≤ k) {s1 s2 : List F} (h1 : s1.length = 2 ^ k)
    (h2 : s2.length ≤ 2 ^ k) (hne1 : s1 ≠ []) (hne2 : s2 ≠ []) (hne : s1 ++ s2 ≠ []) :
    treeLv c (depth (s1 ++ s2).length) (padded (s1 ++ s2) hne) =
      (treeLv c k (padded s1 hne1)).bind fun a => (treeLv c k (padded s2 hne2)).bind fun b => c k a b := by
  have hpos : 0 < s2.length := List.length_pos_iff.mpr hne2
  have hd : depth (s1 ++ s2).length = k + 1 := by
    apply depth_between
    · rw [List.length_append]; omega
    · rw [List.length_append, pow_succ]; omega
  rw [hd, treeLv]
  have e1 : treeLv c k (padded (s1 ++ s2) hne) = treeLv c k (padded s1 hne1) :=
    treeLv_congr c k fun i hi => padded_append_left hne hne1 (by omega)
  have e2 : treeLv c k (shift (2 ^ k) (padded (s1 ++ s2) hne)) = treeLv c k (padded s2 hne2) := by
    congr 1
    funext i
    rw [shift, ← h1]
    exact padded_append_right hne hne2 i
  rw [e1, e2]
  cases treeLv c k (padded s1 hne1) with
  | none => rfl
  | some a => cases treeLv c k (padded s2 hne2) <;> rfl

theorem treeLv_const (c : Nat → F → F → Option F) (k : Nat) (x : F) (f : Nat → F) (h : ∀ i, f i = x) :
    treeLv c k f = doubled c k x := by
  induction k generalizing f with
  | zero => simp [treeLv, doubled, h]
  | succ k ih =>
    rw [treeLv, doubled, ih f h, ih (shift (2 ^ k) f) (fun i => h _)]
    cases doubled c k x <;> rfl

theorem doubled_const (c : F → F → Option F) (c' : Nat → F → F → Option F) (h : ∀ l, c' l = c) (k : Nat) (x : F) :
    doubled c' k x = doubled (fun _ => c) k x := by
  have : c' = fun _ => c := funext h
  rw [this]

/-! ## Updating -/

theorem nodeLv_congr (c : Nat → F → F → Option F) {f g : Nat → F} {m j : Nat} (h : ∀ p, p / 2 ^ m = j → f p = g p) :
    nodeLv c f m j = nodeLv c g m j := by
  unfold nodeLv
  apply treeLv_congr
  intro i hi
  unfold shift
  apply h
  rw [Nat.mul_comm, Nat.mul_add_div (by positivity), Nat.div_eq_of_lt hi, Nat.add_zero]

theorem sibling_ne (j : Nat) : sibling j ≠ j := by
  unfold sibling
  split <;> omega

/-- A path of sibling values leads to the node above, whatever the tree. -/
theorem pathRoot_node (c : Nat → F → F → Option F) (f : Nat → F) : ∀ (ss : List F) (h i : Nat) (x : F),
    nodeLv c f h i = some x → (∀ m < ss.length, nodeLv c f (h + m) (sibling (i / 2 ^ m)) = ss[m]?) →
      pathRoot c h i x ss = nodeLv c f (h + ss.length) (i / 2 ^ ss.length)
  | [], h, i, x, hx, _ => by simpa [pathRoot] using hx.symm
  | s :: ss, h, i, x, hx, hs => by
    have h0 : nodeLv c f h (sibling i) = some s := by simpa using hs 0 (by simp)
    have hup : nodeLv c f (h + 1) (i / 2) = if i % 2 = 0 then c h x s else c h s x := by
      rw [nodeLv_succ]
      rcases Nat.mod_two_eq_zero_or_one i with e | e
      · rw [show 2 * (i / 2) = i by omega, show i + 1 = sibling i by unfold sibling; rw [if_pos e], hx, h0, if_pos e]
      · rw [show 2 * (i / 2) + 1 = i by omega, show 2 * (i / 2) = sibling i by unfold sibling; rw [if_neg (by omega)]; omega,
          hx, h0, if_neg (by omega)]
    have e : i / 2 ^ (ss.length + 1) = i / 2 / 2 ^ ss.length := by rw [pow_succ', Nat.div_div_eq_div_mul]
    rw [pathRoot, ← hup, List.length_cons, e, show h + (ss.length + 1) = h + 1 + ss.length by omega]
    cases hy : nodeLv c f (h + 1) (i / 2) with
    | none =>
      symm
      rw [Option.eq_none_iff_forall_ne_some]
      intro v hv
      obtain ⟨y, -, hy', -⟩ := complete c f ss.length (h + 1) (i / 2) hv
      rw [hy] at hy'
      cases hy'
    | some y =>
      refine pathRoot_node c f ss (h + 1) (i / 2) y hy fun m hm => ?_
      have := hs (m + 1) (by rw [List.length_cons]; omega)
      rw [List.getElem?_cons_succ, pow_succ', ← Nat.div_div_eq_div_mul, show h + (m + 1) = h + 1 + m by omega] at this
      exact this

/-- The tree with one leaf changed. -/
theorem treeLv_update (c : Nat → F → F → Option F) (f : Nat → F) {k i : Nat} (hi : i < 2 ^ k) {root : F}
    (h : treeLv c k f = some root) :
    ∃ ss : List F, ss.length = k ∧ (∀ m < k, nodeLv c f m (sibling (i / 2 ^ m)) = ss[m]?) ∧
      ∀ g : Nat → F, (∀ p, p < 2 ^ k → p ≠ i → g p = f p) → treeLv c k g = pathRoot c 0 i (g i) ss := by
  rw [← nodeLv_root] at h
  have h' : nodeLv c f (0 + k) (i / 2 ^ k) = some root := by rwa [Nat.zero_add, lt_div hi]
  obtain ⟨x, ss, hx, hlen, hs, -⟩ := complete c f k 0 i h'
  simp only [Nat.zero_add] at hs
  refine ⟨ss, hlen, hs, fun g hg => ?_⟩
  rw [pathRoot_node c g ss 0 i (g i) (nodeLv_zero c g i) fun m hm => ?_, hlen, Nat.zero_add, lt_div hi, nodeLv_root]
  rw [Nat.zero_add, ← hs m (by omega)]
  apply nodeLv_congr
  intro p hp
  apply hg
  · -- the sibling of an inner node is inside the tree
    have h1 : i / 2 ^ m < 2 ^ (k - m) := by
      rw [Nat.div_lt_iff_lt_mul (by positivity), ← pow_add]
      rwa [show k - m + m = k by omega]
    have h2 : sibling (i / 2 ^ m) < 2 ^ (k - m) := by
      obtain ⟨e, he⟩ : ∃ e, k - m = e + 1 := ⟨k - m - 1, by omega⟩
      rw [he, pow_succ] at h1 ⊢
      generalize i / 2 ^ m = q at h1
      generalize 2 ^ e = w at h1
      unfold sibling
      split <;> omega
    have h3 : p < (sibling (i / 2 ^ m) + 1) * 2 ^ m := by
      rw [← Nat.div_lt_iff_lt_mul (by positivity)]; omega
    have h4 : (sibling (i / 2 ^ m) + 1) * 2 ^ m ≤ 2 ^ (k - m) * 2 ^ m := Nat.mul_le_mul_right _ h2
    rw [← pow_add, show k - m + m = k by omega] at h4
    omega
  · rintro rfl
    exact sibling_ne _ hp.symm

theorem padded_set {set : List F} (hne : set ≠ []) {i : Nat} (v : F) (hne' : set.set i v ≠ []) {k : Nat}
    (hi : i < set.length) (hlast : i + 1 < set.length ∨ set.length = 2 ^ k) :
    padded (set.set i v) hne' i = v ∧ ∀ p, p < 2 ^ k → p ≠ i → padded (set.set i v) hne' p = padded set hne p := by
  constructor
  · unfold padded
    simp [List.getD_eq_getElem?_getD, hi]
  · intro p hp hpi
    unfold padded
    simp only [List.getD_eq_getElem?_getD]
    rw [List.getElem?_set_ne (fun e => hpi e.symm)]
    by_cases hpl : p < set.length
    · rw [List.getElem?_eq_getElem hpl]; rfl
    · have hl : i + 1 < set.length := by
        rcases hlast with h | h
        · exact h
        · omega
      rw [List.getElem?_eq_none (by omega)]
      simp only [Option.getD_none]
      rw [List.getLast_eq_getElem, List.getLast_eq_getElem]
      simp only [List.length_set]
      rw [List.getElem_set_ne (by omega)]

end MerkleAppend

open MerkleAppend

/-- **C93**, combining: if `s1` is a full tree of `2^k ≥ 2` leaves and `s2` has a tree of the same depth, the root over
`s1 ++ s2` is the compression of the two roots (and a panic of either call is a panic of the whole). -/
theorem C93_combine (dbg : Bool) (c : List F → Option F) (k : Nat) (hk : 1 ≤ k) (hk' : k ≤ 62) (s1 s2 : List F)
    (h1 : s1.length = 2 ^ k) (hne : s2 ≠ []) (h2 : depth s2.length = k) :
    accumulate dbg c (s1 ++ s2) =
      (accumulate dbg c s1).bind fun a => (accumulate dbg c s2).bind fun b => c [a, b] := by
  have hpow : 2 ^ k ≤ 2 ^ 62 := Nat.pow_le_pow_right (by omega) hk'
  have hl2 : s2.length ≤ 2 ^ k := by have := (C34_depth s2.length).2.1; rwa [h2] at this
  have hp : 0 < 2 ^ k := by positivity
  have hne1 : s1 ≠ [] := List.ne_nil_of_length_pos (by omega)
  have hne12 : s1 ++ s2 ≠ [] := by simp [hne]
  rw [C34_root dbg c (s1 ++ s2) hne12 (by rw [List.length_append]; omega), C34_root dbg c s1 hne1 (by omega),
    C34_root dbg c s2 hne (by omega), tree_eq_treeLv, tree_eq_treeLv, tree_eq_treeLv, h1, h2, depth_pow hk]
  exact treeLv_append _ hk h1 hl2 hne1 hne hne12

/-- **C93**, combining, in general: a shorter right part has to be continued with copies of its last leaf first. -/
theorem C93_combine_padded (dbg : Bool) (c : List F → Option F) (k : Nat) (hk : 1 ≤ k) (hk' : k ≤ 62) (s1 s2 : List F)
    (h1 : s1.length = 2 ^ k) (hne : s2 ≠ []) (h2 : s2.length ≤ 2 ^ k) :
    accumulate dbg c (s1 ++ s2) =
      (accumulate dbg c s1).bind fun a =>
        (accumulate dbg c (s2 ++ List.replicate (2 ^ k - s2.length) (s2.getLast hne))).bind fun b => c [a, b] := by
  have hpow : 2 ^ k ≤ 2 ^ 62 := Nat.pow_le_pow_right (by omega) hk'
  have hp : 0 < 2 ^ k := by positivity
  have hne1 : s1 ≠ [] := List.ne_nil_of_length_pos (by omega)
  have hne12 : s1 ++ s2 ≠ [] := by simp [hne]
  have hlen3 : (s2 ++ List.replicate (2 ^ k - s2.length) (s2.getLast hne)).length = 2 ^ k := by
    simp only [List.length_append, List.length_replicate]; omega
  have hne3 : s2 ++ List.replicate (2 ^ k - s2.length) (s2.getLast hne) ≠ [] := by simp [hne]
  rw [C34_root dbg c (s1 ++ s2) hne12 (by rw [List.length_append]; omega), C34_root dbg c s1 hne1 (by omega),
    C34_root dbg c _ hne3 (by omega), tree_eq_treeLv, tree_eq_treeLv, tree_eq_treeLv, h1, hlen3, depth_pow hk,
    treeLv_append _ hk h1 h2 hne1 hne hne12]
  congr 1
  funext a
  congr 1
  apply treeLv_congr
  intro i hi
  unfold padded
  simp only [List.getD_eq_getElem?_getD]
  by_cases h : i < s2.length
  · rw [List.getElem?_append_left h, List.getElem?_eq_getElem h]; rfl
  · rw [List.getElem?_append_right (by omega), List.getElem?_eq_none (by omega),
      List.getElem?_replicate, if_pos (by omega)]
    rfl

/-- **C93**, one more leaf after a full tree: its half of the new tree is the leaf compressed with itself `k` times. -/
theorem C93_append_one (dbg : Bool) (c : List F → Option F) (k : Nat) (hk : 1 ≤ k) (hk' : k ≤ 62) (s : List F) (v : F)
    (h1 : s.length = 2 ^ k) :
    accumulate dbg c (s ++ [v]) =
      (accumulate dbg c s).bind fun a => (doubled (fun _ a b => c [a, b]) k v).bind fun b => c [a, b] := by
  have hpow : 2 ^ k ≤ 2 ^ 62 := Nat.pow_le_pow_right (by omega) hk'
  have hp : 0 < 2 ^ k := by positivity
  have hne1 : s ≠ [] := List.ne_nil_of_length_pos (by omega)
  have hne12 : s ++ [v] ≠ [] := by simp
  rw [C34_root dbg c (s ++ [v]) hne12 (by rw [List.length_append, List.length_singleton]; omega),
    C34_root dbg c s hne1 (by omega), tree_eq_treeLv, tree_eq_treeLv, h1, depth_pow hk,
    treeLv_append _ hk h1 (by simp; omega) hne1 (by simp) hne12,
    treeLv_const _ k v (padded [v] (by simp)) (fun i => by unfold padded; cases i <;> simp)]

/-- **C93** for the Orchard and Sapling trees: the compression of the two roots is at level `k`. -/
theorem C93_combine_levels (dbg : Bool) (c : Nat → List F → Option F) (k : Nat) (hk : 1 ≤ k) (hk' : k ≤ 62)
    (s1 s2 : List F) (h1 : s1.length = 2 ^ k) (hne : s2 ≠ []) (h2 : depth s2.length = k) :
    (accumulateOrchard dbg c (s1 ++ s2) =
      (accumulateOrchard dbg c s1).bind fun a => (accumulateOrchard dbg c s2).bind fun b => c k [a, b]) ∧
    (accumulateSapling dbg c (s1 ++ s2) =
      (accumulateSapling dbg c s1).bind fun a => (accumulateSapling dbg c s2).bind fun b => c k [a, b]) := by
  have hpow : 2 ^ k ≤ 2 ^ 62 := Nat.pow_le_pow_right (by omega) hk'
  have hl2 : s2.length ≤ 2 ^ k := by have := (C34_depth s2.length).2.1; rwa [h2] at this
  have hp : 0 < 2 ^ k := by positivity
  have hne1 : s1 ≠ [] := List.ne_nil_of_length_pos (by omega)
  have hne12 : s1 ++ s2 ≠ [] := by simp [hne]
  obtain ⟨o12, p12⟩ := C38_levels dbg c (s1 ++ s2) hne12 (by rw [List.length_append]; omega)
  obtain ⟨o1, p1⟩ := C38_levels dbg c s1 hne1 (by omega)
  obtain ⟨o2, p2⟩ := C38_levels dbg c s2 hne (by omega)
  rw [o12, o1, o2, p12, p1, p2, h1, h2, depth_pow hk]
  exact ⟨treeLv_append _ hk h1 hl2 hne1 hne hne12, treeLv_append _ hk h1 hl2 hne1 hne hne12⟩

/-- **C93** for the digest tree. -/
theorem C93_combine_digest {σ D : Type _} (dbg : Bool) (H : DigestImpl σ D) (hash : List D → D)
    (hH : DigestContract H hash) (k : Nat) (hk : 1 ≤ k) (hk' : k ≤ 62) (s1 s2 : List D) (h1 : s1.length = 2 ^ k)
    (hne : s2 ≠ []) (h2 : depth s2.length = k) :
    ∃ a b, accumulateF2 dbg H H.new s1 = some (a, H.new) ∧ accumulateF2 dbg H H.new s2 = some (b, H.new) ∧
      accumulateF2 dbg H H.new (s1 ++ s2) = some (hash [a, b], H.new) := by
  have hpow : 2 ^ k ≤ 2 ^ 62 := Nat.pow_le_pow_right (by omega) hk'
  have hl2 : s2.length ≤ 2 ^ k := by have := (C34_depth s2.length).2.1; rwa [h2] at this
  have hp : 0 < 2 ^ k := by positivity
  have hne1 : s1 ≠ [] := List.ne_nil_of_length_pos (by omega)
  have hne12 : s1 ++ s2 ≠ [] := by simp [hne]
  obtain ⟨a, ha, ta⟩ := C39_root dbg H hash hH s1 hne1 (by omega)
  obtain ⟨b, hb, tb⟩ := C39_root dbg H hash hH s2 hne (by omega)
  obtain ⟨r, hr, tr⟩ := C39_root dbg H hash hH (s1 ++ s2) hne12 (by rw [List.length_append]; omega)
  refine ⟨a, b, ha, hb, ?_⟩
  rw [tree_eq_treeLv] at ta tb tr
  rw [h1, depth_pow hk] at ta
  rw [h2] at tb
  rw [treeLv_append _ hk h1 hl2 hne1 hne hne12, ta, tb] at tr
  simp only [Option.bind_some, Option.some.injEq] at tr
  rw [hr, tr]

/-- **C93**, updating: if `accumulate` returned a root for `set`, then for every leaf `i` that is not the last one of a
set that is padded, there is a list of siblings - nodes of the old tree - from which the root after writing any `v` to
position `i` is computed by the verifier's recombination; it panics exactly if one of these compressions does. -/
theorem C93_update (dbg : Bool) (c : List F → Option F) (set : List F) (hne : set ≠ []) (hlen : set.length ≤ 2 ^ 63)
    {root : F} (h : accumulate dbg c set = some root) (i : Nat) (hi : i < set.length)
    (hlast : i + 1 < set.length ∨ set.length = 2 ^ depth set.length) :
    ∃ ss : List F, ss.length = depth set.length ∧
      (∀ m < depth set.length, node (fun a b => c [a, b]) (padded set hne) m (sibling (i / 2 ^ m)) = ss[m]?) ∧
      ∀ v : F, accumulate dbg c (set.set i v) = pathRoot (fun _ a b => c [a, b]) 0 i v ss := by
  rw [C34_root dbg c set hne hlen, tree_eq_treeLv] at h
  obtain ⟨ss, h1, h2, h3⟩ := treeLv_update _ _ (lt_of_lt_of_le hi (C34_depth set.length).2.1) h
  refine ⟨ss, h1, fun m hm => by rw [← nodeLv_const]; exact h2 m hm, fun v => ?_⟩
  have hne' : set.set i v ≠ [] := by simpa using hne
  obtain ⟨e1, e2⟩ := padded_set hne v hne' hi hlast
  rw [C34_root dbg c _ hne' (by simpa using hlen), tree_eq_treeLv, List.length_set, h3 _ e2, e1]

/-- **C93**, updating, for the Orchard and Sapling trees. -/
theorem C93_update_levels (dbg : Bool) (c : Nat → List F → Option F) (set : List F) (hne : set ≠ [])
    (hlen : set.length ≤ 2 ^ 63) {root : F}
    (h : accumulateOrchard dbg c set = some root ∨ accumulateSapling dbg c set = some root) (i : Nat)
    (hi : i < set.length) (hlast : i + 1 < set.length ∨ set.length = 2 ^ depth set.length) :
    ∃ ss : List F, ss.length = depth set.length ∧
      (∀ m < depth set.length,
        nodeLv (fun lv a b => c lv [a, b]) (padded set hne) m (sibling (i / 2 ^ m)) = ss[m]?) ∧
      ∀ v : F, accumulateOrchard dbg c (set.set i v) = pathRoot (fun lv a b => c lv [a, b]) 0 i v ss ∧
        accumulateSapling dbg c (set.set i v) = pathRoot (fun lv a b => c lv [a, b]) 0 i v ss := by
  obtain ⟨o, p⟩ := C38_levels dbg c set hne hlen
  rw [o, p, or_self] at h
  obtain ⟨ss, h1, h2, h3⟩ := treeLv_update _ _ (lt_of_lt_of_le hi (C34_depth set.length).2.1) h
  refine ⟨ss, h1, h2, fun v => ?_⟩
  have hne' : set.set i v ≠ [] := by simpa using hne
  obtain ⟨e1, e2⟩ := padded_set hne v hne' hi hlast
  obtain ⟨o', p'⟩ := C38_levels dbg c (set.set i v) hne' (by simpa using hlen)
  rw [o', p', List.length_set, h3 _ e2, e1]
  exact ⟨rfl, rfl⟩

/-- **C93**, updating, for the digest tree, which never panics. -/
theorem C93_update_digest {σ D : Type _} (dbg : Bool) (H : DigestImpl σ D) (hash : List D → D)
    (hH : DigestContract H hash) (set : List D) (hne : set ≠ []) (hlen : set.length ≤ 2 ^ 63) (i : Nat)
    (hi : i < set.length) (hlast : i + 1 < set.length ∨ set.length = 2 ^ depth set.length) :
    ∃ ss : List D, ss.length = depth set.length ∧
      (∀ m < depth set.length,
        node (fun a b => some (hash [a, b])) (padded set hne) m (sibling (i / 2 ^ m)) = ss[m]?) ∧
      ∀ v : D, ∃ r, pathRoot (fun _ a b => some (hash [a, b])) 0 i v ss = some r ∧
        accumulateF2 dbg H H.new (set.set i v) = some (r, H.new) := by
  obtain ⟨root, -, h⟩ := C39_root dbg H hash hH set hne hlen
  rw [tree_eq_treeLv] at h
  obtain ⟨ss, h1, h2, h3⟩ := treeLv_update _ _ (lt_of_lt_of_le hi (C34_depth set.length).2.1) h
  refine ⟨ss, h1, fun m hm => by rw [← nodeLv_const]; exact h2 m hm, fun v => ?_⟩
  have hne' : set.set i v ≠ [] := by simpa using hne
  obtain ⟨e1, e2⟩ := padded_set hne v hne' hi hlast
  obtain ⟨r, hr, t⟩ := C39_root dbg H hash hH (set.set i v) hne' (by simpa using hlen)
  refine ⟨r, ?_, hr⟩
  rwa [tree_eq_treeLv, List.length_set, h3 _ e2, e1] at t

/-! ## Examples -/

/-- A compression that shows the shape of the tree. -/
private def sum10 : List Nat → Option Nat
  | [a, b] => some (10 * a + b)
  | _ => none

/-- Combining: four leaves and three leaves. -/
example : accumulate true sum10 ([1, 2, 3, 4] ++ [5, 6, 7]) =
    (accumulate true sum10 [1, 2, 3, 4]).bind fun a => (accumulate true sum10 [5, 6, 7]).bind fun b => sum10 [a, b] :=
  C93_combine true sum10 2 (by omega) (by omega) [1, 2, 3, 4] [5, 6, 7] rfl (by simp) (by decide)

/-- Without the condition on the depth it fails: the right part has a tree of depth 1 only. -/
example : accumulate true sum10 ([1, 2, 3, 4] ++ [5]) ≠
    (accumulate true sum10 [1, 2, 3, 4]).bind fun a => (accumulate true sum10 [5]).bind fun b => sum10 [a, b] := by
  decide +kernel

/-- Updating: a leaf of a padded set that is not its last, and the last leaf of a full one. -/
example : (∃ ss : List Nat, ss.length = 2 ∧
      ∀ v, accumulate true sum10 ([1, 2, 3].set 1 v) = pathRoot (fun _ a b => sum10 [a, b]) 0 1 v ss) ∧
    (∃ ss : List Nat, ss.length = 2 ∧
      ∀ v, accumulate true sum10 ([1, 2, 3, 4].set 3 v) = pathRoot (fun _ a b => sum10 [a, b]) 0 3 v ss) := by
  constructor
  · obtain ⟨ss, h1, -, h3⟩ := C93_update true sum10 [1, 2, 3] (by simp) (by simp) (root := 153) (by decide +kernel) 1
      (by simp) (.inl (by simp))
    exact ⟨ss, h1, h3⟩
  · obtain ⟨ss, h1, -, h3⟩ := C93_update true sum10 [1, 2, 3, 4] (by simp) (by simp) (root := 154) (by decide +kernel) 3
      (by simp) (.inr (by decide))
    exact ⟨ss, h1, h3⟩

/-- Updating the last leaf of a padded set is not a matter of one path: its copies change, too. -/
example : accumulate true sum10 [1, 2, 3] = some 153 ∧ accumulate true sum10 [1, 2, 4] = some 164 ∧
    pathRoot (fun _ a b => sum10 [a, b]) 0 2 3 [3, 12] = some 153 ∧
    pathRoot (fun _ a b => sum10 [a, b]) 0 2 4 [3, 12] ≠ some 164 := by
  decide +kernel

end ZkHash

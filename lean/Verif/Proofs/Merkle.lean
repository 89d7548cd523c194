import Verif.Model.Merkle
import Verif.Spec.Merkle
import Verif.Proofs.Basic
import Mathlib.Tactic.IntervalCases

set_option autoImplicit false

/-!
# Merkle trees: the loops against the recursive specification
-/

namespace ZkHash

open Spec

namespace Merkle

variable {F : Type _}

/-! ## Depth -/

theorem depth_pos (n : Nat) : 1 ≤ depth n := le_max_left _ _

theorem le_two_pow_depth (n : Nat) : n ≤ 2 ^ depth n :=
  le_trans (Nat.le_pow_clog (by omega) n) (Nat.pow_le_pow_right (by omega) (le_max_right _ _))

theorem depth_le {n k : Nat} (hk : 1 ≤ k) (h : n ≤ 2 ^ k) : depth n ≤ k :=
  max_le hk ((Nat.clog_le_iff_le_pow (by omega)).mpr h)

theorem depth_unique {n k : Nat} (hk : 1 ≤ k) (h : n ≤ 2 ^ k) (hmin : ∀ j, 1 ≤ j → n ≤ 2 ^ j → k ≤ j) :
    depth n = k :=
  le_antisymm (depth_le hk h) (hmin _ (depth_pos n) (le_two_pow_depth n))

/-! ## `round_up_pow_n` -/

/-- The general loop: starting from `n^j`, it returns the least `n^k` with `k > j` that reaches the input, when that
fits in a machine word. -/
theorem roundUpLoop_done (dbg : Bool) {input n k : Nat} (hn : 2 ≤ n) (hk : n ^ k < 2 ^ 64) (hle : input ≤ n ^ k)
    {j : Nat} (hjk : j < k) (hmin : ∀ i, j < i → i < k → n ^ i < input) {fuel : Nat} (hf : k ≤ j + fuel) :
    roundUpLoop dbg input n fuel (n ^ j) = .done (n ^ k) := by
  induction fuel generalizing j with
  | zero => omega
  | succ fuel ih =>
    unfold roundUpLoop
    have hle' : n ^ (j + 1) ≤ n ^ k := Nat.pow_le_pow_right (by omega) hjk
    have hmul : umul dbg (n ^ j) n = some (n ^ (j + 1)) := by
      unfold umul
      rw [← pow_succ, if_pos (by unfold usizeSize; omega)]
    rw [hmul]
    simp only
    by_cases h : j + 1 = k
    · subst h
      rw [if_pos hle]
    · rw [if_neg (by have := hmin (j + 1) (by omega) (by omega); omega)]
      exact ih (by omega) (fun i h1 h2 => hmin i (by omega) h2) (by omega)

/-- With overflow checks the loop panics when no power that fits reaches the input. -/
theorem roundUpLoop_panic {input n k : Nat} (hn : 2 ≤ n) (hk : 2 ^ 64 ≤ n ^ k)
    {j : Nat} (hjk : j < k) (hmin : ∀ i, j < i → i < k → n ^ i < input ∧ n ^ i < 2 ^ 64) {fuel : Nat}
    (hf : k ≤ j + fuel) : roundUpLoop true input n fuel (n ^ j) = .panic := by
  induction fuel generalizing j with
  | zero => omega
  | succ fuel ih =>
    unfold roundUpLoop
    by_cases h : j + 1 = k
    · subst h
      have hmul : umul true (n ^ j) n = none := by
        unfold umul
        rw [← pow_succ, if_neg (by unfold usizeSize; omega)]
        rfl
      rw [hmul]
    · have hj := hmin (j + 1) (by omega) (by omega)
      have hmul : umul true (n ^ j) n = some (n ^ (j + 1)) := by
        unfold umul
        rw [← pow_succ, if_pos (by unfold usizeSize; omega)]
      rw [hmul]
      simp only
      rw [if_neg (by omega)]
      exact ih (by omega) (fun i h1 h2 => hmin i (by omega) h2) (by omega)

/-- Without overflow checks the loop for `n = 2` and more than `2^63` never ends. -/
theorem roundUpLoop_forever {input : Nat} (h : 2 ^ 63 < input) (fuel : Nat) (res : Nat)
    (hres : (∃ j, j < 64 ∧ res = 2 ^ j) ∨ res = 0) :
    roundUpLoop false input 2 fuel res = .outOfFuel := by
  induction fuel generalizing res with
  | zero => rfl
  | succ fuel ih =>
    unfold roundUpLoop
    have key : ∃ r, umul false res 2 = some r ∧ r < input ∧ ((∃ j, j < 64 ∧ r = 2 ^ j) ∨ r = 0) := by
      rcases hres with ⟨j, hj, rfl⟩ | rfl
      · by_cases h63 : j = 63
        · subst h63
          refine ⟨0, ?_, by omega, Or.inr rfl⟩
          unfold umul usizeSize
          norm_num
        · have hlt : 2 ^ (j + 1) ≤ 2 ^ 63 := Nat.pow_le_pow_right (by omega) (by omega)
          refine ⟨2 ^ (j + 1), ?_, by omega, Or.inl ⟨j + 1, by omega, rfl⟩⟩
          unfold umul usizeSize
          rw [← pow_succ, if_pos (by omega)]
      · exact ⟨0, by unfold umul usizeSize; norm_num, by omega, Or.inr rfl⟩
    obtain ⟨r, h1, h2, h3⟩ := key
    rw [h1]
    simp only
    rw [if_neg (by omega)]
    exact ih r h3

theorem roundUp_two (dbg : Bool) {input fuel : Nat} (h : input ≤ 2 ^ 63) (hf : 64 ≤ fuel) :
    roundUpPowN dbg fuel input 2 = .done (2 ^ depth input) := by
  unfold roundUpPowN
  rw [if_neg (by simp)]
  have hd : depth input ≤ 63 := depth_le (by omega) h
  have hlt : 2 ^ depth input ≤ 2 ^ 63 := Nat.pow_le_pow_right (by omega) hd
  have := roundUpLoop_done dbg (input := input) (n := 2) (k := depth input) (by omega) (by omega)
    (le_two_pow_depth input) (j := 0) (depth_pos input) (fun i h1 h2 => by
      by_contra hc
      have := depth_le (n := input) (k := i) h1 (by omega)
      omega) (fuel := fuel) (by omega)
  simpa using this

theorem paddedSize_eq (dbg : Bool) {n : Nat} (h : n ≤ 2 ^ 63) : paddedSize dbg n = some (2 ^ depth n) := by
  unfold paddedSize
  rw [roundUp_two dbg h (le_refl 64)]
  simp only
  have : 2 ^ 1 ≤ 2 ^ depth n := Nat.pow_le_pow_right (by omega) (depth_pos n)
  unfold atLeast2
  rw [if_pos (by omega)]

/-! ## Padding -/

theorem padLoop_eq (dbg : Bool) {n : Nat} (hn : 1 ≤ n) (x : F) (k : Nat) (nodes : List F) (h : nodes[n - 1]? = some x) :
    padLoop dbg n k nodes = some (nodes ++ List.replicate k x) := by
  induction k generalizing nodes with
  | zero => simp [padLoop]
  | succ k ih =>
    unfold padLoop
    have : usub dbg n 1 = some (n - 1) := by unfold usub; rw [if_pos hn]
    rw [this]
    simp only [Option.bind_eq_bind, Option.bind_some]
    rw [h, Option.bind_some, ih]
    · simp [List.replicate_succ]
    · rw [List.getElem?_append_left]
      · exact h
      · exact (List.getElem?_eq_some_iff.mp h).1

theorem paddedNodes_eq (dbg : Bool) {set : List F} (hne : set ≠ []) (hlen : set.length ≤ 2 ^ 63) :
    paddedNodes dbg set = some (tl (2 ^ depth set.length) (padded set hne)) := by
  unfold paddedNodes
  rw [paddedSize_eq dbg hlen]
  simp only [Option.bind_eq_bind, Option.bind_some]
  have hpos : 1 ≤ set.length := List.length_pos_of_ne_nil hne
  rw [padLoop_eq dbg hpos (set.getLast hne)]
  · congr 1
    have hle := le_two_pow_depth set.length
    apply List.ext_getElem?
    intro i
    rw [tl_getElem?]
    unfold padded
    by_cases h1 : i < set.length
    · rw [List.getElem?_append_left h1, if_pos (by omega)]
      simp [List.getD, h1]
    · rw [List.getElem?_append_right (by omega), List.getElem?_replicate]
      by_cases h2 : i < 2 ^ depth set.length
      · rw [if_pos (by omega), if_pos h2]
        simp [List.getD, h1]
      · rw [if_neg (by omega), if_neg h2]
  · rw [List.getLast_eq_getElem]
    exact List.getElem?_eq_getElem (by omega)

theorem paddedNodes_nil (dbg : Bool) : paddedNodes dbg ([] : List F) = none := by
  unfold paddedNodes
  rw [paddedSize_eq dbg (by simp)]
  simp only [Option.bind_eq_bind, Option.bind_some]
  have : 2 ^ 1 ≤ 2 ^ depth ([] : List F).length := Nat.pow_le_pow_right (by omega) (depth_pos _)
  obtain ⟨m, hm⟩ : ∃ m, 2 ^ depth ([] : List F).length - ([] : List F).length = m + 1 :=
    ⟨2 ^ depth ([] : List F).length - ([] : List F).length - 1, by simp only [List.length_nil] at *; omega⟩
  rw [hm]
  unfold padLoop
  cases usub dbg ([] : List F).length 1 <;> simp

/-! ## One level -/

theorem pairFold_append (c : List F → Option F) : ∀ (l s : List F),
    pairFold (fun new_nodes a b => (c [a, b]).bind fun dig => some (new_nodes ++ [dig])) l s =
      (levelPass c l).map (s ++ ·)
  | [], s => by simp [pairFold, levelPass_fold]
  | [_], s => by simp [pairFold, levelPass_fold]
  | a :: b :: rest, s => by
      rw [levelPass_fold, pairFold, pairFold]
      cases c [a, b] with
      | none => rfl
      | some dig =>
        simp only [Option.bind_some, List.nil_append]
        rw [pairFold_append c rest, pairFold_append c rest [dig], Option.map_map]
        congr 1
        funext x
        simp

@[simp] theorem levelPass_nil (c : List F → Option F) : levelPass c [] = some [] := by
  simp [levelPass_fold, pairFold]

@[simp] theorem levelPass_single (c : List F → Option F) (x : F) : levelPass c [x] = none := by
  simp [levelPass_fold, pairFold]

theorem levelPass_cons (c : List F → Option F) (a b : F) (rest : List F) :
    levelPass c (a :: b :: rest) = (do
      let dig ← c [a, b]
      let tl ← levelPass c rest
      pure (dig :: tl)) := by
  rw [levelPass_fold, pairFold]
  cases c [a, b] with
  | none => rfl
  | some dig =>
    simp only [Option.bind_some, List.nil_append, pairFold_append, Option.bind_eq_bind, Option.pure_def]
    cases levelPass c rest <;> rfl

/-- One level of the loop either fails at some pair or yields the compressed pairs. -/
theorem levelPass_tl (c : List F → Option F) (m : Nat) (f : Nat → F) :
    (∀ g : Nat → F, (∀ i, i < m → c [f (2 * i), f (2 * i + 1)] = some (g i)) →
      levelPass c (tl (2 * m) f) = some (tl m g)) ∧
    ((∃ i, i < m ∧ c [f (2 * i), f (2 * i + 1)] = none) → levelPass c (tl (2 * m) f) = none) := by
  induction m generalizing f with
  | zero =>
    refine ⟨fun g _ => levelPass_nil c, ?_⟩
    rintro ⟨i, hi, -⟩
    omega
  | succ m ih =>
    have hcons : tl (2 * (m + 1)) f = f 0 :: f 1 :: tl (2 * m) (fun i => f (i + 2)) := by
      apply List.ext_getElem?
      intro i
      rcases i with _ | _ | i
      · rw [tl_get _ (by omega)]; rfl
      · rw [tl_get _ (by omega)]; rfl
      · rw [List.getElem?_cons_succ, List.getElem?_cons_succ, tl_getElem?, tl_getElem?]
        by_cases h : i < 2 * m
        · rw [if_pos h, if_pos (by omega)]
        · rw [if_neg h, if_neg (by omega)]
    rw [hcons, levelPass_cons]
    obtain ⟨ih1, ih2⟩ := ih (fun i => f (i + 2))
    constructor
    · intro g hg
      have h0 := hg 0 (by omega)
      simp only [Nat.mul_zero, Nat.zero_add] at h0
      rw [h0, ih1 (fun i => g (i + 1)) (fun i hi => hg (i + 1) (by omega))]
      simp only [Option.bind_eq_bind, Option.bind_some, Option.pure_def, Option.some.injEq]
      apply List.ext_getElem?
      intro i
      rcases i with _ | i
      · rw [tl_get _ (by omega)]; rfl
      · rw [List.getElem?_cons_succ, tl_getElem?, tl_getElem?]
        by_cases h : i < m
        · rw [if_pos h, if_pos (by omega)]
        · rw [if_neg h, if_neg (by omega)]
    · rintro ⟨i, hi, hc⟩
      cases i with
      | zero =>
        simp only [Nat.mul_zero, Nat.zero_add] at hc
        rw [hc]; rfl
      | succ i =>
        have : levelPass c (tl (2 * m) fun i => f (i + 2)) = none := ih2 ⟨i, by omega, hc⟩
        rw [this]
        cases c [f 0, f 1] <;> rfl

theorem level_cases (c : F → F → Option F) (m : Nat) (f : Nat → F) :
    (∃ g : Nat → F, ∀ i, i < m → c (f (2 * i)) (f (2 * i + 1)) = some (g i)) ∨
    (∃ i, i < m ∧ c (f (2 * i)) (f (2 * i + 1)) = none) := by
  classical
  by_cases h : ∃ i, i < m ∧ c (f (2 * i)) (f (2 * i + 1)) = none
  · exact Or.inr h
  · left
    push Not at h
    refine ⟨fun i => (c (f (2 * i)) (f (2 * i + 1))).getD (f 0), fun i hi => ?_⟩
    cases hc : c (f (2 * i)) (f (2 * i + 1)) with
    | none => exact absurd hc (h i hi)
    | some v => simp [hc]

/-! ## The specification from the bottom up -/

theorem treeLv_congr (c : Nat → F → F → Option F) (k : Nat) {f g : Nat → F} (h : ∀ i, i < 2 ^ k → f i = g i) :
    treeLv c k f = treeLv c k g := by
  induction k generalizing f g with
  | zero => simp [treeLv, h 0 (by simp)]
  | succ k ih =>
    unfold treeLv
    rw [ih (f := f) (g := g) fun i hi => h i (by rw [pow_succ]; omega),
      ih (f := shift (2 ^ k) f) (g := shift (2 ^ k) g) fun i hi => h (2 ^ k + i) (by rw [pow_succ]; omega)]

theorem treeLv_congr_c (c c' : Nat → F → F → Option F) (k : Nat) (h : ∀ lv, lv < k → c lv = c' lv) (f : Nat → F) :
    treeLv c k f = treeLv c' k f := by
  induction k generalizing f with
  | zero => rfl
  | succ k ih =>
    unfold treeLv
    rw [ih (fun lv hl => h lv (by omega)), ih (fun lv hl => h lv (by omega)), h k (by omega)]

theorem tree_eq_treeLv (c : F → F → Option F) (k : Nat) (f : Nat → F) : tree c k f = treeLv (fun _ => c) k f := by
  induction k generalizing f with
  | zero => rfl
  | succ k ih =>
    unfold tree treeLv
    rw [ih, ih]

/-- Compressing the bottom level first gives the same root. -/
theorem treeLv_bottom (c : Nat → F → F → Option F) (k : Nat) {f g : Nat → F}
    (h : ∀ i, i < 2 ^ k → c 0 (f (2 * i)) (f (2 * i + 1)) = some (g i)) :
    treeLv c (k + 1) f = treeLv (fun lv => c (lv + 1)) k g := by
  induction k generalizing f g with
  | zero =>
    have := h 0 (by simp)
    simp only [treeLv, shift]
    simpa using this
  | succ k ih =>
    rw [treeLv, treeLv.eq_2 (fun lv => c (lv + 1)) g k, ih (f := f) (g := g) fun i hi => h i (by rw [pow_succ]; omega)]
    rw [ih (f := shift (2 ^ (k + 1)) f) (g := shift (2 ^ k) g) fun i hi => by
      have := h (2 ^ k + i) (by rw [pow_succ]; omega)
      unfold shift
      rw [← this, pow_succ]
      congr 2 <;> ring]

theorem treeLv_bottom_none (c : Nat → F → F → Option F) (k : Nat) {f : Nat → F}
    (h : ∃ i, i < 2 ^ k ∧ c 0 (f (2 * i)) (f (2 * i + 1)) = none) : treeLv c (k + 1) f = none := by
  induction k generalizing f with
  | zero =>
    obtain ⟨i, hi, hc⟩ := h
    have : i = 0 := by simpa using hi
    subst this
    simp only [treeLv, shift]
    simpa using hc
  | succ k ih =>
    obtain ⟨i, hi, hc⟩ := h
    rw [treeLv]
    by_cases h1 : i < 2 ^ k
    · rw [ih ⟨i, h1, hc⟩]
    · rw [ih (f := shift (2 ^ (k + 1)) f) ⟨i - 2 ^ k, by rw [pow_succ] at hi; omega, by
        unfold shift
        rw [← hc, pow_succ]
        have e : 2 ^ k + (i - 2 ^ k) = i := by omega
        congr 2
        · rw [mul_comm (2 ^ k) 2, ← mul_add, e]
        · rw [← add_assoc, mul_comm (2 ^ k) 2, ← mul_add, e]⟩]
      split <;> simp_all

/-! ## The loop computes the specification -/

theorem treeLoopLv_eq (c : Nat → List F → Option F) (k lv : Nat) (f : Nat → F) :
    treeLoopLv c lv (tl (2 ^ k) f) = treeLv (fun h a b => c (lv + h) [a, b]) k f := by
  induction k generalizing f lv with
  | zero =>
    unfold treeLoopLv
    rw [dif_neg (by simp)]
    rfl
  | succ k ih =>
    have hlen : (tl (2 ^ (k + 1)) f).length > 1 := by
      rw [tl_length]; exact Nat.one_lt_two_pow (by omega)
    unfold treeLoopLv
    rw [dif_pos hlen]
    have h2 : 2 ^ (k + 1) = 2 * 2 ^ k := by rw [pow_succ, mul_comm]
    obtain ⟨l1, l2⟩ := levelPass_tl (c lv) (2 ^ k) f
    rw [← h2] at l1 l2
    rcases level_cases (fun a b => c lv [a, b]) (2 ^ k) f with ⟨g, hg⟩ | hnone
    · have hpass := l1 g hg
      have e2 : treeLv (fun h a b => c (lv + h) [a, b]) (k + 1) f =
          treeLv (fun h a b => c (lv + 1 + h) [a, b]) k g := by
        rw [treeLv_bottom (g := g) _ k (by simpa using hg)]
        congr 1
        funext h a b
        rw [show lv + (h + 1) = lv + 1 + h by omega]
      rw [e2, ← ih]
      split
      · next h => rw [h] at hpass; cases hpass
      · next n h =>
        rw [h] at hpass
        cases hpass
        rfl
    · have hpass := l2 hnone
      rw [treeLv_bottom_none _ k (by simpa using hnone)]
      split
      · rfl
      · next n h => rw [h] at hpass; cases hpass

theorem treeLoop_eq_lv (c : List F → Option F) (nodes : List F) (lv : Nat) :
    treeLoop c nodes = treeLoopLv (fun _ => c) lv nodes := by
  induction hn : nodes.length using Nat.strong_induction_on generalizing nodes lv with
  | _ n ih =>
    unfold treeLoop treeLoopLv
    by_cases h : nodes.length > 1
    · rw [dif_pos h, dif_pos h]
      split
      · rfl
      · next n1 h1 =>
        have := levelPass_length c _ _ h1
        exact ih n1.length (by omega) n1 (lv + 1) rfl
    · rw [dif_neg h, dif_neg h]

theorem treeLoop_eq (c : List F → Option F) (k : Nat) (f : Nat → F) :
    treeLoop c (tl (2 ^ k) f) = tree (fun a b => c [a, b]) k f := by
  rw [treeLoop_eq_lv c _ 0, treeLoopLv_eq, tree_eq_treeLv]

theorem accumulate_eq (dbg : Bool) (c : List F → Option F) {set : List F} (hne : set ≠ [])
    (hlen : set.length ≤ 2 ^ 63) :
    accumulate dbg c set = tree (fun a b => c [a, b]) (depth set.length) (padded set hne) := by
  unfold accumulate
  rw [paddedNodes_eq dbg hne hlen]
  simp only [Option.bind_eq_bind, Option.bind_some]
  exact treeLoop_eq c _ _

theorem accumulateOrchard_eq (dbg : Bool) (c : Nat → List F → Option F) {set : List F} (hne : set ≠ [])
    (hlen : set.length ≤ 2 ^ 63) :
    accumulateOrchard dbg c set = treeLv (fun lv a b => c lv [a, b]) (depth set.length) (padded set hne) := by
  unfold accumulateOrchard
  rw [paddedNodes_eq dbg hne hlen]
  simp only [Option.bind_eq_bind, Option.bind_some]
  rw [treeLoopLv_eq]
  simp only [Nat.zero_add]

theorem accumulateSapling_eq (dbg : Bool) (c : Nat → List F → Option F) {set : List F} (hne : set ≠ [])
    (hlen : set.length ≤ 2 ^ 63) :
    accumulateSapling dbg c set = treeLv (fun lv a b => c lv [a, b]) (depth set.length) (padded set hne) := by
  unfold accumulateSapling
  rw [paddedNodes_eq dbg hne hlen]
  simp only [Option.bind_eq_bind, Option.bind_some]
  rw [treeLoopLv_eq]
  simp only [Nat.zero_add]

/-! ## Totality and congruence -/

theorem tree_congr (c : F → F → Option F) (k : Nat) {f g : Nat → F} (h : ∀ i, i < 2 ^ k → f i = g i) :
    tree c k f = tree c k g := by
  rw [tree_eq_treeLv, tree_eq_treeLv, treeLv_congr _ k h]

theorem treeLv_isSome (c : Nat → F → F → Option F) (k : Nat) (h : ∀ lv, lv < k → ∀ a b, (c lv a b).isSome)
    (f : Nat → F) : (treeLv c k f).isSome := by
  induction k generalizing f with
  | zero => rfl
  | succ k ih =>
    unfold treeLv
    have h1 := ih (fun lv hl => h lv (by omega)) f
    have h2 := ih (fun lv hl => h lv (by omega)) (shift (2 ^ k) f)
    obtain ⟨a, ha⟩ := Option.isSome_iff_exists.mp h1
    obtain ⟨b, hb⟩ := Option.isSome_iff_exists.mp h2
    rw [ha, hb]
    exact h k (by omega) a b

theorem treeLv_none (c : Nat → F → F → Option F) (k lv : Nat) (hlv : lv < k) (h : ∀ a b, c lv a b = none)
    (f : Nat → F) : treeLv c k f = none := by
  induction k generalizing f with
  | zero => omega
  | succ k ih =>
    unfold treeLv
    by_cases hk : lv = k
    · subst hk
      split
      · exact h _ _
      · rfl
    · rw [ih (by omega)]

theorem tree_isSome (c : F → F → Option F) (k : Nat) (h : ∀ a b, (c a b).isSome) (f : Nat → F) :
    (tree c k f).isSome := by
  rw [tree_eq_treeLv]
  exact treeLv_isSome _ k (fun _ _ => h) f

/-! ## Collision reduction -/

theorem shift_shift (p q : Nat) (f : Nat → F) : shift p (shift q f) = shift (q + p) f := by
  funext i
  unfold shift
  rw [add_assoc]

theorem shift_zero (f : Nat → F) : shift 0 f = f := by
  funext i
  unfold shift
  rw [Nat.zero_add]

/-- Two trees with the same root have the same leaves, or two different node pairs at the same place of the two trees
have the same compression. -/
theorem tree_collision (c : F → F → Option F) (k : Nat) (f g : Nat → F) (r : F)
    (hf : tree c k f = some r) (hg : tree c k g = some r) :
    (∀ i, i < 2 ^ k → f i = g i) ∨
    ∃ h j a b a' b' v, h < k ∧ j < 2 ^ (k - 1 - h) ∧
      node c f h (2 * j) = some a ∧ node c f h (2 * j + 1) = some b ∧
      node c g h (2 * j) = some a' ∧ node c g h (2 * j + 1) = some b' ∧
      (a, b) ≠ (a', b') ∧ c a b = some v ∧ c a' b' = some v := by
  induction k generalizing f g r with
  | zero =>
    left
    intro i hi
    have : i = 0 := by simpa using hi
    subst this
    simp only [tree, Option.some.injEq] at hf hg
    rw [hf, hg]
  | succ k ih =>
    unfold tree at hf hg
    obtain ⟨a, ha⟩ : ∃ a, tree c k f = some a := by
      cases h : tree c k f with
      | none => rw [h] at hf; cases hf
      | some a => exact ⟨a, rfl⟩
    obtain ⟨a', ha'⟩ : ∃ a, tree c k g = some a := by
      cases h : tree c k g with
      | none => rw [h] at hg; cases hg
      | some a => exact ⟨a, rfl⟩
    obtain ⟨b, hb⟩ : ∃ b, tree c k (shift (2 ^ k) f) = some b := by
      cases h : tree c k (shift (2 ^ k) f) with
      | none => rw [ha, h] at hf; cases hf
      | some b => exact ⟨b, rfl⟩
    obtain ⟨b', hb'⟩ : ∃ b, tree c k (shift (2 ^ k) g) = some b := by
      cases h : tree c k (shift (2 ^ k) g) with
      | none => rw [ha', h] at hg; cases hg
      | some b => exact ⟨b, rfl⟩
    rw [ha, hb] at hf
    rw [ha', hb'] at hg
    simp only at hf hg
    by_cases hab : (a, b) = (a', b')
    · simp only [Prod.mk.injEq] at hab
      obtain ⟨rfl, rfl⟩ := hab
      rcases ih f g a ha ha' with h1 | ⟨h, j, x, y, x', y', v, h1, h2, h3⟩
      · rcases ih _ _ b hb hb' with h2 | ⟨h, j, x, y, x', y', v, h2, h3, h4, h5, h6, h7, h8⟩
        · left
          intro i hi
          by_cases hik : i < 2 ^ k
          · exact h1 i hik
          · have := h2 (i - 2 ^ k) (by rw [pow_succ] at hi; omega)
            unfold shift at this
            rw [show 2 ^ k + (i - 2 ^ k) = i by omega] at this
            exact this
        · right
          have e1 : 2 ^ (k - 1 - h) * 2 ^ (h + 1) = 2 ^ k := by
            rw [← pow_add]; congr 1; omega
          have e2 : 2 ^ (k + 1 - 1 - h) = 2 ^ (k - 1 - h) + 2 ^ (k - 1 - h) := by
            rw [show k + 1 - 1 - h = (k - 1 - h) + 1 by omega, pow_succ]; omega
          have key : ∀ (q : Nat → F) (d : Nat), node c q h (2 * (2 ^ (k - 1 - h) + j) + d) =
              node c (shift (2 ^ k) q) h (2 * j + d) := by
            intro q d
            unfold node
            rw [shift_shift, ← e1, pow_succ]
            congr 2
            ring
          refine ⟨h, 2 ^ (k - 1 - h) + j, x, y, x', y', v, by omega, by omega, ?_, ?_, ?_, ?_, h8⟩
          · rw [← Nat.add_zero (2 * _), key]; exact h4
          · rw [key]; exact h5
          · rw [← Nat.add_zero (2 * _), key]; exact h6
          · rw [key]; exact h7
      · right
        refine ⟨h, j, x, y, x', y', v, by omega, lt_of_lt_of_le h2 (Nat.pow_le_pow_right (by omega) (by omega)), h3⟩
    · right
      refine ⟨k, 0, a, b, a', b', r, by omega, by simp, ?_, ?_, ?_, ?_, hab, hf, hg⟩
      · unfold node; simpa [shift_zero] using ha
      · unfold node; simpa using hb
      · unfold node; simpa [shift_zero] using ha'
      · unfold node; simpa using hb'

/-! ## Counting -/

theorem levelPassN_eq (c : List F → Option F) (n : Nat) (l : List F) :
    levelPassN c n l = (levelPass c l).map fun l' => (l', n + l'.length) := by
  have gen : ∀ (l s : List F) (n : Nat), pairFold (fun (st : List F × Nat) a b =>
      (c [a, b]).bind fun dig => some (st.1 ++ [dig], st.2 + 1)) l (s, n) =
      (levelPass c l).map fun l' => (s ++ l', n + l'.length) := by
    intro l
    induction hl : l.length using Nat.strong_induction_on generalizing l with
    | _ m ih =>
      intro s n
      match l, hl with
      | [], _ => simp [pairFold]
      | [_], _ => simp [pairFold]
      | a :: b :: rest, hl =>
        rw [pairFold, levelPass_cons]
        cases c [a, b] with
        | none => rfl
        | some d =>
          simp only [Option.bind_some, Option.bind_eq_bind]
          rw [ih rest.length (by simp only [List.length_cons] at hl; omega) rest rfl]
          cases levelPass c rest with
          | none => rfl
          | some l' =>
            simp only [Option.map_some, Option.bind_some, Option.pure_def, List.length_cons, Option.some.injEq,
              Prod.mk.injEq, List.append_assoc, List.singleton_append, true_and]
            omega
  rw [levelPassN_fold, gen]
  simp

theorem treeLoopN_eq (c : List F → Option F) (n : Nat) (nodes : List F) (hne : nodes ≠ []) :
    treeLoopN c n nodes = (treeLoop c nodes).map fun x => (x, n + (nodes.length - 1)) := by
  induction hl : nodes.length using Nat.strong_induction_on generalizing nodes n with
  | _ m ih =>
    unfold treeLoopN treeLoop
    by_cases h : nodes.length > 1
    · rw [dif_pos h, dif_pos h]
      have hN := levelPassN_eq c n nodes
      split
      · next h1 =>
        rw [h1] at hN
        split
        · rfl
        · next n1 h2 => rw [h2] at hN; cases hN
      · next r h1 =>
        rw [h1] at hN
        split
        · next h2 => rw [h2] at hN; cases hN
        · next n1 h2 =>
          rw [h2] at hN
          simp only [Option.map_some, Option.some.injEq] at hN
          subst hN
          have hlen := levelPass_length c _ _ h2
          have hne' : n1 ≠ [] := by
            intro h0
            rw [h0] at hlen
            simp only [List.length_nil] at hlen
            omega
          rw [ih n1.length (by omega) _ n1 hne' rfl]
          congr 1
          funext x
          have : 0 < n1.length := List.length_pos_of_ne_nil hne'
          simp only [Prod.mk.injEq, true_and]
          omega
    · rw [dif_neg h, dif_neg h]
      have : 0 < nodes.length := List.length_pos_of_ne_nil hne
      have h0 : n + (m - 1) = n := by omega
      simp only [h0]
      cases nodes[0]? <;> rfl

theorem accumulateN_eq (dbg : Bool) (c : List F → Option F) {set : List F} (hne : set ≠ [])
    (hlen : set.length ≤ 2 ^ 63) :
    accumulateN dbg c set = (accumulate dbg c set).map fun x => (x, 2 ^ depth set.length - 1) := by
  unfold accumulateN accumulate
  rw [paddedNodes_eq dbg hne hlen]
  simp only [Option.bind_eq_bind, Option.bind_some]
  rw [treeLoopN_eq]
  · simp
  · intro h
    have := congrArg List.length h
    simp only [tl_length, List.length_nil] at this
    exact absurd this (by positivity)

/-! ## The digest tree -/

section Digest

variable {σ D : Type _}

theorem levelPassF2_eq (H : DigestImpl σ D) (hreset : ∀ s, (H.finalizeReset s).2 = H.new) (l : List D) :
    levelPassF2 H H.new l =
      (levelPass (onPair fun a b => (compressF2 H H.new a b).1) l).map fun l' => (l', H.new) := by
  have gen : ∀ (l s : List D), pairFold (fun (st : List D × σ) a b =>
      some (st.1 ++ [(compressF2 H st.2 a b).1], (compressF2 H st.2 a b).2)) l (s, H.new) =
      (levelPass (onPair fun a b => (compressF2 H H.new a b).1) l).map fun l' => (s ++ l', H.new) := by
    intro l
    induction hl : l.length using Nat.strong_induction_on generalizing l with
    | _ m ih =>
      intro s
      match l, hl with
      | [], _ => simp [pairFold]
      | [_], _ => simp [pairFold]
      | a :: b :: rest, hl =>
        rw [pairFold, levelPass_cons]
        have : (compressF2 H H.new a b).2 = H.new := hreset _
        simp only [Option.bind_some, Option.bind_eq_bind, this, onPair]
        rw [ih rest.length (by simp only [List.length_cons] at hl; omega) rest rfl]
        cases levelPass (onPair fun a b => (compressF2 H H.new a b).1) rest with
        | none => rfl
        | some l' => simp
  rw [levelPassF2_fold, gen]
  simp

theorem treeLoopF2_eq (H : DigestImpl σ D) (hreset : ∀ s, (H.finalizeReset s).2 = H.new) (nodes : List D) :
    treeLoopF2 H H.new nodes =
      (treeLoop (onPair fun a b => (compressF2 H H.new a b).1) nodes).map fun x => (x, H.new) := by
  induction hl : nodes.length using Nat.strong_induction_on generalizing nodes with
  | _ m ih =>
    unfold treeLoopF2 treeLoop
    by_cases h : nodes.length > 1
    · rw [dif_pos h, dif_pos h]
      have hN := levelPassF2_eq H hreset nodes
      split
      · next h1 =>
        rw [h1] at hN
        split
        · rfl
        · next n1 h2 => rw [h2] at hN; cases hN
      · next r h1 =>
        rw [h1] at hN
        split
        · next h2 => rw [h2] at hN; cases hN
        · next n1 h2 =>
          rw [h2] at hN
          simp only [Option.map_some, Option.some.injEq] at hN
          subst hN
          have hlen := levelPass_length _ _ _ h2
          exact ih n1.length (by omega) n1 rfl
    · rw [dif_neg h, dif_neg h]
      cases nodes[0]? <;> rfl

theorem accumulateF2_eq (dbg : Bool) (H : DigestImpl σ D) (hreset : ∀ s, (H.finalizeReset s).2 = H.new)
    (set : List D) :
    accumulateF2 dbg H H.new set =
      (accumulate dbg (onPair fun a b => (compressF2 H H.new a b).1) set).map fun x => (x, H.new) := by
  unfold accumulateF2 accumulate
  cases paddedNodes dbg set with
  | none => rfl
  | some nodes =>
    simp only [Option.bind_eq_bind, Option.bind_some]
    exact treeLoopF2_eq H hreset nodes

theorem historyF2_eq (dbg : Bool) (H : DigestImpl σ D) (hreset : ∀ s, (H.finalizeReset s).2 = H.new)
    (sets : List (List D)) :
    historyF2 dbg H H.new sets =
      (sets.map (accumulate dbg (onPair fun a b => (compressF2 H H.new a b).1)), H.new) := by
  induction sets with
  | nil => rfl
  | cons set rest ih =>
    simp only [historyF2]
    rw [accumulateF2_eq dbg H hreset, List.map_cons]
    generalize accumulate dbg _ set = o
    cases o with
    | none => simp only [Option.map_none, ih]
    | some x => simp only [Option.map_some, ih]

end Digest

end Merkle

end ZkHash

import Verif.Spec.Trail
import Verif.Spec.Branch
import Verif.Spec.Subspace
import Verif.Proofs.Poseidon2Spec
import Mathlib.Algebra.BigOperators.Fin
import Mathlib.Algebra.BigOperators.Intervals
import Mathlib.Algebra.Polynomial.Roots
import Mathlib.Tactic.ComputeDegree
import Mathlib.Tactic.LinearCombination
import Mathlib.Data.Set.Card

set_option autoImplicit false

namespace ZkHash.Trail

open Spec

theorem countP_eq {F : Type _} [DecidableEq F] : ∀ {t : Nat} (x y : Fin t → F),
    ((List.ofFn x).zip (List.ofFn y)).countP (fun p => decide (p.1 ≠ p.2)) = hammingDist x y
  | 0, x, y => by simp [hammingDist]
  | t + 1, x, y => by
    have ih := countP_eq (fun i : Fin t => x i.succ) (fun i => y i.succ)
    rw [List.ofFn_succ, List.ofFn_succ, List.zip_cons_cons, List.countP_cons, ih]
    simp only [hammingDist, Finset.card_filter, Fin.sum_univ_succ]
    rw [add_comm]
    simp

/-- Consecutive pairs. -/
theorem pairs (h : Nat → Nat) (B : Nat) (hpos : ∀ r, 1 ≤ h r) : ∀ (n a : Nat),
    (∀ r, a ≤ r → r + 1 < a + n → B ≤ h r + h (r + 1)) → n / 2 * B + n % 2 ≤ ∑ i ∈ Finset.range n, h (a + i)
  | 0, a, _ => by simp
  | 1, a, _ => by simpa using hpos a
  | n + 2, a, hB => by
    have ih := pairs h B hpos n (a + 2) fun r h1 h2 => hB r (by omega) (by omega)
    rw [Finset.sum_range_succ', Finset.sum_range_succ']
    have e : ∑ k ∈ Finset.range n, h (a + (k + 1 + 1)) = ∑ i ∈ Finset.range n, h (a + 2 + i) :=
      Finset.sum_congr rfl fun i _ => congrArg h (by omega)
    rw [e]
    have := hB a le_rfl (by omega)
    have e1 : (n + 2) / 2 = n / 2 + 1 := by omega
    have e2 : (n + 2) % 2 = n % 2 := by omega
    rw [e1, e2, Nat.succ_mul]
    simp only [Nat.add_zero, Nat.zero_add] at this ⊢
    omega

/-- Blocks of `t`. -/
theorem blocks (h : Nat → Nat) {t : Nat} (ht : 0 < t) (a n : Nat)
    (hB : ∀ r, a ≤ r → r + t ≤ a + n → 1 ≤ ∑ j ∈ Finset.range t, h (r + j)) :
    n / t ≤ ∑ i ∈ Finset.range n, h (a + i) := by
  have key : ∀ q, q * t ≤ n → q ≤ ∑ i ∈ Finset.range (q * t), h (a + i) := by
    intro q
    induction q with
    | zero => simp
    | succ q ih =>
      intro hq
      rw [Nat.succ_mul] at hq
      rw [Nat.succ_mul, Finset.sum_range_add]
      have h1 := ih (by omega)
      have h2 := hB (a + q * t) (by omega) (by omega)
      have e : ∑ x ∈ Finset.range t, h (a + (q * t + x)) = ∑ x ∈ Finset.range t, h (a + q * t + x) :=
        Finset.sum_congr rfl fun i _ => congrArg h (by omega)
      omega
  have hle := Nat.div_mul_le_self n t
  refine (key _ hle).trans ?_
  exact Finset.sum_le_sum_of_subset (Finset.range_mono hle)

variable {F : Type _} [DecidableEq F]

theorem rounds_add {S : Type _} (g : Nat → S → S) (a m : Nat) (x : S) :
    ∀ n, rounds g a (m + n) x = rounds g (a + m) n (rounds g a m x)
  | 0 => rfl
  | n + 1 => by
    rw [← Nat.add_assoc]
    show g (a + (m + n)) (rounds g a (m + n) x) = g (a + m + n) _
    rw [rounds_add g a m x n, Nat.add_assoc]

theorem rounds_ne {S : Type _} (g : Nat → S → S) {x y : S} {R : Nat} (h : rounds g 0 R x ≠ rounds g 0 R y) :
    ∀ r ≤ R, rounds g 0 r x ≠ rounds g 0 r y := by
  intro r hr he
  obtain ⟨k, rfl⟩ := Nat.exists_eq_add_of_le hr
  rw [rounds_add, rounds_add, he] at h
  exact h rfl

theorem head?_ofFn {t : Nat} (ht : 0 < t) (x : Fin t → F) : (List.ofFn x).head? = some (x ⟨0, ht⟩) := by
  obtain ⟨n, rfl⟩ : ∃ n, t = n + 1 := ⟨t - 1, by omega⟩
  rw [List.ofFn_succ]
  rfl

/-- The counting argument. -/
theorem bound {t B rb rp : Nat} (ht : 0 < t) (full part : List F → Nat → Option (List F))
    (hfull : ∀ r < rb + rp + rb, BranchAtLeast t B fun x => full x r)
    (hpart : ∀ r < rb + rp + rb, ∀ x : Fin t → F, ∃ x' : Fin t → F, part (List.ofFn x) r = some (List.ofFn x'))
    (hact : ∀ r, r + t ≤ rb + rp + rb → ∀ x y : Fin t → F, SameFirstWord part r t (List.ofFn x) (List.ofFn y) → x = y) :
    ∃ σ : (Fin t → F) → Nat → Fin t → F, (∀ x, σ x 0 = x) ∧
      (∀ x, Trail full part rb rp (rb + rp + rb) fun r => List.ofFn (σ x r)) ∧
      (∀ x, ((List.range rb).foldlM full (List.ofFn x)).bind (fun s =>
        ((List.range' rb rp).foldlM part s).bind fun s => (List.range' (rb + rp) rb).foldlM full s) =
          some (List.ofFn (σ x (rb + rp + rb)))) ∧
      ∀ x y, σ x (rb + rp + rb) ≠ σ y (rb + rp + rb) →
        2 * (rb / 2 * B + rb % 2) + rp / t ≤
          activeTotal rb rp (rb + rp + rb) (fun r => List.ofFn (σ x r)) fun r => List.ofFn (σ y r) := by
  classical
  have hstep : ∀ r < rb + rp + rb, ∀ x : Fin t → F, ∃ x' : Fin t → F,
      (if rb ≤ r ∧ r < rb + rp then part else full) (List.ofFn x) r = some (List.ofFn x') := by
    intro r hr x
    split
    · exact hpart r hr x
    · obtain ⟨x', _, h, _⟩ := hfull r hr x x
      exact ⟨x', h⟩
  choose! g hg using hstep
  have gfull : ∀ r < rb + rp + rb, (r < rb ∨ rb + rp ≤ r) → ∀ x, full (List.ofFn x) r = some (List.ofFn (g r x)) := by
    intro r hr hc x
    have := hg r hr x
    rwa [if_neg (by omega)] at this
  have gpart : ∀ r, rb ≤ r → r < rb + rp → ∀ x, part (List.ofFn x) r = some (List.ofFn (g r x)) := by
    intro r h1 h2 x
    have := hg r (by omega) x
    rwa [if_pos ⟨h1, h2⟩] at this
  refine ⟨fun x r => rounds g 0 r x, fun x => rfl, fun x => ⟨fun r hr hc => ?_, fun r hr h1 h2 => ?_⟩, fun x => ?_,
    fun x y hxy => ?_⟩
  · rw [gfull r hr hc]
    simp only [rounds, Nat.zero_add]
  · rw [gpart r h1 h2]
    simp only [rounds, Nat.zero_add]
  · rw [List.range_eq_range', rounds_loop (fun x : Fin t → F => List.ofFn x) full g 0 rb fun r _ h x =>
      gfull r (by omega) (by omega) x, Option.bind_some]
    rw [rounds_loop (fun x : Fin t → F => List.ofFn x) part g rb rp fun r h1 h2 x => gpart r h1 h2 x, Option.bind_some]
    rw [rounds_loop (fun x : Fin t → F => List.ofFn x) full g (rb + rp) rb fun r h1 h2 x =>
      gfull r (by omega) (by omega) x]
    beta_reduce
    rw [rounds_add g 0 (rb + rp) x rb, rounds_add g 0 rb x rp, Nat.zero_add, Nat.zero_add]
  · have hne := rounds_ne g hxy
    have hdist : ∀ r ≤ rb + rp + rb, 1 ≤ hammingDist (rounds g 0 r x) (rounds g 0 r y) := fun r hr =>
      Nat.one_le_iff_ne_zero.mpr fun h => hne r hr (hammingDist_eq_zero.mp h)
    have hpair : ∀ r < rb + rp + rb, (r < rb ∨ rb + rp ≤ r) →
        B ≤ hammingDist (rounds g 0 r x) (rounds g 0 r y) + hammingDist (rounds g 0 (r + 1) x) (rounds g 0 (r + 1) y) := by
      intro r hr hc
      obtain ⟨x', y', h1, h2, h3⟩ := hfull r hr (rounds g 0 r x) (rounds g 0 r y)
      simp only [gfull r hr hc, Option.some.injEq] at h1 h2
      rw [← List.ofFn_injective h1, ← List.ofFn_injective h2] at h3
      have := h3 (hne r hr.le)
      simpa only [rounds, Nat.zero_add] using this
    -- the activity in full rounds, cut off outside of them
    have hseg : ∀ a, (a + rb ≤ rb ∨ rb + rp ≤ a) → a + rb ≤ rb + rp + rb →
        rb / 2 * B + rb % 2 ≤ ∑ i ∈ Finset.range rb, activeIn rb rp (a + i) (List.ofFn (rounds g 0 (a + i) x))
          (List.ofFn (rounds g 0 (a + i) y)) := by
      intro a hc ha
      have := pairs (fun r => if r < a + rb then hammingDist (rounds g 0 r x) (rounds g 0 r y) else 1) B
        (fun r => by
          split
          · exact hdist r (by omega)
          · exact le_rfl) rb a (fun r h1 h2 => by
          rw [if_pos (by omega), if_pos (by omega)]
          exact hpair r (by omega) (by omega))
      refine this.trans (le_of_eq (Finset.sum_congr rfl fun i hi => ?_))
      have hi := Finset.mem_range.mp hi
      unfold activeIn
      rw [if_pos (by omega), if_neg (by omega), countP_eq]
    have hmid : rp / t ≤ ∑ i ∈ Finset.range rp, activeIn rb rp (rb + i) (List.ofFn (rounds g 0 (rb + i) x))
          (List.ofFn (rounds g 0 (rb + i) y)) := by
      refine blocks (fun r => activeIn rb rp r (List.ofFn (rounds g 0 r x)) (List.ofFn (rounds g 0 r y))) ht rb rp
        fun r h1 h2 => ?_
      by_contra hlt
      have h0 : ∑ j ∈ Finset.range t, activeIn rb rp (r + j) (List.ofFn (rounds g 0 (r + j) x))
          (List.ofFn (rounds g 0 (r + j) y)) = 0 := by omega
      rw [Finset.sum_eq_zero_iff] at h0
      refine hne r (by omega) (hact r (by omega) _ _ fun j hj => ?_)
      have hj0 := h0 j (Finset.mem_range.mpr hj)
      unfold activeIn at hj0
      rw [if_pos (by omega)] at hj0
      refine ⟨List.ofFn (rounds g 0 (r + j) x), List.ofFn (rounds g 0 (r + j) y), ?_, ?_, ?_⟩
      · rw [rounds_loop (fun x : Fin t → F => List.ofFn x) part g r j fun i h1 h2 x => gpart i (by omega) (by omega) x,
          rounds_add g 0 r x j, Nat.zero_add]
      · rw [rounds_loop (fun x : Fin t → F => List.ofFn x) part g r j fun i h1 h2 x => gpart i (by omega) (by omega) x,
          rounds_add g 0 r y j, Nat.zero_add]
      · by_contra hc
        rw [if_neg hc] at hj0
        omega
    have s1 := hseg 0 (by omega) (by omega)
    have s2 := hseg (rb + rp) (by omega) (by omega)
    simp only [Nat.zero_add] at s1
    unfold activeTotal
    rw [Finset.sum_range_add, Finset.sum_range_add]
    beta_reduce
    omega

/-! ## S-box -/

section Sbox

open Polynomial

variable {K : Type _} [Field K]

theorem ncard_roots {P : K[X]} {n : Nat} (hd : P.natDegree ≤ n) (hn : P.coeff n ≠ 0) {s : Set K}
    (hs : ∀ x ∈ s, P.eval x = 0) : s.ncard ≤ n := by
  have h0 : P ≠ 0 := by
    rintro rfl
    simp at hn
  classical
  have hsub : s ⊆ (P.roots.toFinset : Set K) := fun x hx => by
    simpa [h0] using hs x hx
  refine (Set.ncard_le_ncard hsub (Finset.finite_toSet _)).trans ?_
  rw [Set.ncard_coe_finset]
  exact (Multiset.toFinset_card_le _).trans ((card_roots' P).trans hd)

theorem coeff2 (c d e : K) : coeff (C c * X ^ 2 + C d * X + C e) 2 = c := by
  simp [coeff_C, coeff_X]

theorem coeff4 (c d e f g : K) : coeff (C c * X ^ 4 + C d * X ^ 3 + C e * X ^ 2 + C f * X + C g) 4 = c := by
  simp [coeff_C, coeff_X, coeff_X_pow]

theorem coeff6 (c d e f g h i : K) :
    coeff (C c * X ^ 6 + C d * X ^ 5 + C e * X ^ 4 + C f * X ^ 3 + C g * X ^ 2 + C h * X + C i) 6 = c := by
  simp [coeff_C, coeff_X, coeff_X_pow]

theorem diff_pow {d : Nat} (hd : d = 3 ∨ d = 5 ∨ d = 7) (hc : (d : K) ≠ 0) {a : K} (ha : a ≠ 0) (b : K) :
    {x : K | (x + a) ^ d - x ^ d = b}.ncard ≤ d - 1 := by
  rcases hd with rfl | rfl | rfl
  · refine ncard_roots (P := C (3 * a) * X ^ 2 + C (3 * a ^ 2) * X + C (a ^ 3 - b)) (by compute_degree) ?_ ?_
    · rw [coeff2]
      exact mul_ne_zero (by exact_mod_cast hc) ha
    · intro x hx
      simp only [Set.mem_ofPred_eq] at hx
      simp only [eval_add, eval_mul, eval_C, eval_pow, eval_X]
      linear_combination hx
  · refine ncard_roots (P := C (5 * a) * X ^ 4 + C (10 * a ^ 2) * X ^ 3 + C (10 * a ^ 3) * X ^ 2 + C (5 * a ^ 4) * X +
      C (a ^ 5 - b)) (by compute_degree) ?_ ?_
    · rw [coeff4]
      exact mul_ne_zero (by exact_mod_cast hc) ha
    · intro x hx
      simp only [Set.mem_ofPred_eq] at hx
      simp only [eval_add, eval_mul, eval_C, eval_pow, eval_X]
      linear_combination hx
  · refine ncard_roots (P := C (7 * a) * X ^ 6 + C (21 * a ^ 2) * X ^ 5 + C (35 * a ^ 3) * X ^ 4 + C (35 * a ^ 4) * X ^ 3 +
      C (21 * a ^ 5) * X ^ 2 + C (7 * a ^ 6) * X + C (a ^ 7 - b)) (by compute_degree) ?_ ?_
    · rw [coeff6]
      exact mul_ne_zero (by exact_mod_cast hc) ha
    · intro x hx
      simp only [Set.mem_ofPred_eq] at hx
      simp only [eval_add, eval_mul, eval_C, eval_pow, eval_X]
      linear_combination hx

end Sbox

end ZkHash.Trail

import Verif.Spec.Common
import Mathlib.InformationTheory.Hamming
import Mathlib.Algebra.Polynomial.Roots
import Mathlib.Data.Matrix.Mul
import Mathlib.Tactic.LinearCombination
import Mathlib.Tactic.FieldSimp

set_option autoImplicit false

/-!
# Branch numbers of matrices
-/

namespace ZkHash.Branch

open Matrix Polynomial Finset

variable {F : Type _} [Field F] [DecidableEq F]

/-- A Cauchy matrix `1 / (a i + b j)` has the largest possible branch number. -/
theorem cauchy {t : Nat} (M : Matrix (Fin t) (Fin t) F) (a b : Fin t → F) (ha : Function.Injective a)
    (hb : Function.Injective b) (hM : ∀ i j, M i j * (a i + b j) = 1) (x : Fin t → F) (hx : x ≠ 0) :
    t + 1 ≤ hammingNorm x + hammingNorm (M *ᵥ x) := by
  classical
  have hne : ∀ i j, a i + b j ≠ 0 := fun i j h => by simpa [h] using hM i j
  let S : Finset (Fin t) := univ.filter fun j => x j ≠ 0
  have hS : hammingNorm x = S.card := rfl
  let N : F[X] := ∑ j ∈ S, C (x j) * ∏ k ∈ S.erase j, (X + C (b k))
  have hdeg : N.natDegree ≤ S.card - 1 := by
    refine natDegree_sum_le_of_forall_le _ _ fun j hj => ?_
    refine (natDegree_C_mul_le _ _).trans ?_
    refine (natDegree_prod_le _ _).trans ?_
    refine (Finset.sum_le_card_nsmul _ _ 1 fun k _ => ?_).trans ?_
    · simp
    · simp [Finset.card_erase_of_mem hj]
  have heval : ∀ y, N.eval y = ∑ j ∈ S, x j * ∏ k ∈ S.erase j, (y + b k) := by
    intro y
    simp [N, eval_finset_sum, eval_prod]
  obtain ⟨j0, hj0⟩ : ∃ j, x j ≠ 0 := by
    by_contra h
    push Not at h
    exact hx (funext h)
  have hj0S : j0 ∈ S := by simp [S, hj0]
  have hN : N ≠ 0 := by
    intro h0
    have h1 := heval (-(b j0))
    rw [h0, eval_zero, Finset.sum_eq_single_of_mem j0 hj0S] at h1
    · rcases mul_eq_zero.mp h1.symm with h | h
      · exact hj0 h
      · obtain ⟨k, hk, h⟩ := Finset.prod_eq_zero_iff.mp h
        have : b k = b j0 := by linear_combination h
        exact (Finset.mem_erase.mp hk).1 (hb this)
    · intro j hj hne
      refine mul_eq_zero_of_right _ (Finset.prod_eq_zero (i := j0) ?_ (by ring))
      exact Finset.mem_erase.mpr ⟨fun h => hne h.symm, hj0S⟩
  have hrow : ∀ i, (M *ᵥ x) i * ∏ k ∈ S, (a i + b k) = N.eval (a i) := by
    intro i
    rw [heval]
    have h1 : (M *ᵥ x) i = ∑ j ∈ S, M i j * x j := by
      unfold mulVec dotProduct
      refine (Finset.sum_subset (Finset.subset_univ S) fun j _ hj => ?_).symm
      have : x j = 0 := by simpa [S] using hj
      rw [this, mul_zero]
    rw [h1, Finset.sum_mul]
    refine Finset.sum_congr rfl fun j hj => ?_
    rw [← Finset.mul_prod_erase S _ hj]
    linear_combination (x j * ∏ k ∈ S.erase j, (a i + b k)) * hM i j
  let Z : Finset (Fin t) := univ.filter fun i => (M *ᵥ x) i = 0
  have hZ : Z.card ≤ S.card - 1 := by
    have hsub : Z.image a ⊆ N.roots.toFinset := by
      intro y hy
      obtain ⟨i, hi, rfl⟩ := Finset.mem_image.mp hy
      rw [Multiset.mem_toFinset, mem_roots hN, IsRoot.def, ← hrow, (Finset.mem_filter.mp hi).2, zero_mul]
    calc Z.card = (Z.image a).card := (Finset.card_image_of_injective _ ha).symm
      _ ≤ N.roots.toFinset.card := Finset.card_le_card hsub
      _ ≤ N.roots.card := Multiset.toFinset_card_le _
      _ ≤ N.natDegree := card_roots' N
      _ ≤ S.card - 1 := hdeg
  have hW : hammingNorm (M *ᵥ x) + Z.card = t := by
    have := Finset.card_filter_add_card_filter_not (s := (univ : Finset (Fin t))) (fun i => (M *ᵥ x) i ≠ 0)
    simp only [not_not, card_univ, Fintype.card_fin] at this
    exact this
  have hpos : 0 < S.card := Finset.card_pos.mpr ⟨j0, hj0S⟩
  omega

end ZkHash.Branch

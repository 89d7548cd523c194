import Verif.Proofs.Poseidon2Spec
import Verif.Proofs.Bijective
import Mathlib.LinearAlgebra.Matrix.SchurComplement
import Mathlib.LinearAlgebra.Matrix.Kronecker
import Mathlib.LinearAlgebra.Matrix.Reindex
import Mathlib.Tactic.FieldSimp
import Mathlib.Tactic.LinearCombination

set_option autoImplicit false

/-!
# Determinants of the Poseidon2 matrices
-/

namespace ZkHash

open Spec Matrix Function

namespace Poseidon2

section
variable {F : Type _} [Field F]

/-- Ones plus a diagonal without zeros. -/
theorem det_ones_add_diag {n : Nat} (d : Fin n → F) (h : ∀ i, d i ≠ 0) :
    (Matrix.of fun i j => if i = j then 1 + d i else 1 : Matrix (Fin n) (Fin n) F).det =
      (∏ i, d i) * (1 + ∑ i, (d i)⁻¹) := by
  have e : (Matrix.of fun i j => if i = j then 1 + d i else 1 : Matrix (Fin n) (Fin n) F) =
      diagonal d * (1 + replicateCol Unit (fun i => (d i)⁻¹) * replicateRow Unit fun _ : Fin n => (1 : F)) := by
    ext i j
    rw [diagonal_mul, Matrix.add_apply, mul_apply]
    by_cases hij : i = j
    · subst hij
      simp only [of_apply, if_true, one_apply_eq, replicateCol_apply, replicateRow_apply, Finset.univ_unique,
        Finset.sum_singleton, mul_one]
      rw [mul_add, mul_inv_cancel₀ (h i), mul_one, add_comm]
    · simp only [of_apply, if_neg hij, one_apply_ne hij, replicateCol_apply, replicateRow_apply, Finset.univ_unique,
        Finset.sum_singleton, mul_one, zero_add]
      rw [mul_inv_cancel₀ (h i)]
  rw [e, det_mul, det_diagonal, det_one_add_replicateCol_mul_replicateRow]
  simp [dotProduct]

/-- The general criterion: the sum over `i` of the products without `i`, plus the whole product. -/
theorem det_ones_add_diag_ne_zero_iff {n : Nat} (d : Fin n → F) :
    (Matrix.of fun i j => if i = j then 1 + d i else 1 : Matrix (Fin n) (Fin n) F).det ≠ 0 ↔
      (∏ i, d i) + ∑ i, ∏ j ∈ Finset.univ.erase i, d j ≠ 0 := by
  by_cases h : ∀ i, d i ≠ 0
  · rw [det_ones_add_diag d h, mul_add, mul_one, Finset.mul_sum]
    have : ∀ i, (∏ j, d j) * (d i)⁻¹ = ∏ j ∈ Finset.univ.erase i, d j := by
      intro i
      rw [← Finset.mul_prod_erase _ _ (Finset.mem_univ i)]
      field_simp [h i]
    simp only [this]
  · push Not at h
    obtain ⟨i, hi⟩ := h
    have hprod : (∏ j, d j) = 0 := Finset.prod_eq_zero (Finset.mem_univ i) hi
    have hsum : (∑ k, ∏ j ∈ Finset.univ.erase k, d j) = ∏ j ∈ Finset.univ.erase i, d j := by
      apply Finset.sum_eq_single_of_mem i (Finset.mem_univ i)
      intro k _ hk
      exact Finset.prod_eq_zero (Finset.mem_erase.mpr ⟨hk.symm, Finset.mem_univ i⟩) hi
    rw [hprod, hsum, zero_add, Finset.prod_ne_zero_iff]
    constructor
    · intro hdet j hj hj0
      apply hdet
      refine det_zero_of_row_eq (i := i) (j := j) (Finset.mem_erase.mp hj).1.symm ?_
      funext k
      simp only [of_apply, hi, hj0, add_zero, ite_self]
    · intro hj hdet
      obtain ⟨v, hv, hMv⟩ := exists_mulVec_eq_zero_iff.mpr hdet
      apply hv
      have hrow : ∀ k, (∑ j, v j) + d k * v k = 0 := by
        intro k
        have := congrFun hMv k
        rw [mulVec, dotProduct] at this
        simp only [of_apply, Pi.zero_apply] at this
        rw [← this]
        have e : ∀ j, (if k = j then 1 + d k else 1) * v j = v j + if k = j then d k * v j else 0 := by
          intro j
          by_cases hkj : k = j
          · rw [if_pos hkj, if_pos hkj]; ring
          · rw [if_neg hkj, if_neg hkj]; ring
        simp only [e, Finset.sum_add_distrib, Finset.sum_ite_eq, Finset.mem_univ, if_true]
      have hs : (∑ j, v j) = 0 := by
        have := hrow i
        rw [hi, zero_mul, add_zero] at this
        exact this
      have hother : ∀ k, k ≠ i → v k = 0 := by
        intro k hk
        have := hrow k
        rw [hs, zero_add] at this
        exact (mul_eq_zero.mp this).resolve_left (hj k (Finset.mem_erase.mpr ⟨hk, Finset.mem_univ k⟩))
      funext k
      by_cases hk : k = i
      · subst hk
        rw [Finset.sum_eq_single_of_mem k (Finset.mem_univ k) (fun b _ hb => hother b hb)] at hs
        exact hs
      · exact hother k hk

theorem internalMatrix_large {t : Nat} (h : 4 ≤ t) (diag : Nat → F) :
    internalMatrix t diag = Matrix.of fun i j : Fin t => if i = j then 1 + diag i else 1 := by
  ext i j
  unfold internalMatrix
  simp only [of_apply]
  rw [if_neg (show ¬ t < 4 by omega)]

end

section
variable {F : Type _} [CommRing F]

theorem internal_det_two (diag : Nat → F) : (internalMatrix 2 diag).det = 5 := by
  rw [det_fin_two]
  simp [internalMatrix]
  norm_num

theorem internal_det_three (diag : Nat → F) : (internalMatrix 3 diag).det = 7 := by
  rw [det_fin_three]
  simp [internalMatrix]
  norm_num

theorem external_det_two : (externalMatrix 2 : Matrix (Fin 2) (Fin 2) F).det = 3 := by
  rw [det_fin_two]
  simp [externalMatrix]
  norm_num

theorem external_det_three : (externalMatrix 3 : Matrix (Fin 3) (Fin 3) F).det = 4 := by
  rw [det_fin_three]
  simp [externalMatrix]
  norm_num

theorem M4_det : (M4 : Matrix (Fin 4) (Fin 4) F).det = -64 := by
  have h : (M4 : Matrix (Fin 4) (Fin 4) ℤ).det = -64 := by decide +kernel
  have e : (M4 : Matrix (Fin 4) (Fin 4) F) = (Int.castRingHom F).mapMatrix (M4 : Matrix (Fin 4) (Fin 4) ℤ) := by
    ext i j
    fin_cases i <;> fin_cases j <;> simp [M4]
  rw [e, ← RingHom.map_det, h]
  simp

theorem externalMatrix_four : (externalMatrix 4 : Matrix (Fin 4) (Fin 4) F) = M4 := by
  ext i j
  unfold externalMatrix
  simp only [of_apply]
  rw [if_neg (by omega), if_pos trivial]
  congr 1
  · exact Fin.ext (Nat.mod_eq_of_lt i.isLt)
  · exact Fin.ext (Nat.mod_eq_of_lt j.isLt)

open Kronecker in
theorem externalMatrix_blocks {k : Nat} (hk : 2 ≤ k) :
    (externalMatrix (k * 4) : Matrix (Fin (k * 4)) (Fin (k * 4)) F) =
      Matrix.reindex finProdFinEquiv finProdFinEquiv
        ((Matrix.of fun i j => if i = j then 1 + 1 else 1 : Matrix (Fin k) (Fin k) F) ⊗ₖ (M4 : Matrix (Fin 4) (Fin 4) F)) := by
  ext i j
  obtain ⟨⟨a, b⟩, rfl⟩ := finProdFinEquiv.surjective i
  obtain ⟨⟨c, d⟩, rfl⟩ := finProdFinEquiv.surjective j
  rw [reindex_apply, submatrix_apply, Equiv.symm_apply_apply, Equiv.symm_apply_apply, kroneckerMap_apply]
  unfold externalMatrix
  simp only [of_apply]
  rw [if_neg (by omega), if_neg (by omega)]
  have e1 : (finProdFinEquiv (a, b)).val = b.val + 4 * a.val := rfl
  have e2 : (finProdFinEquiv (c, d)).val = d.val + 4 * c.val := rfl
  have hb := b.isLt
  have hd := d.isLt
  have m1 : (⟨(finProdFinEquiv (a, b)).val % 4, Nat.mod_lt _ (by decide)⟩ : Fin 4) = b := by
    apply Fin.ext; simp only [e1]; omega
  have m2 : (⟨(finProdFinEquiv (c, d)).val % 4, Nat.mod_lt _ (by decide)⟩ : Fin 4) = d := by
    apply Fin.ext; simp only [e2]; omega
  rw [m1, m2]
  have e3 : (finProdFinEquiv (a, b)).val / 4 = (finProdFinEquiv (c, d)).val / 4 ↔ a = c := by
    rw [Fin.ext_iff, e1, e2]; omega
  by_cases hac : a = c
  · rw [if_pos (e3.mpr hac), if_pos hac]; ring
  · rw [if_neg (fun h => hac (e3.mp h)), if_neg hac]; ring

theorem ones_add_one_det (k : Nat) :
    (Matrix.of fun i j => if i = j then 1 + 1 else 1 : Matrix (Fin k) (Fin k) F).det = k + 1 := by
  have e : (Matrix.of fun i j => if i = j then 1 + 1 else 1 : Matrix (Fin k) (Fin k) F) =
      1 + replicateCol Unit (fun _ : Fin k => (1 : F)) * replicateRow Unit fun _ : Fin k => (1 : F) := by
    ext i j
    rw [Matrix.add_apply, mul_apply]
    by_cases hij : i = j
    · subst hij; simp
    · simp [hij]
  rw [e, det_one_add_replicateCol_mul_replicateRow]
  simp [dotProduct, add_comm]

theorem external_det_blocks {k : Nat} (hk : 2 ≤ k) :
    (externalMatrix (k * 4) : Matrix (Fin (k * 4)) (Fin (k * 4)) F).det = (k + 1) ^ 4 * (-64) ^ k := by
  rw [externalMatrix_blocks hk, det_reindex_self, det_kronecker, ones_add_one_det, M4_det]
  simp

end

end Poseidon2

end ZkHash

import Verif.Proofs.Invertible
import Verif.Theorems.Poseidon2

set_option autoImplicit false

/-!
# When the linear layers of Poseidon2 are bijections: C48, C49
-/

namespace ZkHash

open Spec Matrix

section
variable {F : Type _} [Field F]

/-- C48: the external layer, per supported width. -/
theorem C48_external_layer_bijective_iff (t : Nat) (ht : Supported t) :
    IsPermutation t (Poseidon2.matmulExternal t : List F → Option (List F)) ↔
      if t = 2 then (3 : F) ≠ 0
      else if t = 3 ∨ t = 4 then (2 : F) ≠ 0
      else (2 : F) ≠ 0 ∧ ((t / 4 + 1 : Nat) : F) ≠ 0 := by
  rw [isPermutation_iff (Poseidon2.matmulExternal_ofFn ht), mulVec_bijective_iff]
  have h64 : (-64 : F) ≠ 0 ↔ (2 : F) ≠ 0 := by
    rw [show (-64 : F) = -(2 ^ 6) by norm_num, neg_ne_zero]
    exact pow_ne_zero_iff (by norm_num)
  have large : ∀ k, 2 ≤ k →
      ((externalMatrix (k * 4) : Matrix (Fin (k * 4)) (Fin (k * 4)) F).det ≠ 0 ↔
        (2 : F) ≠ 0 ∧ ((k + 1 : Nat) : F) ≠ 0) := by
    intro k hk
    rw [Poseidon2.external_det_blocks hk, mul_ne_zero_iff, pow_ne_zero_iff (by norm_num),
      pow_ne_zero_iff (by omega), h64, and_comm]
    push_cast
    rfl
  rcases ht with rfl | rfl | rfl | rfl | rfl | rfl | rfl | rfl
  · rw [if_pos rfl, Poseidon2.external_det_two]
  · rw [if_neg (by omega), if_pos (by omega), Poseidon2.external_det_three, show (4 : F) = 2 ^ 2 by norm_num]
    exact pow_ne_zero_iff (by norm_num)
  · rw [if_neg (by omega), if_pos (by omega), Poseidon2.externalMatrix_four, Poseidon2.M4_det, h64]
  · rw [if_neg (by omega), if_neg (by omega)]; exact large 2 (by omega)
  · rw [if_neg (by omega), if_neg (by omega)]; exact large 3 (by omega)
  · rw [if_neg (by omega), if_neg (by omega)]; exact large 4 (by omega)
  · rw [if_neg (by omega), if_neg (by omega)]; exact large 5 (by omega)
  · rw [if_neg (by omega), if_neg (by omega)]; exact large 6 (by omega)

/-- C48, the determinant of the 4x4 block. -/
theorem C48_M4_det : (M4 : Matrix (Fin 4) (Fin 4) F).det = -64 := Poseidon2.M4_det

/-- C49: the internal layer for `t ≥ 4` and a diagonal without zeros. -/
theorem C49_internal_layer_bijective_iff (t : Nat) (ht : Supported t) (h4 : 4 ≤ t) (diag : List F)
    (hlen : t ≤ diag.length) (hne : ∀ i : Fin t, vec diag i ≠ 0) :
    IsPermutation t (fun x => Poseidon2.matmulInternal t x diag) ↔ 1 + ∑ i : Fin t, (vec diag i)⁻¹ ≠ 0 := by
  rw [isPermutation_iff (Poseidon2.matmulInternal_ofFn ht diag fun _ => hlen), mulVec_bijective_iff,
    Poseidon2.internalMatrix_large h4, Poseidon2.det_ones_add_diag _ hne, mul_ne_zero_iff]
  exact and_iff_right (Finset.prod_ne_zero_iff.mpr fun i _ => hne i)

/-- C49, any diagonal (zeros allowed): the product of all entries plus the sum of the products of all but one. -/
theorem C49_internal_layer_bijective_iff_any (t : Nat) (ht : Supported t) (h4 : 4 ≤ t) (diag : List F)
    (hlen : t ≤ diag.length) :
    IsPermutation t (fun x => Poseidon2.matmulInternal t x diag) ↔
      (∏ i : Fin t, vec diag i) + ∑ i : Fin t, ∏ j ∈ Finset.univ.erase i, vec diag j ≠ 0 := by
  rw [isPermutation_iff (Poseidon2.matmulInternal_ofFn ht diag fun _ => hlen), mulVec_bijective_iff,
    Poseidon2.internalMatrix_large h4, Poseidon2.det_ones_add_diag_ne_zero_iff]

/-- C49, `t = 2` and `t = 3`: independent of the diagonal. -/
theorem C49_internal_layer_small (diag : List F) :
    (IsPermutation 2 (fun x => Poseidon2.matmulInternal 2 x diag) ↔ (5 : F) ≠ 0) ∧
    (IsPermutation 3 (fun x => Poseidon2.matmulInternal 3 x diag) ↔ (7 : F) ≠ 0) := by
  constructor
  · rw [isPermutation_iff (Poseidon2.matmulInternal_ofFn (Or.inl rfl) diag (by omega)), mulVec_bijective_iff,
      Poseidon2.internal_det_two]
  · rw [isPermutation_iff (Poseidon2.matmulInternal_ofFn (Or.inr (Or.inl rfl)) diag (by omega)), mulVec_bijective_iff,
      Poseidon2.internal_det_three]

end

/-- Both sides of C48 occur: over the field with 11 elements all widths are fine, over the field with 3 elements width 2
and width 8 are not. -/
example : (3 : ZMod 11) ≠ 0 ∧ (2 : ZMod 11) ≠ 0 ∧ ((8 / 4 + 1 : Nat) : ZMod 11) ≠ 0 ∧ ((8 / 4 + 1 : Nat) : ZMod 3) = 0 := by
  decide

example : ¬ IsPermutation 8 (Poseidon2.matmulExternal 8 : List (ZMod 3) → Option (List (ZMod 3))) := by
  have : Fact (Nat.Prime 3) := ⟨by decide⟩
  rw [C48_external_layer_bijective_iff 8 (by unfold Supported; omega)]
  decide

/-- C49 over the field with 11 elements, with a diagonal without zeros. -/
example : IsPermutation 4 (fun x => Poseidon2.matmulInternal 4 x ([1, 2, 3, 4] : List (ZMod 11))) := by
  rw [C49_internal_layer_bijective_iff 4 (by unfold Supported; omega) (by omega) _ (by simp) (by decide)]
  decide +kernel

end ZkHash

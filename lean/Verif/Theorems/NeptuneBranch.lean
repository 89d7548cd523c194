import Verif.Theorems.Poseidon2Branch
import Verif.Theorems.Neptune

set_option autoImplicit false

/-!
# The fixed external matrices of Neptune: C58
-/

namespace ZkHash

variable {dbg : Bool}

open Spec Matrix

namespace Branch

/-- All minors of an integer matrix are nonzero and smaller than every shipped modulus. -/
theorem norm_of_small {p t : Nat} [Fact p.Prime] (hp : 2013265921 ≤ p) {M : Matrix (Fin t) (Fin t) ℤ}
    (h : ∀ k, 0 < k → k < t → minorsSmall k t M) (h0 : M.det ≠ 0) (h1 : M.det.natAbs < 2013265921) :
    Norm (M.map (Int.cast : ℤ → ZMod p)) (t + 1) := by
  refine norm_of_minors ?_ fun k hk1 hk2 => minors_ne_zero hp (h k hk1 hk2)
  have e : M.map (Int.cast : ℤ → ZMod p) = (Int.castRingHom (ZMod p)).mapMatrix M := rfl
  rw [e, ← RingHom.map_det]
  exact cast_ne_zero hp h0 h1

/-- The blocks of the fixed matrices, over the integers. -/
def block4A : Matrix (Fin 2) (Fin 2) ℤ := !![2, 1; 1, 2]
def block4B : Matrix (Fin 2) (Fin 2) ℤ := !![1, 2; 2, 1]
def block8A : Matrix (Fin 4) (Fin 4) ℤ := !![3, 2, 1, 1; 1, 3, 2, 1; 1, 1, 3, 2; 2, 1, 1, 3]
def block8B : Matrix (Fin 4) (Fin 4) ℤ := !![1, 1, 2, 3; 3, 1, 1, 2; 2, 3, 1, 1; 1, 2, 3, 1]

theorem minors_4A : minorsSmall 1 2 block4A := by unfold minorsSmall; decide +kernel
theorem minors_4B : minorsSmall 1 2 block4B := by unfold minorsSmall; decide +kernel
theorem minors_8A_1 : minorsSmall 1 4 block8A := by unfold minorsSmall; decide +kernel
theorem minors_8A_2 : minorsSmall 2 4 block8A := by unfold minorsSmall; decide +kernel
theorem minors_8A_3 : minorsSmall 3 4 block8A := by unfold minorsSmall; decide +kernel
theorem minors_8B_1 : minorsSmall 1 4 block8B := by unfold minorsSmall; decide +kernel
theorem minors_8B_2 : minorsSmall 2 4 block8B := by unfold minorsSmall; decide +kernel
theorem minors_8B_3 : minorsSmall 3 4 block8B := by unfold minorsSmall; decide +kernel

variable {p : Nat} [Fact p.Prime]

theorem norm_4A (hp : 2013265921 ≤ p) : Norm (!![2, 1; 1, 2] : Matrix (Fin 2) (Fin 2) (ZMod p)) 3 := by
  have e : (!![2, 1; 1, 2] : Matrix (Fin 2) (Fin 2) (ZMod p)) = block4A.map Int.cast := by
    ext i j; fin_cases i <;> fin_cases j <;> simp [block4A]
  rw [e]
  refine norm_of_small hp (fun k h1 h2 => ?_) (by decide +kernel) (by decide +kernel)
  obtain rfl : k = 1 := by omega
  exact minors_4A

theorem norm_4B (hp : 2013265921 ≤ p) : Norm (!![1, 2; 2, 1] : Matrix (Fin 2) (Fin 2) (ZMod p)) 3 := by
  have e : (!![1, 2; 2, 1] : Matrix (Fin 2) (Fin 2) (ZMod p)) = block4B.map Int.cast := by
    ext i j; fin_cases i <;> fin_cases j <;> simp [block4B]
  rw [e]
  refine norm_of_small hp (fun k h1 h2 => ?_) (by decide +kernel) (by decide +kernel)
  obtain rfl : k = 1 := by omega
  exact minors_4B

theorem norm_8A (hp : 2013265921 ≤ p) :
    Norm (!![3, 2, 1, 1; 1, 3, 2, 1; 1, 1, 3, 2; 2, 1, 1, 3] : Matrix (Fin 4) (Fin 4) (ZMod p)) 5 := by
  have e : (!![3, 2, 1, 1; 1, 3, 2, 1; 1, 1, 3, 2; 2, 1, 1, 3] : Matrix (Fin 4) (Fin 4) (ZMod p)) =
      block8A.map Int.cast := by
    ext i j; fin_cases i <;> fin_cases j <;> simp [block8A]
  rw [e]
  refine norm_of_small hp (fun k h1 h2 => ?_) (by decide +kernel) (by decide +kernel)
  have : k = 1 ∨ k = 2 ∨ k = 3 := by omega
  rcases this with rfl | rfl | rfl
  · exact minors_8A_1
  · exact minors_8A_2
  · exact minors_8A_3

theorem norm_8B (hp : 2013265921 ≤ p) :
    Norm (!![1, 1, 2, 3; 3, 1, 1, 2; 2, 3, 1, 1; 1, 2, 3, 1] : Matrix (Fin 4) (Fin 4) (ZMod p)) 5 := by
  have e : (!![1, 1, 2, 3; 3, 1, 1, 2; 2, 3, 1, 1; 1, 2, 3, 1] : Matrix (Fin 4) (Fin 4) (ZMod p)) =
      block8B.map Int.cast := by
    ext i j; fin_cases i <;> fin_cases j <;> simp [block8B]
  rw [e]
  refine norm_of_small hp (fun k h1 h2 => ?_) (by decide +kernel) (by decide +kernel)
  have : k = 1 ∨ k = 2 ∨ k = 3 := by omega
  rcases this with rfl | rfl | rfl
  · exact minors_8B_1
  · exact minors_8B_2
  · exact minors_8B_3

variable {F : Type _} [Field F] [DecidableEq F]

theorem half_le {k : Nat} (e : Nat) (he : e < 2) (x : Fin (2 * k) → F) :
    hammingNorm (fun i : Fin k => x ⟨2 * i + e, by omega⟩) ≤ hammingNorm x := by
  refine Finset.card_le_card_of_injOn (fun i : Fin k => (⟨2 * i + e, by omega⟩ : Fin (2 * k))) ?_ ?_
  · intro i hi
    simpa using hi
  · intro i _ j _ h
    have := Fin.mk.inj_iff.mp h
    exact Fin.ext (by omega)

theorem parity_even {k : Nat} (A B : Matrix (Fin k) (Fin k) F) (x : Fin (2 * k) → F) (i : Fin k) :
    (parityMatrix A B *ᵥ x) ⟨2 * i + 0, by omega⟩ = (A *ᵥ fun j : Fin k => x ⟨2 * j + 0, by omega⟩) i := by
  simp only [mulVec, dotProduct]
  rw [← Equiv.sum_comp (Neptune.parityEquiv k), Fintype.sum_sum_type, Finset.sum_eq_zero (s := Finset.univ)
    (f := fun j => parityMatrix A B ⟨2 * i + 0, by omega⟩ (Neptune.parityEquiv k (Sum.inr j)) * _), add_zero]
  · refine Finset.sum_congr rfl fun j _ => ?_
    simp [Neptune.parityEquiv, parityMatrix]
  · intro j _
    simp [Neptune.parityEquiv, parityMatrix, Nat.add_mod]

theorem parity_odd {k : Nat} (A B : Matrix (Fin k) (Fin k) F) (x : Fin (2 * k) → F) (i : Fin k) :
    (parityMatrix A B *ᵥ x) ⟨2 * i + 1, by omega⟩ = (B *ᵥ fun j : Fin k => x ⟨2 * j + 1, by omega⟩) i := by
  simp only [mulVec, dotProduct]
  rw [← Equiv.sum_comp (Neptune.parityEquiv k), Fintype.sum_sum_type, Finset.sum_eq_zero (s := Finset.univ)
    (f := fun j => parityMatrix A B ⟨2 * i + 1, by omega⟩ (Neptune.parityEquiv k (Sum.inl j)) * _), zero_add]
  · refine Finset.sum_congr rfl fun j _ => ?_
    simp [Neptune.parityEquiv, parityMatrix, Nat.add_mod, Nat.add_div]
  · intro j _
    simp [Neptune.parityEquiv, parityMatrix, Nat.add_mod]

theorem norm_parity {k : Nat} {A B : Matrix (Fin k) (Fin k) F} {b : Nat} (hA : Norm A b) (hB : Norm B b) :
    Norm (parityMatrix A B) b := by
  intro x hx
  by_cases h : (fun i : Fin k => x ⟨2 * i + 0, by omega⟩) = 0
  · have h1 : (fun i : Fin k => x ⟨2 * i + 1, by omega⟩) ≠ 0 := by
      intro h1
      apply hx
      funext i
      have hi := i.isLt
      by_cases hp : i.val % 2 = 0
      · have := congrFun h ⟨i / 2, by omega⟩
        simp only [Pi.zero_apply] at this ⊢
        rw [← this]
        congr 1
        exact Fin.ext (by simp; omega)
      · have := congrFun h1 ⟨i / 2, by omega⟩
        simp only [Pi.zero_apply] at this ⊢
        rw [← this]
        congr 1
        exact Fin.ext (by simp; omega)
    refine (hB _ h1).trans (Nat.add_le_add (half_le 1 (by decide) x) ?_)
    refine le_trans (le_of_eq ?_) (half_le 1 (by decide) (parityMatrix A B *ᵥ x))
    simp only [parity_odd]
  · refine (hA _ h).trans (Nat.add_le_add (half_le 0 (by decide) x) ?_)
    refine le_trans (le_of_eq ?_) (half_le 0 (by decide) (parityMatrix A B *ᵥ x))
    simp only [parity_even]

end Branch

theorem rowsOf_injective {α : Type _} {n m : Nat} {M N : Matrix (Fin n) (Fin m) α} (h : rowsOf M = rowsOf N) : M = N := by
  ext i j
  exact congrFun (List.ofFn_injective (congrFun (List.ofFn_injective h) i)) j

/-- **C58.** Over every shipped field the two blocks of the external matrix of width 4 or 8 (on the even and on the odd
positions) are MDS. -/
theorem C58_blocks_mds {p : Nat} (hp : p ∈ Fields.declared.map Prod.fst) [Fact p.Prime] {k d rounds_f rounds_p : Nat}
    (hk : k = 2 ∨ k = 4) {s r : List (ZMod p)} {P : NeptuneParams (ZMod p)}
    (h : NeptuneParams.new dbg (2 * k) d rounds_f rounds_p s = some (P, r)) :
    IsMDS (Matrix.of fun i j : Fin k => tab P.m_e (2 * i) (2 * j)) ∧
    IsMDS (Matrix.of fun i j : Fin k => tab P.m_e (2 * i + 1) (2 * j + 1)) := by
  have hle := Branch.declared_le hp
  have key : ∀ A B : Matrix (Fin k) (Fin k) (ZMod p), P.m_e = rowsOf (parityMatrix A B) →
      (Matrix.of fun i j : Fin k => tab P.m_e (2 * i) (2 * j)) = A ∧
      (Matrix.of fun i j : Fin k => tab P.m_e (2 * i + 1) (2 * j + 1)) = B := by
    intro A B hm
    rw [hm]
    constructor
    · ext i j
      have hi : 2 * i.val < 2 * k := by omega
      have hj : 2 * j.val < 2 * k := by omega
      simp [tab, rowsOf, List.getD, hi, hj, parityMatrix]
    · ext i j
      have hi : 2 * i.val + 1 < 2 * k := by omega
      have hj : 2 * j.val + 1 < 2 * k := by omega
      simp [tab, rowsOf, List.getD, hi, hj, parityMatrix, Nat.add_mod, Nat.add_div]
  obtain ⟨A, B, hm, h4, h8⟩ := NeptuneParams.ext_of_new h
  rcases hk with rfl | rfl
  · obtain ⟨h1, h2⟩ := key _ _ (h4 rfl)
    rw [h1, h2]
    exact ⟨Branch.mds_of_norm (Branch.norm_4A hle), Branch.mds_of_norm (Branch.norm_4B hle)⟩
  · obtain ⟨h1, h2⟩ := key _ _ (h8 rfl)
    rw [h1, h2]
    exact ⟨Branch.mds_of_norm (Branch.norm_8A hle), Branch.mds_of_norm (Branch.norm_8B hle)⟩

/-- **C58**, for the code of the layer: its branch number is at least `t/2 + 1`. -/
theorem C58_external_layer {p : Nat} (hp : p ∈ Fields.declared.map Prod.fst) [Fact p.Prime] {t d rounds_f rounds_p : Nat}
    (ht : t = 4 ∨ t = 8) {s r : List (ZMod p)} {P : NeptuneParams (ZMod p)}
    (h : NeptuneParams.new dbg t d rounds_f rounds_p s = some (P, r)) :
    BranchAtLeast t (t / 2 + 1) (Neptune.externalMatmul P) := by
  have hle := Branch.declared_le hp
  rcases ht with rfl | rfl
  · obtain ⟨A, B, hm, h4, h8⟩ := NeptuneParams.ext_of_new (k := 2) h
    refine Branch.branchAtLeast_of_norm (M := neptuneExt4) (fun x => ?_)
      (Branch.norm_parity (Branch.norm_4A hle) (Branch.norm_4B hle))
    rw [show neptuneExt4 = parityMatrix A B from rowsOf_injective ((h4 rfl).symm.trans hm.m_e_eq)]
    exact Neptune.externalMatmul_ofFn P hm.t_eq A B hm.m_e_eq h4 h8 x
  · obtain ⟨A, B, hm, h4, h8⟩ := NeptuneParams.ext_of_new (k := 4) h
    refine Branch.branchAtLeast_of_norm (M := neptuneExt8) (fun x => ?_)
      (Branch.norm_parity (Branch.norm_8A hle) (Branch.norm_8B hle))
    rw [show neptuneExt8 = parityMatrix A B from rowsOf_injective ((h8 rfl).symm.trans hm.m_e_eq)]
    exact Neptune.externalMatmul_ofFn P hm.t_eq A B hm.m_e_eq h4 h8 x

/-- Witness: the shipped width-4 shape over BN256's field, all draws equal to 1. -/
example : ∃ P : NeptuneParams (ZMod Fields.bn256Modulus), NeptuneParams.new dbg 4 5 6 68
    (List.replicate ((6 + 68) * 4 + (4 * 1 + (1 + 0))) 1) = some (P, []) := by
  have : Fact (Nat.Prime Fields.bn256Modulus) := ⟨declared_prime (by decide +kernel)⟩
  obtain ⟨P, hP, -⟩ := NeptuneParams.new_ones (F := ZMod Fields.bn256Modulus) (t := 4) (d := 5) (rounds_f := 6)
    (rounds_p := 68) (by omega) (by omega) (by omega) (uadd_fits dbg (by norm_num))
  exact ⟨P, hP⟩

end ZkHash

import Verif.Model.SageMds
import Verif.Proofs.SageMatrix

set_option autoImplicit false

/-!
# The checks of the script on a matrix with two bases

If the rows `e_0 M^j` are independent, and for each `r` the vectors `M^(rj) e_0`, then `M` passes the three algorithms.
-/

namespace ZkHash.Sage

open Matrix Module

variable {F : Type _} [Field F] {t : Nat}

theorem Cyclic.not_scalar {M : Matrix (Fin t) (Fin t) F} (h : Cyclic M) (ht : 2 ≤ t) (c : F)
    (hc : ∀ x, M *ᵥ x = c • x) : False := by
  have htop := h ⟨0, by omega⟩ rfl (Submodule.span F {(Pi.single (⟨0, by omega⟩ : Fin t) 1 : Fin t → F)})
    (Submodule.mem_span_singleton_self _) fun w hw => by rw [hc]; exact Submodule.smul_mem _ _ hw
  have h1 := finrank_span_singleton (K := F) (v := (Pi.single (⟨0, by omega⟩ : Fin t) 1 : Fin t → F)) (by
    intro h0
    have := congrFun h0 ⟨0, by omega⟩
    simp at this)
  rw [htop, finrank_top, finrank_fin_fun] at h1
  omega

theorem mem_generateVectorspace {M : Matrix (Fin t) (Fin t) F} {i : Nat} {x : Fin t → F}
    (hx : x ∈ generateVectorspace i M) (j0 : Fin t) (hj0 : j0.val = 0) (k : Nat) (hk : k < i) :
    (M ^ k *ᵥ x) j0 = 0 := by
  obtain ⟨h1, h2⟩ := hx
  cases k with
  | zero => rw [pow_zero, one_mulVec]; exact h1 j0 hj0
  | succ k =>
    have := h2 k hk j0 hj0
    rw [mulVec, dotProduct, ← this]
    refine Finset.sum_congr rfl fun j _ => ?_
    by_cases hj : j.val = 0
    · rw [h1 j hj, mul_zero, mul_zero]
    · rw [if_neg hj]

theorem algorithm1_of {M : Matrix (Fin t) (Fin t) F} (ht : 2 ≤ t)
    (hobs : ∀ x : Fin t → F, (∀ j < t, (M ^ j *ᵥ x) ⟨0, by omega⟩ = 0) → x = 0)
    (hc : ∀ i, 1 ≤ i → i ≤ t - 1 → Cyclic (M ^ i)) : Algorithm1 M := by
  intro i hi1 hi2
  refine ⟨?_, ?_, ?_⟩
  · intro j0 hj0 hz
    refine (hc i hi1 hi2).not_scalar ht ((M ^ i) j0 j0) fun x => ?_
    rw [sub_eq_zero.mp hz]
    generalize (M ^ i) j0 j0 = c
    funext k
    simp [Matrix.scalar_apply, mulVec_diagonal]
  · rintro ⟨h1, -⟩
    have : eigenIntersection (generateVectorspace i M) (M ^ i) = ⊥ := by
      refine le_bot_iff.mp (iSup_le fun e => ?_)
      rintro x ⟨hx1, hx2⟩
      have hx2 := End.mem_eigenspace_iff.mp hx2
      rw [Matrix.toLin'_apply] at hx2
      rw [Submodule.mem_bot]
      refine hobs x fun m _ => ?_
      induction m using Nat.strong_induction_on with
      | _ m ih =>
        by_cases hm : m < i
        · exact mem_generateVectorspace hx1 _ rfl m hm
        · rw [show m = (m - i) + i by omega, pow_add, ← mulVec_mulVec, hx2, mulVec_smul, Pi.smul_apply,
            ih (m - i) (by omega) (by omega), smul_zero]
    rw [this, finrank_bot] at h1
    omega
  · intro j hj1 hj2 heq
    refine generateVectorspace_ne_bot (M := M) hi1 (by omega) ((Submodule.eq_bot_iff _).mpr fun x hx => ?_)
    have hinv : ∀ w ∈ generateVectorspace i M, M ^ j *ᵥ w ∈ generateVectorspace i M := fun w hw => by
      rw [heq]
      exact ⟨w, hw, Matrix.toLin'_apply _ _⟩
    refine hobs x fun m _ => ?_
    induction m using Nat.strong_induction_on generalizing x with
    | _ m ih =>
      by_cases hm : m < i
      · exact mem_generateVectorspace hx _ rfl m hm
      · rw [show m = (m - j) + j by omega, pow_add, ← mulVec_mulVec]
        exact ih (m - j) (by omega) _ (hinv x hx) (by omega)

theorem algorithms_of_bases {M : Matrix (Fin t) (Fin t) F} (ht : 2 ≤ t)
    (hobs : ∀ x : Fin t → F, (∀ j < t, (M ^ j *ᵥ x) ⟨0, by omega⟩ = 0) → x = 0)
    (hc : ∀ r, 1 ≤ r → r ≤ 4 * t → Cyclic (M ^ r)) : Algorithm1 M ∧ Algorithm2 M ∧ Algorithm3 M := by
  refine ⟨algorithm1_of ht hobs fun i h1 h2 => hc i h1 (by omega), ?_, fun r h1 h2 =>
    algorithm2_of_cyclic (hc r (by omega) h2)⟩
  have := algorithm2_of_cyclic (hc 1 le_rfl (by omega))
  rwa [pow_one] at this

/-- Members of a subspace in which invertible combinations of some vectors lie. -/
theorem mem_of_combination {W : Submodule F (Fin t → F)} {A : Matrix (Fin t) (Fin t) F} (hA : A.det ≠ 0)
    {z : Fin t → (Fin t → F)} (hw : ∀ j, ∑ i, A j i • z i ∈ W) (k : Fin t) : z k ∈ W := by
  have hu : IsUnit A.det := isUnit_iff_ne_zero.mpr hA
  have : z k = ∑ j, A⁻¹ k j • ∑ i, A j i • z i := by
    simp only [Finset.smul_sum, smul_smul]
    rw [Finset.sum_comm]
    simp only [← Finset.sum_smul]
    have e : ∀ i, ∑ j, A⁻¹ k j * A j i = if k = i then 1 else 0 := by
      intro i
      have := congrFun (congrFun (Matrix.nonsing_inv_mul A hu) k) i
      rw [Matrix.mul_apply, Matrix.one_apply] at this
      exact this
    simp only [e, ite_smul, one_smul, zero_smul, Finset.sum_ite_eq, Finset.mem_univ, if_true]
  rw [this]
  exact Submodule.sum_mem _ fun j _ => Submodule.smul_mem _ _ (hw j)

/-- `M^r` is cyclic if the vectors `M^i e_0` are a basis and the `M^(r(t+j)) e_0` have invertible coordinates in
it. -/
theorem cyclic_of_coords {M : Matrix (Fin t) (Fin t) F} (ht : 0 < t) {K : Matrix (Fin t) (Fin t) F} (hK : K.det ≠ 0)
    (hKrow : ∀ i : Fin t, K i = M ^ i.val *ᵥ Pi.single ⟨0, ht⟩ 1) {r : Nat} {A : Matrix (Fin t) (Fin t) F} (hA : A.det ≠ 0)
    (hArow : ∀ j : Fin t, M ^ (r * (t + j.val)) *ᵥ Pi.single ⟨0, ht⟩ 1 =
      ∑ i : Fin t, A j i • (M ^ i.val *ᵥ Pi.single ⟨0, ht⟩ 1)) :
    Cyclic (M ^ r) := by
  intro j0 hj0 W he hW
  obtain rfl : j0 = ⟨0, ht⟩ := Fin.ext hj0
  have hpow : ∀ n : Nat, M ^ (r * n) *ᵥ Pi.single ⟨0, ht⟩ 1 ∈ W := by
    intro n
    induction n with
    | zero => rw [Nat.mul_zero, pow_zero, one_mulVec]; exact he
    | succ n ih =>
      have := hW _ ih
      rwa [mulVec_mulVec, ← pow_add, show r + r * n = r * (n + 1) by ring] at this
  have h1 : ∀ i : Fin t, M ^ i.val *ᵥ Pi.single ⟨0, ht⟩ 1 ∈ W := fun i =>
    mem_of_combination hA (z := fun i : Fin t => M ^ i.val *ᵥ Pi.single ⟨0, ht⟩ 1)
      (fun j => by rw [← hArow j]; exact hpow (t + j.val)) i
  have h2 : ∀ k : Fin t, (Pi.single k 1 : Fin t → F) ∈ W := fun k =>
    mem_of_combination hK (z := fun k : Fin t => (Pi.single k 1 : Fin t → F)) (fun i => by
      have : (∑ k : Fin t, K i k • (Pi.single k 1 : Fin t → F)) = K i := by
        funext l
        simp [Finset.sum_apply, Pi.single_apply]
      rw [this, hKrow i]
      exact h1 i) k
  refine Submodule.eq_top_iff'.mpr fun x => ?_
  have : x = ∑ k : Fin t, x k • (Pi.single k 1 : Fin t → F) := by
    funext l
    simp [Finset.sum_apply, Pi.single_apply]
  rw [this]
  exact Submodule.sum_mem _ fun k _ => Submodule.smul_mem _ _ (h2 k)

end ZkHash.Sage

import Verif.Proofs.Branch
import Verif.Spec.Branch
import Mathlib.LinearAlgebra.Matrix.ToLinearEquiv

set_option autoImplicit false

/-!
# Branch number `t + 1` and minors
-/

namespace ZkHash.Branch

open Matrix Finset Spec

variable {F : Type _} [Field F] [DecidableEq F]

/-- The branch number of the matrix, on differences. -/
def Norm {t : Nat} (M : Matrix (Fin t) (Fin t) F) (b : Nat) : Prop :=
  ∀ x : Fin t → F, x ≠ 0 → b ≤ hammingNorm x + hammingNorm (M *ᵥ x)

theorem Norm.dist {t b : Nat} {M : Matrix (Fin t) (Fin t) F} (h : Norm M b) {x y : Fin t → F} (hxy : x ≠ y) :
    b ≤ hammingDist x y + hammingDist (M *ᵥ x) (M *ᵥ y) := by
  rw [hammingDist_eq_hammingNorm, hammingDist_eq_hammingNorm, neg_add_eq_sub, neg_add_eq_sub,
    ← Matrix.mulVec_sub]
  exact h _ (sub_ne_zero.mpr hxy.symm)

theorem mds_of_norm {t : Nat} {M : Matrix (Fin t) (Fin t) F} (h : Norm M (t + 1)) : IsMDS M := by
  classical
  intro k r c hdet
  obtain ⟨v, hv, hz⟩ := exists_mulVec_eq_zero_iff.mpr hdet
  let x : Fin t → F := fun j => if h : ∃ i, c i = j then v h.choose else 0
  have hxc : ∀ i, x (c i) = v i := by
    intro i
    have h : ∃ i', c i' = c i := ⟨i, rfl⟩
    show (if h : ∃ i', c i' = c i then v h.choose else 0) = _
    rw [dif_pos h, c.injective h.choose_spec]
  have hx0 : ∀ j, j ∉ univ.map c → x j = 0 := by
    intro j hj
    refine dif_neg ?_
    rintro ⟨i, rfl⟩
    exact hj (by simp)
  have hx : x ≠ 0 := by
    intro h
    apply hv
    funext i
    rw [← hxc, h]; rfl
  have h1 : hammingNorm x ≤ k := by
    have : (univ.filter fun j => x j ≠ 0) ⊆ univ.map c := by
      intro j hj
      by_contra hc
      exact (Finset.mem_filter.mp hj).2 (hx0 j hc)
    calc hammingNorm x = (univ.filter fun j => x j ≠ 0).card := rfl
      _ ≤ (univ.map c).card := card_le_card this
      _ = k := by simp
  have hMr : ∀ i, (M *ᵥ x) (r i) = 0 := by
    intro i
    have := congrFun hz i
    simp only [mulVec, dotProduct, submatrix_apply, Pi.zero_apply] at this ⊢
    rw [← this, ← Finset.sum_subset (Finset.subset_univ (univ.map c)) fun j _ hj => by rw [hx0 j hj, mul_zero],
      Finset.sum_map]
    exact Finset.sum_congr rfl fun l _ => by rw [hxc]
  have h2 : hammingNorm (M *ᵥ x) + k ≤ t := by
    have : (univ.filter fun j => (M *ᵥ x) j ≠ 0) ⊆ (univ.map r)ᶜ := by
      intro j hj
      rw [Finset.mem_compl]
      intro hc
      obtain ⟨i, -, rfl⟩ := Finset.mem_map.mp hc
      exact (Finset.mem_filter.mp hj).2 (hMr i)
    have h := card_le_card this
    rw [Finset.card_compl, Finset.card_map, Finset.card_univ, Fintype.card_fin, Fintype.card_fin] at h
    have hk : k ≤ t := by simpa using Fintype.card_le_of_embedding r
    have : hammingNorm (M *ᵥ x) = (univ.filter fun j => (M *ᵥ x) j ≠ 0).card := rfl
    omega
  have := h x hx
  omega

/-- A list function that acts as a matrix has the branch number of the matrix. -/
theorem branchAtLeast_of_norm {t b : Nat} {M : Matrix (Fin t) (Fin t) F} {f : List F → Option (List F)}
    (hf : ∀ x, f (List.ofFn x) = some (List.ofFn (M *ᵥ x))) (h : Norm M b) : BranchAtLeast t b f :=
  fun x y => ⟨_, _, hf x, hf y, fun hxy => h.dist hxy⟩

/-- The same for a matrix applied after a bijection of each position. -/
theorem branchAtLeast_round {t b : Nat} {M : Matrix (Fin t) (Fin t) F} {f : List F → Option (List F)}
    (g : Fin t → F → F) (hg : ∀ i, Function.Injective (g i))
    (hf : ∀ x : Fin t → F, f (List.ofFn x) = some (List.ofFn (M *ᵥ fun i => g i (x i)))) (h : Norm M b) :
    BranchAtLeast t b f := by
  intro x y
  refine ⟨_, _, hf x, hf y, fun hxy => ?_⟩
  have hd : hammingDist (fun i => g i (x i)) (fun i => g i (y i)) = hammingDist x y :=
    hammingDist_comp (fun i => g i) hg
  rw [← hd]
  refine h.dist fun he => hxy (funext fun i => hg i (congrFun he i))

end ZkHash.Branch

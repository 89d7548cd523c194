import Verif.Proofs.Mds
import Verif.Proofs.Invertible

set_option autoImplicit false

/-!
# Branch numbers of the external matrices of Poseidon2
-/

namespace ZkHash.Branch

open Matrix Finset Spec

variable {F : Type _} [Field F] [DecidableEq F]

theorem hammingNorm_pos {n : Nat} {x : Fin n → F} (h : x ≠ 0) : 1 ≤ hammingNorm x :=
  Nat.pos_of_ne_zero fun h0 => h (hammingNorm_eq_zero.mp h0)

theorem Norm.injective {m : Nat} {M : Matrix (Fin m) (Fin m) F} (h : Norm M (m + 1)) {v : Fin m → F} (hv : v ≠ 0) :
    M *ᵥ v ≠ 0 := by
  intro h0
  have h1 := h v hv
  rw [h0, hammingNorm_zero] at h1
  have : hammingNorm v ≤ m := by simpa using (hammingNorm_le_card_fintype (x := v))
  omega

/-- Each block gets its own image plus the sum of all images: branch number at least `n + m` for `n` blocks of width
`m` (or `2 (m + 1)`, if that is smaller). -/
theorem blocks {n m : Nat} {M : Matrix (Fin m) (Fin m) F} (hM : Norm M (m + 1)) (hn : ∀ a : Nat, a ≤ n → ((a : F) + 1) ≠ 0)
    (x : Fin n → Fin m → F) (hx : x ≠ 0) :
    min (2 * (m + 1)) (n + m) ≤ ∑ b, (hammingNorm (x b) + hammingNorm (M *ᵥ (x b + ∑ c, x c))) := by
  classical
  obtain ⟨b0, hb0⟩ : ∃ b, x b ≠ 0 := by
    by_contra h
    push Not at h
    exact hx (funext h)
  by_cases hσ : ∑ c, x c = 0
  · obtain ⟨b1, h10, hb1⟩ : ∃ b, b ≠ b0 ∧ x b ≠ 0 := by
      by_contra h
      push Not at h
      rw [Finset.sum_eq_single b0 (fun b _ hb => h b hb) (by simp)] at hσ
      exact hb0 hσ
    have h0 := hM _ hb0
    have h1 := hM _ hb1
    simp only [hσ, add_zero]
    rw [← Finset.add_sum_erase _ _ (mem_univ b0), ← Finset.add_sum_erase _ _ (mem_erase.mpr ⟨h10, mem_univ b1⟩)]
    omega
  · generalize hs : ∑ c, x c = σ at hσ ⊢
    let B : Finset (Fin n) := univ.filter fun b => x b ≠ 0 ∧ x b + σ ≠ 0
    let A : Finset (Fin n) := univ.filter fun b => x b + σ = 0
    have hAB : ((A.card : F) + 1) • σ = ∑ b ∈ B, x b := by
      have hd : Disjoint A B := by
        rw [Finset.disjoint_left]
        intro b h1 h2
        exact (mem_filter.mp h2).2.2 (mem_filter.mp h1).2
      have h1 : ∑ b ∈ A, x b = -((A.card : F) • σ) := by
        rw [Finset.sum_congr rfl (g := fun _ => -σ) fun b hb => eq_neg_of_add_eq_zero_left (mem_filter.mp hb).2]
        rw [Finset.sum_const, smul_neg, Nat.cast_smul_eq_nsmul]
      have h2 : ∑ b ∈ A ∪ B, x b = σ := by
        rw [← hs]
        refine Finset.sum_subset (subset_univ _) fun b _ hb => ?_
        by_contra h0
        apply hb
        rw [mem_union]
        by_cases h : x b + σ = 0
        · exact Or.inl (by simp [A, h])
        · exact Or.inr (by simp [B, h, h0])
      rw [Finset.sum_union hd, h1] at h2
      rw [add_smul, one_smul]
      nth_rewrite 2 [← h2]
      simp
    have ha : ((A.card : F) + 1) ≠ 0 := hn _ (by simpa using card_le_univ A)
    have hB : B.Nonempty := by
      by_contra h
      rw [not_nonempty_iff_eq_empty] at h
      rw [h, Finset.sum_empty] at hAB
      rcases smul_eq_zero.mp hAB with h | h
      · exact ha h
      · exact hσ h
    obtain ⟨c, hc⟩ := hB
    have hc1 := (mem_filter.mp hc).2.1
    have hc2 := (mem_filter.mp hc).2.2
    have h5 := hM _ hc2
    have hsupp : hammingNorm (x c + σ) ≤ ∑ b ∈ B, hammingNorm (x b) := by
      calc hammingNorm (x c + σ) ≤ (B.biUnion fun b => univ.filter fun j => x b j ≠ 0).card := by
            refine card_le_card fun j hj => ?_
            by_contra hcon
            have h0 : ∀ b ∈ B, x b j = 0 := by
              intro b hb
              by_contra h
              exact hcon (mem_biUnion.mpr ⟨b, hb, by simp [h]⟩)
            have h1 := congrFun hAB j
            rw [Pi.smul_apply, Finset.sum_apply, Finset.sum_eq_zero h0] at h1
            have h2 : σ j = 0 := (mul_eq_zero.mp h1).resolve_left ha
            refine (mem_filter.mp hj).2 ?_
            rw [Pi.add_apply, h0 c hc, h2, add_zero]
        _ ≤ ∑ b ∈ B, hammingNorm (x b) := card_biUnion_le
    have hsum : ∑ b, ((if b ∈ B then hammingNorm (x b) else 0) + (if b = c then hammingNorm (M *ᵥ (x c + σ)) else 1)) ≤
        ∑ b, (hammingNorm (x b) + hammingNorm (M *ᵥ (x b + σ))) := by
      refine Finset.sum_le_sum fun b _ => ?_
      by_cases hbc : b = c
      · subst hbc; simp [hc]
      · rw [if_neg hbc]
        by_cases hb : b ∈ B
        · rw [if_pos hb]
          have := hammingNorm_pos (hM.injective (mem_filter.mp hb).2.2)
          omega
        · rw [if_neg hb]
          by_cases h0 : x b = 0
          · have : x b + σ ≠ 0 := by rw [h0, zero_add]; exact hσ
            have := hammingNorm_pos (hM.injective this)
            omega
          · have := hammingNorm_pos h0
            omega
    rw [Finset.sum_add_distrib, ← Finset.sum_filter, Finset.filter_mem_eq_inter, Finset.univ_inter,
      ← Finset.add_sum_erase _ (fun b => if b = c then _ else 1) (mem_univ c), if_pos rfl,
      Finset.sum_congr rfl (s₁ := univ.erase c) (g := fun _ => 1) fun b hb => if_neg (mem_erase.mp hb).1] at hsum
    rw [Finset.sum_const, card_erase_of_mem (mem_univ c), card_univ, Fintype.card_fin, smul_eq_mul, mul_one] at hsum
    have := c.isLt
    omega

theorem hammingNorm_blocks {n m : Nat} (x : Fin (n * m) → F) :
    hammingNorm x = ∑ b : Fin n, hammingNorm fun j : Fin m => x (finProdFinEquiv (b, j)) := by
  unfold hammingNorm
  simp only [Finset.card_filter]
  rw [← Equiv.sum_comp finProdFinEquiv, Fintype.sum_prod_type]

/-- Minors of all proper sizes (rows and columns in increasing order) and the determinant decide. -/
theorem norm_of_minors {t : Nat} {M : Matrix (Fin t) (Fin t) F} (hdet : M.det ≠ 0)
    (h : ∀ k, 0 < k → k < t → ∀ r c : Fin k → Fin t, StrictMono r → StrictMono c → (M.submatrix r c).det ≠ 0) :
    Norm M (t + 1) := by
  classical
  intro x hx
  by_contra hlt
  let C : Finset (Fin t) := univ.filter fun j => x j ≠ 0
  let Z : Finset (Fin t) := univ.filter fun j => (M *ᵥ x) j = 0
  have hC : hammingNorm x = C.card := rfl
  have hZ : hammingNorm (M *ᵥ x) + Z.card = t := by
    have h1 := Finset.card_filter_add_card_filter_not (s := (univ : Finset (Fin t))) fun j => (M *ᵥ x) j ≠ 0
    simp only [not_not, card_univ, Fintype.card_fin] at h1
    exact h1
  have hk : 0 < C.card := hammingNorm_pos hx
  have hkt : C.card < t := by
    by_contra hge
    have : C.card ≤ t := by simpa using card_le_univ C
    have h0 : hammingNorm (M *ᵥ x) = 0 := by omega
    exact hdet (exists_mulVec_eq_zero_iff.mp ⟨x, hx, hammingNorm_eq_zero.mp h0⟩)
  obtain ⟨R, hRZ, hR⟩ := Finset.exists_subset_card_eq (show C.card ≤ Z.card by omega)
  refine h C.card hk hkt (R.orderEmbOfFin hR) (C.orderEmbOfFin rfl) (R.orderEmbOfFin hR).strictMono
    (C.orderEmbOfFin rfl).strictMono ?_
  refine exists_mulVec_eq_zero_iff.mp ⟨fun i => x (C.orderEmbOfFin rfl i), ?_, ?_⟩
  · intro h0
    have h1 := Finset.orderEmbOfFin_mem C rfl ⟨0, hk⟩
    exact (mem_filter.mp h1).2 (congrFun h0 _)
  · funext i
    have h1 := (mem_filter.mp (hRZ (Finset.orderEmbOfFin_mem R hR i))).2
    simp only [mulVec, dotProduct, submatrix_apply, Pi.zero_apply] at h1 ⊢
    rw [← h1, ← Finset.sum_subset (subset_univ C) fun j _ hj => by
      have : x j = 0 := by simpa [C] using hj
      rw [this, mul_zero]]
    rw [← Finset.sum_coe_sort C, ← Equiv.sum_comp (C.orderIsoOfFin rfl).toEquiv]
    rfl

end ZkHash.Branch

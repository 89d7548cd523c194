import Verif.Proofs.Mds
import Verif.Theorems.NeptuneCount
import Mathlib.Data.Nat.Choose.Vandermonde

set_option autoImplicit false

/-!
# Matrices without a vanishing minor: branch number, and how many there are
-/

namespace ZkHash.Branch

open Matrix Finset Spec

variable {F : Type} [Field F] [DecidableEq F]

theorem norm_of_mds {t : Nat} {M : Matrix (Fin t) (Fin t) F} (h : IsMDS M) : Norm M (t + 1) := by
  classical
  intro x hx
  by_contra hlt
  let J := univ.filter fun j => x j ≠ 0
  let Z := univ.filter fun i => (M *ᵥ x) i = 0
  have hJ : J.card = hammingNorm x := rfl
  have hZ : Z.card + hammingNorm (M *ᵥ x) = t := by
    have := Finset.card_filter_add_card_filter_not (s := (univ : Finset (Fin t))) (fun i => (M *ᵥ x) i = 0)
    rw [Finset.card_univ, Fintype.card_fin] at this
    exact this
  obtain ⟨I, hIZ, hI⟩ := Finset.exists_subset_card_eq (show J.card ≤ Z.card by omega)
  let r : Fin J.card ↪ Fin t := (I.orderEmbOfFin hI).toEmbedding
  let c : Fin J.card ↪ Fin t := (J.orderEmbOfFin rfl).toEmbedding
  refine h J.card r c (exists_mulVec_eq_zero_iff.mp ⟨fun i => x (c i), ?_, ?_⟩)
  · intro h0
    obtain ⟨j, hj⟩ := Function.ne_iff.mp hx
    have hjJ : j ∈ J := Finset.mem_filter.mpr ⟨Finset.mem_univ _, hj⟩
    have hm : j ∈ Set.range (J.orderEmbOfFin rfl) := by rw [Finset.range_orderEmbOfFin]; exact hjJ
    obtain ⟨i, hi⟩ := hm
    exact hj (hi ▸ congrFun h0 i)
  · funext i
    have hz : (M *ᵥ x) (r i) = 0 := (Finset.mem_filter.mp (hIZ (I.orderEmbOfFin_mem hI i))).2
    rw [Pi.zero_apply, ← hz]
    simp only [mulVec, dotProduct, submatrix_apply]
    rw [← Finset.sum_subset (Finset.subset_univ (univ.map c)), Finset.sum_map]
    intro j _ hj
    have : x j = 0 := by
      by_contra hne
      have hjJ : j ∈ J := Finset.mem_filter.mpr ⟨Finset.mem_univ _, hne⟩
      have hm : j ∈ Set.range (J.orderEmbOfFin rfl) := by rw [Finset.range_orderEmbOfFin]; exact hjJ
      obtain ⟨i, hi⟩ := hm
      exact hj (Finset.mem_map.mpr ⟨i, Finset.mem_univ _, hi⟩)
    rw [this, mul_zero]

theorem norm_iff_mds {t : Nat} {M : Matrix (Fin t) (Fin t) F} : Norm M (t + 1) ↔ IsMDS M := ⟨mds_of_norm, norm_of_mds⟩

theorem card_matrix [Fintype F] (k : Nat) : Nat.card (Matrix (Fin k) (Fin k) F) = Fintype.card F ^ (k * k) := by
  rw [Nat.card_eq_fintype_card]
  rw [show Fintype.card (Matrix (Fin k) (Fin k) F) = Fintype.card (Fin k → Fin k → F) from rfl]
  simp [pow_mul]

/-- At most a fraction `1 / (q - 1)` of the square matrices is singular. -/
theorem card_singular [Fintype F] (r : Nat) :
    Nat.card {A : Matrix (Fin r) (Fin r) F // A.det = 0} * (Fintype.card F - 1) ≤ Fintype.card F ^ (r * r) := by
  classical
  have hq := Fintype.one_lt_card (α := F)
  have h1 := singular_blocks (Fintype.card F) r hq
  rw [← card_blocks] at h1
  have h2 : Nat.card {A : Matrix (Fin r) (Fin r) F // A.det = 0} + Nat.card {A : Matrix (Fin r) (Fin r) F // A.det ≠ 0} =
      Fintype.card F ^ (r * r) := by
    rw [← card_matrix (F := F), ← Nat.card_sum]
    exact Nat.card_congr (Equiv.sumCompl _)
  rw [← h2, add_mul] at h1
  omega

/-- The matrices in which one minor vanishes. -/
theorem card_minor [Fintype F] {k r : Nat} (f g : Fin r ↪ Fin k) :
    Nat.card {A : Matrix (Fin k) (Fin k) F // (A.submatrix f g).det = 0} * (Fintype.card F - 1) ≤
      Fintype.card F ^ (k * k) := by
  classical
  let h : Fin r × Fin r ↪ Fin k × Fin k := f.prodMap g
  let e : Matrix (Fin k) (Fin k) F ≃ Matrix (Fin r) (Fin r) F × ({x // ¬ x ∈ Set.range h} → F) :=
    (Equiv.curry (Fin k) (Fin k) F).symm.trans ((Equiv.piEquivPiSubtypeProd (fun x => x ∈ Set.range h) fun _ => F).trans
      (Equiv.prodCongr (((Equiv.ofInjective h h.injective).arrowCongr (Equiv.refl F)).symm.trans
        (Equiv.curry (Fin r) (Fin r) F)) (Equiv.refl _)))
  have he : ∀ A, (e A).1 = A.submatrix f g := fun A => rfl
  have h1 : Nat.card {A : Matrix (Fin k) (Fin k) F // (A.submatrix f g).det = 0} =
      Nat.card {A : Matrix (Fin r) (Fin r) F // A.det = 0} * Nat.card ({x // ¬ x ∈ Set.range h} → F) := by
    rw [← Nat.card_prod]
    refine Nat.card_congr ((Equiv.subtypeEquiv e (q := fun y => y.1.det = 0) fun A => by rw [he]).trans ?_)
    exact { toFun := fun y => (⟨y.1.1, y.2⟩, y.1.2), invFun := fun y => ⟨(y.1.1, y.2), y.1.2⟩,
            left_inv := fun _ => rfl, right_inv := fun _ => rfl }
  have h2 : Fintype.card F ^ (k * k) = Fintype.card F ^ (r * r) * Nat.card ({x // ¬ x ∈ Set.range h} → F) := by
    rw [← card_matrix (F := F), ← card_matrix (F := F), ← Nat.card_prod]
    exact Nat.card_congr e
  rw [h1, h2, mul_right_comm]
  exact Nat.mul_le_mul_right _ (card_singular r)

theorem exists_order {k r : Nat} (f : Fin r ↪ Fin k) : ∃ (I : Finset (Fin k)) (hI : I.card = r) (σ : Equiv.Perm (Fin r)),
    ∀ i, f i = I.orderEmbOfFin hI (σ i) := by
  classical
  have hI : (univ.map f).card = r := by simp
  have hm : ∀ i, ∃ j, (univ.map f).orderEmbOfFin hI j = f i := fun i => by
    have : f i ∈ Set.range ((univ.map f).orderEmbOfFin hI) := by
      rw [Finset.range_orderEmbOfFin]; simp
    exact this
  choose σ hσ using hm
  have hinj : Function.Injective σ := fun a b h => f.injective (by rw [← hσ, ← hσ, h])
  exact ⟨univ.map f, hI, Equiv.ofBijective σ (Finite.injective_iff_bijective.mp hinj), fun i => (hσ i).symm⟩

/-- At most a fraction `(C(2k, k) - 1) / (q - 1)` of the square matrices has a vanishing minor. -/
theorem card_not_mds [Fintype F] (k : Nat) :
    Nat.card {A : Matrix (Fin k) (Fin k) F // ¬ IsMDS A} * (Fintype.card F - 1) ≤
      ((2 * k).choose k - 1) * Fintype.card F ^ (k * k) := by
  classical
  let pairs : Finset (Finset (Fin k) × Finset (Fin k)) :=
    ((Finset.range (k + 1)).erase 0).biUnion fun r => powersetCard r univ ×ˢ powersetCard r univ
  have hcard : pairs.card ≤ (2 * k).choose k - 1 := by
    have h := Nat.sum_range_choose_sq k
    rw [← Finset.add_sum_erase _ _ (Finset.mem_range.mpr (Nat.succ_pos k))] at h
    refine Finset.card_biUnion_le.trans ?_
    simp only [Finset.card_product, Finset.card_powersetCard, Finset.card_univ, Fintype.card_fin, ← sq]
    rw [← h]
    simp
  let bad : Finset (Fin k) × Finset (Fin k) → Finset (Matrix (Fin k) (Fin k) F) := fun IJ =>
    univ.filter fun A => ∃ h : IJ.1.card = IJ.2.card,
      (A.submatrix (IJ.1.orderEmbOfFin h) (IJ.2.orderEmbOfFin rfl)).det = 0
  have hbad : ∀ IJ, (bad IJ).card * (Fintype.card F - 1) ≤ Fintype.card F ^ (k * k) := by
    intro IJ
    by_cases h : IJ.1.card = IJ.2.card
    · refine le_trans (Nat.mul_le_mul_right _ (le_of_eq ?_)) (card_minor (F := F)
        (IJ.1.orderEmbOfFin h).toEmbedding (IJ.2.orderEmbOfFin rfl).toEmbedding)
      rw [Nat.card_eq_fintype_card, Fintype.card_subtype]
      congr 1
      apply Finset.filter_congr
      intro A _
      exact ⟨fun ⟨_, h⟩ => h, fun h' => ⟨h, h'⟩⟩
    · rw [show bad IJ = ∅ from Finset.filter_false_of_mem fun A _ ⟨h', _⟩ => h h']
      simp
  have hsub : (univ.filter fun A : Matrix (Fin k) (Fin k) F => ¬ IsMDS A) ⊆ pairs.biUnion bad := by
    intro A hA
    have hA := (Finset.mem_filter.mp hA).2
    unfold IsMDS at hA
    push_neg at hA
    obtain ⟨r, f, g, hdet⟩ := hA
    obtain ⟨I, hI, σ, hf⟩ := exists_order f
    obtain ⟨J, hJ, τ, hg⟩ := exists_order g
    subst hJ
    refine Finset.mem_biUnion.mpr ⟨(I, J), ?_, Finset.mem_filter.mpr ⟨Finset.mem_univ _, hI, ?_⟩⟩
    · refine Finset.mem_biUnion.mpr ⟨J.card, Finset.mem_erase.mpr ⟨?_, ?_⟩, ?_⟩
      · intro h0
        have : IsEmpty (Fin J.card) := by rw [h0]; infer_instance
        rw [Matrix.det_isEmpty] at hdet
        exact one_ne_zero hdet
      · rw [Finset.mem_range]
        exact Nat.lt_succ_of_le (by simpa using Finset.card_le_univ J)
      · simp [hI]
    · have : A.submatrix f g = (A.submatrix (I.orderEmbOfFin hI) (J.orderEmbOfFin rfl)).submatrix σ τ := by
        ext i j
        simp only [submatrix_apply, hf, hg]
      rw [this] at hdet
      have h2 : ((A.submatrix (I.orderEmbOfFin hI) (J.orderEmbOfFin rfl)).submatrix σ τ) =
          ((A.submatrix (I.orderEmbOfFin hI) (J.orderEmbOfFin rfl)).submatrix σ id).submatrix id τ := rfl
      rw [h2, det_permute', det_permute] at hdet
      rcases mul_eq_zero.mp hdet with h | h
      · exact absurd h (by rcases Int.units_eq_one_or (Equiv.Perm.sign τ) with h | h <;> simp [h])
      · rcases mul_eq_zero.mp h with h | h
        · exact absurd h (by rcases Int.units_eq_one_or (Equiv.Perm.sign σ) with h | h <;> simp [h])
        · exact h
  rw [Nat.card_eq_fintype_card, Fintype.card_subtype]
  calc _ ≤ (∑ IJ ∈ pairs, (bad IJ).card) * (Fintype.card F - 1) :=
        Nat.mul_le_mul_right _ ((Finset.card_le_card hsub).trans Finset.card_biUnion_le)
    _ = ∑ IJ ∈ pairs, (bad IJ).card * (Fintype.card F - 1) := Finset.sum_mul _ _ _
    _ ≤ ∑ IJ ∈ pairs, Fintype.card F ^ (k * k) := Finset.sum_le_sum fun IJ _ => hbad IJ
    _ = pairs.card * Fintype.card F ^ (k * k) := by rw [Finset.sum_const, smul_eq_mul]
    _ ≤ _ := Nat.mul_le_mul_right _ hcard

end ZkHash.Branch

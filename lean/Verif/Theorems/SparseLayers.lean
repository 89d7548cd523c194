import Verif.Spec.SparseLayers
import Verif.Theorems.EquivRagged

set_option autoImplicit false

/-!
# C92: `equivalent_matrices`, called directly
-/

namespace ZkHash

open Spec Matrix PoseidonRagged

namespace SparseLayers

open PoseidonParams

section
variable {F : Type _} [Field F] [DecidableEq F] {s : Nat}

theorem cheap_eq (a : F) (v w : Fin s → F) (x : Fin (s + 1) → F) :
    cheap a v w x = sparseMatrix a v w *ᵥ x := by
  funext i
  refine Fin.cases ?_ (fun i => ?_) i
  · simp [cheap, sparseMatrix, Matrix.mulVec, dotProduct, Fin.sum_univ_succ]
  · simp [cheap, sparseMatrix, Matrix.mulVec, dotProduct, Fin.sum_univ_succ, mul_comm]

theorem dSeq_onFirst (M : Matrix (Fin (s + 1)) (Fin (s + 1)) F) (k : Nat) (g : F → F) (x : Fin (s + 1) → F) :
    dSeq M k *ᵥ onFirst g x = onFirst g (dSeq M k *ᵥ x) := by
  cases k with
  | zero => simp [dSeq]
  | succ k =>
    funext i
    refine Fin.cases ?_ (fun i => ?_) i
    · rw [dSeq_row_zero]; simp [onFirst, dSeq_row_zero]
    · have : onFirst g (dSeq M (k + 1) *ᵥ x) i.succ = (dSeq M (k + 1) *ᵥ x) i.succ := by simp [onFirst]
      rw [this]
      show (hatM _ *ᵥ _) i.succ = (hatM _ *ᵥ _) i.succ
      rw [hatM_succ, hatM_succ]
      simp [onFirst]

theorem rounds_sparse (M : Matrix (Fin (s + 1)) (Fin (s + 1)) F) (g : Nat → F → F) (R : Nat)
    (h : GoodBlocks M R) (hs : 0 < s) (n : Nat) : ∀ k, k + n ≤ R → ∀ x : Fin (s + 1) → F,
    dSeq M k *ᵥ Spec.rounds (fun r y => M *ᵥ onFirst (g r) y) 0 n x =
      Spec.rounds (fun r y => cheap (M 0 0) (vOf (dSeq M (k + n - 1 - r) * M)ᵀ) (wOf (dSeq M (k + n - 1 - r) * M)ᵀ)
        (onFirst (g r) y)) 0 n (dSeq M (k + n) *ᵥ x) := by
  induction n with
  | zero => intro k _ x; rfl
  | succ n ih =>
    intro k hk x
    show dSeq M k *ᵥ (M *ᵥ onFirst (g (0 + n)) (Spec.rounds (fun r y => M *ᵥ onFirst (g r) y) 0 n x)) =
      cheap (M 0 0) (vOf (dSeq M (k + (n + 1) - 1 - (0 + n)) * M)ᵀ) (wOf (dSeq M (k + (n + 1) - 1 - (0 + n)) * M)ᵀ)
        (onFirst (g (0 + n)) (Spec.rounds (fun r y => cheap (M 0 0) (vOf (dSeq M (k + (n + 1) - 1 - r) * M)ᵀ)
          (wOf (dSeq M (k + (n + 1) - 1 - r) * M)ᵀ) (onFirst (g r) y)) 0 n (dSeq M (k + (n + 1)) *ᵥ x)))
    rw [show k + (n + 1) - 1 - (0 + n) = k by omega, Matrix.mulVec_mulVec,
      cheap_factor M k ((h k (by omega)).det_ne_zero hs), dSeq_onFirst, ih (k + 1) (by omega)]
    simp only [show k + 1 + n = k + (n + 1) by omega]

theorem dSeq_eq (M : Matrix (Fin (s + 1)) (Fin (s + 1)) F) (k : Nat) :
    dSeq M k = cornerOne ((M.submatrix Fin.succ Fin.succ) ^ k) := by
  ext i j
  cases k with
  | zero =>
    refine Fin.cases (Fin.cases ?_ (fun j => ?_) j) (fun i => Fin.cases ?_ (fun j => ?_) j) i
    · simp [dSeq, cornerOne]
    · simp [dSeq, cornerOne, Matrix.one_apply, (Fin.succ_ne_zero j).symm]
    · simp [dSeq, cornerOne, Matrix.one_apply, Fin.succ_ne_zero i]
    · simp [dSeq, cornerOne, Matrix.one_apply]
  | succ k =>
    rw [← block_pow]
    refine Fin.cases (Fin.cases ?_ (fun j => ?_) j) (fun i => Fin.cases ?_ (fun j => ?_) j) i
    · simp [dSeq, hatM, cornerOne]
    · simp [dSeq, hatM, cornerOne]
    · simp [dSeq, hatM, cornerOne]
    · simp [dSeq, hatM, cornerOne]

theorem vOf_eq (M : Matrix (Fin (s + 1)) (Fin (s + 1)) F) (k : Nat) :
    vOf (dSeq M k * M)ᵀ = ((M.submatrix Fin.succ Fin.succ) ^ k) *ᵥ fun i => M i.succ 0 := by
  funext i
  rw [dSeq_eq]
  simp [vOf, Matrix.mul_apply, cornerOne, Fin.sum_univ_succ, Matrix.mulVec, dotProduct]

theorem wOf_eq (M : Matrix (Fin (s + 1)) (Fin (s + 1)) F) (k : Nat) :
    wOf (dSeq M k * M)ᵀ = (fun j => M 0 j.succ) ᵥ* ((M.submatrix Fin.succ Fin.succ) ^ (k + 1))⁻¹ := by
  unfold wOf
  have e : ((dSeq M k * M)ᵀ).submatrix Fin.succ Fin.succ = ((M.submatrix Fin.succ Fin.succ) ^ (k + 1))ᵀ := by
    rw [← block_pow]
    rfl
  have e2 : (fun i : Fin s => (dSeq M k * M)ᵀ i.succ 0) = fun j => M 0 j.succ := by
    funext j
    exact dSeq_mul_zero_zero M k j.succ
  rw [e, e2, ← Matrix.transpose_nonsing_inv, Matrix.mulVec_transpose]

omit [DecidableEq F] in
theorem zero_rows (n : Nat) : List.replicate n (List.replicate n (0 : F)) = rowsOf (0 : Matrix (Fin n) (Fin n) F) := by
  simp [rowsOf, List.ofFn_const]

omit [DecidableEq F] in
theorem tab_rows {n m : Nat} (A : Matrix (Fin n) (Fin m) F) (i : Fin n) (j : Fin m) : tab (rowsOf A) i j = A i j := by
  simp [tab, rowsOf, List.getD_eq_getElem?_getD]

theorem sq {mds : List (List F)} (h : MatrixFits false (s + 1) mds) (dbg : Bool) (R : Nat) :
    equivalentMatrices dbg mds (s + 1) R = equivalentMatrices dbg (rowsOf (squarePart (s + 1) mds)) (s + 1) R := by
  unfold equivalentMatrices
  rw [matTranspose_sq h (Nat.succ_pos s)]

end

end SparseLayers

section
variable {F : Type _} [Field F] [DecidableEq F]

/-- **C92.** `PoseidonParams::equivalent_matrices`, called directly with `t = s + 1 ≥ 2` rows of which the first has `t`
entries and no other fewer, returns exactly if all leading minors of the first `R` powers of the lower-right block are
nonzero. The matrix itself need not be invertible. -/
theorem C92_returns_iff (dbg : Bool) {s : Nat} (hs : 0 < s) (mds : List (List F)) (hm : MatrixFits false (s + 1) mds)
    (R : Nat) :
    (∃ r, PoseidonParams.equivalentMatrices dbg mds (s + 1) R = some r) ↔
      ∀ n, 1 ≤ n → n ≤ R → ∀ k, ∀ hk : k < s,
        leadingMinor (((squarePart (s + 1) mds).submatrix Fin.succ Fin.succ) ^ n) (k + 1) hk ≠ 0 := by
  rw [← PoseidonParams.goodBlocks_iff, SparseLayers.sq hm]
  constructor
  · rintro ⟨r, hr⟩
    by_contra hb
    rw [PoseidonParams.equivalentMatrices_bad hs dbg _ R hb] at hr
    cases hr
  · intro hb
    rcases Nat.eq_zero_or_pos R with rfl | hR
    · unfold PoseidonParams.equivalentMatrices
      have h0 : List.replicate (s + 1) (List.replicate (s + 1) (0 : F)) =
          rowsOf (0 : Matrix (Fin (s + 1)) (Fin (s + 1)) F) := by
        exact SparseLayers.zero_rows (s + 1)
      simp only [C30_matTranspose _ (Nat.succ_pos s), Option.bind_eq_bind, Option.bind_some, List.range_zero,
        List.foldlM_nil, Option.pure_def, h0]
      exact ⟨_, rfl⟩
    · exact ⟨_, PoseidonParams.equivalentMatrices_good hs dbg _ R hR hb⟩

/-- **C92**, value. With `B` the lower-right block, `c` the rest of the first column and `w` the rest of the first row of
the matrix: the first table is the matrix with corner one and block `B ^ R`, row `k` of the second is `B ^ k * c` and row
`k` of the third is `w * (B ^ (k + 1))⁻¹`. -/
theorem C92_value (dbg : Bool) {s : Nat} (hs : 0 < s) (mds : List (List F)) (hm : MatrixFits false (s + 1) mds)
    (R : Nat) (hR : 0 < R) (m_i v w_hat : List (List F))
    (h : PoseidonParams.equivalentMatrices dbg mds (s + 1) R = some (m_i, v, w_hat)) :
    let M := squarePart (s + 1) mds
    let B := M.submatrix Fin.succ Fin.succ
    m_i = rowsOf (cornerOne (B ^ R)) ∧
    v = List.ofFn (fun k : Fin R => List.ofFn ((B ^ k.val) *ᵥ fun i => M i.succ 0)) ∧
    w_hat = List.ofFn (fun k : Fin R => List.ofFn ((fun j => M 0 j.succ) ᵥ* (B ^ (k.val + 1))⁻¹)) := by
  intro M B
  rw [SparseLayers.sq hm] at h
  have hb : PoseidonParams.GoodBlocks M R := by
    by_contra hb
    rw [PoseidonParams.equivalentMatrices_bad hs dbg _ R hb] at h
    cases h
  rw [PoseidonParams.equivalentMatrices_good hs dbg _ R hR hb, Option.some.injEq, Prod.mk.injEq, Prod.mk.injEq] at h
  obtain ⟨rfl, rfl, rfl⟩ := h
  refine ⟨by rw [SparseLayers.dSeq_eq], ?_, ?_⟩
  · rw [tl_eq_ofFn]
    congr 1
    funext k
    rw [SparseLayers.vOf_eq]
  · rw [tl_eq_ofFn]
    congr 1
    funext k
    rw [SparseLayers.wOf_eq]

/-- **C92**, use. Let the tables be returned for `R ≥ 1` rounds. For any functions `g 0, ..., g (R - 1)`: applying `g r` to
the first entry and then the matrix, for `r = 0, ..., R - 1`, is the same as applying the first table once, and then for
each `r` the function `g r` to the first entry and the sparse matrix with the rows `R - 1 - r` of the two other tables. -/
theorem C92_rounds (dbg : Bool) {s : Nat} (hs : 0 < s) (mds : List (List F)) (hm : MatrixFits false (s + 1) mds)
    (R : Nat) (hR : 0 < R) (m_i v w_hat : List (List F))
    (h : PoseidonParams.equivalentMatrices dbg mds (s + 1) R = some (m_i, v, w_hat))
    (g : Nat → F → F) (x : Fin (s + 1) → F) :
    rounds (fun r y => squarePart (s + 1) mds *ᵥ onFirst (g r) y) 0 R x =
      rounds (fun r y => sparseMatrix (tab mds 0 0) (fun i : Fin s => tab v (R - 1 - r) i)
        (fun i : Fin s => tab w_hat (R - 1 - r) i) *ᵥ onFirst (g r) y) 0 R
        ((Matrix.of fun i j : Fin (s + 1) => tab m_i i j) *ᵥ x) := by
  rw [SparseLayers.sq hm] at h
  have h00 : tab mds 0 0 = squarePart (s + 1) mds 0 0 := rfl
  rw [h00]
  generalize squarePart (s + 1) mds = M at h
  have hb : PoseidonParams.GoodBlocks M R := by
    by_contra hb
    rw [PoseidonParams.equivalentMatrices_bad hs dbg _ R hb] at h
    cases h
  rw [PoseidonParams.equivalentMatrices_good hs dbg _ R hR hb, Option.some.injEq, Prod.mk.injEq, Prod.mk.injEq] at h
  obtain ⟨rfl, rfl, rfl⟩ := h
  have key := SparseLayers.rounds_sparse M g R hb hs R 0 (by omega) x
  rw [show PoseidonParams.dSeq M 0 = 1 from rfl, Matrix.one_mulVec, Nat.zero_add] at key
  rw [key]
  have e : (Matrix.of fun i j : Fin (s + 1) => tab (rowsOf (PoseidonParams.dSeq M R)) i j) = PoseidonParams.dSeq M R := by
    ext i j
    exact SparseLayers.tab_rows _ i j
  rw [e]
  refine rounds_congr _ _ _ _ (fun r _ hr y => ?_) _
  rw [SparseLayers.cheap_eq]
  have ev : ∀ f : Nat → Fin s → F, (fun i : Fin s => tab (tl R fun k => List.ofFn (f k)) (R - 1 - r) i) =
      f (R - 1 - r) := by
    intro f
    funext i
    simp only [tab, List.getD_eq_getElem?_getD]
    rw [tl_get _ (by omega)]
    simp
  rw [ev, ev]

/-- **C92**, no rounds: the first table is then the zero matrix, not the unit matrix, and the others are empty. -/
theorem C92_no_rounds (dbg : Bool) {s : Nat} (mds : List (List F)) (hm : MatrixFits false (s + 1) mds) :
    PoseidonParams.equivalentMatrices dbg mds (s + 1) 0 =
      some (List.replicate (s + 1) (List.replicate (s + 1) 0), [], []) := by
  rw [SparseLayers.sq hm]
  unfold PoseidonParams.equivalentMatrices
  have h0 : List.replicate (s + 1) (List.replicate (s + 1) (0 : F)) =
      rowsOf (0 : Matrix (Fin (s + 1)) (Fin (s + 1)) F) := by
    exact SparseLayers.zero_rows (s + 1)
  simp only [C30_matTranspose _ (Nat.succ_pos s), Option.bind_eq_bind, Option.bind_some, List.range_zero,
    List.foldlM_nil, Option.pure_def, h0, Matrix.transpose_zero]

/-- **C92**, widths 0 and 1: with a round to prepare it panics, whatever the rows. -/
theorem C92_narrow (dbg : Bool) (t : Nat) (ht : t ≤ 1) (mds : List (List F)) (R : Nat) (hR : 0 < R) :
    PoseidonParams.equivalentMatrices dbg mds t R = none := by
  have hstep : ∀ mds_ (st : PoseidonParams.EqState F), PoseidonParams.equivMatStep dbg t mds_ st = none := by
    intro mds_ st
    unfold PoseidonParams.equivMatStep
    obtain rfl | rfl : t = 0 ∨ t = 1 := by omega
    · have e : ∀ m : List F, PoseidonParams.sliceFrom1 m 0 = none := by
        intro m; simp [PoseidonParams.sliceFrom1]
      simp only [e, Option.bind_eq_bind, Option.bind_none, Poseidon.bind_none_fun]
    · have e1 : usub dbg 1 1 = some 0 := PoseidonParams.usub_succ dbg 0
      have e2 : ∀ m_mul : List (List F), PoseidonParams.fillHat 1 m_mul ([], []) = some ([], []) := by
        intro m; simp [PoseidonParams.fillHat]
      have e3 : Utils.matInverse dbg ([] : List (List F)) = none := by simp [Utils.matInverse]
      simp only [e1, Option.bind_eq_bind, Option.bind_some, List.replicate_zero, e2, e3, Option.bind_none,
        Poseidon.bind_none_fun]
  obtain ⟨n, rfl⟩ : ∃ n, R = n + 1 := ⟨R - 1, by omega⟩
  unfold PoseidonParams.equivalentMatrices
  simp only [List.range_succ_eq_map, List.foldlM_cons, hstep, Option.bind_eq_bind, Option.bind_none,
    Poseidon.bind_none_fun]

end

/-! ## Examples -/

private instance : Fact (Nat.Prime 7) := ⟨by decide⟩

/-- A matrix that is not invertible, with a surplus entry in its second row: the tables for two rounds. -/
example (dbg : Bool) : PoseidonParams.equivalentMatrices dbg ([[2, 3], [1, 5, 4]] : List (List (ZMod 7))) 2 2 =
    some ([[1, 0], [0, 4]], [[1], [5]], [[2], [6]]) := by
  cases dbg <;> decide +kernel

/-- It meets the hypotheses of the theorems, and its determinant is zero. -/
example : MatrixFits false 2 ([[2, 3], [1, 5, 4]] : List (List (ZMod 7))) ∧
    (squarePart 2 ([[2, 3], [1, 5, 4]] : List (List (ZMod 7)))).det = 0 := by
  refine ⟨⟨rfl, rfl, by decide, by simp⟩, ?_⟩
  rw [Matrix.det_fin_two]
  decide +kernel

/-- The swap block is rejected. -/
example : PoseidonParams.equivalentMatrices true ([[1, 0, 0], [0, 0, 1], [0, 1, 0]] : List (List (ZMod 7))) 3 1 = none := by
  decide +kernel

end ZkHash

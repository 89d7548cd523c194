import Verif.Proofs.MatInverse
import Verif.Proofs.MatOps
import Mathlib.Data.ZMod.Basic
import Mathlib.Algebra.Field.ZMod

set_option autoImplicit false

/-!
# Properties of the matrix helpers (C27-C31)
-/

namespace ZkHash

open Spec Matrix

set_option linter.unusedSectionVars false

section
variable {F : Type _} [Field F] [DecidableEq F]

/-- The leading principal minor of order `k`: the determinant of the upper-left `k × k` block. -/
def leadingMinor {n : Nat} (A : Matrix (Fin n) (Fin n) F) (k : Nat) (hk : k ≤ n) : F :=
  (A.submatrix (Fin.castLE hk) (Fin.castLE hk)).det

theorem matInverse_rowsOf {n : Nat} (dbg : Bool) (A : Matrix (Fin n) (Fin n) F) (hn : 0 < n) :
    ((∃ k, ∃ hk : k < n, leadingMinor A (k + 1) hk = 0) → Utils.matInverse dbg (rowsOf A) = none) ∧
    ((∀ k, ∀ hk : k < n, leadingMinor A (k + 1) hk ≠ 0) →
      Utils.matInverse dbg (rowsOf A) = some (rowsOf A⁻¹)) := by
  have h := Utils.matInverse_tm dbg
    (fun i j => if h : i < n ∧ j < n then A ⟨i, h.1⟩ ⟨j, h.2⟩ else 0) hn
  rw [← rowsOf_eq_tm] at h
  have e : ∀ k, ∀ hk : k < n, Utils.lead (fun i j => if h : i < n ∧ j < n then A ⟨i, h.1⟩ ⟨j, h.2⟩ else 0) (k + 1) =
      leadingMinor A (k + 1) hk := by
    intro k hk
    unfold Utils.lead leadingMinor
    congr 1
    ext i j
    have h1 : (i : ℕ) < n := by omega
    have h2 : (j : ℕ) < n := by omega
    simp [h1, h2, Fin.castLE]
  have e2 : (Matrix.of fun i j : Fin n => (if h : i.val < n ∧ j.val < n then A ⟨i, h.1⟩ ⟨j, h.2⟩ else 0)) = A := by
    ext i j
    simp
  rw [e2] at h
  refine ⟨fun ⟨k, hk, h0⟩ => h.1 ⟨k, hk, by rw [e k hk]; exact h0⟩, fun h0 => h.2 fun k hk => ?_⟩
  rw [e k hk]
  exact h0 k hk

theorem matInverse_nil (dbg : Bool) (A : Matrix (Fin 0) (Fin 0) F) : Utils.matInverse dbg (rowsOf A) = none := by
  simp [Utils.matInverse, rowsOf]

/-- **C27.** Whatever `mat_inverse` returns is the two-sided inverse. -/
theorem C27_matInverse_two_sided {n : Nat} (dbg : Bool) (A : Matrix (Fin n) (Fin n) F) (R : List (List F))
    (h : Utils.matInverse dbg (rowsOf A) = some R) :
    ∃ B : Matrix (Fin n) (Fin n) F, R = rowsOf B ∧ A * B = 1 ∧ B * A = 1 := by
  rcases Nat.eq_zero_or_pos n with rfl | hn
  · rw [matInverse_nil] at h; cases h
  have hA := matInverse_rowsOf dbg A hn
  by_cases h0 : ∃ k, ∃ hk : k < n, leadingMinor A (k + 1) hk = 0
  · rw [hA.1 h0] at h; cases h
  · have h0' : ∀ k, ∀ hk : k < n, leadingMinor A (k + 1) hk ≠ 0 := fun k hk hh => h0 ⟨k, hk, hh⟩
    rw [hA.2 h0'] at h
    have hu : IsUnit A.det := by
      have := h0' (n - 1) (by omega)
      obtain ⟨m, rfl⟩ : ∃ m, n = m + 1 := ⟨n - 1, by omega⟩
      exact isUnit_iff_ne_zero.mpr this
    exact ⟨A⁻¹, (Option.some.inj h).symm, Matrix.mul_nonsing_inv A hu, Matrix.nonsing_inv_mul A hu⟩

/-- **C28.** `mat_inverse` returns exactly when the matrix is nonempty and all its leading principal minors are
nonzero. -/
theorem C28_matInverse_returns_iff {n : Nat} (dbg : Bool) (A : Matrix (Fin n) (Fin n) F) :
    (∃ R, Utils.matInverse dbg (rowsOf A) = some R) ↔
      0 < n ∧ ∀ k, ∀ hk : k < n, leadingMinor A (k + 1) hk ≠ 0 := by
  rcases Nat.eq_zero_or_pos n with rfl | hn
  · rw [matInverse_nil]; simp
  have hA := matInverse_rowsOf dbg A hn
  constructor
  · rintro ⟨R, h⟩
    refine ⟨hn, fun k hk h0 => ?_⟩
    rw [hA.1 ⟨k, hk, h0⟩] at h
    cases h
  · rintro ⟨_, h⟩
    exact ⟨_, hA.2 h⟩

/-- **C28**, corollary: it panics on every singular matrix. -/
theorem C28_matInverse_singular {n : Nat} (dbg : Bool) (A : Matrix (Fin n) (Fin n) F) (h : A.det = 0) :
    Utils.matInverse dbg (rowsOf A) = none := by
  by_contra hne
  obtain ⟨R, hR⟩ := Option.ne_none_iff_exists'.mp hne
  obtain ⟨B, -, hB, -⟩ := C27_matInverse_two_sided dbg A R hR
  have := congrArg Matrix.det hB
  rw [Matrix.det_mul, h, zero_mul, Matrix.det_one] at this
  exact zero_ne_one this

/-- **C28**, corollary: over every field it also panics on an invertible matrix, the swap of two coordinates. -/
theorem C28_matInverse_invertible_panic (dbg : Bool) :
    ∃ A : Matrix (Fin 2) (Fin 2) F, A * A = 1 ∧ Utils.matInverse dbg (rowsOf A) = none := by
  refine ⟨!![0, 1; 1, 0], ?_, ?_⟩
  · ext i j
    fin_cases i <;> fin_cases j <;> simp [Matrix.mul_apply, Fin.sum_univ_two]
  · exact (matInverse_rowsOf dbg _ (by decide)).1 ⟨0, by decide, by simp [leadingMinor]⟩

/-- **C28**: a first row whose length differs from the number of rows panics, whatever the other rows are. -/
theorem C28_matInverse_not_square (dbg : Bool) (row : List F) (rest : List (List F))
    (h : row.length ≠ rest.length + 1) : Utils.matInverse dbg (row :: rest) = none := by
  simp [Utils.matInverse, assertThat, h]

/-- **C29.** The debug-only code changes nothing. -/
theorem C29_matInverse_profile {n : Nat} (A : Matrix (Fin n) (Fin n) F) :
    Utils.matInverse true (rowsOf A) = Utils.matInverse false (rowsOf A) := by
  rcases Nat.eq_zero_or_pos n with rfl | hn
  · rw [matInverse_nil, matInverse_nil]
  by_cases h0 : ∃ k, ∃ hk : k < n, leadingMinor A (k + 1) hk = 0
  · rw [(matInverse_rowsOf true A hn).1 h0, (matInverse_rowsOf false A hn).1 h0]
  · have h0' : ∀ k, ∀ hk : k < n, leadingMinor A (k + 1) hk ≠ 0 := fun k hk hh => h0 ⟨k, hk, hh⟩
    rw [(matInverse_rowsOf true A hn).2 h0', (matInverse_rowsOf false A hn).2 h0']

end

section
variable {F : Type _} [CommRing F]

/-- **C30.** `mat_transpose` returns the transpose of any matrix with at least one row. -/
theorem C30_matTranspose {r c : Nat} (A : Matrix (Fin r) (Fin c) F) (hr : 0 < r) :
    Utils.matTranspose (rowsOf A) = some (rowsOf Aᵀ) := by
  rw [rowsOf_eq_tm, matTranspose_tm _ hr, rowsOf_eq_tm]
  congr 1
  apply tm_congr
  intro i hi j hj
  simp [hi, hj]

/-- **C30**: twice is the identity. -/
theorem C30_matTranspose_twice {r c : Nat} (A : Matrix (Fin r) (Fin c) F) (hr : 0 < r) (hc : 0 < c) :
    (Utils.matTranspose (rowsOf A)).bind Utils.matTranspose = some (rowsOf A) := by
  rw [C30_matTranspose A hr, Option.bind_some, C30_matTranspose Aᵀ hc, Matrix.transpose_transpose]

/-- **C30**: the empty matrix panics. -/
theorem C30_matTranspose_empty : Utils.matTranspose ([] : List (List F)) = none := by
  simp [Utils.matTranspose]

theorem sum_range_eq_dotProduct {n m : Nat} (A : Matrix (Fin n) (Fin m) F) (x : Fin m → F) (i : Nat) (hi : i < n) :
    ∑ c ∈ Finset.range m, (if h : i < n ∧ c < m then A ⟨i, h.1⟩ ⟨c, h.2⟩ else 0) * ext0 0 x c =
      (A *ᵥ x) ⟨i, hi⟩ := by
  rw [Finset.sum_range]
  simp [Matrix.mulVec, dotProduct, hi, ext0]

/-- **C31.** `mat_vec_mul` is the matrix-vector product: for square matrices in both profiles, for any matrix in
release builds. -/
theorem C31_matVecMul {n m : Nat} (dbg : Bool) (A : Matrix (Fin n) (Fin m) F) (x : Fin m → F)
    (h : dbg = true → n = m) :
    matVecMul dbg (rowsOf A) (List.ofFn x) = some (List.ofFn (A *ᵥ x)) := by
  rw [rowsOf_eq_tm, ofFn_eq_tl 0, matVecMul_tm dbg _ _ h, tl_eq_ofFn]
  congr 2
  funext i
  exact sum_range_eq_dotProduct A x i i.2

/-- **C31**: a non-square use of `mat_vec_mul` panics in debug builds. -/
theorem C31_matVecMul_debug (mat : List (List F)) (x : List F) (h : mat.length ≠ x.length) :
    matVecMul true mat x = none := by
  simp [matVecMul, debugAssert, h]

/-- **C31.** `mat_mat_mul` is the matrix product (the left factor has as many rows as the right one has columns). -/
theorem C31_matMatMul {n m : Nat} (A : Matrix (Fin n) (Fin m) F) (B : Matrix (Fin m) (Fin n) F) :
    PoseidonParams.matMatMul (rowsOf A) (rowsOf B) = some (rowsOf (A * B)) := by
  rw [rowsOf_eq_tm A, rowsOf_eq_tm B, matMatMul_tm _ _ (le_refl _), rowsOf_eq_tm]
  congr 1
  apply tm_congr
  intro i hi j hj
  rw [dif_pos ⟨hi, hj⟩, Finset.sum_range, Matrix.mul_apply]
  simp [hi, hj]

/-- **C31.** Poseidon's `matmul` is the matrix-vector product, in both profiles. -/
theorem C31_matmul {n : Nat} (dbg : Bool) (A : Matrix (Fin n) (Fin n) F) (x : Fin n → F) :
    Poseidon.matmul dbg (List.ofFn x) (rowsOf A) = some (List.ofFn (A *ᵥ x)) := by
  rw [rowsOf_eq_tm, ofFn_eq_tl 0, poseidon_matmul_tm dbg _ _ n (by omega) (fun _ => rfl), tl_eq_ofFn]
  congr 2
  funext i
  rw [Nat.min_self]
  exact sum_range_eq_dotProduct A x i i.2

end

/-! ## Concrete cases -/

section examples

private instance : Fact (Nat.Prime 11) := ⟨by decide⟩

/-- An invertible matrix with nonzero leading minors over the field with 11 elements: `mat_inverse` returns. -/
example : ∃ R, Utils.matInverse true (rowsOf !![(2 : ZMod 11), 1; 1, 3]) = some R :=
  (C28_matInverse_returns_iff _ _).mpr ⟨by decide, by decide⟩

/-- The hypothesis of `C28_matInverse_singular` is met by a non-zero matrix. -/
example : (!![(2 : ZMod 11), 1; 4, 2]).det = 0 := by decide

/-- A non-square transpose. -/
example : Utils.matTranspose (rowsOf !![(1 : ZMod 11), 2, 3; 4, 5, 6]) =
    some (rowsOf !![(1 : ZMod 11), 4; 2, 5; 3, 6]) := by decide

end examples

end ZkHash

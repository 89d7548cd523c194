import Verif.Model.Poseidon
import Verif.Spec.Common
import Verif.Proofs.Basic

set_option autoImplicit false

/-!
# `mat_transpose`, `mat_vec_mul`, `mat_mat_mul`, `matmul`
-/

set_option linter.unusedSectionVars false

namespace ZkHash

open Spec

variable {F : Type _} [CommRing F]

theorem rowsOf_eq_tm {n m : Nat} (A : Matrix (Fin n) (Fin m) F) :
    rowsOf A = tm n m fun i j => if h : i < n ∧ j < m then A ⟨i, h.1⟩ ⟨j, h.2⟩ else 0 := by
  unfold rowsOf tm
  rw [tl_eq_ofFn]
  congr 1
  funext i
  rw [tl_eq_ofFn]
  congr 1
  funext j
  simp

theorem tm_eq_rowsOf {n m : Nat} (A : Nat → Nat → F) :
    tm n m A = rowsOf (Matrix.of fun (i : Fin n) (j : Fin m) => A i j) := by
  unfold rowsOf tm
  rw [tl_eq_ofFn]
  congr 1
  funext i
  rw [tl_eq_ofFn]
  rfl

/-- `for (col, inp) in input.iter().enumerate() { out[row] += mat[row][col] * inp }`. -/
theorem accLoop {n N m k : Nat} (A : Nat → Nat → F) (x o : Nat → F) {row : Nat} (hrow : row < n) (hrN : row < N)
    (hm : m ≤ k) :
    ((tl m x).zipIdx).foldlM (fun out (p : F × Nat) => do
      let tmp ← get2 (tm N k A) row p.2
      let cur ← out[row]?
      setAt out row (cur + tmp * p.1)) (tl n o) =
    some (tl n (Function.update o row (o row + ∑ c ∈ Finset.range m, A row c * x c))) := by
  have := foldlM_zipIdx_tl (fun out (p : F × Nat) => do
      let tmp ← get2 (tm N k A) row p.2
      let cur ← out[row]?
      setAt out row (cur + tmp * p.1)) m x
    (fun i => tl n (Function.update o row (o row + ∑ c ∈ Finset.range i, A row c * x c))) (by
      intro i hi
      simp only [get2_tm _ hrN (show i < k by omega), Option.bind_eq_bind, Option.bind_some, tl_get _ hrow,
        setAt_tl _ _ hrow, Function.update_idem, Function.update_self, Finset.sum_range_succ, add_assoc])
  simpa using this

theorem rowsLoop {n : Nat} (f : List F → Nat → Option (List F)) (v : Nat → F)
    (h : ∀ o : Nat → F, ∀ row, row < n → f (tl n o) row = some (tl n (Function.update o row (o row + v row)))) :
    (List.range n).foldlM f (List.replicate n (0 : F)) = some (tl n v) := by
  have := foldlM_range f n (fun k => tl n fun i => if i < k then v i else 0) (by
    intro i hi
    rw [h _ i hi]
    congr 1
    apply tl_congr
    intro j hj
    by_cases hji : j = i
    · subst hji; simp
    · rw [Function.update_of_ne hji]
      by_cases h2 : j < i
      · rw [if_pos h2, if_pos (by omega)]
      · rw [if_neg h2, if_neg (by omega)])
  simp only [Nat.not_lt_zero, if_false] at this
  rw [replicate_eq_tl, this]
  congr 1
  apply tl_congr
  intro i hi
  rw [if_pos hi]

theorem matVecMul_tm {n m : Nat} (dbg : Bool) (A : Nat → Nat → F) (x : Nat → F) (hd : dbg = true → n = m) :
    matVecMul dbg (tm n m A) (tl m x) = some (tl n fun i => ∑ c ∈ Finset.range m, A i c * x c) := by
  have hda : debugAssert dbg ((tm n m A).length == (tl m x).length) = some () := by
    unfold debugAssert
    cases dbg
    · simp
    · simp [hd rfl]
  simp only [matVecMul, hda, Option.bind_eq_bind, Option.bind_some]
  rw [tm_length]
  apply rowsLoop
  intro o row hrow
  exact accLoop A x o hrow hrow (le_refl _)

theorem poseidon_matmul_tm {n m : Nat} (dbg : Bool) (A : Nat → Nat → F) (x : Nat → F) (k : Nat) (hk : min n m ≤ k)
    (hd : dbg = true → n = m) :
    Poseidon.matmul dbg (tl m x) (tm n k A) = some (tl n fun i => ∑ c ∈ Finset.range (min n m), A i c * x c) := by
  have hda : debugAssert dbg ((tm n k A).length == (tl m x).length) = some () := by
    unfold debugAssert
    cases dbg
    · simp
    · simp [hd rfl]
  simp only [Poseidon.matmul, hda, Option.bind_eq_bind, Option.bind_some]
  rw [tm_length]
  apply rowsLoop
  intro o row hrow
  have : ((tl m x).zipIdx).take n = (tl (min n m) x).zipIdx := by
    rw [← tl_take]
    apply List.ext_getElem?
    intro i
    rw [List.getElem?_take, List.getElem?_zipIdx, List.getElem?_zipIdx, List.getElem?_take]
    by_cases h : i < n <;> simp [h]
  rw [this]
  exact accLoop A x o hrow hrow hk

theorem matTranspose_tm {r c : Nat} (A : Nat → Nat → F) (hr : 0 < r) :
    Utils.matTranspose (tm r c A) = some (tm c r fun i j => A j i) := by
  unfold Utils.matTranspose
  have h0 : (tm r c A)[0]? = some (tl c (A 0)) := tl_get _ hr
  simp only [h0, Option.bind_eq_bind, Option.bind_some, tm_length, tl_length]
  have := foldlM_zipIdx_tl (fun tr (p : List F × Nat) =>
      (List.range c).foldlM (fun tr col => p.1[col]?.bind fun v => set2 tr col p.2 v) tr) r (fun i => tl c (A i))
    (fun k => tm c r fun i j => if j < k then A j i else 0) (by
      intro row hrow
      have := foldlM_range (fun tr col => (tl c (A row))[col]?.bind fun v => set2 tr col row v) c
        (fun k => tm c r fun i j => if j < row ∨ (j = row ∧ i < k) then A j i else 0) (by
          intro col hcol
          rw [tl_get _ hcol, Option.bind_some, set2_tm _ _ hcol hrow]
          congr 1
          apply tm_congr
          intro i _ j _
          unfold upd2
          beta_reduce
          by_cases h1 : i = col ∧ j = row
          · rw [if_pos h1, if_pos (by omega), h1.1, h1.2]
          · rw [if_neg h1]
            by_cases h2 : j < row ∨ j = row ∧ i < col
            · rw [if_pos h2, if_pos (by omega)]
            · rw [if_neg h2, if_neg (by omega)])
      simp only [Nat.not_lt_zero, and_false, or_false] at this
      rw [this]
      congr 1
      apply tm_congr
      intro i hi j _
      by_cases h2 : j < row + 1
      · rw [if_pos (by omega), if_pos h2]
      · rw [if_neg (by omega), if_neg h2])
  simp only [Nat.not_lt_zero, if_false] at this
  rw [replicate2_eq_tm]
  refine Eq.trans this ?_
  congr 1
  apply tm_congr
  intro i hi j hj
  rw [if_pos hj]

theorem matMatMul_tm {n m p : Nat} (A B : Nat → Nat → F) (hp : n ≤ p) :
    PoseidonParams.matMatMul (tm n m A) (tm m p B) =
      some (tm n n fun i j => ∑ k ∈ Finset.range m, A i k * B k j) := by
  unfold PoseidonParams.matMatMul
  simp only [tm_length]
  rw [replicate2_eq_tm]
  let C : Nat → Nat → F := fun i j => ∑ k ∈ Finset.range m, A i k * B k j
  have := foldlM_range (fun out row =>
      (List.range n).foldlM (fun out col1 =>
      ((tm m p B).zipIdx).foldlM (fun out (q : List F × Nat) => do
        let tmp ← get2 (tm n m A) row q.2
        let x ← q.1[col1]?
        let cur ← get2 out row col1
        set2 out row col1 (cur + tmp * x)) out) out) n
    (fun k => tm n n fun i j => if i < k then C i j else 0) (by
      intro row hrow
      have := foldlM_range (fun out col1 =>
        ((tm m p B).zipIdx).foldlM (fun out (q : List F × Nat) => do
          let tmp ← get2 (tm n m A) row q.2
          let x ← q.1[col1]?
          let cur ← get2 out row col1
          set2 out row col1 (cur + tmp * x)) out) n
        (fun k => tm n n fun i j => if i < row ∨ (i = row ∧ j < k) then C i j else 0) (by
          intro col hcol
          have := foldlM_zipIdx_tl (fun out (q : List F × Nat) => do
              let tmp ← get2 (tm n m A) row q.2
              let x ← q.1[col]?
              let cur ← get2 out row col
              set2 out row col (cur + tmp * x)) m (fun i => tl p (B i))
            (fun k => tm n n fun i j => if i = row ∧ j = col then ∑ l ∈ Finset.range k, A i l * B l j
              else if i < row ∨ (i = row ∧ j < col) then C i j else 0) (by
              intro l hl
              simp only [get2_tm _ hrow hl, get2_tm _ hrow hcol, set2_tm _ _ hrow hcol,
                tl_get _ (show col < p by omega), Option.bind_eq_bind, Option.bind_some, Option.some.injEq]
              apply tm_congr
              intro i _ j _
              unfold upd2
              beta_reduce
              by_cases h1 : i = row ∧ j = col
              · simp [h1.1, h1.2, Finset.sum_range_succ]
              · rw [if_neg h1, if_neg h1, if_neg h1])
          have e0 : (tm n n fun i j => if i = row ∧ j = col then ∑ l ∈ Finset.range 0, A i l * B l j
              else if i < row ∨ (i = row ∧ j < col) then C i j else 0) =
              tm n n fun i j => if i < row ∨ (i = row ∧ j < col) then C i j else 0 := by
            apply tm_congr
            intro i _ j _
            by_cases h1 : i = row ∧ j = col
            · rw [if_pos h1, if_neg (by omega), Finset.sum_range_zero]
            · rw [if_neg h1]
          rw [e0] at this
          refine Eq.trans this ?_
          congr 1
          apply tm_congr
          intro i _ j _
          by_cases h1 : i = row ∧ j = col
          · rw [if_pos h1, if_pos (by omega)]
          · rw [if_neg h1]
            by_cases h2 : i < row ∨ i = row ∧ j < col
            · rw [if_pos h2, if_pos (by omega)]
            · rw [if_neg h2, if_neg (by omega)])
      simp only [Nat.not_lt_zero, and_false, or_false] at this
      refine Eq.trans this ?_
      congr 1
      apply tm_congr
      intro i _ j hj
      by_cases h2 : i < row + 1
      · rw [if_pos (by omega), if_pos h2]
      · rw [if_neg (by omega), if_neg h2])
  simp only [Nat.not_lt_zero, if_false] at this
  refine Eq.trans this ?_
  congr 1
  apply tm_congr
  intro i hi j hj
  rw [if_pos hi]

end ZkHash

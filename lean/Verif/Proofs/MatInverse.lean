import Verif.Model.Utils
import Verif.Spec.Common
import Verif.Proofs.Basic
import Mathlib.LinearAlgebra.Matrix.NonsingularInverse
import Mathlib.LinearAlgebra.Matrix.Block

set_option autoImplicit false

/-!
# `mat_inverse`
-/

namespace ZkHash

/-- `Field::inverse` of ark-ff on a mathematical field: `None` exactly on zero. -/
instance fieldArkInverse {F : Type _} [Field F] [DecidableEq F] : ArkInverse F where
  inverse x := if x = 0 then none else some x⁻¹

namespace Utils

open Spec Matrix

variable {F : Type _} [Field F] [DecidableEq F]

/-- Replace row `r` of a matrix. -/
def setRow (m : Nat → Nat → F) (r : Nat) (v : Nat → F) : Nat → Nat → F :=
  fun a b => if a = r then v b else m a b

omit [DecidableEq F] in
theorem elimLoop {n row j : Nat} (hrow : row < n) (hj : j < row) (el : F) (m inv : Nat → Nat → F) :
    (List.range n).foldlM (elimCol row j el) (tm n n m, tm n n inv) =
      some (tm n n (setRow m row fun c => if c < j then 0 else m row c - m j c * el),
            tm n n (setRow inv row fun c => if row < c then 0 else inv row c - inv j c * el)) := by
  have := foldlM_range (elimCol row j el) n
    (fun k => (tm n n (setRow m row fun c => if c < k then (if c < j then 0 else m row c - m j c * el) else m row c),
      tm n n (setRow inv row fun c => if c < k then (if row < c then 0 else inv row c - inv j c * el) else inv row c)))
    (by
      intro i hi
      unfold elimCol
      have hj' : j < n := by omega
      have hjr : j ≠ row := by omega
      simp only [get2_tm _ hj' hi, get2_tm _ hrow hi, set2_tm _ _ hrow hi, Option.bind_eq_bind, Option.bind_some,
        Option.pure_def, gt_iff_lt]
      have e1 : ∀ (z : F) (w : Nat → F), (z = w i) → ∀ (m : Nat → Nat → F),
          tm n n (upd2 (setRow m row fun c => if c < i then w c else m row c) row i z) =
          tm n n (setRow m row fun c => if c < i + 1 then w c else m row c) := by
        intro z w hz m
        apply tm_congr
        intro a _ b _
        unfold upd2 setRow
        by_cases ha : a = row
        · subst ha
          by_cases hb : b = i
          · subst hb; simp [hz]
          · simp only [hb, and_false, if_false, if_true]
            by_cases hbi : b < i
            · simp [hbi, Nat.lt_succ_of_lt hbi]
            · simp [hbi, show ¬ b < i + 1 by omega]
        · simp [ha]
      by_cases c1 : i < j <;> by_cases c2 : row < i <;>
        simp only [c1, c2, if_true, if_false, Option.some.injEq, Prod.mk.injEq] <;>
        constructor <;> (refine e1 _ _ ?_ _) <;> simp [c1, c2, setRow, hjr])
  simp only [Nat.not_lt_zero, if_false] at this
  have e0 : ∀ m : Nat → Nat → F, (setRow m row fun c => m row c) = m := by
    intro m; funext a b; unfold setRow; split <;> simp_all
  rw [e0, e0] at this
  rw [this]
  congr 2 <;>
  · apply tm_congr
    intro a _ b hb
    unfold setRow
    simp [hb]

omit [DecidableEq F] in
theorem normLoop {n row : Nat} (hrow : row < n) (e : F) (m inv : Nat → Nat → F) :
    (List.range n).foldlM (normCol row e) (tm n n m, tm n n inv) =
      some (tm n n (setRow m row fun c => if c < row then m row c else if c = row then 1 else m row c * e),
            tm n n (setRow inv row fun c => if c ≤ row then inv row c * e else inv row c)) := by
  have := foldlM_range (normCol row e) n
    (fun k => (tm n n (setRow m row fun c => if c < k then
        (if c < row then m row c else if c = row then 1 else m row c * e) else m row c),
      tm n n (setRow inv row fun c => if c < k then (if c ≤ row then inv row c * e else inv row c) else inv row c)))
    (by
      intro i hi
      have e1 : ∀ (z : F) (w : Nat → F), (z = w i) → ∀ (m : Nat → Nat → F),
          tm n n (upd2 (setRow m row fun c => if c < i then w c else m row c) row i z) =
          tm n n (setRow m row fun c => if c < i + 1 then w c else m row c) := by
        intro z w hz m
        apply tm_congr
        intro a _ b _
        unfold upd2 setRow
        by_cases ha : a = row
        · subst ha
          by_cases hb : b = i
          · subst hb; simp [hz]
          · simp only [hb, and_false, if_false, if_true]
            by_cases hbi : b < i
            · simp [hbi, Nat.lt_succ_of_lt hbi]
            · simp [hbi, show ¬ b < i + 1 by omega]
        · simp [ha]
      have e2 : ∀ (w : Nat → F) (m : Nat → Nat → F), (m row i = w i) →
          tm n n (setRow m row fun c => if c < i then w c else m row c) =
          tm n n (setRow m row fun c => if c < i + 1 then w c else m row c) := by
        intro w m hw
        apply tm_congr
        intro a _ b _
        unfold setRow
        by_cases ha : a = row
        · subst ha
          by_cases hb : b = i
          · subst hb; simp [hw]
          · by_cases hbi : b < i
            · simp [hbi, Nat.lt_succ_of_lt hbi]
            · simp [hbi, show ¬ b < i + 1 by omega]
        · simp [ha]
      unfold normCol
      simp only [get2_tm _ hrow hi, set2_tm _ _ hrow hi, Option.bind_eq_bind, Option.bind_some, Option.pure_def]
      split
      · next h =>
        rw [Nat.compare_eq_lt] at h
        simp only [Option.some.injEq, Prod.mk.injEq]
        refine ⟨e2 _ _ ?_, e1 _ _ ?_ _⟩
        · simp [h]
        · simp [setRow, Nat.le_of_lt h]
      · next h =>
        rw [Nat.compare_eq_eq] at h
        subst h
        simp only [Option.some.injEq, Prod.mk.injEq]
        refine ⟨e1 _ _ ?_ _, e1 _ _ ?_ _⟩
        · simp
        · simp [setRow]
      · next h =>
        rw [Nat.compare_eq_gt] at h
        simp only [Option.some.injEq, Prod.mk.injEq]
        refine ⟨e1 _ _ ?_ _, e2 _ _ ?_⟩
        · simp [setRow, show ¬ i < row by omega, show ¬ i = row by omega]
        · simp [show ¬ i ≤ row by omega])
  simp only [Nat.not_lt_zero, if_false] at this
  have e0 : ∀ m : Nat → Nat → F, (setRow m row fun c => m row c) = m := by
    intro m; funext a b; unfold setRow; split <;> simp_all
  rw [e0, e0] at this
  rw [this]
  congr 2 <;>
  · apply tm_congr
    intro a _ b hb
    unfold setRow
    simp [hb]

/-- Invariant of the first phase when rows `< k` are finished. -/
structure Inv1 (n : Nat) (A : Nat → Nat → F) (k : Nat) (m inv : Nat → Nat → F) : Prop where
  prod : ∀ i, i < n → ∀ j, j < n → m i j = ∑ l ∈ Finset.range n, inv i l * A l j
  mlow : ∀ i, i < k → ∀ j, j < i → m i j = 0
  mdiag : ∀ i, i < k → m i i = 1
  ilow : ∀ i, i < n → ∀ j, i < j → j < n → inv i j = 0
  idiag : ∀ i, i < k → inv i i ≠ 0
  irest : ∀ i, k ≤ i → i < n → inv i i = 1

/-- Invariant of the elimination of row `row` when the columns `< j` are finished. -/
structure Inv1' (n : Nat) (A : Nat → Nat → F) (row j : Nat) (m inv : Nat → Nat → F) : Prop extends
    Inv1 n A row m inv where
  cleared : ∀ c, c < j → m row c = 0

omit [DecidableEq F] in
theorem elimRow_inv {n row j : Nat} {A m inv : Nat → Nat → F} (hrow : row < n) (hj : j < row)
    (h : Inv1' n A row j m inv) :
    ∃ m' inv', elimRow n row (tm n n m, tm n n inv) j = some (tm n n m', tm n n inv') ∧
      Inv1' n A row (j + 1) m' inv' := by
  unfold elimRow
  simp only [get2_tm _ hrow (show j < n by omega), Option.bind_eq_bind, Option.bind_some]
  rw [elimLoop hrow hj]
  refine ⟨_, _, rfl, ?_⟩
  have hjr : j ≠ row := by omega
  refine { prod := ?_, mlow := ?_, mdiag := ?_, ilow := ?_, idiag := ?_, irest := ?_, cleared := ?_ }
  · intro i hi c hc
    unfold setRow
    by_cases hir : i = row
    · subst hir
      simp only [if_true]
      have e1 : (if c < j then (0 : F) else m i c - m j c * m i j) = m i c - m j c * m i j := by
        split
        · next hcj => rw [h.cleared c hcj, h.mlow j hj c hcj]; ring
        · rfl
      have e2 : ∀ l ∈ Finset.range n, (if i < l then (0 : F) else inv i l - inv j l * m i j) * A l c =
          inv i l * A l c - inv j l * A l c * m i j := by
        intro l hl
        rw [Finset.mem_range] at hl
        split
        · next hil => rw [h.ilow i hi l hil hl, h.ilow j (by omega) l (by omega) hl]; ring
        · ring
      rw [e1, Finset.sum_congr rfl e2, Finset.sum_sub_distrib, ← Finset.sum_mul, ← h.prod i hi c hc,
        ← h.prod j (by omega) c hc]
    · simp only [hir, if_false]
      exact h.prod i hi c hc
  · intro i hi c hc
    simp only [setRow, show i ≠ row by omega, if_false]
    exact h.mlow i hi c hc
  · intro i hi
    simp only [setRow, show i ≠ row by omega, if_false]
    exact h.mdiag i hi
  · intro i hi c hc hcn
    unfold setRow
    by_cases hir : i = row
    · subst hir; simp [hc]
    · simp only [hir, if_false]; exact h.ilow i hi c hc hcn
  · intro i hi
    simp only [setRow, show i ≠ row by omega, if_false]
    exact h.idiag i hi
  · intro i hi hin
    unfold setRow
    by_cases hir : i = row
    · subst hir
      simp only [if_true, lt_irrefl, if_false]
      rw [h.ilow j (by omega) i hj hin, h.irest i (le_refl _) hin]
      ring
    · simp only [hir, if_false]; exact h.irest i hi hin
  · intro c hc
    simp only [setRow, if_true]
    by_cases hcj : c < j
    · simp [hcj]
    · have : c = j := by omega
      subst this
      simp only [lt_irrefl, if_false, h.mdiag c hj]
      ring

/-- Leading principal minor of order `k`. -/
def lead (A : Nat → Nat → F) (k : Nat) : F := (Matrix.of fun i j : Fin k => A i j).det

omit [DecidableEq F] in
theorem pivot_eq {n row : Nat} {A m inv : Nat → Nat → F} (hrow : row < n) (h : Inv1' n A row row m inv) :
    m row row = (∏ i ∈ Finset.range row, inv i i) * lead A (row + 1) := by
  let L : Matrix (Fin (row + 1)) (Fin (row + 1)) F := Matrix.of fun i j => inv i j
  let M : Matrix (Fin (row + 1)) (Fin (row + 1)) F := Matrix.of fun i j => m i j
  let B : Matrix (Fin (row + 1)) (Fin (row + 1)) F := Matrix.of fun i j => A i j
  have hprod : L * B = M := by
    ext i j
    simp only [Matrix.mul_apply, L, B, M, Matrix.of_apply]
    rw [h.prod i (by omega) j (by omega), ← Finset.sum_range (fun l => inv i l * A l j),
      ← Finset.sum_range_add_sum_Ico _ (show row + 1 ≤ n by omega)]
    rw [Finset.sum_eq_zero (s := Finset.Ico (row + 1) n), add_zero]
    intro l hl
    rw [Finset.mem_Ico] at hl
    rw [h.ilow i (by omega) l (by omega) hl.2, zero_mul]
  have hL : L.det = ∏ i ∈ Finset.range row, inv i i := by
    rw [Matrix.det_of_lowerTriangular L]
    · have : ∏ i, L i i = ∏ i : Fin (row + 1), inv i i := rfl
      rw [this, ← Finset.prod_range (fun i => inv i i), Finset.prod_range_succ, h.irest row (le_refl _) hrow, mul_one]
    intro i j hij
    exact h.ilow i (by omega) j hij (by omega)
  have hM : M.det = m row row := by
    rw [Matrix.det_of_upperTriangular (M := M)]
    · have : ∏ i, M i i = ∏ i : Fin (row + 1), m i i := rfl
      rw [this, ← Finset.prod_range (fun i => m i i), Finset.prod_range_succ, Finset.prod_eq_one, one_mul]
      intro i hi; exact h.mdiag i (Finset.mem_range.mp hi)
    · intro i j hij
      have hij' : j.val < i.val := hij
      show m i j = 0
      by_cases hi : i.val = row
      · rw [hi]; exact h.cleared j (by omega)
      · exact h.mlow i (by omega) j hij'
  have := congrArg Matrix.det hprod
  rw [Matrix.det_mul, hL, hM] at this
  exact this.symm

theorem phase1Row_inv {n row : Nat} {A m inv : Nat → Nat → F} (hrow : row < n) (h : Inv1 n A row m inv) :
    (lead A (row + 1) = 0 → phase1Row n (tm n n m, tm n n inv) row = none) ∧
    (lead A (row + 1) ≠ 0 → ∃ m' inv', phase1Row n (tm n n m, tm n n inv) row = some (tm n n m', tm n n inv') ∧
      Inv1 n A (row + 1) m' inv') := by
  obtain ⟨st, hst, m1, inv1, rfl, h1⟩ := foldlM_range_ex (elimRow n row) row
    (fun j st => ∃ m' inv', st = (tm n n m', tm n n inv') ∧ Inv1' n A row j m' inv') (by
      rintro j hj _ ⟨m', inv', rfl, h'⟩
      obtain ⟨m2, inv2, e, h2⟩ := elimRow_inv hrow hj h'
      exact ⟨_, e, m2, inv2, rfl, h2⟩)
    (tm n n m, tm n n inv) ⟨m, inv, rfl, { toInv1 := h, cleared := fun c hc => absurd hc (by omega) }⟩
  have hpiv := pivot_eq hrow h1
  have hprod0 : (∏ i ∈ Finset.range row, inv1 i i) ≠ 0 := by
    rw [Finset.prod_ne_zero_iff]
    intro i hi; exact h1.idiag i (Finset.mem_range.mp hi)
  unfold phase1Row
  simp only [hst, Option.bind_eq_bind, Option.bind_some, get2_tm _ hrow hrow]
  constructor
  · intro h0
    rw [h0, mul_zero] at hpiv
    simp [ArkInverse.inverse, hpiv]
  · intro h0
    have hp : m1 row row ≠ 0 := by rw [hpiv]; exact mul_ne_zero hprod0 h0
    simp only [ArkInverse.inverse, hp, if_false, Option.bind_some]
    rw [normLoop hrow]
    refine ⟨_, _, rfl, ?_⟩
    refine { prod := ?_, mlow := ?_, mdiag := ?_, ilow := ?_, idiag := ?_, irest := ?_ }
    · intro i hi c hc
      unfold setRow
      by_cases hir : i = row
      · subst hir
        simp only [if_true]
        have e1 : (if c < i then m1 i c else if c = i then 1 else m1 i c * (m1 i i)⁻¹) = m1 i c * (m1 i i)⁻¹ := by
          by_cases c1 : c < i
          · rw [if_pos c1, h1.cleared c c1, zero_mul]
          · rw [if_neg c1]
            by_cases c2 : c = i
            · subst c2; rw [if_pos rfl, mul_inv_cancel₀ hp]
            · rw [if_neg c2]
        have e2 : ∀ l ∈ Finset.range n, (if l ≤ i then inv1 i l * (m1 i i)⁻¹ else inv1 i l) * A l c =
            inv1 i l * A l c * (m1 i i)⁻¹ := by
          intro l hl
          rw [Finset.mem_range] at hl
          by_cases c1 : l ≤ i
          · rw [if_pos c1]; ring
          · rw [if_neg c1, h1.ilow i hi l (by omega) hl]; ring
        rw [e1, Finset.sum_congr rfl e2, ← Finset.sum_mul, ← h1.prod i hi c hc]
      · simp only [hir, if_false]
        exact h1.prod i hi c hc
    · intro i hi c hc
      unfold setRow
      by_cases hir : i = row
      · subst hir; simp only [if_true, hc]; exact h1.cleared c hc
      · simp only [hir, if_false]; exact h1.mlow i (by omega) c hc
    · intro i hi
      unfold setRow
      by_cases hir : i = row
      · subst hir; simp
      · simp only [hir, if_false]; exact h1.mdiag i (by omega)
    · intro i hi c hc hcn
      unfold setRow
      by_cases hir : i = row
      · subst hir; simp only [if_true, show ¬ c ≤ i by omega, if_false]; exact h1.ilow i hi c hc hcn
      · simp only [hir, if_false]; exact h1.ilow i hi c hc hcn
    · intro i hi
      unfold setRow
      by_cases hir : i = row
      · subst hir
        simp only [if_true, le_refl, h1.irest i (le_refl _) hrow, one_mul]
        exact inv_ne_zero hp
      · simp only [hir, if_false]; exact h1.idiag i (by omega)
    · intro i hi hin
      simp only [setRow, show i ≠ row by omega, if_false]
      exact h1.irest i (by omega) hin

omit [DecidableEq F] in
theorem initInv_eq (n : Nat) : (initInv n : List (List F)) = tm n n fun i j => if i = j then 1 else 0 := by
  unfold initInv
  apply List.ext_getElem?
  intro i
  simp only [tm, tl_getElem?, List.getElem?_map, List.getElem?_zipIdx, List.getElem?_replicate]
  by_cases hi : i < n
  · simp only [hi, if_true, Option.map_some, zero_add, Option.some.injEq]
    rw [replicate_eq_tl]
    have := setAt_tl (n := n) (fun _ => (0 : F)) 1 hi
    unfold setAt at this
    rw [if_pos (by simpa using hi), Option.some.injEq] at this
    rw [this]
    apply tl_congr
    intro j _
    by_cases hij : i = j
    · subst hij; simp
    · rw [Function.update_of_ne (Ne.symm hij), if_neg hij]
  · simp [hi]

/-- The first phase succeeds iff all leading minors are nonzero. -/
theorem phase1 {n : Nat} (A : Nat → Nat → F) :
    ((∃ k, k < n ∧ lead A (k + 1) = 0) →
      (List.range n).foldlM (phase1Row n) (tm n n A, initInv n) = none) ∧
    ((∀ k, k < n → lead A (k + 1) ≠ 0) →
      ∃ m inv, (List.range n).foldlM (phase1Row n) (tm n n A, initInv n) = some (tm n n m, tm n n inv) ∧
        Inv1 n A n m inv) := by
  have h0 : Inv1 n A 0 A fun i j => if i = j then 1 else 0 := by
    refine { prod := ?_, mlow := ?_, mdiag := ?_, ilow := ?_, idiag := ?_, irest := ?_ }
    · intro i hi j hj
      simp only [ite_mul, one_mul, zero_mul, Finset.sum_ite_eq, Finset.mem_range, hi, if_true]
    · intro i hi; omega
    · intro i hi; omega
    · intro i _ j hij _; simp [show i ≠ j by omega]
    · intro i hi; omega
    · intro i _ _; simp
  rw [initInv_eq]
  have main : ∀ k, k ≤ n → (∀ i, i < k → lead A (i + 1) ≠ 0) →
      ∃ m inv, (List.range k).foldlM (phase1Row n) (tm n n A, tm n n fun i j => if i = j then 1 else 0) =
        some (tm n n m, tm n n inv) ∧ Inv1 n A k m inv := by
    intro k hk hl
    obtain ⟨st, e, m, inv, rfl, h⟩ := foldlM_range_ex (phase1Row n) k
      (fun i st => ∃ m' inv', st = (tm n n m', tm n n inv') ∧ Inv1 n A i m' inv') (by
        rintro i hi _ ⟨m', inv', rfl, h'⟩
        obtain ⟨m2, inv2, e, h2⟩ := (phase1Row_inv (by omega) h').2 (hl i hi)
        exact ⟨_, e, m2, inv2, rfl, h2⟩) _ ⟨_, _, rfl, h0⟩
    exact ⟨m, inv, e, h⟩
  constructor
  · intro hex
    classical
    have hk := Nat.find_spec hex
    have hmin := fun i (hi : i < Nat.find hex) => Nat.find_min hex hi
    generalize Nat.find hex = k at hk hmin
    obtain ⟨m, inv, e, h⟩ := main k (by omega) (fun i hi h0 => hmin i hi ⟨by omega, h0⟩)
    have hsplit : List.range n = List.range k ++ k :: List.range' (k + 1) (n - (k + 1)) := by
      rw [List.range_eq_range', List.range_eq_range', ← List.range'_succ]
      have : k :: List.range' (k + 1) (n - (k + 1)) = List.range' k (n - k) := by
        rw [show n - k = (n - (k + 1)) + 1 by omega, List.range'_succ]
      have h2 := List.range'_append (s := 0) (m := k) (n := n - k) (step := 1)
      simp only [one_mul, zero_add] at h2
      rw [List.range'_succ, this, h2]
      congr 1; omega
    rw [hsplit, List.foldlM_append, e]
    simp only [Option.bind_eq_bind, Option.bind_some, List.foldlM_cons]
    rw [(phase1Row_inv hk.1 h).1 hk.2]
    rfl
  · intro h
    exact main n (le_refl _) h

omit [DecidableEq F] in
theorem backLoop {n row j : Nat} (dbg : Bool) (hrow : row < n) (hj : j < n) (hjr : j ≠ row) (el : F)
    (m inv : Nat → Nat → F) :
    (List.range n).foldlM (backCol dbg row j el) (tm n n m, tm n n inv) =
      some (tm n n (setRow m row fun c => if dbg && decide (j ≤ c) then 0 else m row c),
            tm n n (setRow inv row fun c => inv row c - inv j c * el)) := by
  have := foldlM_range (backCol dbg row j el) n
    (fun k => (tm n n (setRow m row fun c => if c < k then (if dbg && decide (j ≤ c) then 0 else m row c) else m row c),
      tm n n (setRow inv row fun c => if c < k then (inv row c - inv j c * el) else inv row c)))
    (by
      intro i hi
      have e1 : ∀ (z : F) (w : Nat → F), (z = w i) → ∀ (m : Nat → Nat → F),
          tm n n (upd2 (setRow m row fun c => if c < i then w c else m row c) row i z) =
          tm n n (setRow m row fun c => if c < i + 1 then w c else m row c) := by
        intro z w hz m
        apply tm_congr
        intro a _ b _
        unfold upd2 setRow
        by_cases ha : a = row
        · subst ha
          by_cases hb : b = i
          · subst hb; simp [hz]
          · simp only [hb, and_false, if_false, if_true]
            by_cases hbi : b < i
            · simp [hbi, Nat.lt_succ_of_lt hbi]
            · simp [hbi, show ¬ b < i + 1 by omega]
        · simp [ha]
      have e2 : ∀ (w : Nat → F) (m : Nat → Nat → F), (m row i = w i) →
          tm n n (setRow m row fun c => if c < i then w c else m row c) =
          tm n n (setRow m row fun c => if c < i + 1 then w c else m row c) := by
        intro w m hw
        apply tm_congr
        intro a _ b _
        unfold setRow
        by_cases ha : a = row
        · subst ha
          by_cases hb : b = i
          · subst hb; simp [hw]
          · by_cases hbi : b < i
            · simp [hbi, Nat.lt_succ_of_lt hbi]
            · simp [hbi, show ¬ b < i + 1 by omega]
        · simp [ha]
      unfold backCol
      simp only [get2_tm _ hrow hi, get2_tm _ hj hi, set2_tm _ _ hrow hi, Option.bind_eq_bind, Option.bind_some,
        Option.pure_def, ge_iff_le]
      by_cases hc : (dbg && decide (j ≤ i)) = true
      · simp only [hc, if_true, Option.some.injEq, Prod.mk.injEq]
        refine ⟨e1 _ _ ?_ _, e1 _ _ ?_ _⟩
        · simp [hc]
        · simp [setRow, hjr]
      · simp only [hc, Bool.false_eq_true, if_false, Option.some.injEq, Prod.mk.injEq]
        refine ⟨e2 _ _ ?_, e1 _ _ ?_ _⟩
        · simp [hc]
        · simp [setRow, hjr])
  simp only [Nat.not_lt_zero, if_false] at this
  have e0 : ∀ m : Nat → Nat → F, (setRow m row fun c => m row c) = m := by
    intro m; funext a b; unfold setRow; split <;> simp_all
  rw [e0, e0] at this
  rw [this]
  congr 2 <;>
  · apply tm_congr
    intro a _ b hb
    unfold setRow
    simp [hb]

omit [DecidableEq F] in
theorem phase2Row_eq {n row : Nat} (dbg : Bool) (hrow : row < n) (m inv : Nat → Nat → F) :
    phase2Row dbg n (tm n n m, tm n n inv) row =
      some (tm n n (setRow m row fun c => if dbg && decide (row + 1 ≤ c) then 0 else m row c),
            tm n n (setRow inv row fun c => inv row c - ∑ j ∈ Finset.Ico (row + 1) n, inv j c * m row j)) := by
  unfold phase2Row
  have := foldlM_range'_rev (backRow dbg n row) (row + 1) (n - (row + 1))
    (fun s => (tm n n (setRow m row fun c => if dbg && decide (n - s ≤ c) then 0 else m row c),
      tm n n (setRow inv row fun c => inv row c - ∑ j ∈ Finset.Ico (n - s) n, inv j c * m row j)))
    (by
      intro s hs
      have hj : row + 1 + (n - (row + 1)) - 1 - s = n - 1 - s := by omega
      rw [hj]
      have hjn : n - 1 - s < n := by omega
      have hjr : n - 1 - s ≠ row := by omega
      unfold backRow
      simp only [get2_tm _ hrow hjn, Option.bind_eq_bind, Option.bind_some]
      rw [backLoop dbg hrow hjn hjr]
      have hel : setRow m row (fun c => if dbg && decide (n - s ≤ c) then 0 else m row c) row (n - 1 - s) =
          m row (n - 1 - s) := by
        simp [setRow, show ¬ n - s ≤ n - 1 - s by omega]
      rw [hel]
      congr 2
      · apply tm_congr
        intro a _ b hb
        unfold setRow
        by_cases ha : a = row
        · subst ha
          simp only [if_true]
          cases dbg
          · simp
          · simp only [Bool.true_and, decide_eq_true_eq]
            by_cases h1 : n - 1 - s ≤ b
            · rw [if_pos h1, if_pos (by omega)]
            · rw [if_neg h1, if_neg (by omega), if_neg (by omega)]
        · simp [ha]
      · apply tm_congr
        intro a _ b hb
        unfold setRow
        by_cases ha : a = row
        · subst ha
          simp only [if_true, hjr, if_false]
          rw [show n - (s + 1) = n - 1 - s by omega, Finset.sum_eq_sum_Ico_succ_bot hjn,
            show n - 1 - s + 1 = n - s by omega]
          ring
        · simp [ha])
  have e0 : (tm n n (setRow m row fun c => if dbg && decide (n - 0 ≤ c) then 0 else m row c),
      tm n n (setRow inv row fun c => inv row c - ∑ j ∈ Finset.Ico (n - 0) n, inv j c * m row j)) =
      (tm n n m, tm n n inv) := by
    congr 1
    · apply tm_congr
      intro a _ b hb
      unfold setRow
      by_cases ha : a = row
      · subst ha; simp [show ¬ n ≤ b by omega]
      · simp [ha]
    · apply tm_congr
      intro a _ b hb
      unfold setRow
      by_cases ha : a = row
      · subst ha; simp
      · simp [ha]
  simp only [e0, show n - (n - (row + 1)) = row + 1 by omega] at this
  exact this

omit [DecidableEq F] in
theorem phase2 {n : Nat} (dbg : Bool) (U inv : Nat → Nat → F) :
    ∃ W, ((List.range n).reverse).foldlM (phase2Row dbg n) (tm n n U, tm n n inv) =
        some (tm n n (fun i c => if dbg && decide (i < c) then 0 else U i c), tm n n W) ∧
      ∀ i, i < n → ∀ c, W i c = inv i c - ∑ j ∈ Finset.Ico (i + 1) n, W j c * U i j := by
  let P : Nat → (List (List F) × List (List F)) → Prop := fun k st =>
    ∃ W, st = (tm n n (fun i c => if dbg && decide (n - k ≤ i) && decide (i < c) then 0 else U i c), tm n n W) ∧
      (∀ i, n - k ≤ i → i < n → ∀ c, W i c = inv i c - ∑ j ∈ Finset.Ico (i + 1) n, W j c * U i j) ∧
      (∀ i, i < n - k → ∀ c, W i c = inv i c)
  have hrev : (List.range n).reverse = tl n fun i => n - 1 - i := by
    apply List.ext_getElem
    · simp
    · intro i h1 h2
      simp [tl]
  have h0 : P 0 (tm n n U, tm n n inv) := by
    refine ⟨inv, ?_, fun i h1 h2 => by omega, fun i _ c => rfl⟩
    congr 1
    apply tm_congr
    intro a ha b _
    simp [show ¬ n ≤ a by omega]
  obtain ⟨st, e, W, rfl, hW, _⟩ := foldlM_range_ex (fun st i => phase2Row dbg n st (n - 1 - i)) n P (by
    rintro k hk _ ⟨W, rfl, h1, h2⟩
    have hrow : n - 1 - k < n := by omega
    refine ⟨_, phase2Row_eq dbg hrow _ _, (setRow W (n - 1 - k) fun c => W (n - 1 - k) c -
        ∑ j ∈ Finset.Ico (n - 1 - k + 1) n, W j c * U (n - 1 - k) j), ?_, ?_, ?_⟩
    · congr 1
      · apply tm_congr
        intro a ha b hb
        unfold setRow
        cases dbg
        · simp; rintro rfl; rfl
        · by_cases har : a = n - 1 - k
          · subst har
            simp only [if_true, Bool.true_and, decide_eq_true_eq, Bool.and_eq_true]
            by_cases c1 : n - 1 - k + 1 ≤ b
            · rw [if_pos c1, if_pos (by omega)]
            · rw [if_neg c1, if_neg (by omega), if_neg (by omega)]
          · simp only [har, if_false, Bool.true_and, decide_eq_true_eq, Bool.and_eq_true]
            by_cases c1 : n - k ≤ a
            · by_cases c2 : a < b
              · rw [if_pos ⟨c1, c2⟩, if_pos ⟨by omega, c2⟩]
              · rw [if_neg (by omega), if_neg (by omega)]
            · rw [if_neg (by omega), if_neg (by omega)]
      · apply tm_congr
        intro a ha b hb
        unfold setRow
        by_cases har : a = n - 1 - k
        · subst har
          simp only [if_true]
          congr 1
          apply Finset.sum_congr rfl
          intro j hj
          rw [Finset.mem_Ico] at hj
          have : (dbg && decide (n - k ≤ n - 1 - k) && decide (n - 1 - k < j)) = false := by
            simp [show ¬ n - k ≤ n - 1 - k by omega]
          rw [this]; simp
        · simp [har]
    · intro i hi1 hi2 c
      by_cases har : i = n - 1 - k
      · subst har
        have e1 : ∀ j ∈ Finset.Ico (n - 1 - k + 1) n,
            setRow W (n - 1 - k) (fun c => W (n - 1 - k) c -
              ∑ j ∈ Finset.Ico (n - 1 - k + 1) n, W j c * U (n - 1 - k) j) j c * U (n - 1 - k) j =
            W j c * U (n - 1 - k) j := by
          intro j hj
          rw [Finset.mem_Ico] at hj
          simp [setRow, show j ≠ n - 1 - k by omega]
        rw [Finset.sum_congr rfl e1]
        simp only [setRow, if_true]
        rw [h2 _ (by omega)]
      · have e1 : ∀ j ∈ Finset.Ico (i + 1) n,
            setRow W (n - 1 - k) (fun c => W (n - 1 - k) c -
              ∑ j ∈ Finset.Ico (n - 1 - k + 1) n, W j c * U (n - 1 - k) j) j c * U i j =
            W j c * U i j := by
          intro j hj
          rw [Finset.mem_Ico] at hj
          simp [setRow, show j ≠ n - 1 - k by omega]
        rw [Finset.sum_congr rfl e1]
        simp only [setRow, har, if_false]
        exact h1 i (by omega) hi2 c
    · intro i hi c
      simp only [setRow, show i ≠ n - 1 - k by omega, if_false]
      exact h2 i (by omega) c) _ h0
  refine ⟨W, ?_, fun i hi c => hW i (by omega) hi c⟩
  rw [hrev]
  unfold tl
  rw [List.foldlM_map, e]
  congr 2
  apply tm_congr
  intro a ha b _
  simp

theorem checkIdentity_tm {n : Nat} (dbg : Bool) (m : Nat → Nat → F)
    (h : ∀ i, i < n → ∀ j, j < n → m i j = if i = j then 1 else 0) : checkIdentity dbg (tm n n m) = some () := by
  unfold checkIdentity debugAssert
  rw [if_neg]
  simp only [Bool.and_eq_true, not_and, Bool.not_eq_true', Bool.not_eq_false]
  intro _
  rw [List.all_eq_true]
  rintro ⟨row, i⟩ hmem
  rw [List.mem_zipIdx_iff_getElem?] at hmem
  simp only [tm, tl_getElem?] at hmem
  by_cases hi : i < n
  swap; · simp [hi] at hmem
  simp only [hi, if_true, Option.some.injEq] at hmem
  subst hmem
  rw [List.all_eq_true]
  rintro ⟨v, j⟩ hmem
  rw [List.mem_zipIdx_iff_getElem?] at hmem
  simp only [tl_getElem?] at hmem
  by_cases hj : j < n
  swap; · simp [hj] at hmem
  simp only [hj, if_true, Option.some.injEq] at hmem
  subst hmem
  rw [h i hi j hj]
  by_cases hij : i = j <;> simp [hij]

/-- The full behaviour of `mat_inverse` on square matrices given by an entry function. -/
theorem matInverse_tm {n : Nat} (dbg : Bool) (A : Nat → Nat → F) (hn : 0 < n) :
    ((∃ k, k < n ∧ lead A (k + 1) = 0) → matInverse dbg (tm n n A) = none) ∧
    ((∀ k, k < n → lead A (k + 1) ≠ 0) →
      matInverse dbg (tm n n A) = some (rowsOf (Matrix.of fun i j : Fin n => A i j)⁻¹)) := by
  have hrow0 : (tm n n A)[0]? = some (tl n (A 0)) := tl_get _ hn
  unfold matInverse
  simp only [tm_length, hrow0, Option.bind_eq_bind, Option.bind_some, tl_length, beq_self_eq_true, assertThat, if_true]
  constructor
  · intro h
    rw [(phase1 A).1 h]; rfl
  · intro h
    obtain ⟨U, inv, e1, h1⟩ := (phase1 A).2 h
    obtain ⟨W, e2, hW⟩ := phase2 (n := n) dbg U inv
    rw [e1]
    simp only [Option.bind_some]
    rw [e2]
    simp only [Option.bind_some]
    have hUlow : ∀ i, i < n → ∀ j, j < i → U i j = 0 := h1.mlow
    have hm : checkIdentity dbg (tm n n fun i c => if dbg && decide (i < c) then 0 else U i c) = some () := by
      cases hd : dbg
      · simp [checkIdentity, debugAssert]
      · apply checkIdentity_tm
        intro i hi j hj
        simp only [Bool.true_and, decide_eq_true_eq]
        by_cases c1 : i < j
        · rw [if_pos c1, if_neg (by omega)]
        · rw [if_neg c1]
          by_cases c2 : i = j
          · subst c2; rw [if_pos rfl]; exact h1.mdiag i hi
          · rw [if_neg c2]; exact hUlow i hi j (by omega)
    rw [hm]
    simp only [Option.bind_some, Option.pure_def, Option.some.injEq]
    -- matrices
    let Am : Matrix (Fin n) (Fin n) F := Matrix.of fun i j => A i j
    let Um : Matrix (Fin n) (Fin n) F := Matrix.of fun i j => U i j
    let Im : Matrix (Fin n) (Fin n) F := Matrix.of fun i j => inv i j
    let Wm : Matrix (Fin n) (Fin n) F := Matrix.of fun i j => W i j
    have hIA : Im * Am = Um := by
      ext i j
      simp only [Matrix.mul_apply, Im, Am, Um, Matrix.of_apply]
      rw [h1.prod i i.isLt j j.isLt, Finset.sum_range]
    have hUW : Um * Wm = Im := by
      ext i j
      simp only [Matrix.mul_apply, Um, Wm, Im, Matrix.of_apply]
      rw [← Finset.sum_range (fun l => U i l * W l j),
        ← Finset.sum_range_add_sum_Ico _ (show i.val + 1 ≤ n by omega), Finset.sum_range_succ,
        Finset.sum_eq_zero (s := Finset.range i), h1.mdiag i i.isLt, hW i i.isLt j]
      · have : ∑ k ∈ Finset.Ico (i.val + 1) n, U i k * W k j = ∑ k ∈ Finset.Ico (i.val + 1) n, W k j * U i k :=
          Finset.sum_congr rfl fun _ _ => mul_comm _ _
        rw [this]; ring
      · intro l hl
        rw [hUlow i i.isLt l (Finset.mem_range.mp hl), zero_mul]
    have hUdet : Um.det = 1 := by
      rw [Matrix.det_of_upperTriangular (M := Um)]
      · apply Finset.prod_eq_one
        intro i _
        exact h1.mdiag i i.isLt
      · intro i j hij
        exact hUlow i i.isLt j hij
    have hUunit : IsUnit Um := by rw [Matrix.isUnit_iff_isUnit_det, hUdet]; exact isUnit_one
    have hWA : Wm * Am = 1 := by
      have : Um * (Wm * Am) = Um * 1 := by rw [← Matrix.mul_assoc, hUW, hIA, Matrix.mul_one]
      exact hUunit.mul_left_cancel this
    have hinv : Am⁻¹ = Wm := Matrix.inv_eq_left_inv hWA
    show tm n n W = rowsOf Am⁻¹
    rw [hinv]
    unfold rowsOf tm
    rw [tl_eq_ofFn]
    congr 1
    funext i
    rw [tl_eq_ofFn]
    rfl

end Utils

end ZkHash

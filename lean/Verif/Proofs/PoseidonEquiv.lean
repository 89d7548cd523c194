import Verif.Proofs.PoseidonPlain
import Verif.Theorems.Utils

set_option autoImplicit false

/-!
# The tables computed by the Poseidon constructor
-/

namespace ZkHash

open Spec Matrix

set_option linter.unusedSectionVars false

theorem tl_succ {α : Type _} (n : Nat) (f : Nat → α) : tl (n + 1) f = tl n f ++ [f n] := by
  simp [tl, List.range_succ]

namespace PoseidonParams

variable {F : Type _} [Field F] [DecidableEq F]

/-- Lower-right block with a leading one: first row and column cleared. -/
def hatM {t : Nat} (A : Matrix (Fin t) (Fin t) F) : Matrix (Fin t) (Fin t) F :=
  Matrix.of fun i j => if i.val = 0 ∧ j.val = 0 then 1 else if i.val = 0 ∨ j.val = 0 then 0 else A i j

theorem hatM_transpose {t : Nat} (A : Matrix (Fin t) (Fin t) F) : hatM Aᵀ = (hatM A)ᵀ := by
  ext i j
  simp only [hatM, Matrix.of_apply, Matrix.transpose_apply, and_comm (a := i.val = 0), or_comm (a := i.val = 0)]

/-- Everything `mat_inverse` needs. -/
def GoodMinors {n : Nat} (A : Matrix (Fin n) (Fin n) F) : Prop :=
  ∀ k, ∀ hk : k < n, leadingMinor A (k + 1) hk ≠ 0

theorem GoodMinors.det_ne_zero {n : Nat} {A : Matrix (Fin n) (Fin n) F} (hn : 0 < n) (h : GoodMinors A) :
    A.det ≠ 0 := by
  have := h (n - 1) (by omega)
  obtain ⟨m, rfl⟩ : ∃ m, n = m + 1 := ⟨n - 1, by omega⟩
  exact this

theorem matInverse_bad {n : Nat} (dbg : Bool) (A : Matrix (Fin n) (Fin n) F) (h : ¬GoodMinors A) :
    Utils.matInverse dbg (rowsOf A) = none := by
  rcases Nat.eq_zero_or_pos n with rfl | hn
  · exact matInverse_nil dbg A
  · apply (matInverse_rowsOf dbg A hn).1
    unfold GoodMinors at h
    push Not at h
    exact h

theorem matInverse_good {n : Nat} (dbg : Bool) (A : Matrix (Fin n) (Fin n) F) (hn : 0 < n) (h : GoodMinors A) :
    Utils.matInverse dbg (rowsOf A) = some (rowsOf A⁻¹) :=
  (matInverse_rowsOf dbg A hn).2 h

/-! ## `fillHat` and `clearBorder` -/

theorem fillHat_tm {s : Nat} (b : Nat → Nat → F) :
    fillHat (s + 1) (tm (s + 1) (s + 1) b) (List.replicate s (List.replicate s 0), List.replicate s 0) =
      some (tm s s fun i j => b (i + 1) (j + 1), tl s fun i => b (i + 1) 0) := by
  unfold fillHat
  rw [replicate2_eq_tm, replicate_eq_tl, Nat.add_sub_cancel]
  have := foldlM_range' (fun (st : List (List F) × List F) row => do
    let m_hat ← (List.range' 1 s).foldlM (fun m_hat col => do
      let x ← get2 (tm (s + 1) (s + 1) b) row col
      set2 m_hat (row - 1) (col - 1) x) st.1
    let x ← get2 (tm (s + 1) (s + 1) b) row 0
    let w ← setAt st.2 (row - 1) x
    pure (m_hat, w)) 1 s
    (fun k => (tm s s fun i j => if i < k then b (i + 1) (j + 1) else 0, tl s fun i => if i < k then b (i + 1) 0 else 0))
    (by
      intro row hrow
      have := foldlM_range' (fun m_hat col => do
          let x ← get2 (tm (s + 1) (s + 1) b) (1 + row) col
          set2 m_hat (1 + row - 1) (col - 1) x) 1 s
        (fun k => tm s s fun i j => if i < row ∨ (i = row ∧ j < k) then b (i + 1) (j + 1) else 0) (by
          intro col hcol
          rw [get2_tm _ (by omega) (by omega), Option.bind_eq_bind, Option.bind_some,
            set2_tm _ _ (by omega) (by omega)]
          congr 1
          apply tm_congr
          intro i _ j _
          unfold upd2
          beta_reduce
          by_cases h1 : i = 1 + row - 1 ∧ j = 1 + col - 1
          · rw [if_pos h1, if_pos (by omega)]
            congr 1 <;> omega
          · rw [if_neg h1]
            by_cases h2 : i < row ∨ i = row ∧ j < col
            · rw [if_pos h2, if_pos (by omega)]
            · rw [if_neg h2, if_neg (by omega)])
      simp only [Nat.not_lt_zero, and_false, or_false, Option.bind_eq_bind] at this
      simp only [this, Option.bind_eq_bind, Option.bind_some,
        get2_tm b (show 1 + row < s + 1 by omega) (show 0 < s + 1 by omega), setAt_tl _ _ (show 1 + row - 1 < s by omega),
        Option.pure_def, Option.some.injEq, Prod.mk.injEq]
      constructor
      · apply tm_congr
        intro i _ j hj
        by_cases h2 : i < row + 1
        · rw [if_pos (by omega), if_pos h2]
        · rw [if_neg (by omega), if_neg h2]
      · apply tl_congr
        intro i _
        by_cases h1 : i = 1 + row - 1
        · rw [h1, Function.update_self, if_pos (by omega)]
          congr 1; omega
        · rw [Function.update_of_ne h1]
          by_cases h2 : i < row
          · rw [if_pos h2, if_pos (by omega)]
          · rw [if_neg h2, if_neg (by omega)])
  simp only [Nat.not_lt_zero, if_false] at this
  refine Eq.trans this ?_
  congr 2
  · apply tm_congr
    intro i hi j _
    rw [if_pos hi]
  · apply tl_congr
    intro i hi
    rw [if_pos hi]

theorem clearBorder_tm {s : Nat} (b : Nat → Nat → F) :
    clearBorder (s + 1) (tm (s + 1) (s + 1) b) =
      some (tm (s + 1) (s + 1) fun i j => if i = 0 ∧ j = 0 then 1 else if i = 0 ∨ j = 0 then 0 else b i j) := by
  unfold clearBorder
  rw [set2_tm _ _ (by omega) (by omega), Option.bind_eq_bind, Option.bind_some, Nat.add_sub_cancel]
  have := foldlM_range' (fun m_i i => do
    let m_i ← set2 m_i 0 i 0
    set2 m_i i 0 0) 1 s
    (fun k => tm (s + 1) (s + 1) fun i j =>
      if i = 0 ∧ j = 0 then 1 else if (i = 0 ∧ j < k + 1) ∨ (j = 0 ∧ i < k + 1) then 0 else b i j) (by
      intro k hk
      rw [set2_tm _ _ (by omega) (by omega), Option.bind_eq_bind, Option.bind_some, set2_tm _ _ (by omega) (by omega)]
      congr 1
      apply tm_congr
      intro i hi j hj
      simp only [upd2]
      split_ifs <;> first | rfl | omega)
  have e0 : tm (s + 1) (s + 1) (upd2 b 0 0 1) = tm (s + 1) (s + 1) fun i j =>
      if i = 0 ∧ j = 0 then 1 else if (i = 0 ∧ j < 0 + 1) ∨ (j = 0 ∧ i < 0 + 1) then 0 else b i j := by
    apply tm_congr
    intro i hi j hj
    simp only [upd2]
    split_ifs <;> first | rfl | omega
  rw [e0]
  refine Eq.trans this ?_
  congr 1
  apply tm_congr
  intro i hi j hj
  split_ifs <;> first | rfl | omega

theorem clearBorder_rowsOf {s : Nat} (B : Matrix (Fin (s + 1)) (Fin (s + 1)) F) :
    clearBorder (s + 1) (rowsOf B) = some (rowsOf (hatM B)) := by
  rw [rowsOf_eq_tm, clearBorder_tm, rowsOf_eq_tm]
  congr 1
  apply tm_congr
  intro i hi j hj
  simp [hi, hj, hatM]

theorem fillHat_rowsOf {s : Nat} (B : Matrix (Fin (s + 1)) (Fin (s + 1)) F) :
    fillHat (s + 1) (rowsOf B) (List.replicate s (List.replicate s 0), List.replicate s 0) =
      some (rowsOf (B.submatrix Fin.succ Fin.succ), List.ofFn fun i : Fin s => B i.succ 0) := by
  rw [rowsOf_eq_tm, fillHat_tm, rowsOf_eq_tm, tl_eq_ofFn]
  congr 2
  · apply tm_congr
    intro i hi j hj
    simp [hi, hj]
  · congr 1
    funext i
    simp
    rfl

/-! ## One step -/

/-- The vector `v` of a step. -/
def vOf {s : Nat} (B : Matrix (Fin (s + 1)) (Fin (s + 1)) F) : Fin s → F := fun j => B 0 j.succ

/-- The vector `w_hat` of a step. -/
noncomputable def wOf {s : Nat} (B : Matrix (Fin (s + 1)) (Fin (s + 1)) F) : Fin s → F :=
  (B.submatrix Fin.succ Fin.succ)⁻¹ *ᵥ fun i => B i.succ 0

theorem sliceFrom1_ofFn {s : Nat} (f : Fin (s + 1) → F) :
    sliceFrom1 (List.ofFn f) (s + 1) = some (List.ofFn fun j : Fin s => f j.succ) := by
  unfold sliceFrom1
  rw [if_pos (by simp), List.ofFn_succ]
  simp

theorem rowsOf_get {n m : Nat} (B : Matrix (Fin n) (Fin m) F) (i : Fin n) :
    (rowsOf B)[i.val]? = some (List.ofFn fun j => B i j) := by
  simp [rowsOf]

theorem usub_succ (dbg : Bool) (s : Nat) : usub dbg (s + 1) 1 = some s := by
  simp [usub]

theorem equivMatStep_bad {s : Nat} (dbg : Bool) (M B : Matrix (Fin (s + 1)) (Fin (s + 1)) F) (st : EqState F)
    (hB : st.m_mul = rowsOf B) (h : ¬GoodMinors (B.submatrix Fin.succ Fin.succ)) :
    equivMatStep dbg (s + 1) (rowsOf M) st = none := by
  unfold equivMatStep
  have := rowsOf_get B 0
  simp only [Fin.val_zero] at this
  simp only [usub_succ, hB, this, Option.bind_eq_bind, Option.bind_some, sliceFrom1_ofFn, fillHat_rowsOf,
    matInverse_bad dbg _ h, Option.bind_none]

theorem equivMatStep_good {s : Nat} (hs : 0 < s) (dbg : Bool) (M B : Matrix (Fin (s + 1)) (Fin (s + 1)) F)
    (st : EqState F) (hB : st.m_mul = rowsOf B) (h : GoodMinors (B.submatrix Fin.succ Fin.succ)) :
    equivMatStep dbg (s + 1) (rowsOf M) st = some
      { w_hat := st.w_hat ++ [List.ofFn (wOf B)], v := st.v ++ [List.ofFn (vOf B)]
        m_i := rowsOf (hatM B), m_mul := rowsOf (M * hatM B) } := by
  unfold equivMatStep
  have := rowsOf_get B 0
  simp only [Fin.val_zero] at this
  simp only [usub_succ, hB, this, Option.bind_eq_bind, Option.bind_some, sliceFrom1_ofFn, fillHat_rowsOf,
    matInverse_good dbg _ hs h, clearBorder_rowsOf, C31_matMatMul, C31_matVecMul dbg _ _ (fun _ => rfl),
    Option.pure_def]
  rfl

/-! ## The loop -/

/-- `D 0 = 1`, `D (k+1)` is the lower-right block of `D k * M` (with a leading one). -/
def dSeq {t : Nat} (M : Matrix (Fin t) (Fin t) F) : Nat → Matrix (Fin t) (Fin t) F
  | 0 => 1
  | k + 1 => hatM (dSeq M k * M)

/-- What the constructor needs: all the blocks it inverts have nonzero leading minors. -/
def GoodBlocks {s : Nat} (M : Matrix (Fin (s + 1)) (Fin (s + 1)) F) (R : Nat) : Prop :=
  ∀ k, k < R → GoodMinors (((dSeq M k * M)ᵀ).submatrix Fin.succ Fin.succ)

theorem equivLoop_good {s : Nat} (hs : 0 < s) (dbg : Bool) (M : Matrix (Fin (s + 1)) (Fin (s + 1)) F) (R : Nat)
    (h : GoodBlocks M R) (m0 : List (List F)) :
    (List.range R).foldlM (fun st _ => equivMatStep dbg (s + 1) (rowsOf Mᵀ) st)
      { w_hat := [], v := [], m_i := m0, m_mul := rowsOf Mᵀ } = some
      { w_hat := tl R fun k => List.ofFn (wOf (dSeq M k * M)ᵀ)
        v := tl R fun k => List.ofFn (vOf (dSeq M k * M)ᵀ)
        m_i := if R = 0 then m0 else rowsOf (dSeq M R)ᵀ
        m_mul := rowsOf (dSeq M R * M)ᵀ } := by
  have := foldlM_range (fun st _ => equivMatStep dbg (s + 1) (rowsOf Mᵀ) st) R
    (fun k => (⟨tl k fun k => List.ofFn (wOf (dSeq M k * M)ᵀ), tl k fun k => List.ofFn (vOf (dSeq M k * M)ᵀ),
      if k = 0 then m0 else rowsOf (dSeq M k)ᵀ, rowsOf (dSeq M k * M)ᵀ⟩ : EqState F)) (by
      intro k hk
      rw [equivMatStep_good hs dbg Mᵀ (dSeq M k * M)ᵀ _ rfl (h k hk)]
      rw [hatM_transpose, ← Matrix.transpose_mul, tl_succ, tl_succ, if_neg (Nat.succ_ne_zero k)]
      rfl)
  simp only [dSeq, Matrix.one_mul, if_true] at this
  have e : ∀ f : Nat → List F, tl 0 f = [] := fun _ => rfl
  rw [e, e] at this
  exact this

theorem equivLoop_bad {s : Nat} (hs : 0 < s) (dbg : Bool) (M : Matrix (Fin (s + 1)) (Fin (s + 1)) F) (R : Nat)
    (h : ¬GoodBlocks M R) (m0 : List (List F)) :
    (List.range R).foldlM (fun st _ => equivMatStep dbg (s + 1) (rowsOf Mᵀ) st)
      { w_hat := [], v := [], m_i := m0, m_mul := rowsOf Mᵀ } = none := by
  induction R with
  | zero => exact absurd (fun k hk => absurd hk (by omega)) h
  | succ R ih =>
    rw [List.range_succ, List.foldlM_append]
    by_cases hR : GoodBlocks M R
    · rw [equivLoop_good hs dbg M R hR]
      simp only [Option.bind_eq_bind, Option.bind_some, List.foldlM_cons, List.foldlM_nil]
      rw [equivMatStep_bad dbg Mᵀ (dSeq M R * M)ᵀ _ rfl, Option.bind_none]
      intro hg
      apply h
      intro k hk
      by_cases hkR : k = R
      · subst hkR; exact hg
      · exact hR k (by omega)
    · rw [ih hR]
      rfl

theorem equivalentMatrices_good {s : Nat} (hs : 0 < s) (dbg : Bool) (M : Matrix (Fin (s + 1)) (Fin (s + 1)) F) (R : Nat)
    (hR : 0 < R) (h : GoodBlocks M R) :
    equivalentMatrices dbg (rowsOf M) (s + 1) R = some
      (rowsOf (dSeq M R), tl R fun k => List.ofFn (vOf (dSeq M k * M)ᵀ),
        tl R fun k => List.ofFn (wOf (dSeq M k * M)ᵀ)) := by
  unfold equivalentMatrices
  simp only [C30_matTranspose M (Nat.succ_pos s), Option.bind_eq_bind, Option.bind_some,
    equivLoop_good hs dbg M R h, if_neg (show R ≠ 0 by omega), C30_matTranspose (dSeq M R)ᵀ (Nat.succ_pos s),
    Matrix.transpose_transpose, Option.pure_def]

theorem equivalentMatrices_bad {s : Nat} (hs : 0 < s) (dbg : Bool) (M : Matrix (Fin (s + 1)) (Fin (s + 1)) F) (R : Nat)
    (h : ¬GoodBlocks M R) : equivalentMatrices dbg (rowsOf M) (s + 1) R = none := by
  unfold equivalentMatrices
  simp only [C30_matTranspose M (Nat.succ_pos s), Option.bind_eq_bind, Option.bind_some,
    equivLoop_bad hs dbg M R h, Option.bind_none]

/-! ## Round constants -/

/-- The accumulated row after `m` backward steps. -/
def tRev {t : Nat} (Minv : Matrix (Fin t) (Fin t) F) (c : Nat → Nat → F) (rf R : Nat) : Nat → Fin t → F
  | 0 => fun i => c (rf + R - 1) i
  | m + 1 => fun i => c (rf + (R - 2 - m)) i + if i.val = 0 then 0 else (Minv *ᵥ tRev Minv c rf R m) i

/-- The accumulated row of partial round `r` (zero after the last one). -/
def tSeq {t : Nat} (Minv : Matrix (Fin t) (Fin t) F) (c : Nat → Nat → F) (rf R r : Nat) : Fin t → F :=
  if r < R then tRev Minv c rf R (R - 1 - r) else 0

theorem tSeq_last {t : Nat} (Minv : Matrix (Fin t) (Fin t) F) (c : Nat → Nat → F) (rf R : Nat) :
    tSeq Minv c rf R R = 0 := by
  simp [tSeq]

theorem tSeq_step {t : Nat} (Minv : Matrix (Fin t) (Fin t) F) (c : Nat → Nat → F) (rf R r : Nat) (hr : r < R)
    (i : Fin t) :
    tSeq Minv c rf R r i = c (rf + r) i + if i.val = 0 then 0 else (Minv *ᵥ tSeq Minv c rf R (r + 1)) i := by
  unfold tSeq
  rw [if_pos hr]
  by_cases h : r + 1 < R
  · rw [if_pos h, show R - 1 - r = (R - 1 - (r + 1)) + 1 by omega]
    show c (rf + (R - 2 - (R - 1 - (r + 1)))) i + _ = _
    rw [show R - 2 - (R - 1 - (r + 1)) = r by omega]
  · rw [if_neg h, show R - 1 - r = 0 by omega]
    show c (rf + R - 1) i = _
    rw [show rf + R - 1 = rf + r by omega]
    simp

theorem equivStep_ofFn {t L : Nat} (ht : 0 < t) (dbg : Bool) (rc : List (List F)) (Minv : Matrix (Fin t) (Fin t) F)
    (rf : Nat) (opt : Nat → List F) (T : Fin t → F) (i : Nat) (hi : i + 1 < L) (hlen : rf + i < rc.length) (hfit : rf + i < 2 ^ 64)
    (hrow : (rc.getD (rf + i) []).length = t) :
    Poseidon2Params.equivStep dbg rc (rowsOf Minv) rf (tl L opt, List.ofFn T) i =
      some (tl L (Function.update opt (i + 1) [(Minv *ᵥ T) ⟨0, ht⟩]),
        List.ofFn fun j : Fin t => tab rc (rf + i) j + if j.val = 0 then 0 else (Minv *ᵥ T) j) := by
  unfold Poseidon2Params.equivStep
  have hget : rc[rf + i]? = some (rc.getD (rf + i) []) := getElem?_getD _ hlen
  simp only [C31_matVecMul dbg _ _ (fun _ => rfl), Option.bind_eq_bind, Option.bind_some, List.length_ofFn,
    uadd_fits dbg hfit, hget]
  have h0 : (List.ofFn (Minv *ᵥ T))[0]? = some ((Minv *ᵥ T) ⟨0, ht⟩) := by simp [ht]
  rw [h0, Option.bind_some, setAt_tl _ _ hi, Option.bind_some]
  have hrc : rc.getD (rf + i) [] = tl t fun j => tab rc (rf + i) j := by
    conv_lhs => rw [eq_tl (rc.getD (rf + i) []) 0, hrow]
    rfl
  rw [hrc]
  have := foldlM_range' (fun tmp k => tmp[k]?.bind fun cur =>
      (List.ofFn (Minv *ᵥ T))[k]?.bind fun add => setAt tmp k (cur + add)) 1 (t - 1)
    (fun m => tl t fun j => tab rc (rf + i) j + if 0 < j ∧ j < m + 1 then ext0 0 (Minv *ᵥ T) j else 0) (by
      intro m hm
      rw [ofFn_eq_tl 0 (Minv *ᵥ T), tl_get _ (show 1 + m < t by omega), tl_get _ (show 1 + m < t by omega),
        Option.bind_some, Option.bind_some, setAt_tl _ _ (show 1 + m < t by omega)]
      congr 1
      apply tl_congr
      intro j hj
      by_cases h : j = 1 + m
      · rw [h, Function.update_self, if_neg (by omega), if_pos (by omega), add_zero]
      · rw [Function.update_of_ne h]
        by_cases h2 : 0 < j ∧ j < m + 1
        · rw [if_pos h2, if_pos (by omega)]
        · rw [if_neg h2, if_neg (by omega)])
  have e0 : (tl t fun j => tab rc (rf + i) j) =
      tl t fun j => tab rc (rf + i) j + if 0 < j ∧ j < 0 + 1 then ext0 0 (Minv *ᵥ T) j else 0 := by
    apply tl_congr
    intro j _
    rw [if_neg (by omega), add_zero]
  rw [e0, this, Option.bind_some, Option.pure_def, tl_eq_ofFn t]
  congr 3
  funext j
  have := j.isLt
  by_cases h : j.val = 0
  · rw [if_pos h, if_neg (by omega)]
  · rw [if_neg h, if_pos (by omega), ext0_fin]

theorem equivRcLoop {t L R : Nat} (ht : 0 < t) (dbg : Bool) (rc : List (List F)) (Minv : Matrix (Fin t) (Fin t) F)
    (rf : Nat) (hR : 0 < R) (hL : R ≤ L) (hlen : rf + R ≤ rc.length) (hfit : rf + R < 2 ^ 64)
    (hrow : ∀ row ∈ rc, row.length = t) :
    ((List.range (R - 1)).reverse).foldlM (Poseidon2Params.equivStep dbg rc (rowsOf Minv) rf)
      (List.replicate L [], List.ofFn (tSeq Minv (tab rc) rf R (R - 1))) =
    some (tl L fun i => if 0 < i ∧ i < R then [(Minv *ᵥ tSeq Minv (tab rc) rf R i) ⟨0, ht⟩] else [],
      List.ofFn (tSeq Minv (tab rc) rf R 0)) := by
  have hrow' : ∀ r, r < rc.length → (rc.getD r []).length = t := by
    intro r hr
    apply hrow
    rw [getD_getElem _ hr]
    exact List.getElem_mem hr
  have := foldlM_range_rev (Poseidon2Params.equivStep dbg rc (rowsOf Minv) rf) (R - 1)
    (fun m => (tl L fun i => if R - 1 - m < i ∧ i < R then [(Minv *ᵥ tSeq Minv (tab rc) rf R i) ⟨0, ht⟩] else [],
      List.ofFn (tSeq Minv (tab rc) rf R (R - 1 - m)))) (by
      intro m hm
      have h1 : R - 1 - m = (R - 1 - 1 - m) + 1 := by omega
      rw [equivStep_ofFn ht dbg rc Minv rf _ _ (R - 1 - 1 - m) (by omega) (by omega) (by omega) (hrow' _ (by omega))]
      congr 2
      · apply tl_congr
        intro i hi
        by_cases h : i = R - 1 - 1 - m + 1
        · subst h
          rw [Function.update_self, if_pos (by omega), h1]
        · rw [Function.update_of_ne h]
          by_cases h2 : R - 1 - m < i ∧ i < R
          · rw [if_pos h2, if_pos (by omega)]
          · rw [if_neg h2, if_neg (by omega)]
      · congr 1
        funext j
        rw [show R - 1 - (m + 1) = R - 1 - 1 - m by omega, tSeq_step _ _ _ _ (R - 1 - 1 - m) (by omega), ← h1])
  simp only [Nat.sub_zero, Nat.sub_self] at this
  rw [← this]
  congr 2
  rw [replicate_eq_tl]
  apply tl_congr
  intro i hi
  rw [if_neg (by omega)]

theorem equivalentRoundConstants_good {t R : Nat} (ht : 0 < t) (dbg : Bool) (rc : List (List F))
    (M : Matrix (Fin t) (Fin t) F) (hM : GoodMinors M)
    (rf : Nat) (hR : 0 < R) (hlen : rf + R ≤ rc.length) (hfit : rf + R < 2 ^ 64) (hrow : ∀ row ∈ rc, row.length = t) :
    equivalentRoundConstants dbg rc (rowsOf M) rf R =
      some (tl R fun i => if i = 0 then List.ofFn (tSeq M⁻¹ (tab rc) rf R 0)
        else [(M⁻¹ *ᵥ tSeq M⁻¹ (tab rc) rf R i) ⟨0, ht⟩]) := by
  unfold equivalentRoundConstants
  obtain ⟨R', rfl⟩ : ∃ R', R = R' + 1 := ⟨R - 1, by omega⟩
  have hlast : (rc.getD (rf + R') []) = List.ofFn (tSeq M⁻¹ (tab rc) rf (R' + 1) R') := by
    have hl : (rc.getD (rf + R') []).length = t := by
      apply hrow
      rw [getD_getElem _ (show rf + R' < rc.length by omega)]
      exact List.getElem_mem _
    rw [eq_tl (rc.getD (rf + R') []) 0, hl, tl_eq_ofFn]
    congr 1
    funext i
    rw [tSeq_step _ _ _ _ _ (by omega), tSeq_last]
    simp [tab]
  have hget : rc[rf + R']? = some (rc.getD (rf + R') []) := getElem?_getD _ (by omega)
  simp only [matInverse_good dbg M ht hM, Option.bind_eq_bind, Option.bind_some, uadd_fits dbg hfit,
    show rf + (R' + 1) = (rf + R') + 1 by omega, usub_succ, hget, hlast]
  have := equivRcLoop (R := R' + 1) ht dbg rc M⁻¹ rf (by omega) (le_refl _) hlen hfit hrow
  simp only [Nat.add_sub_cancel] at this
  rw [this, Option.bind_some, setAt_tl _ _ (by omega)]
  congr 1
  apply tl_congr
  intro i hi
  by_cases h : i = 0
  · subst h; simp
  · rw [Function.update_of_ne h, if_pos (by omega), if_neg h]

end PoseidonParams

theorem Poseidon2Params.equivalentRoundConstants_good {F : Type _} [Field F] [DecidableEq F]
    {t R : Nat} (ht : 0 < t) (dbg : Bool) (rc : List (List F))
    (M : Matrix (Fin t) (Fin t) F) (hM : PoseidonParams.GoodMinors M)
    (rf : Nat) (hR : 0 < R) (hlen : rf + R ≤ rc.length) (hfit : rf + R < 2 ^ 64) (hfit1 : R + 1 < 2 ^ 64)
    (hrow : ∀ row ∈ rc, row.length = t) :
    Poseidon2Params.equivalentRoundConstants dbg rc (rowsOf M) rf R =
      some (tl (R + 1) fun i => if i = 0 then List.ofFn (PoseidonParams.tSeq M⁻¹ (tab rc) rf R 0)
        else if i < R then [(M⁻¹ *ᵥ PoseidonParams.tSeq M⁻¹ (tab rc) rf R i) ⟨0, ht⟩]
        else List.replicate t 0) := by
  unfold Poseidon2Params.equivalentRoundConstants
  obtain ⟨R', rfl⟩ : ∃ R', R = R' + 1 := ⟨R - 1, by omega⟩
  have hlast : (rc.getD (rf + R') []) = List.ofFn (PoseidonParams.tSeq M⁻¹ (tab rc) rf (R' + 1) R') := by
    have hl : (rc.getD (rf + R') []).length = t := by
      apply hrow
      rw [getD_getElem _ (show rf + R' < rc.length by omega)]
      exact List.getElem_mem _
    rw [eq_tl (rc.getD (rf + R') []) 0, hl, tl_eq_ofFn]
    congr 1
    funext i
    rw [PoseidonParams.tSeq_step _ _ _ _ _ (by omega), PoseidonParams.tSeq_last]
    simp [tab]
  have hget : rc[rf + R']? = some (rc.getD (rf + R') []) := getElem?_getD _ (by omega)
  simp only [PoseidonParams.matInverse_good dbg M ht hM, Option.bind_eq_bind, Option.bind_some, uadd_fits dbg hfit,
    uadd_fits dbg hfit1,
    show rf + (R' + 1) = (rf + R') + 1 by omega, PoseidonParams.usub_succ, hget, hlast]
  have := PoseidonParams.equivRcLoop (R := R' + 1) (L := R' + 1 + 1) ht dbg rc M⁻¹ rf (by omega) (by omega) hlen hfit hrow
  simp only [Nat.add_sub_cancel] at this
  rw [this, Option.bind_some, setAt_tl _ _ (by omega), Option.bind_some, tl_get _ (by omega), Option.bind_some,
    setAt_tl _ _ (by omega)]
  congr 1
  apply tl_congr
  intro i hi
  by_cases h : i = R' + 1
  · subst h
    rw [Function.update_self, if_neg (by omega), if_neg (by omega)]
    simp
  · rw [Function.update_of_ne h]
    by_cases h0 : i = 0
    · subst h0; simp
    · rw [Function.update_of_ne h0, if_pos (by omega), if_neg h0, if_pos (by omega)]

end ZkHash

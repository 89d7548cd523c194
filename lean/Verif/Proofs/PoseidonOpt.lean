import Verif.Proofs.PoseidonEquiv

set_option autoImplicit false

/-!
# The optimized Poseidon permutation equals the plain one
-/

namespace ZkHash

open Spec Matrix

set_option linter.unusedSectionVars false

theorem rounds_shift {S : Type _} (f : Nat → S → S) (a n : Nat) (x : S) :
    rounds f a n x = rounds (fun r => f (a + r)) 0 n x := by
  induction n with
  | zero => rfl
  | succ n ih =>
    show f (a + n) (rounds f a n x) = f (a + (0 + n)) _
    rw [ih, Nat.zero_add]

namespace PoseidonParams

section ring
variable {F : Type _} [CommRing F] {t : Nat}

/-- S-box on position 0 followed by adding a scalar there. -/
def nl (d : Nat) (s : F) (x : Fin t → F) : Fin t → F := fun i => if i.val = 0 then x i ^ d + s else x i

/-- Moving round constants through the linear layer. -/
theorem consts_equiv (M : Matrix (Fin t) (Fin t) F) (d : Nat) (c T u : Nat → Fin t → F) (s : Nat → F) (R : Nat)
    (hT : ∀ r, r < R → ∀ i, T r i = c r i + if i.val = 0 then 0 else u (r + 1) i)
    (hu : ∀ r, r < R → M *ᵥ u (r + 1) = T (r + 1))
    (hs : ∀ r, r < R → ∀ i : Fin t, i.val = 0 → s r = u (r + 1) i) (x : Fin t → F) (n : Nat) (hn : n ≤ R) :
    Spec.rounds (fun r y => M *ᵥ nl d (s r) y) 0 n (x + T 0) =
      Spec.rounds (fun r => poseidonPartial M d (c r)) 0 n x + T n := by
  induction n with
  | zero => rfl
  | succ n ih =>
    show M *ᵥ nl d (s (0 + n)) (Spec.rounds (fun r y => M *ᵥ nl d (s r) y) 0 n (x + T 0)) =
      poseidonPartial M d (c (0 + n)) (Spec.rounds (fun r => poseidonPartial M d (c r)) 0 n x) + T (n + 1)
    rw [ih (by omega), Nat.zero_add]
    generalize Spec.rounds (fun r => poseidonPartial M d (c r)) 0 n x = X
    unfold poseidonPartial
    rw [← hu n (by omega), ← Matrix.mulVec_add]
    congr 1
    funext i
    have h1 := hT n (by omega) i
    have h2 := hs n (by omega) i
    simp only [nl, Pi.add_apply]
    by_cases hi : i.val = 0
    · rw [if_pos hi, if_pos hi, h1, if_pos hi, add_zero, h2 hi]
    · rw [if_neg hi, if_neg hi, h1, if_neg hi]; ring

/-- The sparse matrix product of `cheap_matmul`. -/
def cheap {s : Nat} (m00 : F) (v w : Fin s → F) (x : Fin (s + 1) → F) : Fin (s + 1) → F :=
  Fin.cases (m00 * x 0 + ∑ j, w j * x j.succ) (fun i => x 0 * v i + x i.succ)

end ring

variable {F : Type _} [Field F] [DecidableEq F] {s : Nat}

theorem hatM_zero (A : Matrix (Fin (s + 1)) (Fin (s + 1)) F) (x : Fin (s + 1) → F) : (hatM A *ᵥ x) 0 = x 0 := by
  simp [Matrix.mulVec, dotProduct, hatM, Fin.sum_univ_succ]

theorem hatM_succ (A : Matrix (Fin (s + 1)) (Fin (s + 1)) F) (x : Fin (s + 1) → F) (i : Fin s) :
    (hatM A *ᵥ x) i.succ = ∑ j : Fin s, A i.succ j.succ * x j.succ := by
  simp [Matrix.mulVec, dotProduct, hatM, Fin.sum_univ_succ]

theorem dSeq_row_zero (M : Matrix (Fin (s + 1)) (Fin (s + 1)) F) (k : Nat) (x : Fin (s + 1) → F) :
    (dSeq M k *ᵥ x) 0 = x 0 := by
  cases k with
  | zero => simp [dSeq]
  | succ k => exact hatM_zero _ _

theorem dSeq_nl (M : Matrix (Fin (s + 1)) (Fin (s + 1)) F) (k d : Nat) (c : F) (x : Fin (s + 1) → F) :
    dSeq M k *ᵥ nl d c x = nl d c (dSeq M k *ᵥ x) := by
  cases k with
  | zero => simp [dSeq]
  | succ k =>
    funext i
    refine Fin.cases ?_ (fun i => ?_) i
    · rw [dSeq_row_zero]; simp [nl, dSeq_row_zero]
    · have : nl d c (dSeq M (k + 1) *ᵥ x) i.succ = (dSeq M (k + 1) *ᵥ x) i.succ := by simp [nl]
      rw [this]
      show (hatM _ *ᵥ _) i.succ = (hatM _ *ᵥ _) i.succ
      rw [hatM_succ, hatM_succ]
      simp [nl]

theorem dSeq_mul_row_zero (M : Matrix (Fin (s + 1)) (Fin (s + 1)) F) (k : Nat) (x : Fin (s + 1) → F) :
    (dSeq M k *ᵥ (M *ᵥ x)) 0 = (M *ᵥ x) 0 := dSeq_row_zero _ _ _

theorem dSeq_mul_zero_zero (M : Matrix (Fin (s + 1)) (Fin (s + 1)) F) (k : Nat) (j : Fin (s + 1)) :
    (dSeq M k * M) 0 j = M 0 j := dSeq_row_zero M k fun l => M l j

/-- The factorisation behind the optimization. -/
theorem cheap_factor (M : Matrix (Fin (s + 1)) (Fin (s + 1)) F) (k : Nat)
    (h : ((dSeq M k * M)ᵀ.submatrix Fin.succ Fin.succ).det ≠ 0) (y : Fin (s + 1) → F) :
    (dSeq M k * M) *ᵥ y =
      cheap (M 0 0) (vOf (dSeq M k * M)ᵀ) (wOf (dSeq M k * M)ᵀ) (dSeq M (k + 1) *ᵥ y) := by
  have hw : ((dSeq M k * M)ᵀ.submatrix Fin.succ Fin.succ) *ᵥ wOf (dSeq M k * M)ᵀ =
      fun i : Fin s => (dSeq M k * M)ᵀ i.succ 0 := by
    unfold wOf
    rw [Matrix.mulVec_mulVec, Matrix.mul_nonsing_inv _ (isUnit_iff_ne_zero.mpr h), Matrix.one_mulVec]
  have h00 := dSeq_mul_zero_zero M k 0
  generalize wOf (dSeq M k * M)ᵀ = w at *
  funext i
  refine Fin.cases ?_ (fun i => ?_) i
  · show _ = M 0 0 * (dSeq M (k + 1) *ᵥ y) 0 + ∑ j : Fin s, w j * (dSeq M (k + 1) *ᵥ y) j.succ
    rw [dSeq_row_zero]
    have : ∀ j : Fin s, (dSeq M (k + 1) *ᵥ y) j.succ = ∑ l : Fin s, (dSeq M k * M) j.succ l.succ * y l.succ :=
      fun j => hatM_succ _ _ _
    simp only [this]
    generalize hA : dSeq M k * M = A at *
    rw [Matrix.mulVec, dotProduct, Fin.sum_univ_succ, h00]
    congr 1
    simp only [Finset.mul_sum]
    rw [Finset.sum_comm]
    apply Finset.sum_congr rfl
    intro l _
    have := congrFun hw l
    simp only [Matrix.mulVec, dotProduct, Matrix.submatrix_apply, Matrix.transpose_apply] at this
    rw [← this, Finset.sum_mul]
    apply Finset.sum_congr rfl
    intro j _
    ring
  · show _ = (dSeq M (k + 1) *ᵥ y) 0 * vOf (dSeq M k * M)ᵀ i + (dSeq M (k + 1) *ᵥ y) i.succ
    rw [dSeq_row_zero]
    show _ = y 0 * _ + (hatM _ *ᵥ y) i.succ
    rw [hatM_succ]
    rw [Matrix.mulVec, dotProduct, Fin.sum_univ_succ]
    simp [vOf, mul_comm]

/-- The rounds with sparse matrices equal the rounds with the dense matrix. -/
theorem sparse_rounds (M : Matrix (Fin (s + 1)) (Fin (s + 1)) F) (d : Nat) (c : Nat → F) (R : Nat)
    (h : GoodBlocks M R) (hs : 0 < s) (n : Nat) : ∀ k, k + n ≤ R → ∀ x : Fin (s + 1) → F,
    dSeq M k *ᵥ Spec.rounds (fun r y => M *ᵥ nl d (c r) y) 0 n x =
      Spec.rounds (fun r y => cheap (M 0 0) (vOf (dSeq M (k + n - 1 - r) * M)ᵀ) (wOf (dSeq M (k + n - 1 - r) * M)ᵀ)
        (nl d (c r) y)) 0 n (dSeq M (k + n) *ᵥ x) := by
  induction n with
  | zero => intro k _ x; rfl
  | succ n ih =>
    intro k hk x
    show dSeq M k *ᵥ (M *ᵥ nl d (c (0 + n)) (Spec.rounds (fun r y => M *ᵥ nl d (c r) y) 0 n x)) =
      cheap (M 0 0) (vOf (dSeq M (k + (n + 1) - 1 - (0 + n)) * M)ᵀ) (wOf (dSeq M (k + (n + 1) - 1 - (0 + n)) * M)ᵀ)
        (nl d (c (0 + n)) (Spec.rounds (fun r y => cheap (M 0 0) (vOf (dSeq M (k + (n + 1) - 1 - r) * M)ᵀ)
          (wOf (dSeq M (k + (n + 1) - 1 - r) * M)ᵀ) (nl d (c r) y)) 0 n (dSeq M (k + (n + 1)) *ᵥ x)))
    rw [show k + (n + 1) - 1 - (0 + n) = k by omega, Matrix.mulVec_mulVec,
      cheap_factor M k ((h k (by omega)).det_ne_zero hs), dSeq_nl, ih (k + 1) (by omega)]
    simp only [show k + 1 + n = k + (n + 1) by omega]

end PoseidonParams

namespace Poseidon

open PoseidonParams

variable {F : Type _} [Field F] [DecidableEq F] {s : Nat}

theorem cheapMatmul_ofFn (P : PoseidonParams F) (hs : P.t = s + 1) (m00 : F) (hm : get2 P.mds 0 0 = some m00) (r : Nat)
    (v w : Fin s → F) (hv : P.v[r]? = some (List.ofFn v)) (hw : P.w_hat[r]? = some (List.ofFn w))
    (x : Fin (s + 1) → F) :
    cheapMatmul P (List.ofFn x) r = some (List.ofFn (cheap m00 v w x)) := by
  unfold cheapMatmul
  have hx0 : (List.ofFn x)[0]? = some (x 0) := by simp
  simp only [hv, hw, Option.bind_eq_bind, Option.bind_some, hs, hm, hx0]
  rw [replicate_eq_tl, setAt_tl _ _ (Nat.succ_pos s), Option.bind_some, Nat.add_sub_cancel, ofFn_eq_tl 0 v,
    ofFn_eq_tl 0 w, ofFn_eq_tl 0 x]
  have l1 := foldlM_range' (fun ns i => (tl s (ext0 0 w))[i - 1]?.bind fun w => (tl (s + 1) (ext0 0 x))[i]?.bind
      fun x => ns[0]?.bind fun cur => setAt ns 0 (cur + w * x)) 1 s
    (fun k => tl (s + 1) (Function.update (fun _ => (0 : F)) 0
      (m00 * x 0 + ∑ j ∈ Finset.range k, ext0 0 w j * ext0 0 x (j + 1)))) (by
      intro k hk
      rw [tl_get _ (show 1 + k - 1 < s by omega), Option.bind_some, tl_get _ (show 1 + k < s + 1 by omega),
        Option.bind_some, tl_get _ (Nat.succ_pos s), Option.bind_some, setAt_tl _ _ (Nat.succ_pos s),
        Function.update_self, Function.update_idem, Finset.sum_range_succ, Nat.add_sub_cancel_left, add_comm 1 k,
        add_assoc])
  simp only [Finset.sum_range_zero, add_zero] at l1
  rw [l1, Option.bind_some]
  generalize hz : m00 * x 0 + ∑ j ∈ Finset.range s, ext0 0 w j * ext0 0 x (j + 1) = z
  have l2 := foldlM_range' (fun ns i => (tl s (ext0 0 v))[i - 1]?.bind fun vi => (tl (s + 1) (ext0 0 x))[i]?.bind
      fun y => setAt ns i (x 0 * vi + y)) 1 s
    (fun k => tl (s + 1) fun i => if i = 0 then z else if i < k + 1 then x 0 * ext0 0 v (i - 1) + ext0 0 x i else 0) (by
      intro k hk
      rw [tl_get _ (show 1 + k - 1 < s by omega), Option.bind_some, tl_get _ (show 1 + k < s + 1 by omega),
        Option.bind_some, setAt_tl _ _ (show 1 + k < s + 1 by omega)]
      congr 1
      apply tl_congr
      intro i hi
      by_cases h : i = 1 + k
      · subst h
        rw [Function.update_self, if_neg (by omega), if_pos (by omega)]
      · rw [Function.update_of_ne h]
        by_cases h0 : i = 0
        · rw [if_pos h0, if_pos h0]
        · rw [if_neg h0, if_neg h0]
          by_cases h1 : i < k + 1
          · rw [if_pos h1, if_pos (by omega)]
          · rw [if_neg h1, if_neg (by omega)])
  have e : tl (s + 1) (Function.update (fun _ => (0 : F)) 0 z) = tl (s + 1) fun i => if i = 0 then z else
      if i < 0 + 1 then x 0 * ext0 0 v (i - 1) + ext0 0 x i else 0 := by
    apply tl_congr
    intro i _
    by_cases h0 : i = 0
    · subst h0; simp
    · rw [Function.update_of_ne h0, if_neg h0, if_neg (by omega)]
  rw [e, l2, tl_eq_ofFn]
  congr 2
  funext i
  refine Fin.cases ?_ (fun i => ?_) i
  · rw [if_pos (by simp), ← hz, Finset.sum_range]
    show _ = m00 * x 0 + ∑ j, w j * x j.succ
    congr 1
    apply Finset.sum_congr rfl
    intro j _
    rw [ext0_fin, ext0_lt _ _ (show j.val + 1 < s + 1 by omega)]
    rfl
  · have := i.isLt
    rw [if_neg (by simp), if_pos (by simp)]
    show _ = x 0 * v i + x i.succ
    rw [ext0_fin]
    simp

/-- Everything the constructor computes, when it returns. -/
theorem new_eq (dbg : Bool) (hs : 0 < s) {d rounds_f rounds_p : Nat} (M : Matrix (Fin (s + 1)) (Fin (s + 1)) F)
    (rc : List (List F)) (hd : d = 3 ∨ d = 5 ∨ d = 7) (heven : rounds_f % 2 = 0) (hp : 0 < rounds_p)
    (hlen : rounds_f / 2 + rounds_p ≤ rc.length) (hfit : rounds_f + rounds_p < 2 ^ 64)
    (hrow : ∀ row ∈ rc, row.length = s + 1) :
    (¬(GoodBlocks M rounds_p ∧ GoodMinors M) → new dbg (s + 1) d rounds_f rounds_p (rowsOf M) rc = none) ∧
    (GoodBlocks M rounds_p ∧ GoodMinors M → new dbg (s + 1) d rounds_f rounds_p (rowsOf M) rc = some
      { t := s + 1, d, rounds_f_beginning := rounds_f / 2, rounds_p, rounds_f_end := rounds_f / 2
        rounds := rounds_f + rounds_p, mds := rowsOf M, round_constants := rc
        opt_round_constants := tl rounds_p fun i =>
          if i = 0 then List.ofFn (tSeq M⁻¹ (tab rc) (rounds_f / 2) rounds_p 0)
          else [(M⁻¹ *ᵥ tSeq M⁻¹ (tab rc) (rounds_f / 2) rounds_p i) ⟨0, Nat.succ_pos s⟩]
        w_hat := tl rounds_p fun k => List.ofFn (wOf (dSeq M k * M)ᵀ)
        v := tl rounds_p fun k => List.ofFn (vOf (dSeq M k * M)ᵀ)
        m_i := rowsOf (dSeq M rounds_p) }) := by
  have h1 : (d == 3 || d == 5 || d == 7) = true := by simpa [or_assoc] using hd
  have h2 : ((rowsOf M).length == s + 1) = true := by simp [rowsOf]
  have h3 : (rounds_f % 2 == 0) = true := by simpa using heven
  have hfit' : rounds_f / 2 + rounds_p < 2 ^ 64 := by omega
  constructor
  · intro h
    unfold new
    simp only [assertThat, h1, h2, h3, if_true, uadd_fits dbg hfit, Option.bind_eq_bind, Option.bind_some]
    by_cases hb : GoodBlocks M rounds_p
    · have hm : ¬GoodMinors M := fun hm => h ⟨hb, hm⟩
      rw [equivalentMatrices_good hs dbg M rounds_p hp hb]
      simp only [Option.bind_some, equivalentRoundConstants, matInverse_bad dbg M hm, Option.bind_eq_bind,
        Option.bind_none]
    · rw [equivalentMatrices_bad hs dbg M rounds_p hb, Option.bind_none]
  · rintro ⟨hb, hm⟩
    unfold new
    simp only [assertThat, h1, h2, h3, if_true, uadd_fits dbg hfit, Option.bind_eq_bind, Option.bind_some,
      equivalentMatrices_good hs dbg M rounds_p hp hb,
      equivalentRoundConstants_good (Nat.succ_pos s) dbg rc M hm (rounds_f / 2) hp hlen hfit' hrow, Option.pure_def]

theorem rowsOf_get2 {n m : Nat} (A : Matrix (Fin n) (Fin m) F) (i : Fin n) (j : Fin m) :
    get2 (rowsOf A) i j = some (A i j) := by
  simp [get2, rowsOf]

/-- The optimized permutation computes the Poseidon specification. -/
theorem permutation_ofFn (dbg dbg' : Bool) (hs : 0 < s) {d rounds_f rounds_p : Nat}
    (M : Matrix (Fin (s + 1)) (Fin (s + 1)) F)
    (rc : List (List F)) (hd : d = 3 ∨ d = 5 ∨ d = 7) (heven : rounds_f % 2 = 0) (hp : 0 < rounds_p)
    (hlen : rounds_f + rounds_p ≤ rc.length) (hfit : rounds_f + rounds_p < 2 ^ 64)
    (hrow : ∀ row ∈ rc, row.length = s + 1) {P : PoseidonParams F}
    (hP : new dbg (s + 1) d rounds_f rounds_p (rowsOf M) rc = some P) (x : Fin (s + 1) → F) :
    permutation dbg' P (List.ofFn x) = some (List.ofFn (poseidon M d (rounds_f / 2) rounds_p (tab rc) x)) := by
  have hnew := new_eq dbg hs M rc hd heven hp (by omega) hfit hrow
  by_cases hgood : GoodBlocks M rounds_p ∧ GoodMinors M
  swap
  · rw [hnew.1 hgood] at hP; cases hP
  rw [hnew.2 hgood, Option.some.injEq] at hP
  obtain ⟨hb, hm⟩ := hgood
  have hrow' : ∀ r, r < rc.length → (rc.getD r []).length = s + 1 := by
    intro r hr
    apply hrow
    rw [getD_getElem _ hr]
    exact List.getElem_mem hr
  generalize hrf : rounds_f / 2 = rf at *
  have hPt : P.t = s + 1 := by rw [← hP]
  have hPd : P.d = d := by rw [← hP]
  have hPb : P.rounds_f_beginning = rf := by rw [← hP]
  have hPp : P.rounds_p = rounds_p := by rw [← hP]
  have hPr : P.rounds = rf + rounds_p + rf := by rw [← hP]; simp only; omega
  have hPm : P.mds = rowsOf M := by rw [← hP]
  have hPc : P.round_constants = rc := by rw [← hP]
  have hPi : P.m_i = rowsOf (dSeq M rounds_p) := by rw [← hP]
  have hPv : ∀ k, k < rounds_p → P.v[k]? = some (List.ofFn (vOf (dSeq M k * M)ᵀ)) := by
    intro k hk; rw [← hP]; exact tl_get _ hk
  have hPw : ∀ k, k < rounds_p → P.w_hat[k]? = some (List.ofFn (wOf (dSeq M k * M)ᵀ)) := by
    intro k hk; rw [← hP]; exact tl_get _ hk
  let T := tSeq M⁻¹ (tab rc) rf rounds_p
  have hPo0 : P.opt_round_constants[0]? = some (List.ofFn (T 0)) := by
    rw [← hP]; simp only; rw [tl_get _ hp, if_pos rfl]
  have hPo : ∀ k, 0 < k → k < rounds_p → get2 P.opt_round_constants k 0 = some ((M⁻¹ *ᵥ T k) 0) := by
    intro k h0 hk
    rw [← hP]
    simp only [get2]
    rw [tl_get _ hk, if_neg (by omega)]
    rfl
  clear hP hnew
  -- full rounds
  have hfull : ∀ r, r < rf + rounds_p + rf → ∀ y : Fin (s + 1) → F,
      fullRound dbg' P (List.ofFn y) r =
        some (List.ofFn (poseidonFull M d (fun i : Fin (s + 1) => tab rc r i) y)) := by
    intro r hr y
    rw [fullRound_cut dbg' P M hPm (by rw [hPd]; exact hd) (by rw [hPc]; omega)
      (by intro _; rw [hPc, hrow' r (by omega)]), hPc, hPd, cut_full (by rw [hrow' r (by omega)])]
    rfl
  unfold permutation
  simp only [List.length_ofFn, hPt, beq_self_eq_true, assertThat, if_true, Option.bind_eq_bind, Option.bind_some, hPb,
    hPr, hPp, List.range_eq_range', hPo0, uadd_fits dbg' (show rf + rounds_p < 2 ^ 64 by omega)]
  rw [rounds_loop (fun z : Fin (s + 1) → F => List.ofFn z) (fullRound dbg' P) _ 0 rf
    fun r _ h y => hfull r (by omega) y]
  simp only [Option.bind_some]
  generalize hX : rounds (fun r => poseidonFull M d (fun i : Fin (s + 1) => tab rc r i)) 0 rf x = X
  have hadd : addRc (List.ofFn X) (List.ofFn (T 0)) = List.ofFn (X + T 0) := by
    unfold addRc
    rw [ofFn_eq_tl 0 X, ofFn_eq_tl 0 (T 0), tl_zipWith, Nat.min_self, tl_eq_ofFn]
    congr 1
    funext i
    simp
  rw [hadd, hPi, C31_matmul, Option.bind_some]
  -- partial rounds
  let c : Nat → F := fun r => (M⁻¹ *ᵥ T (r + 1)) 0
  have hpart : ∀ r, rf ≤ r → r < rf + rounds_p → ∀ y : Fin (s + 1) → F,
      partialRoundOpt P (rf + rounds_p) (List.ofFn y) r =
        some (List.ofFn (cheap (M 0 0) (vOf (dSeq M (rounds_p - 1 - (r - rf)) * M)ᵀ)
          (wOf (dSeq M (rounds_p - 1 - (r - rf)) * M)ᵀ) (nl d (c (r - rf)) y))) := by
    intro r h1 h2 y
    unfold partialRoundOpt
    have hy0 : (List.ofFn y)[0]? = some (y 0) := by simp
    simp only [hy0, hPd, sboxP_eq hd, Option.bind_eq_bind, Option.bind_some]
    have hset : setAt (List.ofFn y) 0 (y 0 ^ d) = some (tl (s + 1) (Function.update (ext0 0 y) 0 (y 0 ^ d))) := by
      rw [ofFn_eq_tl 0 y, setAt_tl _ _ (Nat.succ_pos s)]
    rw [hset, Option.bind_some]
    have hnl : tl (s + 1) (Function.update (ext0 0 y) 0 (y 0 ^ d + c (r - rf))) =
        List.ofFn (nl d (c (r - rf)) y) := by
      rw [tl_eq_ofFn]
      congr 1
      funext i
      refine Fin.cases ?_ (fun i => ?_) i
      · simp [nl]
      · have : (i.succ : Fin (s + 1)).val ≠ 0 := by simp
        rw [Function.update_of_ne this, ext0_fin]
        simp [nl]
    rw [show rf + rounds_p - r - 1 = rounds_p - 1 - (r - rf) by omega]
    have hcm := cheapMatmul_ofFn P hPt (M 0 0) (by rw [hPm]; exact rowsOf_get2 M 0 0) (rounds_p - 1 - (r - rf)) _ _
      (hPv _ (by omega)) (hPw _ (by omega)) (nl d (c (r - rf)) y)
    by_cases hr : r < rf + rounds_p - 1
    · rw [if_pos hr, hPb, hPo (r + 1 - rf) (by omega) (by omega), Option.bind_some, tl_get _ (Nat.succ_pos s),
        Option.bind_some, setAt_tl _ _ (Nat.succ_pos s), Function.update_self, Function.update_idem, Option.bind_some,
        ← hcm, ← hnl]
      simp only [c]
      rw [show r - rf + 1 = r + 1 - rf by omega]
    · have : c (r - rf) = 0 := by
        simp only [c, T]
        rw [show r - rf + 1 = rounds_p by omega, tSeq_last]
        simp
      rw [if_neg hr, Option.pure_def, Option.bind_some, ← hcm, ← hnl, this, add_zero]
  rw [rounds_loop (fun z : Fin (s + 1) → F => List.ofFn z) _ _ rf _
    fun r h1 h2 y => hpart r h1 (by omega) y]
  simp only [Option.bind_some]
  rw [rounds_loop (fun z : Fin (s + 1) → F => List.ofFn z) (fullRound dbg' P) _ _ _
    fun r _ h y => hfull r (by omega) y]
  rw [show rf + rounds_p - rf = rounds_p by omega,
    show rf + rounds_p + rf - (rf + rounds_p) = rf by omega]
  congr 2
  unfold poseidon
  simp only
  congr 1
  rw [hX, rounds_shift _ rf, rounds_shift _ rf]
  simp only [Nat.add_sub_cancel_left]
  have e1 := sparse_rounds M d c rounds_p hb hs rounds_p 0 (by omega) (X + T 0)
  have e2 := consts_equiv M d (fun r i => tab rc (rf + r) i) T (fun r => M⁻¹ *ᵥ T r) c rounds_p
    (fun r hr i => tSeq_step _ _ _ _ _ hr i)
    (fun r hr => by
      rw [Matrix.mulVec_mulVec, Matrix.mul_nonsing_inv _ (isUnit_iff_ne_zero.mpr (hm.det_ne_zero (Nat.succ_pos s))),
        Matrix.one_mulVec])
    (fun r hr i hi => by
      have : i = 0 := Fin.ext hi
      rw [this])
    X rounds_p (le_refl _)
  simp only [Nat.zero_add] at e1
  rw [← e1, e2]
  simp only [dSeq, Matrix.one_mulVec, T, tSeq_last, add_zero]

end Poseidon

end ZkHash

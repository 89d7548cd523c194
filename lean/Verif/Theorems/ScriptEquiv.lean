import Verif.Model.SageEquiv
import Verif.Theorems.PoseidonInstances

set_option autoImplicit false

/-!
# The derived tables of Poseidon are the script's: C62
-/

namespace ZkHash

open Matrix Spec PoseidonParams

variable {F : Type _} [Field F] [DecidableEq F]

theorem Sage.equivMatStep_eq {s : Nat} (M : Matrix (Fin (s + 1)) (Fin (s + 1)) F) (st : Sage.EqState F s) :
    Sage.equivMatStep M st = if (st.M_mul.submatrix Fin.succ Fin.succ).det = 0 then none else some
      { w_hat_collection := st.w_hat_collection ++ [List.ofFn (wOf st.M_mul)]
        v_collection := st.v_collection ++ [List.ofFn (vOf st.M_mul)]
        M_mul := M * hatM st.M_mul, M_i := hatM st.M_mul } := by
  have h1 : (Matrix.of fun i j : Fin s => st.M_mul i.succ j.succ) = st.M_mul.submatrix Fin.succ Fin.succ := rfl
  have h2 : (Matrix.of fun i j : Fin (s + 1) => (Fin.cases (Fin.cases 1 (fun _ => 0) j)
      (fun i => Fin.cases 0 (fun j => st.M_mul.submatrix Fin.succ Fin.succ i j) j) i : F)) = hatM st.M_mul := by
    ext i j
    refine Fin.cases ?_ (fun i => ?_) i <;> refine Fin.cases ?_ (fun j => ?_) j <;> simp [hatM]
  unfold Sage.equivMatStep Sage.inverse
  rw [h1]
  by_cases h : (st.M_mul.submatrix Fin.succ Fin.succ).det = 0
  · simp only [if_pos h, Option.bind_eq_bind, Option.bind_none]
  · simp only [if_neg h, Option.bind_eq_bind, Option.bind_some, Option.pure_def, h2]
    rfl

theorem Sage.equivMatLoop {s : Nat} (M : Matrix (Fin (s + 1)) (Fin (s + 1)) F) (R : Nat)
    (h : (M.submatrix Fin.succ Fin.succ).det ≠ 0) :
    (List.range R).foldlM (fun st _ => Sage.equivMatStep Mᵀ st)
      { w_hat_collection := [], v_collection := [], M_mul := Mᵀ, M_i := 0 } = some
      { w_hat_collection := tl R fun k => List.ofFn (wOf (dSeq M k * M)ᵀ)
        v_collection := tl R fun k => List.ofFn (vOf (dSeq M k * M)ᵀ)
        M_mul := (dSeq M R * M)ᵀ, M_i := if R = 0 then 0 else (dSeq M R)ᵀ } := by
  have := foldlM_range (fun st (_ : Nat) => Sage.equivMatStep Mᵀ st) R
    (fun k => (⟨tl k fun k => List.ofFn (wOf (dSeq M k * M)ᵀ), tl k fun k => List.ofFn (vOf (dSeq M k * M)ᵀ),
      (dSeq M k * M)ᵀ, if k = 0 then 0 else (dSeq M k)ᵀ⟩ : Sage.EqState F s)) (by
      intro k hk
      have hd : (((dSeq M k * M)ᵀ).submatrix Fin.succ Fin.succ).det ≠ 0 := by
        have : ((dSeq M k * M)ᵀ).submatrix Fin.succ Fin.succ = ((M.submatrix Fin.succ Fin.succ) ^ (k + 1))ᵀ := by
          rw [← block_pow]
          rfl
        rw [this, Matrix.det_transpose, Matrix.det_pow]
        exact pow_ne_zero _ h
      rw [Sage.equivMatStep_eq, if_neg hd, hatM_transpose, ← Matrix.transpose_mul, tl_succ, tl_succ,
        if_neg (Nat.succ_ne_zero k)]
      rfl)
  simp only [dSeq, Matrix.one_mul, if_true] at this
  have e : ∀ f : Nat → List F, tl 0 f = [] := fun _ => rfl
  rw [e, e] at this
  exact this

/-- **C62.** The script computes its matrices exactly when there is no partial round or the lower-right block of the
matrix is invertible. -/
theorem C62_script_matrices_iff {s : Nat} (M : Matrix (Fin (s + 1)) (Fin (s + 1)) F) (R : Nat) :
    (∃ r, Sage.calcEquivalentMatrices R M = some r) ↔ R = 0 ∨ (M.submatrix Fin.succ Fin.succ).det ≠ 0 := by
  constructor
  · rintro ⟨r, hr⟩
    by_contra hc
    push Not at hc
    obtain ⟨h1, h2⟩ := hc
    obtain ⟨R', rfl⟩ := Nat.exists_eq_succ_of_ne_zero h1
    unfold Sage.calcEquivalentMatrices at hr
    simp only [Nat.succ_eq_add_one, List.range_succ_eq_map, List.foldlM_cons, Sage.equivMatStep_eq] at hr
    rw [if_pos (by rw [← h2, ← Matrix.det_transpose]; rfl)] at hr
    simp at hr
  · rintro (rfl | h)
    · exact ⟨_, rfl⟩
    · unfold Sage.calcEquivalentMatrices
      simp only [Sage.equivMatLoop M R h]
      exact ⟨_, rfl⟩

theorem splitRows_flatten {t : Nat} (ht : 0 < t) (rows : List (List F)) (h : ∀ row ∈ rows, row.length = t) :
    Sage.splitRows t rows.flatten = rows := by
  have hlen : rows.flatten.length = rows.length * t := by
    rw [List.length_flatten]
    induction rows with
    | nil => simp
    | cons r rs ih =>
      rw [List.map_cons, List.sum_cons, ih fun row hr => h row (List.mem_cons_of_mem _ hr), h r List.mem_cons_self]
      simp only [List.length_cons]
      ring
  unfold Sage.splitRows
  rw [hlen, show (rows.length * t + t - 1) / t = rows.length by
    rw [Nat.div_eq_iff ht]
    constructor
    · omega
    · omega]
  apply List.ext_getElem (by simp)
  intro k h1 h2
  rw [List.getElem_map, List.getElem_range]
  clear h1 hlen
  induction rows generalizing k with
  | nil => simp at h2
  | cons r rs ih =>
    have hr := h r List.mem_cons_self
    cases k with
    | zero => simp [hr]
    | succ k =>
      rw [List.flatten_cons, List.getElem_cons_succ,
        show (k + 1) * t = r.length + k * t by rw [hr]; ring, List.drop_append]
      simp only [Nat.add_sub_cancel_left]
      rw [List.drop_of_length_le (by omega), List.nil_append]
      exact ih (fun row hr => h row (List.mem_cons_of_mem _ hr)) k (by simpa using h2)

theorem Sage.equivConstStep_tl {s L : Nat} (M : Matrix (Fin (s + 1)) (Fin (s + 1)) F) (hM : M.det ≠ 0)
    (f : Nat → List F) (i : Nat) (hi : i + 1 < L) (c0 T : Fin (s + 1) → F) (h0 : f i = List.ofFn c0)
    (h1 : f (i + 1) = List.ofFn T) :
    Sage.equivConstStep Mᵀ (tl L f) i =
      some (tl L (Function.update (Function.update f i (List.ofFn fun j => c0 j + if j.val = 0 then 0 else (M⁻¹ *ᵥ T) j))
        (i + 1) ((M⁻¹ *ᵥ T) 0 :: List.replicate s 0))) := by
  have hinv : (Mᵀ)⁻¹ = (M⁻¹)ᵀ := (Matrix.transpose_nonsing_inv M).symm
  have hT : (fun j : Fin (s + 1) => (List.ofFn T).getD j 0) = T := by
    funext j
    rw [List.getD_eq_getElem?_getD, List.getElem?_ofFn, dif_pos j.isLt, Option.getD_some]
  unfold Sage.equivConstStep Sage.inverse Sage.rowTimes
  rw [tl_get _ hi, h1, Matrix.det_transpose, if_neg hM, tl_get _ (by omega : i < L), h0]
  simp only [Option.bind_eq_bind, Option.bind_some, List.length_ofFn, if_true, hT, hinv, Matrix.vecMul_transpose]
  have hadd : Sage.addRows (List.ofFn c0) ([0] ++ List.drop 1 (List.ofFn (M⁻¹ *ᵥ T))) =
      some (List.ofFn fun j => c0 j + if j.val = 0 then 0 else (M⁻¹ *ᵥ T) j) := by
    unfold Sage.addRows
    rw [if_pos (by simp)]
    congr 1
    apply List.ext_getElem (by simp)
    intro j h1 h2
    cases j with
    | zero => simp
    | succ j => simp
  rw [hadd, Option.bind_some, setAt_tl _ _ (by omega), Option.bind_some]
  have hx : (List.ofFn (M⁻¹ *ᵥ T))[0]? = some ((M⁻¹ *ᵥ T) 0) := by simp
  rw [hx, Option.bind_some, setAt_tl _ _ hi]
  rfl

theorem Sage.calcEquivalentConstants_eq {s : Nat} (M : Matrix (Fin (s + 1)) (Fin (s + 1)) F) (hM : M.det ≠ 0)
    (rc : List (List F)) (R_F R : Nat) (hF : R_F % 2 = 0) (hlen : R_F + R ≤ rc.length) (hR : 0 < R)
    (hrow : ∀ row ∈ rc, row.length = s + 1) :
    Sage.calcEquivalentConstants R_F R rc.flatten M = some (tl rc.length fun k =>
      if k = R_F / 2 then List.ofFn (tSeq M⁻¹ (tab rc) (R_F / 2) R 0)
      else if R_F / 2 < k ∧ k < R_F / 2 + R then
        (M⁻¹ *ᵥ tSeq M⁻¹ (tab rc) (R_F / 2) R (k - R_F / 2)) 0 :: List.replicate s 0
      else rc.getD k []) := by
  unfold Sage.calcEquivalentConstants
  simp only [splitRows_flatten (Nat.succ_pos s) rc hrow, if_neg (show ¬ R_F % 2 = 1 by omega)]
  have hhalf : R_F = R_F / 2 + R_F / 2 := by omega
  generalize R_F / 2 = rf at *
  subst hhalf
  rw [show rf + rf + R - 1 - rf - rf = R - 1 by omega]
  have hofn : ∀ k, k < rc.length → rc.getD k [] = List.ofFn fun j : Fin (s + 1) => tab rc k j := by
    intro k hk
    have hl : (rc.getD k []).length = s + 1 := by
      apply hrow
      rw [getD_getElem _ hk]
      exact List.getElem_mem _
    conv_lhs => rw [eq_tl (rc.getD k []) 0, hl, tl_eq_ofFn]
    rfl
  set G : Nat → List (List F) := fun m => tl rc.length fun k =>
      if k = rf + (R - 1 - m) then List.ofFn (tSeq M⁻¹ (tab rc) rf R (R - 1 - m))
      else if rf + (R - 1 - m) < k ∧ k < rf + R then
        (M⁻¹ *ᵥ tSeq M⁻¹ (tab rc) rf R (k - rf)) 0 :: List.replicate s 0
      else rc.getD k [] with hG
  have := foldlM_range'_rev (Sage.equivConstStep Mᵀ) rf (R - 1) G (by
    intro m hm
    rw [hG]
    have hi : rf + (R - 1) - 1 - m + 1 = rf + (R - 1 - m) := by omega
    have hi' : rf + (R - 1) - 1 - m = rf + (R - 1 - (m + 1)) := by omega
    rw [Sage.equivConstStep_tl M hM _ (rf + (R - 1) - 1 - m) (by omega)
      (fun j => tab rc (rf + (R - 1 - (m + 1))) j) (tSeq M⁻¹ (tab rc) rf R (R - 1 - m)) (by
        rw [if_neg (by omega), if_neg (by omega), hi', hofn _ (by omega)]) (by rw [hi, if_pos rfl])]
    congr 1
    apply tl_congr
    intro k hk
    by_cases h1 : k = rf + (R - 1) - 1 - m + 1
    · subst h1
      rw [Function.update_self, if_neg (by omega), if_pos (by omega)]
      rw [show rf + (R - 1) - 1 - m + 1 - rf = R - 1 - m by omega]
    · rw [Function.update_of_ne h1]
      by_cases h2 : k = rf + (R - 1) - 1 - m
      · subst h2
        rw [Function.update_self, if_pos hi']
        congr 1
        funext j
        rw [tSeq_step _ _ _ _ _ (by omega), show R - 1 - (m + 1) + 1 = R - 1 - m by omega]
      · rw [Function.update_of_ne h2, if_neg (show ¬ k = rf + (R - 1 - m) by omega)]
        by_cases h3 : rf + (R - 1 - m) < k ∧ k < rf + R
        · rw [if_pos h3, if_neg (by omega), if_pos (by omega)]
        · rw [if_neg h3, if_neg (by omega), if_neg (by omega)])
  have h0 : G 0 = rc := by
    rw [hG]
    conv_rhs => rw [eq_tl rc []]
    apply tl_congr
    intro k hk
    by_cases h : k = rf + (R - 1 - 0)
    · subst h
      rw [if_pos rfl, hofn _ hk]
      congr 1
      funext j
      rw [Nat.sub_zero, tSeq_step _ _ _ _ _ (by omega), show R - 1 + 1 = R by omega, tSeq_last]
      simp
    · rw [if_neg h, if_neg (by omega)]
  rw [h0] at this
  rw [this, hG]
  simp only [Nat.sub_self, Nat.add_zero]

/-- **C62.** When the Poseidon constructor of the crate returns, the script's functions return too, and the derived
tables are the script's: the first matrix is the transpose of the script's `M_i`, `v` and `w_hat` are the script's
collections, the first derived constant row is the script's row of the first partial round, and the constants added in
later partial rounds are the only nonzero entries of the script's rows. The script leaves all other rows alone. -/
theorem C62_tables {s : Nat} {dbg : Bool} {d R_F R_P : Nat}
    {M : Matrix (Fin (s + 1)) (Fin (s + 1)) F} {rc : List (List F)} {P : PoseidonParams F}
    (hP : PoseidonParams.new dbg (s + 1) d R_F R_P (rowsOf M) rc = some P) (hsh : PoseidonShaped (s + 1) R_F R_P rc) :
    (∃ M_i, Sage.calcEquivalentMatrices R_P M = some (M_i, P.v, P.w_hat, M 0 0) ∧ P.m_i = rowsOf M_iᵀ) ∧
    ∃ rows, Sage.calcEquivalentConstants R_F R_P rc.flatten M = some rows ∧ rows.length = rc.length ∧
      P.opt_round_constants.length = R_P ∧
      P.opt_round_constants[0]? = rows[R_F / 2]? ∧
      (∀ i, 0 < i → i < R_P → ∃ c, P.opt_round_constants[i]? = some [c] ∧
        rows[R_F / 2 + i]? = some (c :: List.replicate s 0)) ∧
      ∀ k, k < R_F / 2 ∨ R_F / 2 + R_P ≤ k → rows[k]? = rc[k]? := by
  obtain ⟨hd, hF, hR, ht, -⟩ := Poseidon.new_args hP
  have hs : 0 < s := by omega
  obtain ⟨-, -, -, hm, hb⟩ := (C15_new_returns_iff dbg hs d R_F R_P M rc hsh).mp ⟨P, hP⟩
  have hb' := (goodBlocks_iff M R_P).mpr hb
  have hdet : M.det ≠ 0 := GoodMinors.det_ne_zero (Nat.succ_pos s) hm
  have hhat : (M.submatrix Fin.succ Fin.succ).det ≠ 0 := by
    have : GoodMinors (M.submatrix Fin.succ Fin.succ) := by
      intro k hk
      have := hb 1 (by omega) hR k hk
      rwa [pow_one] at this
    exact this.det_ne_zero hs
  have hlen := hsh.rc_len
  unfold PoseidonParams.new at hP
  simp only [equivalentMatrices_good hs dbg M R_P hR hb',
    equivalentRoundConstants_good (Nat.succ_pos s) dbg rc M hm (R_F / 2) hR (by omega) (by have := hsh.fits; omega) hsh.rc_rows,
    uadd_fits dbg hsh.fits, Option.bind_some, Option.bind_eq_bind, Option.bind_eq_some_iff, Option.pure_def, Option.some.injEq] at hP
  obtain ⟨_, _, _, _, _, _, _, rfl, _, rfl, rfl⟩ := hP
  refine ⟨⟨(dSeq M R_P)ᵀ, ?_, by rw [Matrix.transpose_transpose]⟩, ?_⟩
  · unfold Sage.calcEquivalentMatrices
    simp only [Sage.equivMatLoop M R_P hhat, if_neg (show R_P ≠ 0 by omega), Option.bind_eq_bind, Option.bind_some,
      Option.pure_def, Matrix.transpose_apply]
  · refine ⟨_, Sage.calcEquivalentConstants_eq M hdet rc R_F R_P hF hlen hR hsh.rc_rows, by simp, by simp, ?_, ?_, ?_⟩
    · rw [tl_get _ hR, tl_get _ (by omega), if_pos rfl, if_pos rfl]
    · intro i h1 h2
      refine ⟨(M⁻¹ *ᵥ tSeq M⁻¹ (tab rc) (R_F / 2) R_P i) 0, ?_, ?_⟩
      · rw [tl_get _ h2, if_neg (by omega)]
        rfl
      · rw [tl_get _ (by omega), if_neg (by omega), if_pos (by omega), Nat.add_sub_cancel_left]
    · intro k hk
      by_cases h : k < rc.length
      · rw [tl_get _ h, if_neg (by omega), if_neg (by omega), getElem?_getD _ h]
      · rw [tl_get_none _ (by omega), List.getElem?_eq_none (by omega)]

/-- **C62**, for the shipped instances: the derived tables of every shipped Poseidon parameter set are the script's. -/
theorem C62_shipped (S : PoseidonSource) (hS : S ∈ Instances.poseidon) [Fact S.modulus.Prime] (dbg : Bool) (s : Nat)
    (hs : S.t = s + 1) :
    ∃ P M_i rows, S.params dbg = some P ∧
      Sage.calcEquivalentMatrices S.rounds_p (Matrix.of fun i j : Fin (s + 1) => tab S.mdsF i j) =
        some (M_i, P.v, P.w_hat, tab S.mdsF 0 0) ∧ P.m_i = rowsOf M_iᵀ ∧
      Sage.calcEquivalentConstants S.rounds_f S.rounds_p S.rcF.flatten
        (Matrix.of fun i j : Fin (s + 1) => tab S.mdsF i j) = some rows ∧
      P.opt_round_constants[0]? = rows[S.rounds_f / 2]? ∧
      ∀ i, 0 < i → i < S.rounds_p → ∃ c, P.opt_round_constants[i]? = some [c] ∧
        rows[S.rounds_f / 2 + i]? = some (c :: List.replicate s 0) := by
  have hg := poseidon_good S hS
  obtain ⟨P, hP⟩ := hg.returns dbg
  have hM : S.mdsF = rowsOf (Matrix.of fun i j : Fin (s + 1) => tab S.mdsF i j) := by
    have h1 := hg.mdsMatrix_eq
    have h2 := hg.mds
    rw [← h1] at h2
    conv_lhs => rw [h2]
    unfold PoseidonSource.mdsMatrix
    clear hP h1 h2
    generalize S.t = t at hs
    subst hs
    rfl
  have hP' : PoseidonParams.new dbg (s + 1) S.d S.rounds_f S.rounds_p
      (rowsOf (Matrix.of fun i j : Fin (s + 1) => tab S.mdsF i j)) S.rcF = some P := by
    rw [← hM, ← hs]
    exact hP
  have hsh := hg.shaped
  rw [hs] at hsh
  obtain ⟨⟨M_i, h1, h2⟩, rows, h3, -, -, h4, h5, -⟩ := C62_tables hP' hsh
  exact ⟨P, M_i, rows, hP, h1, h2, h3, h4, h5⟩

/-- **C62.** The script also accepts matrices on which the crate's constructor panics: here the entry `[0, 0]` is zero. -/
theorem C62_script_accepts_more :
    ∃ M : Matrix (Fin 2) (Fin 2) ℚ, M.det ≠ 0 ∧ (∃ r, Sage.calcEquivalentMatrices 3 M = some r) ∧
      ∀ dbg d rc, PoseidonParams.new dbg 2 d 8 3 (rowsOf M) rc = none := by
  refine ⟨!![0, 1; 1, 1], by simp, (C62_script_matrices_iff _ _).mpr (Or.inr (by simp)), fun dbg d rc => ?_⟩
  unfold PoseidonParams.new PoseidonParams.equivalentRoundConstants
  have : Utils.matInverse dbg (rowsOf (!![0, 1; 1, 1] : Matrix (Fin 2) (Fin 2) ℚ)) = none := by
    apply matInverse_bad
    intro h
    exact h 0 (by omega) (by simp [leadingMinor])
  simp only [this, Option.bind_eq_bind, Option.bind_none, Poseidon.bind_none_fun]

end ZkHash

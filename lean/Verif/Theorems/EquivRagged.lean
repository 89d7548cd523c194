import Verif.Proofs.EquivAppend
import Verif.Theorems.PoseidonRagged

set_option autoImplicit false

/-!
# C91: the equivalent round constants, for tables of any shape
-/

namespace ZkHash

open Spec Matrix PoseidonRagged

section
variable {F : Type _} [Field F] [DecidableEq F]

/-- **C91.** `Poseidon2Params::equivalent_round_constants` and `PoseidonParams::equivalent_round_constants`, given the
same arguments of whatever shape, panic together; otherwise the former returns what the latter returns with one row of
zeros appended, as long as the first row. -/
theorem C91_append (dbg : Bool) (rc mat : List (List F)) (rf R : Nat) (hR : 0 < R) (hfit : R + 1 < 2 ^ 64) :
    Poseidon2Params.equivalentRoundConstants dbg rc mat rf R =
      (PoseidonParams.equivalentRoundConstants dbg rc mat rf R).map
        fun opt => opt ++ [List.replicate (opt.getD 0 []).length 0] :=
  EquivAppend.append dbg rc mat rf R hR hfit

theorem EquivAppend.fits {dbg : Bool} {rc mat opt : List (List F)} {rf R : Nat}
    (h : PoseidonParams.equivalentRoundConstants dbg rc mat rf R = some opt) :
    0 < mat.length ∧ MatrixFits dbg mat.length mat ∧ PoseidonParams.GoodMinors (squarePart mat.length mat) ∧
      PoseidonParams.equivalentRoundConstants dbg rc (rowsOf (squarePart mat.length mat)) rf R = some opt := by
  have h' := h
  unfold PoseidonParams.equivalentRoundConstants at h'
  simp only [Option.bind_eq_bind, Option.bind_eq_some_iff] at h'
  obtain ⟨B, hB, -⟩ := h'
  obtain ⟨h1, h2, h3, h4, h5⟩ := (C76_matInverse_returns_iff dbg mat).mp ⟨B, hB⟩
  have hm : MatrixFits dbg mat.length mat := ⟨rfl, h2, h3, h4⟩
  refine ⟨h1, hm, h5, ?_⟩
  rw [← h]
  unfold PoseidonParams.equivalentRoundConstants
  rw [matInverse_sq hm h1]

theorem EquivAppend.of_fits {dbg : Bool} {rc mat : List (List F)} {rf R : Nat} (h1 : 0 < mat.length)
    (hm : MatrixFits dbg mat.length mat) :
    PoseidonParams.equivalentRoundConstants dbg rc mat rf R =
      PoseidonParams.equivalentRoundConstants dbg rc (rowsOf (squarePart mat.length mat)) rf R := by
  unfold PoseidonParams.equivalentRoundConstants
  rw [matInverse_sq hm h1]

/-- **C91**, Poseidon's function: for a matrix of two or more rows it returns exactly if the matrix fits, its leading
minors are nonzero and the rows of constants of the partial rounds fit. -/
theorem C91_poseidon_returns_iff (dbg : Bool) (rc mat : List (List F)) (rf R : Nat) (hR : 0 < R)
    (hfit : rf + R < 2 ^ 64) (ht : 2 ≤ mat.length) :
    (∃ opt, PoseidonParams.equivalentRoundConstants dbg rc mat rf R = some opt) ↔
      MatrixFits dbg mat.length mat ∧ PartialRowsFit dbg mat.length rf R rc ∧
      ∀ k, ∀ hk : k < mat.length, leadingMinor (squarePart mat.length mat) (k + 1) hk ≠ 0 := by
  constructor
  · rintro ⟨opt, h⟩
    obtain ⟨h1, hm, hg, h'⟩ := EquivAppend.fits h
    exact ⟨hm, partialRowsFit_of ht _ hR hfit h', hg⟩
  · rintro ⟨hm, hr, hg⟩
    rw [EquivAppend.of_fits (by omega) hm]
    exact ⟨_, equivalentRoundConstants_fit (by omega) _ hg hR hfit hr⟩

/-- **C91**, Poseidon2's function: under the same conditions. -/
theorem C91_poseidon2_returns_iff (dbg : Bool) (rc mat : List (List F)) (rf R : Nat) (hR : 0 < R)
    (hfit : rf + R + 1 < 2 ^ 64) (ht : 2 ≤ mat.length) :
    (∃ opt, Poseidon2Params.equivalentRoundConstants dbg rc mat rf R = some opt) ↔
      MatrixFits dbg mat.length mat ∧ PartialRowsFit dbg mat.length rf R rc ∧
      ∀ k, ∀ hk : k < mat.length, leadingMinor (squarePart mat.length mat) (k + 1) hk ≠ 0 := by
  rw [← C91_poseidon_returns_iff dbg rc mat rf R hR (by omega) ht, C91_append dbg rc mat rf R hR (by omega)]
  simp [Option.map_eq_some_iff]

theorem EquivAppend.value {t : Nat} (h0 : 0 < t) {dbg : Bool} {rc opt : List (List F)} (M : Matrix (Fin t) (Fin t) F)
    (hg : PoseidonParams.GoodMinors M) (d : Nat) {rf R : Nat} (hR : 0 < R) (hfit : rf + R < 2 ^ 64)
    (hr : PartialRowsFit dbg t rf R rc)
    (h' : PoseidonParams.equivalentRoundConstants dbg rc (rowsOf M) rf R = some opt) :
    (opt.length = R ∧ (opt.getD 0 []).length = (rc.getD rf []).length ∧
      ∀ r, 0 < r → r < R → (opt.getD r []).length = 1) ∧
    ∀ x : Fin t → F,
      rounds (fun r y => M *ᵥ fun i =>
        if i.val = 0 then y i ^ d + tab opt (r + 1) 0 else y i) 0 R (fun i => x i + tab opt 0 i) =
      rounds (fun r => poseidonPartial M d fun i => tab rc (rf + r) i) 0 R x := by
  rw [equivalentRoundConstants_fit h0 M hg hR hfit hr, Option.some.injEq] at h'
  let T := PoseidonParams.tSeq M⁻¹ (tab (partRows t rf R rc)) 0 R
  have htab : ∀ r, r < R → ∀ i : Fin t, tab (partRows t rf R rc) (0 + r) i = tab rc (rf + r) i := by
    intro r hr i
    have e : (partRows t rf R rc).getD (0 + r) [] = norm t (rc.getD (rf + r) []) := by
      unfold partRows
      rw [List.getD_eq_getElem?_getD, Nat.zero_add, tl_get _ hr]
      rfl
    unfold tab
    rw [e, norm, List.getD_eq_getElem?_getD, tl_get _ i.isLt]
    rfl
  have hgd : ∀ r, r < R → opt.getD r [] =
      if r = 0 then firstRow t rf R rc (T 0) else [(M⁻¹ *ᵥ T r) ⟨0, h0⟩] := by
    intro r hr
    rw [← h', List.getD_eq_getElem?_getD, tl_get _ hr]
    rfl
  have hlen : opt.length = R := by rw [← h']; simp
  have hrow0 : ∀ i : Fin t, tab opt 0 i = T 0 i := by
    intro i
    unfold tab
    rw [hgd 0 hR, if_pos rfl, firstRow]
    split
    · rename_i h1
      subst h1
      have e1 := PoseidonParams.tSeq_step M⁻¹ (tab (partRows t rf 1 rc)) 0 1 0 (by omega) i
      have e2 : PoseidonParams.tSeq M⁻¹ (tab (partRows t rf 1 rc)) 0 1 (0 + 1) = 0 := PoseidonParams.tSeq_last _ _ _ _
      rw [e2] at e1
      have e3 := htab 0 (by omega) i
      simp only [Matrix.mulVec_zero, Pi.zero_apply, ite_self, add_zero] at e1 e3
      show _ = PoseidonParams.tSeq M⁻¹ (tab (partRows t rf 1 rc)) 0 1 0 i
      rw [e1, e3]
      rfl
    · rw [List.getD_eq_getElem?_getD, List.getElem?_append_left (by simp)]
      simp
  refine ⟨⟨hlen, ?_, fun r h0 h1 => ?_⟩, fun x => ?_⟩
  · rw [hgd 0 hR, if_pos rfl, firstRow]
    split
    · rfl
    · have := hr.first (by omega)
      simp only [List.length_append, List.length_ofFn, List.length_drop]
      omega
  · rw [hgd r h1, if_neg (by omega)]; rfl
  · have hc : ∀ r, r < R → tab opt (r + 1) 0 = (M⁻¹ *ᵥ T (r + 1)) ⟨0, h0⟩ := by
      intro r hr
      unfold tab
      by_cases h : r + 1 < R
      · rw [hgd (r + 1) h, if_neg (by omega)]; rfl
      · have e : r + 1 = R := by omega
        have eT : T R = 0 := PoseidonParams.tSeq_last _ _ _ _
        rw [e, eT, show opt.getD R [] = [] by rw [List.getD_eq_getElem?_getD, List.getElem?_eq_none (by omega)]; rfl]
        simp
    have e2 := PoseidonParams.consts_equiv M d (fun r i => tab (partRows t rf R rc) (0 + r) i) T (fun r => M⁻¹ *ᵥ T r)
      (fun r => tab opt (r + 1) 0) R
      (fun r hr i => PoseidonParams.tSeq_step _ _ _ _ _ hr i)
      (fun r hr => by
        rw [Matrix.mulVec_mulVec, Matrix.mul_nonsing_inv _ (isUnit_iff_ne_zero.mpr (hg.det_ne_zero h0)),
          Matrix.one_mulVec])
      (fun r hr i hi => by
        have : i = ⟨0, h0⟩ := Fin.ext hi
        rw [this]; exact hc r hr)
      x R (le_refl _)
    have e0 : (fun i : Fin t => x i + tab opt 0 i) = x + T 0 := by
      funext i
      rw [hrow0]; rfl
    rw [e0]
    have eT : T R = 0 := PoseidonParams.tSeq_last _ _ _ _
    rw [eT, add_zero] at e2
    refine Eq.trans e2 ?_
    refine rounds_congr _ _ _ _ (fun r _ hr y => ?_) x
    congr 1
    funext i
    exact htab r (by omega) i

/-- **C91**, value of Poseidon's function, for a matrix of two or more rows and tables of any shape: `opt` has `R` rows,
the first as long as the first row of constants of the partial rounds, the others of one entry; adding the first row once
and `opt[r+1][0]` after the S-box of partial round `r` (nothing after the last) is the same, on every state, as adding the
full row `rf + r` before the S-box of round `r`. Missing constants count as zero, surplus ones are ignored. -/
theorem C91_poseidon_value (dbg : Bool) (rc mat : List (List F)) (d rf R : Nat) (hR : 0 < R)
    (hfit : rf + R < 2 ^ 64) (ht : 2 ≤ mat.length) (opt : List (List F))
    (hopt : PoseidonParams.equivalentRoundConstants dbg rc mat rf R = some opt) :
    (opt.length = R ∧ (opt.getD 0 []).length = (rc.getD rf []).length ∧
      ∀ r, 0 < r → r < R → (opt.getD r []).length = 1) ∧
    ∀ x : Fin mat.length → F,
      rounds (fun r y => squarePart mat.length mat *ᵥ fun i =>
        if i.val = 0 then y i ^ d + tab opt (r + 1) 0 else y i) 0 R (fun i => x i + tab opt 0 i) =
      rounds (fun r => poseidonPartial (squarePart mat.length mat) d fun i => tab rc (rf + r) i) 0 R x := by
  obtain ⟨h0, hmf, hg, h'⟩ := EquivAppend.fits hopt
  exact EquivAppend.value h0 _ hg d hR hfit (partialRowsFit_of ht _ hR hfit h') h'

/-- **C91**, value of Poseidon2's function: the same with one more row, of zeros. -/
theorem C91_poseidon2_value (dbg : Bool) (rc mat : List (List F)) (d rf R : Nat) (hR : 0 < R)
    (hfit : rf + R + 1 < 2 ^ 64) (ht : 2 ≤ mat.length) (opt : List (List F))
    (hopt : Poseidon2Params.equivalentRoundConstants dbg rc mat rf R = some opt) :
    (opt.length = R + 1 ∧ (opt.getD 0 []).length = (rc.getD rf []).length ∧
      (∀ r, 0 < r → r < R → (opt.getD r []).length = 1) ∧
      opt.getD R [] = List.replicate (rc.getD rf []).length 0) ∧
    ∀ x : Fin mat.length → F,
      rounds (fun r y => squarePart mat.length mat *ᵥ fun i =>
        if i.val = 0 then y i ^ d + tab opt (r + 1) 0 else y i) 0 R (fun i => x i + tab opt 0 i) =
      rounds (fun r => poseidonPartial (squarePart mat.length mat) d fun i => tab rc (rf + r) i) 0 R x := by
  rw [C91_append dbg rc mat rf R hR (by omega), Option.map_eq_some_iff] at hopt
  obtain ⟨o, ho, rfl⟩ := hopt
  obtain ⟨⟨h1, h2, h3⟩, h4⟩ := C91_poseidon_value dbg rc mat d rf R hR (by omega) ht o ho
  have hg : ∀ r, r < R → (o ++ [List.replicate (o.getD 0 []).length 0]).getD r [] = o.getD r [] := by
    intro r hr
    simp only [List.getD_eq_getElem?_getD]
    rw [List.getElem?_append_left (by omega)]
  have hl : (o ++ [List.replicate (o.getD 0 []).length (0 : F)]).getD R [] = List.replicate (o.getD 0 []).length 0 := by
    rw [List.getD_eq_getElem?_getD, List.getElem?_append_right (by omega), h1, Nat.sub_self]
    rfl
  refine ⟨⟨by simp [h1], by rw [hg 0 hR, h2], fun r a b => by rw [hg r b, h3 r a b], by rw [hl, h2]⟩, fun x => ?_⟩
  rw [← h4 x]
  have e0 : (fun i : Fin mat.length => x i + tab (o ++ [List.replicate (o.getD 0 []).length 0]) 0 i) =
      fun i => x i + tab o 0 i := by
    funext i
    unfold tab
    rw [hg 0 hR]
  rw [e0]
  refine rounds_congr _ _ _ _ (fun r _ hr y => ?_) _
  have e : tab (o ++ [List.replicate (o.getD 0 []).length 0]) (r + 1) 0 = tab o (r + 1) 0 := by
    unfold tab
    by_cases h : r + 1 < R
    · rw [hg _ h]
    · rw [show r + 1 = R by omega, hl]
      simp only [List.getD_eq_getElem?_getD, List.getElem?_replicate]
      rw [List.getElem?_eq_none (show o.length ≤ R by omega)]
      split <;> simp
  rw [e]

/-! ## Matrices of one row -/

namespace EquivAppend

/-- A row of constants that `mat_vec_mul` takes with a matrix of one row. -/
def RowOk (dbg : Bool) (row : List F) : Prop := row.length ≤ 1 ∧ (dbg = true → row.length = 1)

omit [DecidableEq F] in
theorem matVec_one {dbg : Bool} {b : F} {x : List F} (h : RowOk dbg x) :
    matVecMul dbg [[b]] x = some [b * vec x 0] := by
  rcases x with _ | ⟨a, _ | ⟨c, l⟩⟩
  · cases dbg
    · simp [matVecMul, debugAssert, vec]
    · exact absurd (h.2 rfl) (by simp)
  · cases dbg <;> simp [matVecMul, vec, debugAssert, get2, setAt]
  · exact absurd h.1 (by simp)

omit [DecidableEq F] in
theorem matVec_one_bad {dbg : Bool} {b : F} {x : List F} (h : ¬ RowOk dbg x) : matVecMul dbg [[b]] x = none := by
  rw [Option.eq_none_iff_forall_ne_some]
  intro y hy
  have := (C76_matVecMul dbg [[b]] x).1.mp ⟨y, hy⟩
  exact h ⟨by simpa using this.2 [b] (by simp), fun hd => by have := this.1 hd; simpa using this.symm⟩

/-- The loop for a matrix of one row. -/
theorem loop_one {dbg : Bool} {rc : List (List F)} {b : F} {rf : Nat} (L : Nat) :
    ∀ (n : Nat) (f : Nat → List F), rf + n < rc.length → rf + n < 2 ^ 64 → n + 1 ≤ L →
    (¬ (∀ i, 0 < i → i ≤ n → RowOk dbg (rc.getD (rf + i) [])) →
      ((List.range n).reverse).foldlM (Poseidon2Params.equivStep dbg rc [[b]] rf) (tl L f, rc.getD (rf + n) []) = none) ∧
    ((∀ i, 0 < i → i ≤ n → RowOk dbg (rc.getD (rf + i) [])) →
      ((List.range n).reverse).foldlM (Poseidon2Params.equivStep dbg rc [[b]] rf) (tl L f, rc.getD (rf + n) []) =
        some (tl L fun i => if 0 < i ∧ i ≤ n then [b * tab rc (rf + i) 0] else f i, rc.getD rf [])) := by
  intro n
  induction n with
  | zero =>
    intro f _ _ _
    refine ⟨fun h => absurd (fun i h1 h2 => by omega) h, fun _ => ?_⟩
    simp only [List.range_zero, List.reverse_nil, List.foldlM_nil, Option.pure_def, Nat.add_zero, Option.some.injEq,
      Prod.mk.injEq, and_true]
    apply tl_congr
    intro i hi
    rw [if_neg (by omega)]
  | succ n ih =>
    intro f hlen hfit hL
    rw [List.range_succ, List.reverse_append, List.reverse_singleton, List.singleton_append, List.foldlM_cons,
      equivStep_eq]
    by_cases hrow : RowOk dbg (rc.getD (rf + (n + 1)) [])
    · have hget : rc[rf + n]? = some (rc.getD (rf + n) []) := getElem?_getD _ (by omega)
      simp only [matVec_one hrow, Option.bind_some, List.getElem?_cons_zero, setAt_tl _ _ (show n + 1 < L by omega),
        uadd_fits dbg (show rf + n < 2 ^ 64 by omega), hget, addTail, List.length_singleton, Nat.sub_self,
        List.range'_zero, List.foldlM_nil, Option.pure_def, Option.bind_eq_bind]
      obtain ⟨i1, i2⟩ := ih (Function.update f (n + 1) [b * vec (rc.getD (rf + (n + 1)) []) 0]) (by omega) (by omega)
        (by omega)
      constructor
      · intro h
        apply i1
        intro h'
        apply h
        intro i h1 h2
        rcases Nat.lt_or_eq_of_le h2 with h3 | rfl
        · exact h' i h1 (by omega)
        · exact hrow
      · intro h
        rw [i2 fun i h1 h2 => h i h1 (by omega), Option.some.injEq, Prod.mk.injEq]
        refine ⟨tl_congr fun i hi => ?_, rfl⟩
        by_cases hi1 : i = n + 1
        · subst hi1
          rw [if_neg (by omega), if_pos (by omega), Function.update_self]
          rfl
        · rw [Function.update_of_ne hi1]
          by_cases h0 : 0 < i ∧ i ≤ n
          · rw [if_pos h0, if_pos (by omega)]
          · rw [if_neg h0, if_neg (by omega)]
    · simp only [matVec_one_bad hrow, Option.bind_none, Option.bind_eq_bind]
      exact ⟨fun _ => trivial, fun h => absurd (h (n + 1) (by omega) (le_refl _)) hrow⟩

end EquivAppend

/-- **C91**, matrices of one row `[a]`: Poseidon's function returns exactly if `a` is nonzero, the rows of constants of
the partial rounds exist and all but the first of them have at most one entry (in debug builds exactly one); the
result is then the first of these rows followed by the constants of the other rounds divided by `a`. -/
theorem C91_width_one (dbg : Bool) (rc : List (List F)) (a : F) (rf R : Nat) (hR : 0 < R) (hfit : rf + R < 2 ^ 64) :
    ((∃ opt, PoseidonParams.equivalentRoundConstants dbg rc [[a]] rf R = some opt) ↔
      a ≠ 0 ∧ rf + R ≤ rc.length ∧
      ∀ r, rf < r → r < rf + R → (rc.getD r []).length ≤ 1 ∧ (dbg = true → (rc.getD r []).length = 1)) ∧
    ∀ opt, PoseidonParams.equivalentRoundConstants dbg rc [[a]] rf R = some opt →
      opt.length = R ∧ opt.getD 0 [] = rc.getD rf [] ∧
      ∀ r, 0 < r → r < R → opt.getD r [] = [tab rc (rf + r) 0 / a] := by
  obtain ⟨n, rfl⟩ : ∃ n, R = n + 1 := ⟨R - 1, by omega⟩
  have hrows : ([[a]] : List (List F)) = rowsOf (Matrix.of fun _ _ : Fin 1 => a) := by simp [rowsOf]
  have key : PoseidonParams.equivalentRoundConstants dbg rc [[a]] rf (n + 1) =
      if a = 0 then none else (rc[rf + n]?).bind fun tmp =>
        (((List.range n).reverse).foldlM (Poseidon2Params.equivStep dbg rc [[a⁻¹]] rf)
          (tl (n + 1) fun _ => [], tmp)).bind fun st => setAt st.1 0 st.2 := by
    unfold PoseidonParams.equivalentRoundConstants
    have hsum : rf + (n + 1) = rf + n + 1 := by omega
    by_cases ha : a = 0
    · rw [if_pos ha, hrows, PoseidonParams.matInverse_bad dbg _ (fun h => h 0 (by omega) (by simp [leadingMinor, ha]))]
      rfl
    · have hgm : PoseidonParams.GoodMinors (Matrix.of fun _ _ : Fin 1 => a) := by
        intro k hk
        obtain rfl : k = 0 := by omega
        simpa [leadingMinor] using ha
      have hi : rowsOf (Matrix.of fun _ _ : Fin 1 => a)⁻¹ = [[a⁻¹]] := by
        simp [rowsOf, Ring.inverse_eq_inv']
      rw [if_neg ha, hrows, PoseidonParams.matInverse_good dbg _ (by omega) hgm, hi]
      simp only [Option.bind_eq_bind, Option.bind_some, uadd_fits dbg hfit, hsum, PoseidonParams.usub_succ,
        replicate_eq_tl]
  rw [key]
  by_cases ha : a = 0
  · simp [ha]
  rw [if_neg ha]
  by_cases hlen : rf + n < rc.length
  swap
  · rw [List.getElem?_eq_none (by omega)]
    simp only [Option.bind_none, reduceCtorEq, exists_false, false_iff, IsEmpty.forall_iff, implies_true, and_true]
    rintro ⟨-, h, -⟩
    omega
  rw [getElem?_getD [] hlen, Option.bind_some]
  obtain ⟨l1, l2⟩ := EquivAppend.loop_one (dbg := dbg) (rc := rc) (b := a⁻¹) (rf := rf) (n + 1) n (fun _ => []) hlen
    (by omega) (le_refl _)
  have hiff : (∀ i, 0 < i → i ≤ n → EquivAppend.RowOk dbg (rc.getD (rf + i) [])) ↔
      ∀ r, rf < r → r < rf + (n + 1) → (rc.getD r []).length ≤ 1 ∧ (dbg = true → (rc.getD r []).length = 1) := by
    constructor
    · intro h r h1 h2
      obtain ⟨i, rfl⟩ : ∃ i, r = rf + i := ⟨r - rf, by omega⟩
      exact h i (by omega) (by omega)
    · intro h i h1 h2
      exact h _ (by omega) (by omega)
  by_cases hok : ∀ i, 0 < i → i ≤ n → EquivAppend.RowOk dbg (rc.getD (rf + i) [])
  · rw [l2 hok, Option.bind_some, setAt_tl _ _ (by omega)]
    refine ⟨⟨fun _ => ⟨ha, by omega, hiff.mp hok⟩, fun _ => ⟨_, rfl⟩⟩, ?_⟩
    rintro opt ⟨⟩
    refine ⟨by simp, ?_, fun r h0 h1 => ?_⟩
    · rw [List.getD_eq_getElem?_getD, tl_get _ (by omega), Function.update_self]; rfl
    · rw [List.getD_eq_getElem?_getD, tl_get _ (by omega), Function.update_of_ne (by omega), if_pos (by omega)]
      simp [div_eq_inv_mul]
  · rw [l1 hok]
    simp only [Option.bind_none, reduceCtorEq, exists_false, false_iff, IsEmpty.forall_iff, implies_true, and_true]
    rintro ⟨-, -, h⟩
    exact hok (hiff.mpr h)

/-- **C91**: without a row in the matrix both functions panic. -/
theorem C91_no_matrix (dbg : Bool) (rc : List (List F)) (rf R : Nat) :
    PoseidonParams.equivalentRoundConstants dbg rc [] rf R = none ∧
    Poseidon2Params.equivalentRoundConstants dbg rc [] rf R = none := by
  have h : Utils.matInverse dbg ([] : List (List F)) = none := by
    rw [Option.eq_none_iff_forall_ne_some]
    intro B hB
    have := (C76_matInverse_returns_iff dbg []).mp ⟨B, hB⟩
    simp at this
  constructor
  · unfold PoseidonParams.equivalentRoundConstants
    rw [h]; rfl
  · unfold Poseidon2Params.equivalentRoundConstants
    rw [h]
    cases uadd dbg R 1 <;> rfl

/-- **C91**: without partial rounds both functions panic. -/
theorem C91_no_rounds (dbg : Bool) (rc mat : List (List F)) (rf : Nat) :
    PoseidonParams.equivalentRoundConstants dbg rc mat rf 0 = none ∧
    Poseidon2Params.equivalentRoundConstants dbg rc mat rf 0 = none :=
  ⟨Poseidon.equivalentRoundConstants_zero dbg rc mat rf, C11_no_partial_rounds dbg rc mat rf⟩

end

/-! ## Examples -/

private instance : Fact (Nat.Prime 7) := ⟨by decide⟩

/-- The matrix `[[2, 1], [1, 3]]` over the field of 7 elements with one surplus zero in the second row, and rows of
constants of lengths 0, 3, 2, 1: the release build of Poseidon2's function accepts them (partial rounds 1, 2, 3). -/
example : (Poseidon2Params.equivalentRoundConstants false
    ([[], [1, 2, 6], [3, 4], [5]] : List (List (ZMod 7))) [[2, 1], [1, 3, 0]] 1 3).map (·.map List.length) =
    some [3, 1, 1, 3] := by
  decide +kernel

/-- The debug build does not. -/
example : Poseidon2Params.equivalentRoundConstants true
    ([[], [1, 2, 6], [3, 4], [5]] : List (List (ZMod 7))) [[2, 1], [1, 3, 0]] 1 3 = none := by
  decide +kernel

/-- A matrix of one row, over the field of 7 elements. -/
example : PoseidonParams.equivalentRoundConstants true ([[1, 2], [3], [5]] : List (List (ZMod 7))) [[2]] 0 3 =
    some [[1, 2], [5], [6]] := by
  decide +kernel

end ZkHash

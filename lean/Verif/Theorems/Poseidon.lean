import Verif.Proofs.PoseidonOpt
import Verif.Proofs.Bijective

set_option autoImplicit false

/-!
# Properties of Poseidon and of the equivalent round constants (C11-C16, C18)
-/

namespace ZkHash

open Spec Matrix

set_option linter.unusedSectionVars false

namespace Poseidon

theorem foldlM_reverse_range_first {σ : Type _} (f : σ → Nat → Option σ) (n : Nat) (hn : 0 < n) (s : σ)
    (h : f s (n - 1) = none) : ((List.range n).reverse).foldlM f s = none := by
  obtain ⟨m, rfl⟩ : ∃ m, n = m + 1 := ⟨n - 1, by omega⟩
  rw [List.range_succ, List.reverse_append, List.reverse_singleton, List.singleton_append, List.foldlM_cons]
  rw [Nat.add_sub_cancel] at h
  rw [h]
  rfl

theorem usub_zero_one : ∃ n, 0 < n ∧ usub false 0 1 = some n :=
  ⟨usizeSize - 1, by unfold usizeSize; omega, by
    unfold usub
    rw [if_neg (by omega), if_neg (by decide), Nat.zero_add]⟩

theorem bind_none_fun {α β : Type _} (o : Option α) : (o.bind fun _ => (none : Option β)) = none := by
  cases o <;> rfl

section
variable {F : Type _} [Field F] [DecidableEq F]

theorem equivStep_oob (dbg : Bool) (rc minv : List (List F)) (rf : Nat) (st : List (List F) × List F) (i : Nat)
    (h : st.1.length ≤ i + 1) : Poseidon2Params.equivStep dbg rc minv rf st i = none := by
  unfold Poseidon2Params.equivStep
  have : ∀ c0, setAt st.1 (i + 1) [c0] = none := fun c0 => by
    unfold setAt; rw [if_neg (by omega)]
  simp only [this, Option.bind_eq_bind, Option.bind_none, bind_none_fun]

theorem equivalentRoundConstants_zero (dbg : Bool) (rc mds : List (List F)) (rf : Nat) :
    PoseidonParams.equivalentRoundConstants dbg rc mds rf 0 = none := by
  unfold PoseidonParams.equivalentRoundConstants
  cases dbg
  · obtain ⟨n, hn, h⟩ := Poseidon.usub_zero_one
    have h2 : ∀ minv tmp, ((List.range n).reverse).foldlM
        (Poseidon2Params.equivStep false rc minv rf) ((List.replicate 0 [] : List (List F)), tmp) = none := by
      intro minv tmp
      apply foldlM_reverse_range_first _ _ hn
      apply equivStep_oob
      simp only [List.length_replicate]
      omega
    have h3 : uadd false 0 1 = some (0 + 1) := uadd_fits false (by norm_num)
    simp only [h, h3, h2, Option.bind_eq_bind, Option.bind_some, Option.bind_none, bind_none_fun]
  · have h : usub true 0 1 = none := by rfl
    simp only [h, Option.bind_eq_bind, Option.bind_none, bind_none_fun]

end

end Poseidon

section
variable {F : Type _} [Field F] [DecidableEq F]

/-- **C15.** The constructor's guards, for arbitrary tables and both profiles: it panics on a degree other than 3, 5, 7,
on a matrix with a number of rows different from `t`, on an odd number of full rounds, without partial rounds, and for
`t ≤ 1`. -/
theorem C15_new_panics (dbg : Bool) (t d rounds_f rounds_p : Nat) (mds rc : List (List F))
    (h : (d ≠ 3 ∧ d ≠ 5 ∧ d ≠ 7) ∨ mds.length ≠ t ∨ rounds_f % 2 = 1 ∨ rounds_p = 0 ∨ t ≤ 1) :
    PoseidonParams.new dbg t d rounds_f rounds_p mds rc = none := by
  unfold PoseidonParams.new
  by_cases h1 : (d == 3 || d == 5 || d == 7) = true
  swap
  · simp [assertThat, h1]
  by_cases h2 : (mds.length == t) = true
  swap
  · simp [assertThat, h2, Poseidon.bind_none_fun]
  by_cases h3 : (rounds_f % 2 == 0) = true
  swap
  · simp [assertThat, h3, Poseidon.bind_none_fun]
  simp only [assertThat, h1, h2, h3, if_true, Option.bind_eq_bind, Option.bind_some]
  simp only [Bool.or_eq_true, beq_iff_eq] at h1 h2 h3
  rcases Nat.eq_zero_or_pos rounds_p with hp | hp
  · subst hp
    simp only [Poseidon.equivalentRoundConstants_zero, Option.bind_none, Poseidon.bind_none_fun]
  have ht : t ≤ 1 := by omega
  have hm : PoseidonParams.equivalentMatrices dbg mds t rounds_p = none := by
    unfold PoseidonParams.equivalentMatrices
    rcases Nat.eq_zero_or_pos t with h0 | h0
    · have : mds = [] := by
        rw [← List.length_eq_zero_iff]; omega
      subst this
      simp [Utils.matTranspose]
    · have h1 : t = 1 := by omega
      subst h1
      obtain ⟨R, rfl⟩ : ∃ R, rounds_p = R + 1 := ⟨rounds_p - 1, by omega⟩
      have hstep : ∀ mds_ (st : PoseidonParams.EqState F), PoseidonParams.equivMatStep dbg 1 mds_ st = none := by
        intro mds_ st
        unfold PoseidonParams.equivMatStep
        have e1 : usub dbg 1 1 = some 0 := PoseidonParams.usub_succ dbg 0
        have e2 : ∀ m_mul : List (List F), PoseidonParams.fillHat 1 m_mul ([], []) = some ([], []) := by
          intro m; simp [PoseidonParams.fillHat]
        simp only [e1, Option.bind_eq_bind, Option.bind_some, List.replicate_zero, e2]
        have e3 : Utils.matInverse dbg ([] : List (List F)) = none := by simp [Utils.matInverse]
        simp only [e3, Option.bind_none, Poseidon.bind_none_fun]
      have hloop : ∀ mds_ (st : PoseidonParams.EqState F),
          (List.range (R + 1)).foldlM (fun st _ => PoseidonParams.equivMatStep dbg 1 mds_ st) st = none := by
        intro mds_ st
        rw [List.range_succ_eq_map, List.foldlM_cons, hstep]
        rfl
      simp only [hloop, Option.bind_eq_bind, Option.bind_none, Poseidon.bind_none_fun]
  simp only [hm, Option.bind_none, Poseidon.bind_none_fun]

/-- **C15**, singular matrix: the constructor panics. -/
theorem C15_new_singular (dbg : Bool) {t : Nat} (d rounds_f rounds_p : Nat) (M : Matrix (Fin t) (Fin t) F)
    (rc : List (List F)) (h : M.det = 0) :
    PoseidonParams.new dbg t d rounds_f rounds_p (rowsOf M) rc = none := by
  unfold PoseidonParams.new PoseidonParams.equivalentRoundConstants
  simp only [C28_matInverse_singular dbg M h, Option.bind_eq_bind, Option.bind_none, Poseidon.bind_none_fun]

/-- Constructor arguments of the right shape: enough rows of constants, all of width `t`; the number of rounds is a
`usize`. -/
structure PoseidonShaped (t rounds_f rounds_p : Nat) (rc : List (List F)) : Prop where
  rc_len : rounds_f + rounds_p ≤ rc.length
  rc_rows : ∀ row ∈ rc, row.length = t
  fits : rounds_f + rounds_p < 2 ^ 64

theorem Poseidon.new_args {dbg : Bool} {t d rounds_f rounds_p : Nat} {mds rc : List (List F)} {P : PoseidonParams F}
    (hP : PoseidonParams.new dbg t d rounds_f rounds_p mds rc = some P) :
    (d = 3 ∨ d = 5 ∨ d = 7) ∧ rounds_f % 2 = 0 ∧ 0 < rounds_p ∧ 2 ≤ t ∧ mds.length = t := by
  by_contra h
  rw [C15_new_panics dbg t d rounds_f rounds_p mds rc (by omega)] at hP
  cases hP

theorem Poseidon.new_fields {dbg : Bool} {t d rounds_f rounds_p : Nat} {mds rc : List (List F)} {P : PoseidonParams F}
    (hP : PoseidonParams.new dbg t d rounds_f rounds_p mds rc = some P) :
    P.t = t ∧ P.d = d ∧ P.rounds_f_beginning = rounds_f / 2 ∧ P.rounds_p = rounds_p ∧
      P.rounds = (rounds_f + rounds_p) % 2 ^ 64 ∧ P.mds = mds ∧ P.round_constants = rc := by
  unfold PoseidonParams.new at hP
  simp only [Option.bind_eq_bind, Option.bind_eq_some_iff] at hP
  obtain ⟨_, _, _, _, _, _, n, hn, m, _, opt, _, h⟩ := hP
  simp only [Option.pure_def, Option.some.injEq] at h
  rw [← h]
  exact ⟨rfl, rfl, rfl, rfl, (uadd_some_iff.mp hn).2, rfl, rfl⟩

/-- **C13.** The plain permutation computes the Poseidon specification, in both profiles. -/
theorem C13_plain_eq_spec {dbg : Bool} {t d rounds_f rounds_p : Nat} {M : Matrix (Fin t) (Fin t) F}
    {rc : List (List F)} {P : PoseidonParams F}
    (hP : PoseidonParams.new dbg t d rounds_f rounds_p (rowsOf M) rc = some P)
    (hs : PoseidonShaped t rounds_f rounds_p rc) (dbg' : Bool) (x : Fin t → F) :
    Poseidon.permutationNotOpt dbg' P (List.ofFn x) =
      some (List.ofFn (poseidon M d (rounds_f / 2) rounds_p (tab rc) x)) := by
  obtain ⟨hd, heven, hp, ht, -⟩ := Poseidon.new_args hP
  obtain ⟨h1, h2, h3, h4, h5, h6, h7⟩ := Poseidon.new_fields hP
  have hlen := hs.rc_len
  have hfit := hs.fits
  rw [Nat.mod_eq_of_lt hfit] at h5
  have hrow : ∀ r, r < rc.length → (rc.getD r []).length = t := by
    intro r hr
    apply hs.rc_rows
    rw [getD_getElem _ hr]
    exact List.getElem_mem hr
  rw [Poseidon.permutationNotOpt_cut (by omega) dbg' P M h1 h6 (by rw [h2]; exact hd) (rounds_f / 2) h3
    (by rw [h5, h4]; omega) (by rw [h4, h7]; omega) (by rw [h4]; omega)
    (fun _ r hr => by rw [h5] at hr; rw [h7, hrow r (by omega)])
    (fun r _ hr => by rw [h4] at hr; rw [h7, hrow r (by omega)]; omega) x]
  rw [Poseidon.poseidonCut_eq]
  · rw [h2, h4, h7]
  · intro r hr
    rw [h4] at hr
    rw [h7, hrow r (by omega)]

/-- **C12**, against the specification: the optimized permutation computes Poseidon. -/
theorem C12_permutation_eq_spec {dbg : Bool} {t d rounds_f rounds_p : Nat} {M : Matrix (Fin t) (Fin t) F}
    {rc : List (List F)} {P : PoseidonParams F}
    (hP : PoseidonParams.new dbg t d rounds_f rounds_p (rowsOf M) rc = some P)
    (hs : PoseidonShaped t rounds_f rounds_p rc) (dbg' : Bool) (x : Fin t → F) :
    Poseidon.permutation dbg' P (List.ofFn x) =
      some (List.ofFn (poseidon M d (rounds_f / 2) rounds_p (tab rc) x)) := by
  obtain ⟨hd, heven, hp, ht, -⟩ := Poseidon.new_args hP
  obtain ⟨s, rfl⟩ : ∃ s, t = s + 1 := ⟨t - 1, by omega⟩
  exact Poseidon.permutation_ofFn dbg dbg' (by omega) M rc hd heven hp hs.rc_len hs.fits hs.rc_rows hP x

/-- **C16.** A wrong input length panics, for every parameter value, in both functions. -/
theorem C16_wrong_length (dbg : Bool) (P : PoseidonParams F) (x : List F) (h : x.length ≠ P.t) :
    Poseidon.permutation dbg P x = none ∧ Poseidon.permutationNotOpt dbg P x = none := by
  constructor
  · simp [Poseidon.permutation, assertThat, h]
  · simp [Poseidon.permutationNotOpt, assertThat, h]

/-- **C12.** Whenever the constructor returns, the optimized and the plain permutation agree on every input (of any
length, in either profile). -/
theorem C12_optimized_eq_plain {dbg : Bool} {t d rounds_f rounds_p : Nat} {M : Matrix (Fin t) (Fin t) F}
    {rc : List (List F)} {P : PoseidonParams F}
    (hP : PoseidonParams.new dbg t d rounds_f rounds_p (rowsOf M) rc = some P)
    (hs : PoseidonShaped t rounds_f rounds_p rc) (dbg' : Bool) (x : List F) :
    Poseidon.permutation dbg' P x = Poseidon.permutationNotOpt dbg' P x := by
  by_cases hx : x.length = t
  · obtain ⟨x, rfl⟩ := eq_ofFn x hx
    rw [C12_permutation_eq_spec hP hs, C13_plain_eq_spec hP hs]
  · have ht := (Poseidon.new_fields hP).1
    have := C16_wrong_length dbg' P x (by rw [ht]; exact hx)
    rw [this.1, this.2]

theorem Poseidon.det_ne_zero {dbg : Bool} {t d rounds_f rounds_p : Nat} {M : Matrix (Fin t) (Fin t) F}
    {rc : List (List F)} {P : PoseidonParams F}
    (hP : PoseidonParams.new dbg t d rounds_f rounds_p (rowsOf M) rc = some P) : M.det ≠ 0 := by
  intro h
  rw [C15_new_singular dbg d rounds_f rounds_p M rc h] at hP
  cases hP

theorem poseidonPartial_bijective_iff [Fintype F] {t : Nat} (ht : 0 < t) (M : Matrix (Fin t) (Fin t) F) {d : Nat}
    (hd : d ≠ 0) (c : Fin t → F) :
    Function.Bijective (poseidonPartial M d c) ↔ M.det ≠ 0 ∧ Nat.Coprime d (Fintype.card F - 1) := by
  have : poseidonPartial M d c =
      M.mulVec ∘ fun (x : Fin t → F) i => if i.val = 0 then (x i + c i) ^ d else x i + c i := rfl
  rw [this, bijective_comp_iff, mulVec_bijective_iff,
    pi_bijective_iff (f := fun i y => if i.val = 0 then (y + c i) ^ d else y + c i)]
  constructor
  · rintro ⟨h1, h2⟩
    refine ⟨h1, ?_⟩
    have := h2 ⟨0, ht⟩
    simp only [if_true] at this
    rwa [addPow_bijective_iff, pow_bijective_iff hd] at this
  · rintro ⟨h1, h2⟩
    refine ⟨h1, fun i => ?_⟩
    by_cases hi : i.val = 0
    · simp only [hi, if_true]
      rwa [addPow_bijective_iff, pow_bijective_iff hd]
    · simp only [hi, if_false]
      exact (Equiv.addRight (c i)).bijective

theorem poseidon_bijective_iff [Fintype F] {t : Nat} (ht : 0 < t) (M : Matrix (Fin t) (Fin t) F) {d : Nat} (hd : d ≠ 0)
    (rf rp : Nat) (c : Nat → Nat → F) :
    Function.Bijective (poseidon M d rf rp c) ↔
      rf + rp = 0 ∨ (M.det ≠ 0 ∧ Nat.Coprime d (Fintype.card F - 1)) := by
  have : poseidon M d rf rp c =
      rounds (fun r => fullRound M d (fun i : Fin t => c r i)) (rf + rp) rf ∘
      rounds (fun r => poseidonPartial M d (fun i : Fin t => c r i)) rf rp ∘
      rounds (fun r => fullRound M d (fun i : Fin t => c r i)) 0 rf := rfl
  rw [this, bijective_comp_iff, bijective_comp_iff, rounds_bijective_iff, rounds_bijective_iff,
    rounds_bijective_iff]
  simp only [fullRound_bijective_iff ht M hd, poseidonPartial_bijective_iff ht M hd]
  constructor
  · rintro ⟨h1, h2, h3⟩
    rcases Nat.eq_zero_or_pos rf with h | h
    · rcases Nat.eq_zero_or_pos rp with h' | h'
      · left; omega
      · right; exact h2 rf (by omega) (by omega)
    · right; exact h3 0 (by omega) (by omega)
  · intro h
    exact ⟨fun r a b => h.resolve_left (by omega), fun r a b => h.resolve_left (by omega),
      fun r a b => h.resolve_left (by omega)⟩

/-- **C14.** If the constructor returns, the matrix is invertible, and the permutation is a bijection of the states of
width `t` exactly when the S-box is one. -/
theorem C14_bijective_iff [Fintype F] {dbg : Bool} {t d rounds_f rounds_p : Nat} {M : Matrix (Fin t) (Fin t) F}
    {rc : List (List F)} {P : PoseidonParams F}
    (hP : PoseidonParams.new dbg t d rounds_f rounds_p (rowsOf M) rc = some P)
    (hs : PoseidonShaped t rounds_f rounds_p rc) (dbg' : Bool) :
    M.det ≠ 0 ∧
    (IsPermutation t (Poseidon.permutation dbg' P) ↔ Nat.Coprime d (Fintype.card F - 1)) := by
  have hdet := Poseidon.det_ne_zero hP
  refine ⟨hdet, ?_⟩
  obtain ⟨hd, heven, hp, ht, -⟩ := Poseidon.new_args hP
  rw [isPermutation_iff (C12_permutation_eq_spec hP hs dbg'), poseidon_bijective_iff (by omega) M (by omega)]
  constructor
  · intro h; exact (h.resolve_left (by omega)).2
  · intro h; exact Or.inr ⟨hdet, h⟩

/-! ## Short rows of constants -/

theorem Poseidon.sbox_length {d : Nat} {x y : List F} (h : Poseidon.sbox d x = some y) : y.length = x.length := by
  unfold Poseidon.sbox at h
  induction x generalizing y with
  | nil => simp at h; rw [h]
  | cons a l ih =>
    rw [List.mapM_cons] at h
    simp only [Option.bind_eq_bind, Option.bind_eq_some_iff, Option.pure_def, Option.some.injEq] at h
    obtain ⟨_, _, l', hl, rfl⟩ := h
    simp [ih hl]

theorem Poseidon.matmul_length {dbg : Bool} {x y : List F} {mat : List (List F)}
    (h : Poseidon.matmul dbg x mat = some y) : y.length = mat.length := by
  unfold Poseidon.matmul at h
  simp only [Option.bind_eq_bind, Option.bind_eq_some_iff] at h
  obtain ⟨_, _, h⟩ := h
  refine foldlM_inv _ (fun s : List F => s.length = mat.length) (List.range mat.length) ?_
    (List.replicate mat.length 0) y (by simp) h
  intro s i s' _ hs h'
  refine foldlM_inv _ (fun s : List F => s.length = mat.length) _ ?_ s s' hs h'
  intro s i s' _ hs h'
  simp only [Option.bind_eq_some_iff] at h'
  obtain ⟨_, _, _, _, h'⟩ := h'
  rw [setAt_length h', hs]

theorem Poseidon.matmul_debug_none {x : List F} {mat : List (List F)} (h : x.length ≠ mat.length) :
    Poseidon.matmul true x mat = none := by
  have : mat.length ≠ x.length := Ne.symm h
  simp [Poseidon.matmul, debugAssert, this]

/-- **C18**, debug builds: a reached row of constants that is missing or shorter than `t` makes the plain permutation
panic on every input. -/
theorem C18_short_row_debug (P : PoseidonParams F) (hm : P.mds.length = P.t) (r : Nat)
    (hr : r < P.rounds_f_beginning + P.rounds_p ∨ (P.rounds_f_beginning + P.rounds_p ≤ r ∧ r < P.rounds))
    (hshort : (P.round_constants.getD r []).length < P.t) (x : List F) :
    Poseidon.permutationNotOpt true P x = none := by
  have hadd : ∀ s row : List F, (Poseidon.addRc s row).length ≤ row.length := by
    intro s row; unfold Poseidon.addRc; simp
  have hF : ∀ s : List F, Poseidon.fullRound true P s r = none := by
    intro s
    unfold Poseidon.fullRound
    cases hrow : P.round_constants[r]? with
    | none => rfl
    | some row =>
      have : P.round_constants.getD r [] = row := by simp [List.getD_eq_getElem?_getD, hrow]
      rw [this] at hshort
      simp only [Option.bind_eq_bind, Option.bind_some]
      cases hs : Poseidon.sbox P.d (Poseidon.addRc s row) with
      | none => rfl
      | some y =>
        rw [Option.bind_some]
        apply Poseidon.matmul_debug_none
        have := Poseidon.sbox_length hs
        have := hadd s row
        omega
  have hPart : ∀ s : List F, Poseidon.partialRound true P s r = none := by
    intro s
    unfold Poseidon.partialRound
    cases hrow : P.round_constants[r]? with
    | none => rfl
    | some row =>
      have : P.round_constants.getD r [] = row := by simp [List.getD_eq_getElem?_getD, hrow]
      rw [this] at hshort
      simp only [Option.bind_eq_bind, Option.bind_some]
      cases h0 : (Poseidon.addRc s row)[0]? with
      | none => rfl
      | some x0 =>
        rw [Option.bind_some]
        cases h1 : Poseidon.sboxP P.d x0 with
        | none => rfl
        | some y0 =>
          rw [Option.bind_some]
          cases h2 : setAt (Poseidon.addRc s row) 0 y0 with
          | none => rfl
          | some z =>
            rw [Option.bind_some]
            apply Poseidon.matmul_debug_none
            have := setAt_length h2
            have := hadd s row
            omega
  unfold Poseidon.permutationNotOpt
  simp only [Option.bind_eq_bind]
  have hnF : ∀ l : List Nat, r ∈ l → ∀ s, l.foldlM (Poseidon.fullRound true P) s = none := fun l hl s =>
    foldlM_none_of_mem _ (fun _ => True) l r hl (fun _ _ _ _ _ _ => trivial) (fun s _ => hF s) s trivial
  have hnP : ∀ l : List Nat, r ∈ l → ∀ s, l.foldlM (Poseidon.partialRound true P) s = none := fun l hl s =>
    foldlM_none_of_mem _ (fun _ => True) l r hl (fun _ _ _ _ _ _ => trivial) (fun s _ => hPart s) s trivial
  have hadd : ∀ k : Nat → Option (List F), (P.rounds_f_beginning + P.rounds_p < 2 ^ 64 →
      k (P.rounds_f_beginning + P.rounds_p) = none) →
      (uadd true P.rounds_f_beginning P.rounds_p).bind k = none := by
    intro k hk
    by_cases hf : P.rounds_f_beginning + P.rounds_p < 2 ^ 64
    · rw [uadd_fits true hf, Option.bind_some, hk hf]
    · rw [uadd_debug (by omega), Option.bind_none]
  rcases hr with h | ⟨h1, h2⟩
  · by_cases hb : r < P.rounds_f_beginning
    · simp only [hnF (List.range P.rounds_f_beginning) (List.mem_range.mpr hb), Option.bind_none,
        Poseidon.bind_none_fun]
    · have : r ∈ List.range' P.rounds_f_beginning (P.rounds_f_beginning + P.rounds_p - P.rounds_f_beginning) := by
        rw [List.mem_range'_1]; omega
      have e : ∀ s, ((uadd true P.rounds_f_beginning P.rounds_p).bind fun p_end =>
          (List.foldlM (Poseidon.partialRound true P) s
            (List.range' P.rounds_f_beginning (p_end - P.rounds_f_beginning))).bind fun s =>
          List.foldlM (Poseidon.fullRound true P) s (List.range' p_end (P.rounds - p_end))) = none := by
        intro s
        apply hadd
        intro _
        rw [hnP _ this, Option.bind_none]
      simp only [e, Poseidon.bind_none_fun]
  · have : r ∈ List.range' (P.rounds_f_beginning + P.rounds_p) (P.rounds - (P.rounds_f_beginning + P.rounds_p)) := by
      rw [List.mem_range'_1]; omega
    have e : ∀ s, ((uadd true P.rounds_f_beginning P.rounds_p).bind fun p_end =>
        (List.foldlM (Poseidon.partialRound true P) s
          (List.range' P.rounds_f_beginning (p_end - P.rounds_f_beginning))).bind fun s =>
        List.foldlM (Poseidon.fullRound true P) s (List.range' p_end (P.rounds - p_end))) = none := by
      intro s
      apply hadd
      intro _
      simp only [hnF _ this, Poseidon.bind_none_fun]
    simp only [e, Poseidon.bind_none_fun]

/-- **C18**, release builds: whatever the lengths of the rows (non-empty in partial rounds), the plain permutation
returns a full-width state: in every round the positions without a constant are replaced by zero. -/
theorem C18_short_row_release {t : Nat} (ht : 0 < t) (P : PoseidonParams F) (M : Matrix (Fin t) (Fin t) F)
    (hPt : P.t = t) (hM : P.mds = rowsOf M) (hd : P.d = 3 ∨ P.d = 5 ∨ P.d = 7) (rf : Nat)
    (hb : P.rounds_f_beginning = rf) (hr : P.rounds = rf + P.rounds_p + rf)
    (hlen : rf + P.rounds_p + rf ≤ P.round_constants.length) (hfit : rf + P.rounds_p < 2 ^ 64)
    (hne : ∀ r, rf ≤ r → r < rf + P.rounds_p → 1 ≤ (P.round_constants.getD r []).length) (x : Fin t → F) :
    Poseidon.permutationNotOpt false P (List.ofFn x) =
      some (List.ofFn (poseidonCut M P.d rf P.rounds_p (fun r => (P.round_constants.getD r []).length)
        (tab P.round_constants) x)) :=
  Poseidon.permutationNotOpt_cut ht false P M hPt hM hd rf hb hr hlen hfit (by simp) hne x

/-! ## Poseidon2's equivalent round constants -/

/-- **C11.** If `Poseidon2Params::equivalent_round_constants` returns `opt`, then adding row 0 of `opt` once and the
single scalar `opt[r+1][0]` after the S-box of partial round `r` is the same, on every state, as adding the full row
`rc[rf + r]` before the S-box of every partial round `r`. `opt` has `rounds_p + 1` rows; row 0 and the last row (zero)
have width `t` and the rows between have width 1. -/
theorem C11_equivalent_round_constants (dbg : Bool) {t : Nat} (ht : 0 < t) (rc : List (List F))
    (M : Matrix (Fin t) (Fin t) F) (d rf R : Nat) (hR : 0 < R) (hlen : rf + R ≤ rc.length) (hfit : rf + R + 1 < 2 ^ 64)
    (hrow : ∀ row ∈ rc, row.length = t) (opt : List (List F))
    (hopt : Poseidon2Params.equivalentRoundConstants dbg rc (rowsOf M) rf R = some opt) :
    (opt.length = R + 1 ∧ (opt.getD 0 []).length = t ∧ (∀ r, 0 < r → r < R → (opt.getD r []).length = 1) ∧
      opt.getD R [] = List.replicate t 0) ∧
    ∀ x : Fin t → F,
      rounds (fun r y => M *ᵥ fun i => if i.val = 0 then y i ^ d + tab opt (r + 1) 0 else y i) 0 R
        (fun i => x i + tab opt 0 i) =
      rounds (fun r => poseidonPartial M d fun i => tab rc (rf + r) i) 0 R x := by
  have hm : PoseidonParams.GoodMinors M := by
    by_contra hm
    simp only [Poseidon2Params.equivalentRoundConstants, PoseidonParams.matInverse_bad dbg M hm, Option.bind_eq_bind,
      Option.bind_none, Poseidon.bind_none_fun] at hopt
    cases hopt
  rw [Poseidon2Params.equivalentRoundConstants_good ht dbg rc M hm rf hR hlen (by omega) (by omega) hrow, Option.some.injEq] at hopt
  let T := PoseidonParams.tSeq M⁻¹ (tab rc) rf R
  have hg : ∀ r, r < R + 1 → opt.getD r [] =
      if r = 0 then List.ofFn (T 0) else if r < R then [(M⁻¹ *ᵥ T r) ⟨0, ht⟩] else List.replicate t 0 := by
    intro r hr
    rw [← hopt, List.getD_eq_getElem?_getD, tl_get _ hr]
    rfl
  refine ⟨⟨by rw [← hopt]; simp, by rw [hg 0 (by omega)]; simp, fun r h0 h1 => ?_, ?_⟩, fun x => ?_⟩
  · rw [hg r (by omega), if_neg (by omega), if_pos h1]; rfl
  · rw [hg R (by omega), if_neg (by omega), if_neg (by omega)]
  · have hc : ∀ r, r < R → tab opt (r + 1) 0 = (M⁻¹ *ᵥ T (r + 1)) ⟨0, ht⟩ := by
      intro r hr
      unfold tab
      rw [hg (r + 1) (by omega), if_neg (by omega)]
      by_cases h : r + 1 < R
      · rw [if_pos h]; rfl
      · have e : r + 1 = R := by omega
        have eT : T R = 0 := PoseidonParams.tSeq_last _ _ _ _
        rw [if_neg h, e, eT]
        simp [List.getD_eq_getElem?_getD, List.getElem?_replicate, ht]
    have e2 := PoseidonParams.consts_equiv M d (fun r i => tab rc (rf + r) i) T (fun r => M⁻¹ *ᵥ T r)
      (fun r => tab opt (r + 1) 0) R
      (fun r hr i => PoseidonParams.tSeq_step _ _ _ _ _ hr i)
      (fun r hr => by
        rw [Matrix.mulVec_mulVec, Matrix.mul_nonsing_inv _ (isUnit_iff_ne_zero.mpr (hm.det_ne_zero ht)),
          Matrix.one_mulVec])
      (fun r hr i hi => by
        have : i = ⟨0, ht⟩ := Fin.ext hi
        rw [this]; exact hc r hr)
      x R (le_refl _)
    have e0 : (fun i : Fin t => x i + tab opt 0 i) = x + T 0 := by
      funext i
      unfold tab
      rw [hg 0 (by omega), if_pos rfl]
      simp
    rw [e0]
    have eT : T R = 0 := PoseidonParams.tSeq_last _ _ _ _
    rw [eT, add_zero] at e2
    exact e2

/-- **C11**: it returns exactly when elimination without pivoting succeeds on the matrix. -/
theorem C11_equivalent_round_constants_returns_iff (dbg : Bool) {t : Nat} (ht : 0 < t) (rc : List (List F))
    (M : Matrix (Fin t) (Fin t) F) (rf R : Nat) (hR : 0 < R) (hlen : rf + R ≤ rc.length) (hfit : rf + R + 1 < 2 ^ 64)
    (hrow : ∀ row ∈ rc, row.length = t) :
    (∃ opt, Poseidon2Params.equivalentRoundConstants dbg rc (rowsOf M) rf R = some opt) ↔
      ∀ k, ∀ hk : k < t, leadingMinor M (k + 1) hk ≠ 0 := by
  constructor
  · rintro ⟨opt, h⟩
    by_contra hm
    simp only [Poseidon2Params.equivalentRoundConstants, PoseidonParams.matInverse_bad dbg M hm, Option.bind_eq_bind,
      Option.bind_none, Poseidon.bind_none_fun] at h
    cases h
  · intro hm
    exact ⟨_, Poseidon2Params.equivalentRoundConstants_good ht dbg rc M hm rf hR hlen (by omega) (by omega) hrow⟩

/-- **C11**: without partial rounds it panics, in both profiles. -/
theorem C11_no_partial_rounds (dbg : Bool) (rc mat : List (List F)) (rf : Nat) :
    Poseidon2Params.equivalentRoundConstants dbg rc mat rf 0 = none := by
  unfold Poseidon2Params.equivalentRoundConstants
  cases dbg
  · obtain ⟨n, hn, h⟩ := Poseidon.usub_zero_one
    have h2 : ∀ minv tmp, ((List.range n).reverse).foldlM
        (Poseidon2Params.equivStep false rc minv rf) ((List.replicate (0 + 1) [] : List (List F)), tmp) = none := by
      intro minv tmp
      apply Poseidon.foldlM_reverse_range_first _ _ hn
      apply Poseidon.equivStep_oob
      simp only [List.length_replicate]
      omega
    have h3 : uadd false 0 1 = some (0 + 1) := uadd_fits false (by norm_num)
    simp only [h, h3, h2, Option.bind_eq_bind, Option.bind_some, Option.bind_none, Poseidon.bind_none_fun]
  · have h : usub true 0 1 = none := by rfl
    simp only [h, Option.bind_eq_bind, Option.bind_none, Poseidon.bind_none_fun]

end

/-! ## When the constructor returns -/

namespace PoseidonParams

variable {F : Type _} [Field F] [DecidableEq F]

theorem leadingMinor_transpose {n : Nat} (A : Matrix (Fin n) (Fin n) F) (k : Nat) (hk : k ≤ n) :
    leadingMinor Aᵀ k hk = leadingMinor A k hk := by
  unfold leadingMinor
  rw [← Matrix.det_transpose]
  rfl

theorem block_pow {s : Nat} (M : Matrix (Fin (s + 1)) (Fin (s + 1)) F) (k : Nat) :
    (dSeq M k * M).submatrix Fin.succ Fin.succ = (M.submatrix Fin.succ Fin.succ) ^ (k + 1) := by
  induction k with
  | zero => simp [dSeq]
  | succ k ih =>
    rw [pow_succ, ← ih]
    ext i j
    simp only [Matrix.submatrix_apply, Matrix.mul_apply, dSeq, hatM, Matrix.of_apply]
    rw [Fin.sum_univ_succ]
    simp

theorem goodBlocks_iff {s : Nat} (M : Matrix (Fin (s + 1)) (Fin (s + 1)) F) (R : Nat) :
    GoodBlocks M R ↔ ∀ n, 1 ≤ n → n ≤ R → ∀ k, ∀ hk : k < s,
      leadingMinor ((M.submatrix Fin.succ Fin.succ) ^ n) (k + 1) hk ≠ 0 := by
  unfold GoodBlocks GoodMinors
  have e : ∀ k, ((dSeq M k * M)ᵀ).submatrix Fin.succ Fin.succ = ((M.submatrix Fin.succ Fin.succ) ^ (k + 1))ᵀ := by
    intro k
    rw [← block_pow]
    rfl
  simp only [e, leadingMinor_transpose]
  constructor
  · intro h n h1 h2 k hk
    have := h (n - 1) (by omega) k hk
    rwa [Nat.sub_add_cancel h1] at this
  · intro h k hk j hj
    exact h (k + 1) (by omega) (by omega) j hj

end PoseidonParams

/-- **C15**, complete: on tables of the right shape (`t = s + 1 ≥ 2`), the constructor returns exactly when the degree
is 3, 5 or 7, the number of full rounds is even, there is a partial round, all leading minors of the matrix are
nonzero, and so are all leading minors of the first `rounds_p` powers of its lower-right block. -/
theorem C15_new_returns_iff {F : Type _} [Field F] [DecidableEq F] (dbg : Bool) {s : Nat} (hs : 0 < s)
    (d rounds_f rounds_p : Nat) (M : Matrix (Fin (s + 1)) (Fin (s + 1)) F) (rc : List (List F))
    (hsh : PoseidonShaped (s + 1) rounds_f rounds_p rc) :
    (∃ P, PoseidonParams.new dbg (s + 1) d rounds_f rounds_p (rowsOf M) rc = some P) ↔
      (d = 3 ∨ d = 5 ∨ d = 7) ∧ rounds_f % 2 = 0 ∧ 0 < rounds_p ∧
      (∀ k, ∀ hk : k < s + 1, leadingMinor M (k + 1) hk ≠ 0) ∧
      (∀ n, 1 ≤ n → n ≤ rounds_p → ∀ k, ∀ hk : k < s,
        leadingMinor ((M.submatrix Fin.succ Fin.succ) ^ n) (k + 1) hk ≠ 0) := by
  rw [← PoseidonParams.goodBlocks_iff]
  have hlen := hsh.rc_len
  constructor
  · rintro ⟨P, hP⟩
    obtain ⟨hd, heven, hp, -, -⟩ := Poseidon.new_args hP
    have h := Poseidon.new_eq dbg hs M rc hd heven hp (by omega) hsh.fits hsh.rc_rows
    by_cases hg : PoseidonParams.GoodBlocks M rounds_p ∧ PoseidonParams.GoodMinors M
    · exact ⟨hd, heven, hp, hg.2, hg.1⟩
    · rw [h.1 hg] at hP; cases hP
  · rintro ⟨hd, heven, hp, hm, hb⟩
    have h := Poseidon.new_eq dbg hs M rc hd heven hp (by omega) hsh.fits hsh.rc_rows
    exact ⟨_, h.2 ⟨hb, hm⟩⟩

/-! ## Concrete cases -/

section examples

private instance : Fact (Nat.Prime 11) := ⟨by decide⟩

/-- A 3x3 matrix over the field with 11 elements. -/
def exM : Matrix (Fin 3) (Fin 3) (ZMod 11) := !![2, 1, 1; 1, 2, 1; 1, 1, 3]
/-- Constants for `rounds_f = 2`, `rounds_p = 2`. -/
def exRc3 : List (List (ZMod 11)) := [[1, 2, 3], [4, 5, 6], [7, 8, 9], [10, 0, 1]]

theorem ex_shaped : PoseidonShaped 3 2 2 exRc3 := ⟨by decide, by decide, by norm_num⟩

/-- Witness for C12, C13, C14: the constructor returns on a concrete parameter set with two partial rounds. -/
theorem ex_new (dbg : Bool) : ∃ P, PoseidonParams.new dbg 3 3 2 2 (rowsOf exM) exRc3 = some P := by
  rw [C15_new_returns_iff dbg (s := 2) (by decide) 3 2 2 exM exRc3 ex_shaped]
  refine ⟨by decide, by decide, by decide, ?_, ?_⟩
  · unfold leadingMinor exM; decide +kernel
  · intro n h1 h2
    have : n = 1 ∨ n = 2 := by omega
    rcases this with rfl | rfl
    · unfold leadingMinor exM; decide +kernel
    · unfold leadingMinor exM; decide +kernel

/-- Both sides of C14 hold for it: `gcd(3, 10) = 1`. -/
example : ∃ P, PoseidonParams.new true 3 3 2 2 (rowsOf exM) exRc3 = some P ∧
    IsPermutation 3 (Poseidon.permutation true P) := by
  obtain ⟨P, hP⟩ := ex_new true
  exact ⟨P, hP, (C14_bijective_iff hP ex_shaped true).2.mpr (by decide)⟩

/-- With degree 5 the same parameters are accepted, but the permutation is not a bijection: `gcd(5, 10) = 5`. -/
example : ∃ P, PoseidonParams.new true 3 5 2 2 (rowsOf exM) exRc3 = some P ∧
    ¬IsPermutation 3 (Poseidon.permutation true P) := by
  have : ∃ P, PoseidonParams.new true 3 5 2 2 (rowsOf exM) exRc3 = some P := by
    have h := (C15_new_returns_iff true (s := 2) (by decide) 3 2 2 exM exRc3 ex_shaped).mp (ex_new true)
    exact (C15_new_returns_iff true (s := 2) (by decide) 5 2 2 exM exRc3 ex_shaped).mpr
      ⟨by decide, h.2.1, h.2.2.1, h.2.2.2.1, h.2.2.2.2⟩
  obtain ⟨P, hP⟩ := this
  refine ⟨P, hP, fun h => ?_⟩
  have := (C14_bijective_iff hP ex_shaped true).2.mp h
  revert this
  decide

/-- C15: an invertible matrix with the swap block is rejected (its second power has fine minors, its first has not). -/
example (dbg : Bool) : PoseidonParams.new dbg 3 3 2 2
    (rowsOf !![(1 : ZMod 11), 0, 0; 0, 0, 1; 0, 1, 0]) exRc3 = none := by
  by_contra h
  obtain ⟨P, hP⟩ := Option.ne_none_iff_exists'.mp h
  have := (C15_new_returns_iff dbg (s := 2) (by decide) 3 2 2 _ exRc3 ex_shaped).mp ⟨P, hP⟩
  exact this.2.2.2.1 1 (by decide) (by unfold leadingMinor; decide +kernel)

/-- Witness for C11. -/
example : ∃ opt, Poseidon2Params.equivalentRoundConstants true exRc3 (rowsOf exM) 1 2 = some opt :=
  (C11_equivalent_round_constants_returns_iff true (by decide) exRc3 exM 1 2 (by decide) (by decide)
    (by norm_num) (by decide)).mpr
    (by unfold leadingMinor exM; decide +kernel)

/-- Witness for C18: parameters accepted in a release build (the constructor only uses the partial-round rows) whose
first row is short; the debug permutation panics on every input, the release one returns. -/
example : ∃ P, PoseidonParams.new false 3 3 2 1 (rowsOf exM) [[1, 2], [4, 5, 6], [7, 8, 9]] = some P ∧
    (∀ x, Poseidon.permutationNotOpt true P x = none) ∧
    (∀ x : Fin 3 → ZMod 11, ∃ y, Poseidon.permutationNotOpt false P (List.ofFn x) = some y) := by
  have hnew : ∃ P, PoseidonParams.new false 3 3 2 1 (rowsOf exM) [[1, 2], [4, 5, 6], [7, 8, 9]] = some P := by
    apply Option.isSome_iff_exists.mp
    decide +kernel
  obtain ⟨P, hP⟩ := hnew
  obtain ⟨h1, h2, h3, h4, h5, h6, h7⟩ := Poseidon.new_fields hP
  refine ⟨P, hP, fun x => ?_, fun x => ?_⟩
  · exact C18_short_row_debug P (by rw [h6, h1]; rfl) 0 (by rw [h3, h4]; omega) (by rw [h7, h1]; decide) x
  · exact ⟨_, C18_short_row_release (by decide) P exM h1 h6 (by rw [h2]; decide) 1 h3 (by rw [h5, h4]; norm_num)
      (by rw [h4, h7]; decide) (by rw [h4]; norm_num) (by
        intro r hr1 hr2
        rw [h4] at hr2
        have : r = 1 := by omega
        subst this
        rw [h7]; decide) x⟩

end examples

end ZkHash

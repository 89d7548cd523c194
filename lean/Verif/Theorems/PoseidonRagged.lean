import Verif.Proofs.PoseidonRagged

set_option autoImplicit false

/-!
# C81: Poseidon with tables of any shape

`MatrixFits`, `PartialRowsFit` and `squarePart` are defined in `Verif/Spec/PoseidonTables.lean`.
-/

namespace ZkHash

open Spec Matrix

namespace PoseidonRagged

section
variable {F : Type _} [Field F] [DecidableEq F]

/-! ## The partial rounds as a function of the state -/

/-- The optimized partial rounds. -/
def secOpt (dbg : Bool) (P : PoseidonParams F) (state : List F) : Option (List F) :=
  (P.opt_round_constants[0]?).bind fun rc => (Poseidon.matmul dbg (Poseidon.addRc state rc) P.m_i).bind fun state =>
    (List.range' P.rounds_f_beginning P.rounds_p).foldlM
      (Poseidon.partialRoundOpt P (P.rounds_f_beginning + P.rounds_p)) state

/-- The plain partial rounds. -/
def secPlain (dbg : Bool) (P : PoseidonParams F) (state : List F) : Option (List F) :=
  (List.range' P.rounds_f_beginning P.rounds_p).foldlM (Poseidon.partialRound dbg P) state

theorem permutation_sec (dbg : Bool) (P : PoseidonParams F) (hfit : P.rounds_f_beginning + P.rounds_p < 2 ^ 64)
    (x : List F) :
    Poseidon.permutation dbg P x = (assertThat (x.length == P.t)).bind fun _ =>
      ((List.range P.rounds_f_beginning).foldlM (Poseidon.fullRound dbg P) x).bind fun st =>
      (secOpt dbg P st).bind fun st =>
      (List.range' (P.rounds_f_beginning + P.rounds_p) (P.rounds - (P.rounds_f_beginning + P.rounds_p))).foldlM
        (Poseidon.fullRound dbg P) st := by
  unfold Poseidon.permutation secOpt
  simp only [Option.bind_eq_bind, uadd_fits dbg hfit, Option.bind_some, Option.bind_assoc, Nat.add_sub_cancel_left]

theorem permutationNotOpt_sec (dbg : Bool) (P : PoseidonParams F) (hfit : P.rounds_f_beginning + P.rounds_p < 2 ^ 64)
    (x : List F) :
    Poseidon.permutationNotOpt dbg P x = (assertThat (x.length == P.t)).bind fun _ =>
      ((List.range P.rounds_f_beginning).foldlM (Poseidon.fullRound dbg P) x).bind fun st =>
      (secPlain dbg P st).bind fun st =>
      (List.range' (P.rounds_f_beginning + P.rounds_p) (P.rounds - (P.rounds_f_beginning + P.rounds_p))).foldlM
        (Poseidon.fullRound dbg P) st := by
  unfold Poseidon.permutationNotOpt secPlain
  simp only [Option.bind_eq_bind, uadd_fits dbg hfit, Option.bind_some, Nat.add_sub_cancel_left]

theorem permutation_only (dbg : Bool) (P : PoseidonParams F) (hb : P.rounds_f_beginning = 0) (hr : P.rounds = P.rounds_p)
    (hfit : P.rounds_p < 2 ^ 64) (x : List F) (hx : x.length = P.t) :
    Poseidon.permutation dbg P x = secOpt dbg P x ∧ Poseidon.permutationNotOpt dbg P x = secPlain dbg P x := by
  rw [permutation_sec dbg P (by omega), permutationNotOpt_sec dbg P (by omega)]
  simp [hb, hr, hx, assertThat]

theorem addRc_take {t : Nat} {st row : List F} (hst : st.length = t) (hrow : t ≤ row.length) :
    Poseidon.addRc st row = Poseidon.addRc st (row.take t) := by
  unfold Poseidon.addRc
  apply List.ext_getElem?
  intro i
  rw [List.getElem?_zipWith, List.getElem?_zipWith, List.getElem?_take]
  by_cases hi : i < t
  · rw [if_pos hi]
  · rw [List.getElem?_eq_none (show st.length ≤ i by omega)]

theorem firstRow_take {t rf rp : Nat} {rc : List (List F)} (Minv : Matrix (Fin t) (Fin t) F) (hp : 0 < rp)
    (hlong : t ≤ (rc.getD rf []).length) :
    t ≤ (firstRow t rf rp rc (PoseidonParams.tSeq Minv (tab (partRows t rf rp rc)) 0 rp 0)).length ∧
    (firstRow t rf rp rc (PoseidonParams.tSeq Minv (tab (partRows t rf rp rc)) 0 rp 0)).take t =
      List.ofFn (PoseidonParams.tSeq Minv (tab (partRows t rf rp rc)) 0 rp 0) := by
  unfold firstRow
  split
  · rename_i h1
    subst h1
    refine ⟨hlong, ?_⟩
    rw [← norm_take hlong]
    unfold norm
    rw [tl_eq_ofFn]
    congr 1
    funext i
    rw [PoseidonParams.tSeq_step _ _ _ _ _ (by omega), PoseidonParams.tSeq_last]
    have : (partRows t rf 1 rc).getD (0 + 0) [] = norm t (rc.getD rf []) := by
      unfold partRows
      rw [List.getD_eq_getElem?_getD, tl_get _ (by omega)]
      simp
    simp only [tab, this, Matrix.mulVec_zero, Pi.zero_apply, ite_self, add_zero, norm]
    rw [List.getD_eq_getElem?_getD (l := tl _ _), tl_get _ i.isLt]
    rfl
  · constructor
    · simp
    · rw [List.take_left' (by simp)]

theorem secOpt_eq {rf rp : Nat} (dbg : Bool) (P P0 : PoseidonParams F) (st E E0 : List F)
    (hPt : P.t = P0.t) (hd : P.d = P0.d) (hb : P.rounds_f_beginning = rf) (hb0 : P0.rounds_f_beginning = 0)
    (hp : P.rounds_p = rp) (hp0 : P0.rounds_p = rp) (hv : P.v = P0.v) (hw : P.w_hat = P0.w_hat) (hmi : P.m_i = P0.m_i)
    (h00 : get2 P.mds 0 0 = get2 P0.mds 0 0) (he : P.opt_round_constants[0]? = some E)
    (he0 : P0.opt_round_constants[0]? = some E0) (hE : Poseidon.addRc st E = Poseidon.addRc st E0)
    (ho : ∀ k, 0 < k → k < rp → P.opt_round_constants[k]? = P0.opt_round_constants[k]?) :
    secOpt dbg P st = secOpt dbg P0 st := by
  unfold secOpt
  rw [he, he0, Option.bind_some, Option.bind_some, hE, hmi, hb, hb0, hp, hp0]
  congr 1
  funext y
  have : List.range' rf rp = (List.range' 0 rp).map (rf + ·) := by rw [List.map_add_range', Nat.add_zero]
  rw [this, List.foldlM_map]
  refine foldlM_congr _ _ _ (fun s r hr => ?_) y
  rw [List.mem_range'_1] at hr
  unfold Poseidon.partialRoundOpt Poseidon.cheapMatmul
  rw [hPt, hd, hv, hw, h00, hb, hb0, show rf + rp - (rf + r) - 1 = 0 + rp - r - 1 by omega,
    show rf + r + 1 - rf = r + 1 - 0 by omega]
  by_cases hlt : r < 0 + rp - 1
  · simp only [if_pos hlt, if_pos (show rf + r < rf + rp - 1 by omega), get2, ho (r + 1 - 0) (by omega) (by omega)]
  · simp only [if_neg hlt, if_neg (show ¬rf + r < rf + rp - 1 by omega)]

/-- The partial rounds of the parameters that the constructor returns are those of parameters without full rounds, with
the square part of the matrix and with rows of constants of width `t`. -/
theorem reduce {s : Nat} {dbg : Bool} {d rounds_f rounds_p : Nat} {mds rc : List (List F)} {P : PoseidonParams F}
    (hfit : rounds_f + rounds_p < 2 ^ 64)
    (hP : PoseidonParams.new dbg (s + 1) d rounds_f rounds_p mds rc = some P)
    (hone : rounds_p = 1 → s + 1 ≤ (rc.getD (rounds_f / 2) []).length) :
    ∃ P0, PoseidonParams.new dbg (s + 1) d 0 rounds_p (rowsOf (squarePart (s + 1) mds))
        (partRows (s + 1) (rounds_f / 2) rounds_p rc) = some P0 ∧
      PoseidonShaped (s + 1) 0 rounds_p (partRows (s + 1) (rounds_f / 2) rounds_p rc) ∧
      ∀ dbg' st, st.length = s + 1 → secOpt dbg' P st = Poseidon.permutation dbg' P0 st ∧
        ((∀ r, rounds_f / 2 ≤ r → r < rounds_f / 2 + rounds_p → s + 1 ≤ (rc.getD r []).length) →
          secPlain dbg' P st = Poseidon.permutationNotOpt dbg' P0 st) := by
  obtain ⟨hd, heven, hp, ht, -⟩ := Poseidon.new_args hP
  obtain ⟨hM, hm, hb, hrows⟩ := fit_of_new hfit hP
  have hs : 0 < s := by omega
  have hsh : PoseidonShaped (s + 1) 0 rounds_p (partRows (s + 1) (rounds_f / 2) rounds_p rc) :=
    ⟨by rw [partRows_length]; omega, partRows_rows _ _ _ _, by omega⟩
  have hlong : s + 1 ≤ (rc.getD (rounds_f / 2) []).length := by
    by_cases h1 : rounds_p = 1
    · exact hone h1
    · exact hrows.first (by omega)
  have hnew0 := (Poseidon.new_eq dbg hs (squarePart (s + 1) mds) (partRows (s + 1) (rounds_f / 2) rounds_p rc) hd
    (show 0 % 2 = 0 from rfl) hp (by rw [partRows_length]; omega) (by omega) (partRows_rows _ _ _ _)).2 ⟨hb, hm⟩
  rw [new_fit dbg hs hd heven hp hfit hM hm hb hrows, Option.some.injEq] at hP
  refine ⟨_, hnew0, hsh, fun dbg' st hst => ?_⟩
  have hex := hrows.exist
  have h00 : get2 mds 0 0 = get2 (rowsOf (squarePart (s + 1) mds)) 0 0 := (get2_sq hM.len hM.rows 0 (by omega)).symm
  obtain ⟨hl1, hl2⟩ := firstRow_take (rf := rounds_f / 2) (rc := rc) (squarePart (s + 1) mds)⁻¹ hp hlong
  subst hP
  rw [(permutation_only dbg' _ rfl (by simp) (by simp only; omega) st hst).1,
    (permutation_only dbg' _ rfl (by simp) (by simp only; omega) st hst).2]
  refine ⟨?_, fun hall => ?_⟩
  · refine secOpt_eq dbg' _ _ st _ _ rfl rfl rfl rfl rfl rfl rfl rfl rfl h00 (tl_get _ hp) (tl_get _ hp) ?_ ?_
    · simp only [if_true]
      rw [addRc_take hst hl1, hl2]
    · intro k h0 hk
      simp only
      rw [tl_get _ hk, tl_get _ hk, if_neg (by omega), if_neg (by omega)]
  · unfold secPlain
    simp only
    have : List.range' (rounds_f / 2) rounds_p = (List.range' (0 / 2) rounds_p).map (rounds_f / 2 + ·) := by
      rw [List.map_add_range', Nat.zero_div, Nat.add_zero]
    rw [this, List.foldlM_map]
    refine foldlM_congr_inv _ _ (fun s' : List F => s'.length = s + 1) _ (fun y r y' _ _ hstep => ?_)
      (fun y r hr hy => ?_) st hst
    · unfold Poseidon.partialRound at hstep
      simp only [Option.bind_eq_bind, Option.bind_eq_some_iff] at hstep
      obtain ⟨_, _, _, _, _, _, _, _, hmul⟩ := hstep
      rw [matmul_length hmul]
      exact hM.len
    · rw [List.mem_range'_1] at hr
      have e1 : rc[rounds_f / 2 + r]? = some (rc.getD (rounds_f / 2 + r) []) := getElem?_getD _ (by omega)
      have hrl := hall (rounds_f / 2 + r) (by omega) (by omega)
      have e2 : (partRows (s + 1) (rounds_f / 2) rounds_p rc)[r]? =
          some ((rc.getD (rounds_f / 2 + r) []).take (s + 1)) := by
        unfold partRows
        rw [tl_get _ (by omega), norm_take hrl]
      unfold Poseidon.partialRound
      simp only [e1, e2, Option.bind_eq_bind, Option.bind_some, addRc_take hy hrl, matmul_sq hM.len hM.rows]

theorem full_length {dbg : Bool} {P : PoseidonParams F} (hlen : P.mds.length = P.t) (l : List Nat) {x y : List F}
    (hx : x.length = P.t) (h : l.foldlM (Poseidon.fullRound dbg P) x = some y) : y.length = P.t := by
  refine foldlM_inv _ (fun s : List F => s.length = P.t) _ (fun s r s' _ _ hstep => ?_) _ _ hx h
  unfold Poseidon.fullRound at hstep
  simp only [Option.bind_eq_bind, Option.bind_eq_some_iff] at hstep
  obtain ⟨_, _, _, _, hmul⟩ := hstep
  rw [matmul_length hmul, hlen]

theorem agree_of_sections {dbg : Bool} {P : PoseidonParams F} (hlen : P.mds.length = P.t)
    (hfit : P.rounds_f_beginning + P.rounds_p < 2 ^ 64)
    (h : ∀ st, st.length = P.t → secOpt dbg P st = secPlain dbg P st) (x : List F) :
    Poseidon.permutation dbg P x = Poseidon.permutationNotOpt dbg P x := by
  rw [permutation_sec dbg P hfit, permutationNotOpt_sec dbg P hfit]
  by_cases hx : x.length = P.t
  swap
  · simp [assertThat, hx]
  simp only [hx, beq_self_eq_true, assertThat, if_true, Option.bind_some]
  cases hf : (List.range P.rounds_f_beginning).foldlM (Poseidon.fullRound dbg P) x with
  | none => rfl
  | some y => rw [Option.bind_some, Option.bind_some, h y (full_length hlen _ hx hf)]

end

end PoseidonRagged

open PoseidonRagged

section
variable {F : Type _} [Field F] [DecidableEq F]

/-- **C81.** For every table of matrix rows and every table of constants: the constructor (width `s + 1 ≥ 2`) returns
exactly if the degree is 3, 5 or 7, the number of full rounds is even, there is a partial round, the matrix fits, the
rows of constants of the partial rounds fit, and all leading minors of the square part of the matrix and of the first
`rounds_p` powers of its lower-right block are nonzero. The rows of constants of the full rounds are not looked at. -/
theorem C81_new_returns_iff (dbg : Bool) {s : Nat} (hs : 0 < s) (d rounds_f rounds_p : Nat) (mds rc : List (List F))
    (hfit : rounds_f + rounds_p < 2 ^ 64) :
    (∃ P, PoseidonParams.new dbg (s + 1) d rounds_f rounds_p mds rc = some P) ↔
      (d = 3 ∨ d = 5 ∨ d = 7) ∧ rounds_f % 2 = 0 ∧ 0 < rounds_p ∧ MatrixFits dbg (s + 1) mds ∧
      PartialRowsFit dbg (s + 1) (rounds_f / 2) rounds_p rc ∧
      (∀ k, ∀ hk : k < s + 1, leadingMinor (squarePart (s + 1) mds) (k + 1) hk ≠ 0) ∧
      (∀ n, 1 ≤ n → n ≤ rounds_p → ∀ k, ∀ hk : k < s,
        leadingMinor (((squarePart (s + 1) mds).submatrix Fin.succ Fin.succ) ^ n) (k + 1) hk ≠ 0) := by
  rw [← PoseidonParams.goodBlocks_iff]
  constructor
  · rintro ⟨P, hP⟩
    obtain ⟨hd, heven, hp, -, -⟩ := Poseidon.new_args hP
    obtain ⟨hM, hm, hb, hrows⟩ := fit_of_new hfit hP
    exact ⟨hd, heven, hp, hM, hrows, hm, hb⟩
  · rintro ⟨hd, heven, hp, hM, hrows, hm, hb⟩
    exact ⟨_, new_fit dbg hs hd heven hp hfit hM hm hb hrows⟩

/-- **C81.** Whatever the tables: if the constructor returned and no row of constants of a partial round is shorter than
the state, the optimized and the plain permutation agree on every input, in both profiles (they also panic together). -/
theorem C81_optimized_eq_plain {dbg : Bool} {t d rounds_f rounds_p : Nat} {mds rc : List (List F)}
    {P : PoseidonParams F} (hP : PoseidonParams.new dbg t d rounds_f rounds_p mds rc = some P)
    (hfit : rounds_f + rounds_p < 2 ^ 64)
    (hlong : ∀ r, rounds_f / 2 ≤ r → r < rounds_f / 2 + rounds_p → t ≤ (rc.getD r []).length)
    (dbg' : Bool) (x : List F) :
    Poseidon.permutation dbg' P x = Poseidon.permutationNotOpt dbg' P x := by
  obtain ⟨hd, heven, hp, ht, hlen⟩ := Poseidon.new_args hP
  obtain ⟨h1, h2, h3, h4, h5, h6, h7⟩ := Poseidon.new_fields hP
  obtain ⟨s, rfl⟩ : ∃ s, t = s + 1 := ⟨t - 1, by omega⟩
  obtain ⟨P0, hP0, hsh, h⟩ := reduce hfit hP (fun _ => hlong _ (le_refl _) (by omega))
  refine agree_of_sections (by rw [h6, h1, hlen]) (by rw [h3, h4]; omega) (fun st hst => ?_) x
  rw [h1] at hst
  obtain ⟨g1, g2⟩ := h dbg' st hst
  rw [g1, g2 hlong, C12_optimized_eq_plain hP0 hsh]

/-- **C81**, debug builds: for all tables that the debug constructor accepts, the two permutations of the debug build
agree on every input. -/
theorem C81_debug {t d rounds_f rounds_p : Nat} {mds rc : List (List F)} {P : PoseidonParams F}
    (hP : PoseidonParams.new true t d rounds_f rounds_p mds rc = some P) (hfit : rounds_f + rounds_p < 2 ^ 64)
    (x : List F) : Poseidon.permutation true P x = Poseidon.permutationNotOpt true P x := by
  obtain ⟨hd, heven, hp, ht, hlen⟩ := Poseidon.new_args hP
  obtain ⟨h1, h2, h3, h4, h5, h6, h7⟩ := Poseidon.new_fields hP
  obtain ⟨s, rfl⟩ : ∃ s, t = s + 1 := ⟨t - 1, by omega⟩
  obtain ⟨hM, hm, hb, hrows⟩ := fit_of_new hfit hP
  by_cases hlong : ∀ r, rounds_f / 2 ≤ r → r < rounds_f / 2 + rounds_p → s + 1 ≤ (rc.getD r []).length
  · exact C81_optimized_eq_plain hP hfit hlong true x
  -- only a single short row is left
  have hone : rounds_p = 1 := by
    by_contra hne
    refine hlong fun r hr hr' => ?_
    by_cases hr0 : r = rounds_f / 2
    · rw [hr0]; exact hrows.first (by omega)
    by_cases hr1 : r + 1 < rounds_f / 2 + rounds_p
    · exact le_of_eq (hrows.middle r (by omega) hr1).symm
    · have := hrows.last_debug (by omega) rfl
      rw [show rounds_f / 2 + rounds_p - 1 = r by omega] at this
      exact le_of_eq this.symm
  have hshort : (rc.getD (rounds_f / 2) []).length < s + 1 := by
    by_contra hge
    refine hlong fun r hr hr' => ?_
    rw [show r = rounds_f / 2 by omega]
    omega
  have hnew := new_fit true (by omega) hd heven hp hfit hM hm hb hrows
  rw [hP, Option.some.injEq] at hnew
  have hopt : P.opt_round_constants[0]? = some (rc.getD (rounds_f / 2) []) := by
    rw [hnew]
    simp only
    rw [tl_get _ hp, if_pos rfl, firstRow, if_pos hone]
  have hmi : P.m_i.length = s + 1 := by rw [hnew]; simp [rowsOf]
  refine agree_of_sections (by rw [h6, h1, hlen]) (by rw [h3, h4]; omega) (fun st hst => ?_) x
  rw [h1] at hst
  have hadd : (Poseidon.addRc st (rc.getD (rounds_f / 2) [])).length < s + 1 := by
    unfold Poseidon.addRc
    rw [List.length_zipWith]
    omega
  have hmul : ∀ (y : List F) (mat : List (List F)), mat.length = s + 1 → y.length < s + 1 →
      Poseidon.matmul true y mat = none := by
    intro y mat hmat hy
    have : (mat.length == y.length) = false := by simp; omega
    simp [Poseidon.matmul, debugAssert, this]
  have e1 : secOpt true P st = none := by
    unfold secOpt
    rw [hopt, Option.bind_some, hmul _ _ hmi hadd, Option.bind_none]
  have hex := hrows.exist
  have e2 : secPlain true P st = none := by
    unfold secPlain
    rw [h3, h4, hone, List.range'_one, List.foldlM_cons]
    unfold Poseidon.partialRound
    have e : rc[rounds_f / 2]? = some (rc.getD (rounds_f / 2) []) := getElem?_getD _ (by omega)
    simp only [h7, e, h6, Option.bind_eq_bind, Option.bind_some]
    cases (Poseidon.addRc st (rc.getD (rounds_f / 2) []))[0]? with
    | none => rfl
    | some x0 =>
      simp only [Option.bind_some]
      cases Poseidon.sboxP P.d x0 with
      | none => rfl
      | some y0 =>
        simp only [Option.bind_some]
        cases hset : setAt (Poseidon.addRc st (rc.getD (rounds_f / 2) [])) 0 y0 with
        | none => rfl
        | some z =>
          rw [Option.bind_some, hmul _ _ hlen (by rw [setAt_length hset]; exact hadd), Option.bind_none]
  rw [e1, e2]

/-- **C81**, the plain permutation: what it computes from any tables that the constructor accepted. A missing constant
makes the state position vanish (debug builds panic instead, so there the rows must be long enough). -/
theorem C81_plain_value {dbg : Bool} {t d rounds_f rounds_p : Nat} {mds rc : List (List F)} {P : PoseidonParams F}
    (hP : PoseidonParams.new dbg t d rounds_f rounds_p mds rc = some P) (hfit : rounds_f + rounds_p < 2 ^ 64)
    (hlen : rounds_f + rounds_p ≤ rc.length) (dbg' : Bool)
    (hrow : dbg' = true → ∀ r, r < rounds_f + rounds_p → t ≤ (rc.getD r []).length)
    (hne : ∀ r, rounds_f / 2 ≤ r → r < rounds_f / 2 + rounds_p → 1 ≤ (rc.getD r []).length) (x : Fin t → F) :
    Poseidon.permutationNotOpt dbg' P (List.ofFn x) =
      some (List.ofFn (poseidonCut (squarePart t mds) d (rounds_f / 2) rounds_p (fun r => (rc.getD r []).length)
        (tab rc) x)) := by
  obtain ⟨hd, heven, hp, ht, -⟩ := Poseidon.new_args hP
  obtain ⟨h1, h2, h3, h4, h5, h6, h7⟩ := Poseidon.new_fields hP
  have hM := matrixFits_of_new hP
  rw [Nat.mod_eq_of_lt hfit] at h5
  have e : Poseidon.permutationNotOpt dbg' P (List.ofFn x) =
      Poseidon.permutationNotOpt dbg' { P with mds := rowsOf (squarePart t mds) } (List.ofFn x) := by
    unfold Poseidon.permutationNotOpt
    have ef : Poseidon.fullRound dbg' P = Poseidon.fullRound dbg' { P with mds := rowsOf (squarePart t mds) } := by
      funext st r
      unfold Poseidon.fullRound
      simp only [h6, matmul_sq hM.len hM.rows]
    have ep : Poseidon.partialRound dbg' P = Poseidon.partialRound dbg' { P with mds := rowsOf (squarePart t mds) } := by
      funext st r
      unfold Poseidon.partialRound
      simp only [h6, matmul_sq hM.len hM.rows]
    rw [ef, ep]
  rw [e, Poseidon.permutationNotOpt_cut (by omega) dbg' { P with mds := rowsOf (squarePart t mds) } (squarePart t mds)
    h1 rfl (by simp only [h2]; exact hd) (rounds_f / 2) h3 (by simp only [h5, h4]; omega)
    (by simp only [h4, h7]; omega) (by simp only [h4]; omega)
    (fun hd' r hr => by simp only [h5] at hr; simp only [h7]; exact hrow hd' r hr)
    (fun r hr hr' => by simp only [h4] at hr'; simp only [h7]; exact hne r hr hr') x]
  simp only [h2, h4, h7]

/-- **C81**, the optimized permutation: what it computes from any tables that the constructor accepted. In the full
rounds a missing constant makes the state position vanish, as in the plain permutation; in the partial rounds a missing
constant counts as zero. -/
theorem C81_optimized_value {dbg : Bool} {t d rounds_f rounds_p : Nat} {mds rc : List (List F)} {P : PoseidonParams F}
    (hP : PoseidonParams.new dbg t d rounds_f rounds_p mds rc = some P) (hfit : rounds_f + rounds_p < 2 ^ 64)
    (hlen : rounds_f + rounds_p ≤ rc.length) (dbg' : Bool)
    (hrow : dbg' = true → ∀ r, r < rounds_f / 2 ∨ rounds_f / 2 + rounds_p ≤ r → r < rounds_f + rounds_p →
      t ≤ (rc.getD r []).length)
    (hone : rounds_p = 1 → t ≤ (rc.getD (rounds_f / 2) []).length) (x : Fin t → F) :
    Poseidon.permutation dbg' P (List.ofFn x) =
      some (List.ofFn (poseidonCut (squarePart t mds) d (rounds_f / 2) rounds_p
        (fun r => if rounds_f / 2 ≤ r ∧ r < rounds_f / 2 + rounds_p then t else (rc.getD r []).length)
        (tab rc) x)) := by
  obtain ⟨hd, heven, hp, ht, -⟩ := Poseidon.new_args hP
  obtain ⟨h1, h2, h3, h4, h5, h6, h7⟩ := Poseidon.new_fields hP
  obtain ⟨s, rfl⟩ : ∃ s, t = s + 1 := ⟨t - 1, by omega⟩
  have hM := matrixFits_of_new hP
  obtain ⟨P0, hP0, hsh, h⟩ := reduce hfit hP hone
  rw [Nat.mod_eq_of_lt hfit] at h5
  have ef : Poseidon.fullRound dbg' P =
      Poseidon.fullRound dbg' { P with mds := rowsOf (squarePart (s + 1) mds) } := by
    funext st r
    unfold Poseidon.fullRound
    simp only [h6, matmul_sq hM.len hM.rows]
  have hfull : ∀ r, r < rounds_f / 2 ∨ rounds_f / 2 + rounds_p ≤ r → r < rounds_f + rounds_p →
      ∀ y : Fin (s + 1) → F, Poseidon.fullRound dbg' P (List.ofFn y) r =
        some (List.ofFn (squarePart (s + 1) mds *ᵥ cut (if rounds_f / 2 ≤ r ∧ r < rounds_f / 2 + rounds_p then s + 1
          else (rc.getD r []).length) fun i => (y i + tab rc r i) ^ d)) := by
    intro r hr hr' y
    rw [ef, Poseidon.fullRound_cut dbg' { P with mds := rowsOf (squarePart (s + 1) mds) } (squarePart (s + 1) mds) rfl
      (by simp only [h2]; exact hd) (by simp only [h7]; omega)
      (fun hd' => by simp only [h7]; exact hrow hd' r hr hr') y, if_neg (by omega)]
    simp only [h2, h7]
  have hpart : ∀ y : Fin (s + 1) → F, secOpt dbg' P (List.ofFn y) =
      some (List.ofFn (rounds (fun r (y : Fin (s + 1) → F) => squarePart (s + 1) mds *ᵥ
        cut (if rounds_f / 2 ≤ r ∧ r < rounds_f / 2 + rounds_p then s + 1 else (rc.getD r []).length)
        fun i => if i.val = 0 then (y i + tab rc r i) ^ d else y i + tab rc r i) (rounds_f / 2) rounds_p y)) := by
    intro y
    rw [(h dbg' (List.ofFn y) (by simp)).1, C12_permutation_eq_spec hP0 hsh]
    congr 2
    unfold poseidon
    simp only [Nat.zero_div, Nat.zero_add]
    show rounds _ 0 rounds_p y = _
    rw [rounds_shift _ (rounds_f / 2)]
    apply rounds_congr
    intro r _ hr z
    rw [if_pos (by omega), Poseidon.cut_full (le_refl _)]
    have e : ∀ i : Fin (s + 1), tab (partRows (s + 1) (rounds_f / 2) rounds_p rc) r i = tab rc (rounds_f / 2 + r) i := by
      intro i
      unfold tab partRows norm
      rw [List.getD_eq_getElem?_getD (l := tl rounds_p _), tl_get _ (by omega), Option.getD_some,
        List.getD_eq_getElem?_getD (l := tl (s + 1) _), tl_get _ i.isLt, Option.getD_some]
    unfold poseidonPartial
    simp only [e]
  rw [permutation_sec dbg' P (by rw [h3, h4]; omega)]
  simp only [List.length_ofFn, h1, beq_self_eq_true, assertThat, if_true, Option.bind_some, h3, h4, h5,
    List.range_eq_range']
  rw [rounds_loop (fun z : Fin (s + 1) → F => List.ofFn z) (Poseidon.fullRound dbg' P) _ 0 (rounds_f / 2)
    fun r _ h y => hfull r (by omega) (by omega) y]
  simp only [Option.bind_some]
  rw [hpart, Option.bind_some,
    rounds_loop (fun z : Fin (s + 1) → F => List.ofFn z) (Poseidon.fullRound dbg' P) _ _ _
    fun r h h' y => hfull r (by omega) (by omega) y]
  unfold poseidonCut
  rw [show rounds_f + rounds_p - (rounds_f / 2 + rounds_p) = rounds_f / 2 by omega]

/-- **C81**, the specification: if the constructor returned and every round has a row of at least `t` constants, both
functions compute Poseidon with the square part of the matrix; surplus entries of the tables have no effect. -/
theorem C81_value {dbg : Bool} {t d rounds_f rounds_p : Nat} {mds rc : List (List F)} {P : PoseidonParams F}
    (hP : PoseidonParams.new dbg t d rounds_f rounds_p mds rc = some P) (hfit : rounds_f + rounds_p < 2 ^ 64)
    (hlen : rounds_f + rounds_p ≤ rc.length) (hrow : ∀ r, r < rounds_f + rounds_p → t ≤ (rc.getD r []).length)
    (dbg' : Bool) (x : Fin t → F) :
    Poseidon.permutation dbg' P (List.ofFn x) =
      some (List.ofFn (poseidon (squarePart t mds) d (rounds_f / 2) rounds_p (tab rc) x)) ∧
    Poseidon.permutationNotOpt dbg' P (List.ofFn x) =
      some (List.ofFn (poseidon (squarePart t mds) d (rounds_f / 2) rounds_p (tab rc) x)) := by
  obtain ⟨hd, heven, hp, ht, -⟩ := Poseidon.new_args hP
  have hplain := C81_plain_value hP hfit hlen dbg' (fun _ => hrow)
    (fun r _ hr => le_trans (by omega) (hrow r (by omega))) x
  rw [Poseidon.poseidonCut_eq _ _ _ _ _ _ (fun r hr => hrow r (by omega))] at hplain
  refine ⟨?_, hplain⟩
  rw [C81_optimized_eq_plain hP hfit (fun r _ hr => hrow r (by omega)), hplain]

/-- **C81**, release builds: there are tables, over every field, that the release constructor accepts although the last
row of constants of the partial rounds is too short, and for which the optimized and the plain permutation return
different states. -/
theorem C81_release_differ (d : Nat) (hd : d = 3 ∨ d = 5 ∨ d = 7) :
    ∃ P : PoseidonParams F, PoseidonParams.new false 2 d 0 2 [[1, 1], [0, 1]] [[0, 0], [0]] = some P ∧
      ∃ y z, Poseidon.permutation false P [0, 1] = some y ∧ Poseidon.permutationNotOpt false P [0, 1] = some z ∧
        y ≠ z := by
  have hM : MatrixFits false 2 ([[1, 1], [0, 1]] : List (List F)) :=
    ⟨rfl, rfl, by simp, by simp⟩
  have hsq : squarePart 2 ([[1, 1], [0, 1]] : List (List F)) = !![1, 1; 0, 1] := by
    ext i j; fin_cases i <;> fin_cases j <;> rfl
  have hnew : ∃ P : PoseidonParams F, PoseidonParams.new false 2 d 0 2 [[1, 1], [0, 1]] [[0, 0], [0]] = some P := by
    rw [C81_new_returns_iff false (s := 1) (by omega) d 0 2 _ _ (by omega)]
    refine ⟨hd, rfl, by omega, hM, ⟨by simp, by simp, by omega, by simp, by simp⟩, ?_, ?_⟩
    · intro k hk
      rw [hsq]
      obtain rfl | rfl : k = 0 ∨ k = 1 := by omega
      · simp [leadingMinor]
      · simp [leadingMinor, Matrix.det_fin_two]
    · intro n _ _ k hk
      obtain rfl : k = 0 := by omega
      have : (squarePart 2 ([[1, 1], [0, 1]] : List (List F))).submatrix (Fin.succ : Fin 1 → Fin 2) Fin.succ = 1 := by
        rw [hsq]
        ext i j; fin_cases i; fin_cases j; simp
      rw [this, one_pow]
      simp [leadingMinor]
  obtain ⟨P, hP⟩ := hnew
  have hx : ([0, 1] : List F) = List.ofFn ![0, 1] := by simp
  refine ⟨P, hP, _, _, by rw [hx]; exact C81_optimized_value hP (by omega) (by simp) false (by simp) (by omega) _,
    by
      rw [hx]
      refine C81_plain_value hP (by omega) (by simp) false (by simp) ?_ _
      intro r _ hr
      obtain rfl | rfl : r = 0 ∨ r = 1 := by omega
      · simp
      · simp, ?_⟩
  intro h
  have := congrArg (fun l => l[1]?) h
  rw [hsq] at this
  revert this
  rcases hd with rfl | rfl | rfl <;>
    simp [poseidonCut, rounds, cut, tab, Matrix.mulVec, dotProduct, Fin.sum_univ_two]

end

/-! ## `mat_mat_mul` on rows of different lengths -/

section
variable {F : Type _} [CommRing F]

/-- **C81**, `mat_mat_mul`: for any two lists of rows, it returns exactly if no row of the first is shorter than the
number of rows of the second and no row of the second is shorter than the number of rows of the first; then it returns
the square matrix of the products, surplus entries being ignored. -/
theorem C81_matMatMul (mat1 mat2 : List (List F)) :
    ((∃ R, PoseidonParams.matMatMul mat1 mat2 = some R) ↔
      (∀ row ∈ mat1, mat2.length ≤ row.length) ∧ ∀ row ∈ mat2, mat1.length ≤ row.length) ∧
    (((∀ row ∈ mat1, mat2.length ≤ row.length) ∧ ∀ row ∈ mat2, mat1.length ≤ row.length) →
      PoseidonParams.matMatMul mat1 mat2 = some (rowsOf
        ((Matrix.of fun (i : Fin mat1.length) (k : Fin mat2.length) => tab mat1 i k) *
          (Matrix.of fun (k : Fin mat2.length) (j : Fin mat1.length) => tab mat2 k j)))) := by
  have hval : ((∀ row ∈ mat1, mat2.length ≤ row.length) ∧ ∀ row ∈ mat2, mat1.length ≤ row.length) →
      PoseidonParams.matMatMul mat1 mat2 = some (rowsOf
        ((Matrix.of fun (i : Fin mat1.length) (k : Fin mat2.length) => tab mat1 i k) *
          (Matrix.of fun (k : Fin mat2.length) (j : Fin mat1.length) => tab mat2 k j))) := by
    rintro ⟨h1, h2⟩
    rw [← C31_matMatMul, ← rows_take mat1 h1, ← rows_take mat2 h2]
    unfold PoseidonParams.matMatMul
    simp only [List.length_map]
    refine foldlM_congr _ _ _ (fun out row hrow => ?_) _
    refine foldlM_congr _ _ _ (fun out col1 hcol1 => ?_) _
    rw [List.zipIdx_map, List.foldlM_map]
    refine foldlM_congr _ _ _ (fun out p hp => ?_) _
    obtain ⟨m2, col2⟩ := p
    have hcol2 : col2 < mat2.length := (List.getElem?_eq_some_iff.mp (List.mem_zipIdx_iff_getElem?.mp hp)).1
    have hg : get2 (mat1.map (·.take mat2.length)) row col2 = get2 mat1 row col2 := by
      unfold get2
      rw [List.getElem?_map]
      cases mat1[row]? with
      | none => rfl
      | some r => simp [hcol2]
    simp only [Prod.map_fst, Prod.map_snd, id, hg, List.getElem?_take, List.mem_range.mp hcol1, if_true]
  refine ⟨⟨fun ⟨R, hR⟩ => ?_, fun h => ⟨_, hval h⟩⟩, hval⟩
  unfold PoseidonParams.matMatMul at hR
  constructor
  · by_contra hl
    push Not at hl
    obtain ⟨row, hr, hlen⟩ := hl
    obtain ⟨i, hi⟩ := List.mem_iff_getElem?.mp hr
    have hin : i < mat1.length := (List.getElem?_eq_some_iff.mp hi).1
    rw [foldlM_none_of_mem _ (fun _ => True) _ i (List.mem_range.mpr hin) (fun _ _ _ _ _ _ => trivial)
      (fun s _ => ?_) _ trivial] at hR
    · cases hR
    refine foldlM_none_of_mem _ (fun _ => True) _ 0 (List.mem_range.mpr (by omega)) (fun _ _ _ _ _ _ => trivial)
      (fun s _ => ?_) _ trivial
    refine foldlM_none_of_mem _ (fun _ => True) _ (mat2[row.length], row.length)
      (List.mem_zipIdx_iff_getElem?.mpr (List.getElem?_eq_getElem hlen)) (fun _ _ _ _ _ _ => trivial) (fun s _ => ?_) _ trivial
    simp [get2, hi]
  · by_contra hl
    push Not at hl
    obtain ⟨row, hr, hlen⟩ := hl
    obtain ⟨i, hi⟩ := List.mem_iff_getElem?.mp hr
    have hn : 0 < mat1.length := by omega
    rw [foldlM_none_of_mem _ (fun _ => True) _ 0 (List.mem_range.mpr hn) (fun _ _ _ _ _ _ => trivial)
      (fun s _ => ?_) _ trivial] at hR
    · cases hR
    refine foldlM_none_of_mem _ (fun _ => True) _ row.length (List.mem_range.mpr hlen) (fun _ _ _ _ _ _ => trivial)
      (fun s _ => ?_) _ trivial
    refine foldlM_none_of_mem _ (fun _ => True) _ (row, i)
      (List.mem_zipIdx_iff_getElem?.mpr hi) (fun _ _ _ _ _ _ => trivial) (fun s _ => ?_) _ trivial
    cases h : get2 mat1 0 i <;> simp [h]

/-- A concrete case: a 2x1 times a 1x3 table over the integers. -/
example : PoseidonParams.matMatMul [[2], [3]] [[5, 7, 100]] = some [[(10 : ℤ), 14], [15, 21]] := by decide +kernel

end

/-! ## Concrete cases -/

section examples

private instance : Fact (Nat.Prime 11) := ⟨by decide⟩

/-- A 3x3 matrix with a surplus zero entry. -/
private def raggedM : List (List (ZMod 11)) := [[2, 1, 1], [1, 2, 1, 0], [1, 1, 3]]
/-- Constants for two full and three partial rounds: the rows of the full rounds have 4 and 1 entries, the first
partial row has 4. -/
private def raggedRc : List (List (ZMod 11)) := [[1, 2, 3, 4], [4, 5, 6, 9], [7, 8, 9], [10, 0, 1], [5]]

private theorem ragged_new (dbg : Bool) : ∃ P, PoseidonParams.new dbg 3 3 2 3 raggedM raggedRc = some P := by
  apply Option.isSome_iff_exists.mp
  cases dbg <;> decide +kernel

/-- Witness for C81: ragged tables that both constructors accept. The right-hand side of `C81_new_returns_iff` holds for
them, although the tables are not of the shape that C12 asks for. -/
example (dbg : Bool) : MatrixFits dbg 3 raggedM ∧ PartialRowsFit dbg 3 1 3 raggedRc ∧
    ¬PoseidonShaped 3 2 3 raggedRc := by
  have h := (C81_new_returns_iff dbg (s := 2) (by omega) 3 2 3 raggedM raggedRc (by omega)).mp (ragged_new dbg)
  exact ⟨h.2.2.2.1, h.2.2.2.2.1, fun hs => absurd (hs.rc_rows [5] (by decide)) (by decide)⟩

/-- In a release build the two functions agree on them and return (the last full round has a single constant); in a debug
build they agree, too (and panic). -/
example : ∃ P, PoseidonParams.new false 3 3 2 3 raggedM raggedRc = some P ∧
    (∀ dbg' x, Poseidon.permutation dbg' P x = Poseidon.permutationNotOpt dbg' P x) ∧
    (∃ y, Poseidon.permutation false P [1, 2, 3] = some y) ∧ Poseidon.permutation true P [1, 2, 3] = none := by
  obtain ⟨P, hP⟩ := ragged_new false
  refine ⟨P, hP, fun dbg' x => C81_optimized_eq_plain hP (by omega) ?_ dbg' x, ?_, ?_⟩
  · intro r h1 h2
    obtain rfl | rfl | rfl : r = 1 ∨ r = 2 ∨ r = 3 := by omega
    all_goals decide
  · exact ⟨_, C81_optimized_value hP (by omega) (by decide) false (by simp) (by omega) ![1, 2, 3]⟩
  · have : (PoseidonParams.new false 3 3 2 3 raggedM raggedRc).bind
        (fun P => Poseidon.permutation true P [1, 2, 3]) = none := by decide +kernel
    rwa [hP] at this

/-- Witness for `C81_value`: surplus entries, in a debug build. -/
example : ∃ P, PoseidonParams.new true 3 3 2 1 raggedM [[1, 2, 3, 4], [4, 5, 6, 9], [7, 8, 9]] = some P ∧
    ∀ x : Fin 3 → ZMod 11, Poseidon.permutation true P (List.ofFn x) =
      some (List.ofFn (poseidon !![2, 1, 1; 1, 2, 1; 1, 1, 3] 3 1 1 (tab [[1, 2, 3, 4], [4, 5, 6, 9], [7, 8, 9]]) x)) := by
  have hnew : ∃ P, PoseidonParams.new true 3 3 2 1 raggedM [[1, 2, 3, 4], [4, 5, 6, 9], [7, 8, 9]] = some P := by
    apply Option.isSome_iff_exists.mp
    decide +kernel
  obtain ⟨P, hP⟩ := hnew
  refine ⟨P, hP, fun x => ?_⟩
  have hsq : squarePart 3 raggedM = !![2, 1, 1; 1, 2, 1; 1, 1, 3] := by decide +kernel
  rw [(C81_value hP (by omega) (by decide) (by decide) true x).1, hsq]

/-- Witness for `C81_debug`: a debug constructor accepts a single partial row that is too short; both permutations panic
then. -/
example : ∃ P, PoseidonParams.new true 3 3 2 1 raggedM [[1, 2, 3], [4], [7, 8, 9]] = some P ∧
    (∀ x, Poseidon.permutation true P x = Poseidon.permutationNotOpt true P x) := by
  have hnew : ∃ P, PoseidonParams.new true 3 3 2 1 raggedM [[1, 2, 3], [4], [7, 8, 9]] = some P := by
    apply Option.isSome_iff_exists.mp
    decide +kernel
  obtain ⟨P, hP⟩ := hnew
  exact ⟨P, hP, C81_debug hP (by omega)⟩

end examples

end ZkHash

import Verif.Proofs.ScriptCheck
import Verif.Proofs.SageMds
import Verif.Proofs.Krylov

set_option autoImplicit false

/-!
# A check, run by the kernel, that a shipped Poseidon table is the output of the script's functions
-/

namespace ZkHash.Sage

open PoseidonSource (IsSq matOf cols dot forceMat forceRow forceMat_eq forceRow_eq)
open PoseidonSource.Fast (force force_eq elimRow elimRow_eq minorsOk mulRow mulRow_eq)
open Krylov (rowsF rows rowsF_eq e0)
open MinCheck (eqL)
open Matrix

/-! ## Functions -/

/-- `k` of the list without its first `r` members. -/
noncomputable def dropF {α : Type} (r : Nat) : List α → (List α → Bool) → Bool :=
  Nat.rec (motive := fun _ => List α → (List α → Bool) → Bool) (fun U k => k U)
    (fun _ ih U k => List.rec (motive := fun _ => Bool) (ih [] k) (fun _ U' _ => ih U' k) U) r

/-- `k` of the members `0, r, 2r, ...` (`n` of them). -/
noncomputable def sampleF (r n : Nat) : List (List Nat) → (List (List Nat) → Bool) → Bool :=
  Nat.rec (motive := fun _ => List (List Nat) → (List (List Nat) → Bool) → Bool) (fun _ k => k [])
    (fun _ ih U k => List.rec (motive := fun _ => Bool) false
      (fun u _ _ => dropF r U fun U' => ih U' fun us => k (u :: us)) U) n

/-- The last member. -/
noncomputable def lastF (u : List Nat) : Nat :=
  List.rec (motive := fun _ => Nat) 0 (fun x l ih => List.rec (motive := fun _ => Nat) x (fun _ _ _ => ih) l) u

/-- `k` of the coordinates of `n` vectors, each the image of the one before it; `c` are the coordinates of the image of the
last basis vector. -/
noncomputable def coordsF (p : Nat) (c : List Nat) (n : Nat) : List Nat → (List (List Nat) → Bool) → Bool :=
  Nat.rec (motive := fun _ => List Nat → (List (List Nat) → Bool) → Bool) (fun _ k => k [])
    (fun _ ih u k => force (lastF u) fun a => elimRow p 1 a (0 :: u) c fun u' => ih u' fun us => k (u :: us)) n

/-- The samples of the steps `r = 1, ..., R`, from the member `r t` on, have nonzero leading minors. -/
noncomputable def samplesOk (p t : Nat) (U : List (List Nat)) (R : Nat) : Bool :=
  Nat.rec (motive := fun _ => Bool) true
    (fun r ih => Bool.rec (motive := fun _ => Bool) false ih
      (dropF (Nat.mul (Nat.succ r) t) U fun U => sampleF (Nat.succ r) t U (minorsOk p t))) R

/-- The check for the matrix `L`; `c` are the coordinates of `L^t e_0` in the basis `L^j e_0`. -/
noncomputable def cyclicOk (p t : Nat) (L : List (List Nat)) (c : List Nat) : Bool :=
  decide (2 ≤ t) && ((L.length == t) && ((L.all fun row => row.length == t) && ((c.length == t) &&
  (forceMat L fun T => forceRow c fun c => forceRow (e0 t) fun e => rowsF p T (t + 1) e fun vs =>
    forceMat (vs.take t) fun K => forceRow (vs.getD t []) fun vt => forceMat (cols t K) fun KT =>
    minorsOk p t K && ((mulRow p c KT fun w => eqL w vt) &&
    coordsF p c (4 * t * (2 * t - 1) + 1) e fun U => samplesOk p t U (4 * t))))))

/-- `k` of the first `n` members modulo `p`, and of the rest. -/
noncomputable def modF (p n : Nat) : List Nat → (List Nat → List Nat → Bool) → Bool :=
  Nat.rec (motive := fun _ => List Nat → (List Nat → List Nat → Bool) → Bool) (fun ws k => k [] ws)
    (fun _ ih ws k => List.rec (motive := fun _ => Bool) false
      (fun w ws' _ => force (Nat.mod w p) fun x => ih ws' fun xs rest => k (x :: xs) rest) ws) n

/-- `x` is not in the list. -/
noncomputable def notInF (x : Nat) (l : List Nat) : Bool :=
  List.rec (motive := fun _ => Bool) true (fun y _ ih => Bool.rec (motive := fun _ => Bool) ih false (Nat.beq x y)) l

/-- The members are different. -/
noncomputable def nodupF (l : List Nat) : Bool :=
  List.rec (motive := fun _ => Bool) true
    (fun x l ih => Bool.rec (motive := fun _ => Bool) false ih (notInF x l)) l

/-- The row is the row of the inverses of `x + y`. -/
noncomputable def invRowF (p x : Nat) (row : List Nat) : List Nat → Bool :=
  List.rec (motive := fun _ => List Nat → Bool) (fun _ => true)
    (fun e _ ih ys => List.rec (motive := fun _ => Bool) false (fun y ys' _ =>
      Bool.rec (motive := fun _ => Bool) false (ih ys') (Nat.beq (Nat.mod (Nat.mul (Nat.add x y) e) p) 1)) ys) row

/-- The matrix is the matrix of the inverses of `x + y`. -/
noncomputable def cauchyF (p : Nat) (ys : List Nat) (M : List (List Nat)) : List Nat → Bool :=
  List.rec (motive := fun _ => List Nat → Bool) (fun _ => true)
    (fun row _ ih xs => List.rec (motive := fun _ => Bool) false (fun x xs' _ =>
      Bool.rec (motive := fun _ => Bool) false (ih xs') (invRowF p x row ys)) xs) M

/-- `INIT_SEQUENCE` for the instance, with `SBOX = 1`. -/
def initOfPoseidon (S : PoseidonSource) : List Bool :=
  initGenerator 1 1 (S.modulus.log2 + 1) S.t S.rounds_f S.rounds_p

/-- The check of the constants and of the entries of the matrix. -/
noncomputable def tablesOk (S : PoseidonSource) (ext blocks W : Nat) : Bool :=
  decide ((initOfPoseidon S).length = 80) && (decide (S.rc.flatten.length = (S.rounds_f + S.rounds_p) * S.t) &&
  (force ((initOfPoseidon S).foldr (fun b x => 2 * x + b.toNat) 0) fun N =>
    force S.modulus fun p => force S.t fun t =>
    grainWords tableLit N ext blocks (S.modulus.log2 + 1) W fun ws =>
      matchBelow p (fun rest => modF p (2 * t) rest fun d _ =>
        nodupF d && dropF t d fun ys => cauchyF p ys S.mds d) ws S.rc.flatten))

/-! ## Soundness -/

theorem dropF_eq {α : Type} (r : Nat) : ∀ (U : List α) (k : List α → Bool), dropF r U k = k (U.drop r) := by
  induction r with
  | zero => intro U k; rfl
  | succ r ih =>
    intro U k
    cases U with
    | nil => exact (ih [] k).trans (by simp)
    | cons u U => exact ih U k

theorem sampleF_imp (r n : Nat) : ∀ {U : List (List Nat)} {k : List (List Nat) → Bool}, sampleF r n U k = true →
    k ((List.range n).map fun j => U.getD (r * j) []) = true := by
  induction n with
  | zero => intro U k h; exact h
  | succ n ih =>
    intro U k h
    cases U with
    | nil => cases h
    | cons u U =>
      have h : dropF r (u :: U) (fun U' => sampleF r n U' fun us => k (u :: us)) = true := h
      rw [dropF_eq] at h
      have := ih h
      rw [List.range_succ_eq_map, List.map_cons, List.map_map]
      have e : ((fun j => (u :: U).getD (r * j) []) ∘ Nat.succ) = fun j => ((u :: U).drop r).getD (r * j) [] := by
        funext j
        simp only [Function.comp, List.getD_eq_getElem?_getD, List.getElem?_drop]
        rw [show r * Nat.succ j = r + r * j by rw [Nat.mul_succ, Nat.add_comm]]
      rw [e]
      simpa using this

theorem lastF_eq (u : List Nat) : lastF u = u.getLastD 0 := by
  induction u with
  | nil => rfl
  | cons x l ih =>
    cases l with
    | nil => rfl
    | cons y l =>
      have h : lastF (x :: y :: l) = lastF (y :: l) := rfl
      rw [h, ih]
      simp

/-- The coordinates of the image. -/
def nextCoords (p : Nat) (c u : List Nat) : List Nat :=
  List.zipWith (fun x y => (1 * x + u.getLastD 0 * y) % p) (0 :: u) c

/-- The members of `coordsF`. -/
def coords (p : Nat) (c : List Nat) : Nat → List Nat → List (List Nat)
  | 0, _ => []
  | n + 1, u => u :: coords p c n (nextCoords p c u)

theorem coordsF_eq (p : Nat) (c : List Nat) (n : Nat) : ∀ (u : List Nat) (k : List (List Nat) → Bool),
    coordsF p c n u k = k (coords p c n u) := by
  induction n with
  | zero => intro u k; rfl
  | succ n ih =>
    intro u k
    show force (lastF u) (fun a => elimRow p 1 a (0 :: u) c fun u' => coordsF p c n u' fun us => k (u :: us)) = _
    rw [force_eq, elimRow_eq, ih, coords, lastF_eq]
    rfl

theorem samplesOk_imp {p t : Nat} {U : List (List Nat)} (R : Nat) (h : samplesOk p t U R = true) :
    ∀ r, 1 ≤ r → r ≤ R → minorsOk p t ((List.range t).map fun j => U.getD (r * (t + j)) []) = true := by
  induction R with
  | zero => intro r h1 h2; omega
  | succ R ih =>
    have h : Bool.rec (motive := fun _ => Bool) false (samplesOk p t U R)
        (dropF ((R + 1) * t) U fun U => sampleF (R + 1) t U (minorsOk p t)) = true := h
    rw [dropF_eq] at h
    cases hs : sampleF (R + 1) t (U.drop ((R + 1) * t)) (minorsOk p t) with
    | false => rw [hs] at h; cases h
    | true =>
      rw [hs] at h
      intro r h1 h2
      rcases Nat.lt_or_ge R r with hr | hr
      · obtain rfl : r = R + 1 := by omega
        have := sampleF_imp _ _ hs
        simpa only [List.getD_eq_getElem?_getD, List.getElem?_drop, ← Nat.mul_add] using this
      · exact ih h r h1 hr

section

set_option linter.unusedSectionVars false

variable {p t : Nat} [Fact p.Prime]

/-- The vector of a list. -/
def W (p t : Nat) (v : List Nat) : Fin t → ZMod p := fun k => ((v.getD k 0 : Nat) : ZMod p)

theorem det_of_minors {L : List (List Nat)} (hL : IsSq t L) (ht : 0 < t) (h : minorsOk p t L = true) :
    (matOf p t L).det ≠ 0 := by
  have hm := PoseidonSource.minorsOk_sound t _ hL (PoseidonSource.Fast.minorsOk_imp _ _ _ h) (t - 1) (by omega)
  unfold leadingMinor at hm
  have : ∀ n (_ : n = t) (h : n ≤ t), ((matOf p t L).submatrix (Fin.castLE h) (Fin.castLE h)).det = (matOf p t L).det := by
    rintro n rfl h
    rfl
  rwa [this (t - 1 + 1) (by omega)] at hm

theorem W_e0 (ht : 0 < t) : W p t (e0 t) = Pi.single ⟨0, ht⟩ 1 := by
  funext k
  unfold W e0
  by_cases hk : k.val = 0
  · have : k = ⟨0, ht⟩ := Fin.ext hk
    subst this
    simp
  · have hne : k ≠ ⟨0, ht⟩ := fun h => hk (congrArg Fin.val h)
    obtain ⟨m, hm⟩ := Nat.exists_eq_succ_of_ne_zero hk
    rw [Pi.single_eq_of_ne hne, hm, Nat.succ_eq_add_one, List.getD_cons_succ, List.getD_eq_getElem?_getD,
      List.getElem?_replicate]
    split <;> simp

theorem W_mul {L : List (List Nat)} (hL : IsSq t L) {v : List Nat} (hv : v.length = t) :
    W p t (L.map fun row => dot v row % p) = matOf p t L *ᵥ W p t v := by
  funext k
  have hk : k.val < L.length := by rw [hL.1]; exact k.2
  unfold W
  rw [List.getD_eq_getElem _ _ (by simpa using hk), List.getElem_map, ZMod.natCast_mod,
    PoseidonSource.dot_eq v _ hv (hL.2 _ (List.getElem_mem hk)), mulVec, dotProduct]
  refine Finset.sum_congr rfl fun l _ => ?_
  rw [PoseidonSource.matOf_getD, List.getD_eq_getElem _ _ hk, mul_comm]

theorem rows_W {L : List (List Nat)} (hL : IsSq t L) (n : Nat) : ∀ {v : List Nat}, v.length = t → ∀ j, j < n →
    ((rows p L n v).getD j []).length = t ∧ W p t ((rows p L n v).getD j []) = matOf p t L ^ j *ᵥ W p t v := by
  induction n with
  | zero => intro v _ j hj; omega
  | succ n ih =>
    intro v hv j hj
    cases j with
    | zero => simp [rows, hv]
    | succ j =>
      rw [rows, List.getD_cons_succ]
      obtain ⟨h1, h2⟩ := ih (v := L.map fun row => dot v row % p) (by simpa using hL.1) j (by omega)
      refine ⟨h1, ?_⟩
      rw [h2, W_mul hL hv, mulVec_mulVec, ← pow_succ]

theorem nextCoords_length {c u : List Nat} (hc : c.length = t) (hu : u.length = t) : (nextCoords p c u).length = t := by
  simp [nextCoords, hc, hu]

/-- One step of the coordinates: `b` are the vectors `M^i e`. -/
theorem nextCoords_sum {M : Matrix (Fin t) (Fin t) (ZMod p)} {e : Fin t → ZMod p} {c u : List Nat} (ht : 0 < t)
    (hc : c.length = t) (hu : u.length = t) (hrel : M ^ t *ᵥ e = ∑ i : Fin t, W p t c i • (M ^ i.val *ᵥ e)) :
    ∑ i : Fin t, W p t (nextCoords p c u) i • (M ^ i.val *ᵥ e) = M *ᵥ ∑ i : Fin t, W p t u i • (M ^ i.val *ᵥ e) := by
  obtain ⟨s, rfl⟩ : ∃ s, t = s + 1 := ⟨t - 1, by omega⟩
  have hlast : u.getLastD 0 = u.getD s 0 := by
    rw [List.getLastD_eq_getLast?, List.getLast?_eq_getElem?, hu, List.getD_eq_getElem?_getD]
    rfl
  have hW : ∀ i : Fin (s + 1), W p (s + 1) (nextCoords p c u) i =
      (((0 :: u).getD i.val 0 : Nat) : ZMod p) + W p (s + 1) u (Fin.last s) * W p (s + 1) c i := by
    intro i
    unfold W nextCoords
    rw [List.getD_eq_getElem _ _ (by rw [List.length_zipWith, List.length_cons]; omega), List.getElem_zipWith,
      ZMod.natCast_mod, hlast,
      List.getD_eq_getElem (0 :: u) _ (by rw [List.length_cons]; omega), List.getD_eq_getElem c _ (by omega)]
    push_cast
    rw [one_mul]
  simp only [hW, add_smul, Finset.sum_add_distrib, mul_smul, ← Finset.smul_sum]
  rw [← hrel, mulVec_sum]
  simp only [mulVec_smul, mulVec_mulVec, ← pow_succ']
  rw [Fin.sum_univ_succ, Fin.sum_univ_castSucc (n := s) (f := fun i : Fin (s + 1) => W p (s + 1) u i • (M ^ (i.val + 1) *ᵥ e))]
  simp only [Fin.val_zero, List.getD_cons_zero, Nat.cast_zero, zero_smul, zero_add, Fin.val_succ, List.getD_cons_succ,
    Fin.val_castSucc, Fin.val_last]
  rfl

theorem coords_sum {M : Matrix (Fin t) (Fin t) (ZMod p)} {e : Fin t → ZMod p} {c : List Nat} (ht : 0 < t)
    (hc : c.length = t) (hrel : M ^ t *ᵥ e = ∑ i : Fin t, W p t c i • (M ^ i.val *ᵥ e)) (n : Nat) :
    ∀ {u : List Nat}, u.length = t → ∀ m, m < n → ((coords p c n u).getD m []).length = t ∧
      ∑ i : Fin t, W p t ((coords p c n u).getD m []) i • (M ^ i.val *ᵥ e) =
        M ^ m *ᵥ ∑ i : Fin t, W p t u i • (M ^ i.val *ᵥ e) := by
  induction n with
  | zero => intro u _ m hm; omega
  | succ n ih =>
    intro u hu m hm
    cases m with
    | zero => simp [coords, hu]
    | succ m =>
      rw [coords, List.getD_cons_succ]
      obtain ⟨h1, h2⟩ := ih (u := nextCoords p c u) (nextCoords_length hc hu) m (by omega)
      refine ⟨h1, ?_⟩
      rw [h2, nextCoords_sum ht hc hu hrel, mulVec_mulVec, ← pow_succ]

/-- What the check says about the first vectors. -/
theorem cyclicOk_rows {L : List (List Nat)} {c : List Nat} (ht : 0 < t) (hL : IsSq t L) (hc : c.length = t) {vs : List (List Nat)}
    (hvs : rows p L (t + 1) (e0 t) = vs) (h6 : minorsOk p t (vs.take t) = true)
    (h7 : eqL ((cols t (vs.take t)).map fun col => dot c col % p) (vs.getD t []) = true) :
    ∃ K : Matrix (Fin t) (Fin t) (ZMod p), K.det ≠ 0 ∧
      (∀ i : Fin t, K i = matOf p t L ^ i.val *ᵥ Pi.single ⟨0, ht⟩ 1) ∧
      matOf p t L ^ t *ᵥ Pi.single ⟨0, ht⟩ 1 =
        ∑ i : Fin t, W p t c i • (matOf p t L ^ i.val *ᵥ Pi.single ⟨0, ht⟩ 1) := by
  have he : (e0 t).length = t := by simp [e0]; omega
  have hvlen : vs.length = t + 1 := by rw [← hvs]; exact Krylov.rows_length _ _ _
  have hrow := fun j (hj : j < t + 1) => rows_W (p := p) hL (t + 1) he j hj
  rw [hvs, W_e0 ht] at hrow
  have hK : IsSq t (vs.take t) := by
    refine ⟨by simp [hvlen], fun row hr => ?_⟩
    rw [← hvs] at hr
    exact Krylov.rows_width hL.1 (t + 1) he row (List.mem_of_mem_take hr)
  have hKrow : ∀ i : Fin t, matOf p t (vs.take t) i = matOf p t L ^ i.val *ᵥ Pi.single ⟨0, ht⟩ 1 := by
    intro i
    rw [← (hrow i.val (by omega)).2]
    funext k
    rw [PoseidonSource.matOf_getD]
    unfold W
    congr 2
    rw [List.getD_eq_getElem?_getD, List.getElem?_take_of_lt i.2, ← List.getD_eq_getElem?_getD]
  refine ⟨matOf p t (vs.take t), det_of_minors hK ht h6, hKrow, ?_⟩
  have h7 := MinCheck.eqL_imp _ h7
  rw [← (hrow t (by omega)).2, ← h7]
  funext k
  have hT := PoseidonSource.cols_sq hK
  have hk : k.val < (cols t (vs.take t)).length := by rw [hT.1]; exact k.2
  rw [Finset.sum_apply]
  unfold W
  rw [List.getD_eq_getElem _ _ (by simpa using hk), List.getElem_map, ZMod.natCast_mod,
    PoseidonSource.dot_eq c _ hc (hT.2 _ (List.getElem_mem hk))]
  refine Finset.sum_congr rfl fun l _ => ?_
  rw [Pi.smul_apply, smul_eq_mul, ← hKrow l, ← PoseidonSource.cols_eq hK, Matrix.transpose_apply,
    PoseidonSource.matOf_getD, List.getD_eq_getElem (cols t (vs.take t)) _ hk]

/-- What the check says about the powers. -/
theorem cyclicOk_powers {M : Matrix (Fin t) (Fin t) (ZMod p)} {c : List Nat} (ht : 0 < t) (hc : c.length = t)
    {K : Matrix (Fin t) (Fin t) (ZMod p)} (hK : K.det ≠ 0) (hKrow : ∀ i : Fin t, K i = M ^ i.val *ᵥ Pi.single ⟨0, ht⟩ 1)
    (hrel : M ^ t *ᵥ Pi.single ⟨0, ht⟩ 1 = ∑ i : Fin t, W p t c i • (M ^ i.val *ᵥ Pi.single ⟨0, ht⟩ 1)) {n R r : Nat}
    {U : List (List Nat)} (hU : coords p c n (e0 t) = U) (hn : R * (2 * t - 1) < n) (h : samplesOk p t U R = true)
    (hr1 : 1 ≤ r) (hr2 : r ≤ R) : Cyclic (M ^ r) := by
  have he : (e0 t).length = t := by simp [e0]; omega
  have hsum := fun m (hm : m < n) => coords_sum (p := p) ht hc hrel n he m hm
  rw [hU] at hsum
  have hstart : ∑ i : Fin t, W p t (e0 t) i • (M ^ i.val *ᵥ (Pi.single ⟨0, ht⟩ 1 : Fin t → ZMod p)) =
      Pi.single ⟨0, ht⟩ 1 := by
    rw [W_e0 ht, Finset.sum_eq_single ⟨0, ht⟩]
    · rw [Pi.single_eq_same, one_smul, pow_zero, one_mulVec]
    · intro i _ hi
      rw [Pi.single_eq_of_ne hi, zero_smul]
    · simp
  rw [hstart] at hsum
  have hbound : ∀ j : Fin t, r * (t + j.val) < n := fun j =>
    lt_of_le_of_lt (Nat.mul_le_mul hr2 (by omega)) hn
  have hA : IsSq t ((List.range t).map fun j => U.getD (r * (t + j)) []) := by
    refine ⟨by simp, fun row hr => ?_⟩
    obtain ⟨j, hj, rfl⟩ := List.mem_map.mp hr
    exact (hsum _ (hbound ⟨j, List.mem_range.mp hj⟩)).1
  refine cyclic_of_coords ht hK hKrow (det_of_minors hA ht (samplesOk_imp R h r hr1 hr2)) fun j => ?_
  rw [← (hsum _ (hbound j)).2]
  refine Finset.sum_congr rfl fun i _ => ?_
  congr 1
  rw [PoseidonSource.matOf_getD]
  unfold W
  congr 2
  rw [List.getD_eq_getElem ((List.range t).map _) _ (by simp), List.getElem_map, List.getElem_range]

/-- The check of the powers is sound. -/
theorem cyclicOk_imp {L : List (List Nat)} {c : List Nat} (h : cyclicOk p t L c = true) :
    2 ≤ t ∧ IsSq t L ∧ ∀ r, 1 ≤ r → r ≤ 4 * t → Cyclic (matOf p t L ^ r) := by
  unfold cyclicOk at h
  simp only [Bool.and_eq_true, decide_eq_true_eq, beq_iff_eq, List.all_eq_true, forceMat_eq, forceRow_eq, rowsF_eq,
    coordsF_eq, mulRow_eq] at h
  obtain ⟨h2, h3, h4, h5, h6, h7, h8⟩ := h
  have ht : 0 < t := by omega
  obtain ⟨K, hK, hKrow, hrel⟩ := cyclicOk_rows ht ⟨h3, h4⟩ h5 rfl h6 h7
  exact ⟨h2, ⟨h3, h4⟩, fun r hr1 hr2 => cyclicOk_powers ht h5 hK hKrow hrel rfl (Nat.lt_succ_self _) h8 hr1 hr2⟩

end

theorem modF_imp {p : Nat} (n : Nat) : ∀ {ws : List Nat} {k : List Nat → List Nat → Bool}, modF p n ws k = true →
    ∃ d rest, ws = d ++ rest ∧ d.length = n ∧ k (d.map fun w => w % p) rest = true := by
  induction n with
  | zero => intro ws k h; exact ⟨[], ws, rfl, rfl, h⟩
  | succ n ih =>
    intro ws k h
    cases ws with
    | nil => cases h
    | cons w ws =>
      have h : force (w % p) (fun x => modF p n ws fun xs rest => k (x :: xs) rest) = true := h
      rw [force_eq] at h
      obtain ⟨d, rest, h1, h2, h3⟩ := ih h
      exact ⟨w :: d, rest, by rw [h1]; rfl, by rw [List.length_cons, h2], h3⟩

theorem notInF_imp {x : Nat} {l : List Nat} (h : notInF x l = true) : x ∉ l := by
  induction l with
  | nil => simp
  | cons y l ih =>
    have h : Bool.rec (motive := fun _ => Bool) (notInF x l) false (Nat.beq x y) = true := h
    cases hb : Nat.beq x y with
    | true => rw [hb] at h; cases h
    | false =>
      rw [hb] at h
      intro hm
      rcases List.mem_cons.mp hm with rfl | hm
      · rw [Nat.beq_refl] at hb; cases hb
      · exact ih h hm

theorem nodupF_imp {l : List Nat} (h : nodupF l = true) : l.Nodup := by
  induction l with
  | nil => simp
  | cons x l ih =>
    have h : Bool.rec (motive := fun _ => Bool) false (nodupF l) (notInF x l) = true := h
    cases hb : notInF x l with
    | false => rw [hb] at h; cases h
    | true =>
      rw [hb] at h
      exact List.nodup_cons.mpr ⟨notInF_imp hb, ih h⟩

theorem invRowF_imp {p x : Nat} {row : List Nat} : ∀ {ys : List Nat}, invRowF p x row ys = true →
    ∀ j, j < row.length → j < ys.length ∧ (x + ys.getD j 0) * row.getD j 0 % p = 1 := by
  induction row with
  | nil => intro ys _ j hj; simp at hj
  | cons e row ih =>
    intro ys h j hj
    cases ys with
    | nil => cases h
    | cons y ys =>
      have h : Bool.rec (motive := fun _ => Bool) false (invRowF p x row ys) (Nat.beq ((x + y) * e % p) 1) = true := h
      cases hb : Nat.beq ((x + y) * e % p) 1 with
      | false => rw [hb] at h; cases h
      | true =>
        rw [hb] at h
        cases j with
        | zero => exact ⟨by simp, by simpa using Nat.beq_eq.mp hb⟩
        | succ j =>
          have := ih h j (by simpa using hj)
          exact ⟨by simpa using this.1, by simpa using this.2⟩

theorem cauchyF_imp {p : Nat} {ys : List Nat} {M : List (List Nat)} : ∀ {xs : List Nat}, cauchyF p ys M xs = true →
    ∀ i, i < M.length → invRowF p (xs.getD i 0) (M.getD i []) ys = true := by
  induction M with
  | nil => intro xs _ i hi; simp at hi
  | cons row M ih =>
    intro xs h i hi
    cases xs with
    | nil => cases h
    | cons x xs =>
      have h : Bool.rec (motive := fun _ => Bool) false (cauchyF p ys M xs) (invRowF p x row ys) = true := h
      cases hb : invRowF p x row ys with
      | false => rw [hb] at h; cases h
      | true =>
        rw [hb] at h
        cases i with
        | zero => simpa using hb
        | succ i => simpa using ih h i (by simpa using hi)

theorem layOut_full (t R i : Nat) (cs : List Nat) : layOut t R 0 i cs = cs := by
  induction cs generalizing i with
  | nil => rfl
  | cons c cs ih =>
    rw [layOut, if_neg (by omega), ih]
    rfl

/-- The check is sound. -/
theorem generatePoseidon_of {S : PoseidonSource} [Fact S.modulus.Prime] {ext blocks Wn : Nat} {c : List Nat}
    (h : tablesOk S ext blocks Wn = true) (hcyc : cyclicOk S.modulus S.t S.mds c = true)
    (hobs : Krylov.check S.modulus S.t S.mds = true) :
    generatePoseidon 1 S.modulus S.t S.rounds_f S.rounds_p = some (S.rc.flatten, matOf S.modulus S.t S.mds) := by
  obtain ⟨ht, hsq, hcyc⟩ := cyclicOk_imp hcyc
  have halg := algorithms_of_bases ht (fun x hx => Krylov.check_imp hobs (by omega) x hx) hcyc
  unfold tablesOk at h
  simp only [Bool.and_eq_true, decide_eq_true_eq, force_eq] at h
  obtain ⟨hlen, hnum, h⟩ := h
  obtain ⟨s', ws, hw, hy, _, h⟩ := grainWords_imp tableLit_eq hlen rfl h
  obtain ⟨rest, htake, h⟩ := matchBelow_imp h
  rw [hnum, ← Nat.add_zero ((S.rounds_f + S.rounds_p) * S.t)] at htake
  obtain ⟨s1, hrc, hy1⟩ := generateConstants_of (t := S.t) (R_F := S.rounds_f + S.rounds_p) (R_P := 0) hy htake
  rw [layOut_full] at hrc
  obtain ⟨d, rest', rfl, hd, h⟩ := modF_imp _ h
  simp only [Bool.and_eq_true, dropF_eq] at h
  obtain ⟨hnodup, h⟩ := h
  have hnodup := nodupF_imp hnodup
  obtain ⟨s2, hdraw, -⟩ := drawDiagonal_of (p := S.modulus) hd hy1
  have hdm : ∀ i, i < 2 * S.t → (d.map fun w => w % S.modulus).getD i 0 = d.getD i 0 % S.modulus := by
    intro i hi
    rw [List.getD_eq_getElem _ _ (by simpa [hd] using hi), List.getElem_map, List.getD_eq_getElem _ _ (by omega)]
  have hinj : Function.Injective fun i : Fin (2 * S.t) => ((d.getD i 0 : Nat) : ZMod S.modulus) := by
    intro i j hij
    have hij : d.getD i 0 % S.modulus = d.getD j 0 % S.modulus := (ZMod.natCast_eq_natCast_iff' _ _ _).mp hij
    rw [← hdm i i.2, ← hdm j j.2, List.getD_eq_getElem _ _ (by simp [hd]),
      List.getD_eq_getElem _ _ (by simp [hd])] at hij
    exact Fin.ext ((List.Nodup.getElem_inj_iff hnodup).mp hij)
  have hentry : ∀ i j : Fin S.t, (((d.getD i 0 : Nat) : ZMod S.modulus) + ((d.getD (S.t + j) 0 : Nat) : ZMod S.modulus)) *
      matOf S.modulus S.t S.mds i j = 1 := by
    intro i j
    have hi : i.val < S.mds.length := by rw [hsq.1]; exact i.2
    have h1 := cauchyF_imp h i.val hi
    have hrow : (S.mds.getD i []).length = S.t := by
      rw [List.getD_eq_getElem _ _ hi]
      exact hsq.2 _ (List.getElem_mem hi)
    obtain ⟨-, h2⟩ := invRowF_imp h1 j.val (by rw [hrow]; exact j.2)
    rw [List.getD_eq_getElem?_getD (l := List.drop _ _), List.getElem?_drop, ← List.getD_eq_getElem?_getD,
      hdm _ (by omega), hdm _ (by omega)] at h2
    have h3 := congrArg (fun n : Nat => (n : ZMod S.modulus)) h2
    simp only [ZMod.natCast_mod, Nat.cast_mul, Nat.cast_add, Nat.cast_one] at h3
    rw [PoseidonSource.matOf_getD]
    exact h3
  have hdistinct : drawDistinct (ZMod S.modulus) (S.modulus.log2 + 1) (2 * S.t) s1 =
      some (fun i : Fin (2 * S.t) => ((d.getD i 0 : Nat) : ZMod S.modulus), s2) := by
    rw [drawDistinct, hdraw]
    simp only [Option.bind_eq_bind, Option.bind_some]
    rw [if_neg (not_not.mpr hinj)]
  have hcreate : createMdsP (ZMod S.modulus) (S.modulus.log2 + 1) S.t s1 = some (matOf S.modulus S.t S.mds, s2) := by
    rw [createMdsP, hdistinct]
    simp only [Option.bind_eq_bind, Option.bind_some]
    rw [if_neg]
    · congr 2
      ext i j
      rw [Matrix.of_apply]
      exact inv_eq_of_mul_eq_one_right (hentry i j)
    · rintro ⟨i, j, hij⟩
      have := hentry i j
      rw [hij, zero_mul] at this
      exact zero_ne_one this
  have hgen : generateMatrix (ZMod S.modulus) (S.modulus.log2 + 1) S.t s1 = some (matOf S.modulus S.t S.mds, s2) := by
    rw [generateMatrix, hcreate]
    simp only [Option.bind_eq_bind, Option.bind_some]
    rw [if_neg]
    simp only [halg.1, halg.2.1, halg.2.2, not_true_eq_false, or_self, not_false_eq_true]
  unfold generatePoseidon
  simp only [Option.bind_eq_bind, Option.pure_def]
  have hw : warmUp (initGenerator 1 1 (S.modulus.log2 + 1) S.t S.rounds_f S.rounds_p) = some s' := hw
  rw [hw, Option.bind_some, hrc, Option.bind_some, hgen, Option.bind_some]

end ZkHash.Sage

import Verif.Spec.Symbolic
import Verif.Proofs.NeptuneBij
import Verif.Theorems.Poseidon2
import Verif.Theorems.Poseidon
import Verif.Theorems.Gmimc
import Verif.Theorems.NeptuneBranch
import Mathlib.Data.Nat.Cast.Basic
import Mathlib.Data.List.GetD

set_option autoImplicit false

/-!
# The permutations over another ring

The specifications commute with ring homomorphisms, and the model run on mapped parameters computes the specification
with mapped constants.
-/

namespace ZkHash

open Spec Matrix

namespace Symbolic

section spec
variable {F R : Type} [CommRing F] [CommRing R] (φ : F →+* R)

theorem mulVec_map {n m : Nat} (M : Matrix (Fin n) (Fin m) F) (x : Fin m → F) :
    (M.map φ *ᵥ fun i => φ (x i)) = fun i => φ ((M *ᵥ x) i) := by
  funext i
  simp [mulVec, dotProduct]

theorem rounds_map {t : Nat} {f : Nat → (Fin t → F) → Fin t → F} {g : Nat → (Fin t → R) → Fin t → R}
    (h : ∀ r y, g r (fun i => φ (y i)) = fun i => φ (f r y i)) (b : Nat) (y : Fin t → F) :
    ∀ n, rounds g b n (fun i => φ (y i)) = fun i => φ (rounds f b n y i)
  | 0 => rfl
  | n + 1 => by
    show g (b + n) (rounds g b n _) = _
    rw [rounds_map h b y n, h]
    rfl

theorem fullRound_map {t d : Nat} (M : Matrix (Fin t) (Fin t) F) (c x : Fin t → F) :
    fullRound (M.map φ) d (fun i => φ (c i)) (fun i => φ (x i)) = fun i => φ (fullRound M d c x i) := by
  unfold fullRound
  rw [← mulVec_map]
  congr 1
  funext i
  simp

theorem partialRound_map {t d : Nat} (M : Matrix (Fin t) (Fin t) F) (c0 : F) (x : Fin t → F) :
    partialRound (M.map φ) d (φ c0) (fun i => φ (x i)) = fun i => φ (partialRound M d c0 x i) := by
  unfold partialRound
  rw [← mulVec_map]
  congr 1
  funext i
  split <;> simp [map_ofNat]

theorem poseidonPartial_map {t d : Nat} (M : Matrix (Fin t) (Fin t) F) (c x : Fin t → F) :
    poseidonPartial (M.map φ) d (fun i => φ (c i)) (fun i => φ (x i)) = fun i => φ (poseidonPartial M d c x i) := by
  unfold poseidonPartial
  rw [← mulVec_map]
  congr 1
  funext i
  split <;> simp [map_ofNat]

theorem poseidon2_map {t d : Nat} (ME MI : Matrix (Fin t) (Fin t) F) (rf rp : Nat) (c : Nat → Nat → F) (x : Fin t → F) :
    Spec.poseidon2 (ME.map φ) (MI.map φ) d rf rp (fun r i => φ (c r i)) (fun i => φ (x i)) =
      fun i => φ (Spec.poseidon2 ME MI d rf rp c x i) := by
  unfold Spec.poseidon2
  simp only
  rw [mulVec_map, rounds_map φ (f := fun r => fullRound ME d fun i : Fin t => c r i) (fun r y => fullRound_map φ ME _ y),
    rounds_map φ (f := fun r => partialRound MI d (c r 0)) (fun r y => partialRound_map φ MI _ y),
    rounds_map φ (f := fun r => fullRound ME d fun i : Fin t => c r i) (fun r y => fullRound_map φ ME _ y)]

theorem poseidon_map {t d : Nat} (M : Matrix (Fin t) (Fin t) F) (rf rp : Nat) (c : Nat → Nat → F) (x : Fin t → F) :
    Spec.poseidon (M.map φ) d rf rp (fun r i => φ (c r i)) (fun i => φ (x i)) =
      fun i => φ (Spec.poseidon M d rf rp c x i) := by
  have hfull : ∀ (r : Nat) (y : Fin t → F), poseidonFull (M.map φ) d (fun i : Fin t => φ (c r i)) (fun i => φ (y i)) =
      fun i => φ (poseidonFull M d (fun i : Fin t => c r i) y i) := fun r y => fullRound_map φ M _ y
  unfold Spec.poseidon
  simp only
  rw [rounds_map φ (f := fun r => poseidonFull M d fun i : Fin t => c r i) hfull,
    rounds_map φ (f := fun r => poseidonPartial M d fun i : Fin t => c r i) (fun r y => poseidonPartial_map φ M _ y),
    rounds_map φ (f := fun r => poseidonFull M d fun i : Fin t => c r i) hfull]

theorem feistel_map {s d : Nat} (c : F) (x : Fin (s + 1) → F) :
    Spec.feistel d (φ c) (fun i => φ (x i)) = fun i => φ (Spec.feistel d c x i) := by
  funext i
  unfold Spec.feistel
  split <;> simp [map_ofNat]

theorem gmimc_map {s d : Nat} (c : Nat → F) (n : Nat) (x : Fin (s + 1) → F) :
    Spec.gmimc d (fun r => φ (c r)) n (fun i => φ (x i)) = fun i => φ (Spec.gmimc d c n x i) := by
  unfold Spec.gmimc
  rw [rounds_map φ (f := fun r y => Spec.rotate (Spec.feistel d (c r) y)) (fun r y => by rw [feistel_map]; rfl), feistel_map]

theorem neptuneExtRound_map {k : Nat} (M : Matrix (Fin (2 * k)) (Fin (2 * k)) F) (γ : F) (c x : Fin (2 * k) → F) :
    neptuneExtRound (M.map φ) (φ γ) (fun i => φ (c i)) (fun i => φ (x i)) = fun i => φ (neptuneExtRound M γ c x i) := by
  have h : onPairs (neptunePair (φ γ)) (fun i => φ (x i)) = fun i => φ (onPairs (neptunePair γ) x i) := by
    funext i
    unfold onPairs neptunePair
    simp only
    split <;> simp [map_ofNat]
  unfold neptuneExtRound
  rw [h, mulVec_map]
  funext i
  simp

theorem neptuneIntRound_map {t d : Nat} (M : Matrix (Fin t) (Fin t) F) (c x : Fin t → F) :
    neptuneIntRound (M.map φ) d (fun i => φ (c i)) (fun i => φ (x i)) = fun i => φ (neptuneIntRound M d c x i) := by
  have h : (fun i : Fin t => if i.val = 0 then φ (x i) ^ d else φ (x i)) =
      fun i => φ (if i.val = 0 then x i ^ d else x i) := by
    funext i
    split <;> simp [map_ofNat]
  unfold neptuneIntRound
  rw [h, mulVec_map]
  funext i
  simp

theorem neptune_map {k d : Nat} (ME MI : Matrix (Fin (2 * k)) (Fin (2 * k)) F) (γ : F) (rf rp : Nat) (c : Nat → Nat → F)
    (x : Fin (2 * k) → F) :
    Spec.neptune (ME.map φ) (MI.map φ) d (φ γ) rf rp (fun r i => φ (c r i)) (fun i => φ (x i)) =
      fun i => φ (Spec.neptune ME MI d γ rf rp c x i) := by
  unfold Spec.neptune
  simp only
  rw [mulVec_map,
    rounds_map φ (f := fun r => neptuneExtRound ME γ fun i : Fin (2 * k) => c r i) (fun r y => neptuneExtRound_map φ ME γ _ y),
    rounds_map φ (f := fun r => neptuneIntRound MI d fun i : Fin (2 * k) => c r i) (fun r y => neptuneIntRound_map φ MI _ y),
    rounds_map φ (f := fun r => neptuneExtRound ME γ fun i : Fin (2 * k) => c r i) (fun r y => neptuneExtRound_map φ ME γ _ y)]

/-! Matrices and tables -/

theorem externalMatrix_map (t : Nat) : (externalMatrix t : Matrix (Fin t) (Fin t) F).map φ = externalMatrix t := by
  have h4 : ∀ i j : Fin 4, φ (M4 i j) = M4 i j := by
    intro i j
    fin_cases i <;> fin_cases j <;> simp [M4, map_ofNat]
  ext i j
  simp only [externalMatrix, map_apply, of_apply]
  split_ifs <;> simp [h4, map_ofNat]

theorem internalMatrix_map (t : Nat) (diag : Nat → F) :
    (internalMatrix t diag).map φ = internalMatrix t fun i => φ (diag i) := by
  ext i j
  simp only [internalMatrix, map_apply, of_apply]
  split_ifs <;> simp [map_ofNat]

theorem neptuneInternal_map (t : Nat) (mu : Nat → F) : (neptuneInternal t mu).map φ = neptuneInternal t fun i => φ (mu i) := by
  ext i j
  simp only [neptuneInternal, map_apply]
  split_ifs <;> simp [map_ofNat]

theorem parityMatrix_map {k : Nat} (A B : Matrix (Fin k) (Fin k) F) :
    (parityMatrix A B).map φ = parityMatrix (A.map φ) (B.map φ) := by
  ext i j
  simp only [parityMatrix, map_apply]
  split_ifs <;> simp [map_ofNat]

theorem neptuneExt4_map : (neptuneExt4 (F := F)).map φ = neptuneExt4 := by
  unfold neptuneExt4
  rw [parityMatrix_map]
  congr 1 <;> ext i j <;> fin_cases i <;> fin_cases j <;> simp [map_ofNat]

theorem neptuneExt8_map : (neptuneExt8 (F := F)).map φ = neptuneExt8 := by
  unfold neptuneExt8
  rw [parityMatrix_map]
  congr 1 <;> ext i j <;> fin_cases i <;> fin_cases j <;> simp [map_ofNat]

theorem vec_map (l : List F) (i : Nat) : vec (l.map φ) i = φ (vec l i) := by
  simp [vec, List.getD, List.getElem?_map]
  cases l[i]? <;> simp

theorem tab_map (T : List (List F)) (r i : Nat) : tab (T.map (List.map φ)) r i = φ (tab T r i) := by
  simp only [tab, List.getD, List.getElem?_map]
  cases h : T[r]? with
  | none => simp
  | some row =>
    simp only [Option.map_some, Option.getD_some, List.getElem?_map]
    cases row[i]? <;> simp

theorem rowsOf_map {n m : Nat} (M : Matrix (Fin n) (Fin m) F) : (rowsOf M).map (List.map φ) = rowsOf (M.map φ) := by
  simp [rowsOf, List.map_ofFn, Function.comp_def]

end spec

section run
variable {dbg : Bool}

/-- Poseidon2 over another ring. -/
theorem poseidon2_run {F R : Type} [CommRing F] [CommRing R] (φ : F →+* R) {t d rounds_f rounds_p : Nat} {diag : List F}
    {mat_internal rc : List (List F)} {P : Poseidon2Params F}
    (hP : Poseidon2Params.new dbg t d rounds_f rounds_p diag mat_internal rc = some P)
    (hs : WellShaped t d rounds_f rounds_p diag rc) (z : Fin t → R) :
    Poseidon2.permutation dbg (P.map φ) (List.ofFn z) =
      some (List.ofFn (Spec.poseidon2 ((externalMatrix t).map φ) ((internalMatrix t (vec diag)).map φ) d (rounds_f / 2) rounds_p
        (fun r i => φ (tab rc r i)) z)) := by
  have hP' : Poseidon2Params.new dbg t d rounds_f rounds_p (diag.map φ) (mat_internal.map (List.map φ))
      (rc.map (List.map φ)) = some (P.map φ) := by
    unfold Poseidon2Params.new at hP ⊢
    simp only [Option.bind_eq_bind, Option.bind_eq_some_iff] at hP
    obtain ⟨_, h1, _, h2, n, hn, h⟩ := hP
    rw [h1, h2]
    simp only [Option.bind_eq_bind, Option.bind_some, hn]
    rw [Option.pure_def, Option.some.injEq] at h
    rw [← h]
    rfl
  have hs' : WellShaped t d rounds_f rounds_p (diag.map φ) (rc.map (List.map φ)) :=
    ⟨hs.width, hs.degree, fun h => by rw [List.length_map]; exact hs.diag_len h, by rw [List.length_map]; exact hs.rc_len,
      fun row hr => by
        obtain ⟨row', hr', rfl⟩ := List.mem_map.mp hr
        rw [List.length_map]
        exact hs.rc_rows row' hr', hs.fits⟩
  rw [C01_permutation_eq_spec hP' hs', externalMatrix_map, internalMatrix_map]
  have e1 : (vec (diag.map φ) : Nat → R) = fun i => φ (vec diag i) := funext (vec_map φ diag)
  have e2 : (tab (rc.map (List.map φ)) : Nat → Nat → R) = fun r i => φ (tab rc r i) :=
    funext fun r => funext (tab_map φ rc r)
  rw [e1, e2]

/-- The plain Poseidon permutation over another ring. -/
theorem poseidon_run {F R : Type} [Field F] [DecidableEq F] [CommRing R] (φ : F →+* R) {t d rounds_f rounds_p : Nat}
    {M : Matrix (Fin t) (Fin t) F} {rc : List (List F)} {P : PoseidonParams F}
    (hP : PoseidonParams.new dbg t d rounds_f rounds_p (rowsOf M) rc = some P)
    (hs : PoseidonShaped t rounds_f rounds_p rc) (dbg' : Bool) (z : Fin t → R) :
    Poseidon.permutationNotOpt dbg' (P.map φ) (List.ofFn z) =
      some (List.ofFn (Spec.poseidon (M.map φ) d (rounds_f / 2) rounds_p (fun r i => φ (tab rc r i)) z)) := by
  obtain ⟨hd, heven, hp, ht, -⟩ := Poseidon.new_args hP
  obtain ⟨h1, h2, h3, h4, h5, h6, h7⟩ := Poseidon.new_fields hP
  have hlen := hs.rc_len
  have hfit := hs.fits
  rw [Nat.mod_eq_of_lt hfit] at h5
  have hrow : ∀ r, r < rc.length → ((rc.map (List.map φ)).getD r []).length = t := by
    intro r hr
    rw [List.getD_eq_getElem _ _ (by rw [List.length_map]; exact hr), List.getElem_map, List.length_map]
    exact hs.rc_rows _ (List.getElem_mem hr)
  have e7 : (P.map φ).round_constants = rc.map (List.map φ) := by
    show P.round_constants.map _ = _
    rw [h7]
  have e6 : (P.map φ).mds = rowsOf (M.map φ) := by
    show P.mds.map _ = _
    rw [h6, rowsOf_map]
  have e4 : (P.map φ).rounds_p = rounds_p := h4
  have e5 : (P.map φ).rounds = rounds_f + rounds_p := h5
  have e2 : (P.map φ).d = d := h2
  rw [Poseidon.permutationNotOpt_cut (by omega) dbg' (P.map φ) (M.map φ) h1 e6 (by rw [e2]; exact hd) (rounds_f / 2) h3
    (by rw [e5, e4]; omega) (by rw [e4, e7, List.length_map]; omega) (by rw [e4]; omega)
    (fun _ r hr => by rw [e5] at hr; rw [e7, hrow r (by omega)])
    (fun r _ hr => by rw [e4] at hr; rw [e7, hrow r (by omega)]; omega) z]
  rw [Poseidon.poseidonCut_eq]
  · have e3 : (tab (rc.map (List.map φ)) : Nat → Nat → R) = fun r i => φ (tab rc r i) :=
      funext fun r => funext (tab_map φ rc r)
    rw [e2, e4, e7, e3]
  · intro r hr
    rw [e4] at hr
    rw [e7, hrow r (by omega)]

/-- GMiMC over another ring. -/
theorem gmimc_run {F R : Type} [CommRing F] [CommRing R] (φ : F →+* R) {s n : Nat} (dbg : Bool) (P : GmimcParams F)
    (ht : P.t = s + 1) (hrounds : P.rounds = n + 1) (hd : P.d = 3 ∨ P.d = 5 ∨ P.d = 7)
    (hlen : P.rounds ≤ P.round_constants.length) (z : Fin (s + 1) → R) :
    Gmimc.permutation dbg (P.map φ) (List.ofFn z) =
      some (List.ofFn (Spec.gmimc P.d (fun r => φ (vec P.round_constants r)) n z)) := by
  rw [C19_permutation_eq_spec dbg (P.map φ) ht hrounds hd (by
    show P.rounds ≤ (P.round_constants.map φ).length
    rw [List.length_map]; exact hlen)]
  have e : (vec (P.map φ).round_constants : Nat → R) = fun r => φ (vec P.round_constants r) :=
    funext (vec_map φ P.round_constants)
  rw [e]
  rfl

/-- Neptune over a larger ring. -/
theorem neptune_run {F R : Type} [Field F] [DecidableEq F] [CommRing R] (φ : F →+* R) (hφ : Function.Injective φ)
    {k d rounds_f rounds_p : Nat} (hk : 0 < k) {s r : List F} {P : NeptuneParams F}
    (h : NeptuneParams.new dbg (2 * k) d rounds_f rounds_p s = some (P, r)) (hfit : rounds_f + rounds_p < 2 ^ 64)
    {M : Matrix (Fin (2 * k)) (Fin (2 * k)) F} (hM : P.m_e = rowsOf M) (z : Fin (2 * k) → R) :
    Neptune.permutation dbg (P.map φ) (List.ofFn z) =
      some (List.ofFn (Spec.neptune (M.map φ) ((neptuneInternal (2 * k) (vec P.mu)).map φ) d (φ P.abc.2.2)
        (rounds_f / 2) rounds_p (fun r i => φ (tab P.round_constants r i)) z)) := by
  classical
  obtain ⟨A, B, hm, h4, h8⟩ := NeptuneParams.ext_of_new h
  have hMAB : M = parityMatrix A B := rowsOf_injective (hM.symm.trans hm.m_e_eq)
  have hm' : NeptuneParams.Made k d rounds_f rounds_p (P.map φ) (A.map φ) (B.map φ) :=
    { degree := hm.degree, even := hm.even, t_eq := hm.t_eq, d_eq := hm.d_eq, f_eq := hm.f_eq, p_eq := hm.p_eq
      rounds_eq := hm.rounds_eq
      rc_len := by
        show (P.round_constants.map _).length = _
        rw [List.length_map]; exact hm.rc_len
      rc_row := fun row hr => by
        obtain ⟨row', hr', rfl⟩ := List.mem_map.mp hr
        rw [List.length_map]
        exact hm.rc_row row' hr'
      m_e_eq := by
        show P.m_e.map _ = _
        rw [hm.m_e_eq, rowsOf_map, parityMatrix_map]
      mu_len := by
        show (P.mu.map _).length = _
        rw [List.length_map]; exact hm.mu_len
      mu_ne := fun x hx => by
        obtain ⟨y, hy, rfl⟩ := List.mem_map.mp hx
        intro h0
        refine hm.mu_ne y hy (hφ ?_)
        rw [map_add, map_one, map_zero]
        exact h0 }
  rw [Neptune.permutation_ofFn hk hm' (fun hk => by
      subst hk
      show P.m_e.map _ = _
      rw [h4 rfl, rowsOf_map, neptuneExt4_map]) (fun hk => by
      subst hk
      show P.m_e.map _ = _
      rw [h8 rfl, rowsOf_map, neptuneExt8_map]) hfit, hMAB, parityMatrix_map, neptuneInternal_map]
  have e1 : (vec (P.map φ).mu : Nat → R) = fun i => φ (vec P.mu i) := funext (vec_map φ P.mu)
  have e2 : (tab (P.map φ).round_constants : Nat → Nat → R) = fun r i => φ (tab P.round_constants r i) :=
    funext fun r => funext (tab_map φ P.round_constants r)
  rw [e1, e2]
  rfl

end run

end Symbolic

end ZkHash

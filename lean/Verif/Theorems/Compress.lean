import Verif.Theorems.Poseidon2
import Verif.Theorems.Poseidon
import Verif.Theorems.Gmimc
import Verif.Theorems.Neptune
import Verif.Theorems.Merkle

set_option autoImplicit false

/-!
# The two-to-one compressions and the S-boxes: C42, C43, C46
-/

namespace ZkHash

variable {dbg : Bool}

open Spec Matrix Merkle

set_option linter.unusedSectionVars false

/-! ## C42 -/

section
variable {F : Type _} [CommRing F]

/-- C42, Poseidon2: for well-shaped parameters of width 3 the compression of the first two inputs is entry 0 of the
specified permutation of `(a, b, 0)`; further inputs are ignored. -/
theorem C42_poseidon2_value {d rounds_f rounds_p : Nat} {diag : List F} {mat_internal rc : List (List F)}
    {P : Poseidon2Params F} (hP : Poseidon2Params.new dbg 3 d rounds_f rounds_p diag mat_internal rc = some P)
    (hs : WellShaped 3 d rounds_f rounds_p diag rc) (a b : F) (rest : List F) :
    Poseidon2.compress dbg P (a :: b :: rest) =
      some (poseidon2 (externalMatrix 3) (internalMatrix 3 (vec diag)) d (rounds_f / 2) rounds_p (tab rc)
        ![a, b, 0] 0) := by
  have h := C01_permutation_eq_spec hP hs ![a, b, 0]
  have e : List.ofFn ![a, b, 0] = [a, b, 0] := by simp [List.ofFn_succ]
  rw [e] at h
  simp only [Poseidon2.compress, List.getElem?_cons_zero, List.getElem?_cons_succ, Option.bind_eq_bind,
    Option.bind_some, h]
  simp

/-- C42, Poseidon2: for every parameter value, the result is entry 0 of what `permutation` returns on `[a, b, 0]`, and
it panics if that panics. -/
theorem C42_poseidon2 (P : Poseidon2Params F) (a b : F) (rest : List F) :
    (∀ out, Poseidon2.permutation dbg P [a, b, 0] = some out →
      ∃ y, out.head? = some y ∧ Poseidon2.compress dbg P (a :: b :: rest) = some y) ∧
    (Poseidon2.permutation dbg P [a, b, 0] = none → Poseidon2.compress dbg P (a :: b :: rest) = none) := by
  simp only [Poseidon2.compress, List.getElem?_cons_zero, List.getElem?_cons_succ, Option.bind_eq_bind,
    Option.bind_some]
  refine ⟨fun out h => ?_, fun h => by rw [h]; rfl⟩
  obtain ⟨h1, h2⟩ := C07_result_width P _ _ h
  rw [h, Option.bind_some]
  cases out with
  | nil => simp only [List.length_cons, List.length_nil] at h1 h2; omega
  | cons y _ => exact ⟨y, rfl, rfl⟩

/-- C42, Poseidon2: it panics on fewer than two inputs, and on every input if the width is not 3. -/
theorem C42_poseidon2_panics (P : Poseidon2Params F) (l : List F) (h : l.length < 2 ∨ P.t ≠ 3) :
    Poseidon2.compress dbg P l = none := by
  match l with
  | [] => rfl
  | [_] => rfl
  | a :: b :: rest =>
    refine (C42_poseidon2 P a b rest).2 (C04_permutation_guards P _ (Or.inl ?_))
    have := h.resolve_left (by simp only [List.length_cons]; omega)
    exact fun h => this h.symm

end

section
variable {F : Type _} [Field F] [DecidableEq F]

/-- C42, Poseidon: the same contract, for the parameters the constructor returns on a matrix of width 3. -/
theorem C42_poseidon_value {dbg : Bool} {d rounds_f rounds_p : Nat} {M : Matrix (Fin 3) (Fin 3) F}
    {rc : List (List F)} {P : PoseidonParams F}
    (hP : PoseidonParams.new dbg 3 d rounds_f rounds_p (rowsOf M) rc = some P)
    (hs : PoseidonShaped 3 rounds_f rounds_p rc) (dbg' : Bool) (a b : F) (rest : List F) :
    Poseidon.compress dbg' P (a :: b :: rest) =
      some (poseidon M d (rounds_f / 2) rounds_p (tab rc) ![a, b, 0] 0) := by
  have h := C12_permutation_eq_spec hP hs dbg' ![a, b, 0]
  have e : List.ofFn ![a, b, 0] = [a, b, 0] := by simp [List.ofFn_succ]
  rw [e] at h
  simp only [Poseidon.compress, List.getElem?_cons_zero, List.getElem?_cons_succ, Option.bind_eq_bind,
    Option.bind_some, h]
  simp

/-- C42, Poseidon, for every parameter value: entry 0 of what `permutation` returns on `[a, b, 0]`. -/
theorem C42_poseidon (dbg : Bool) (P : PoseidonParams F) (a b : F) (rest : List F) :
    Poseidon.compress dbg P (a :: b :: rest) = (Poseidon.permutation dbg P [a, b, 0]).bind List.head? := by
  simp only [Poseidon.compress, List.getElem?_cons_zero, List.getElem?_cons_succ, Option.bind_eq_bind,
    Option.bind_some]
  congr 1
  funext out
  cases out <;> rfl

theorem C42_poseidon_panics (dbg : Bool) (P : PoseidonParams F) (l : List F) (h : l.length < 2 ∨ P.t ≠ 3) :
    Poseidon.compress dbg P l = none := by
  match l with
  | [] => rfl
  | [_] => rfl
  | a :: b :: rest =>
    rw [C42_poseidon, (C16_wrong_length dbg P [a, b, 0] ?_).1, Option.bind_none]
    have := h.resolve_left (by simp only [List.length_cons]; omega)
    exact fun h => this h.symm

end

section
variable {F : Type} [CommRing F]

/-- C42, GMiMC: entry 0 of the specified permutation of `(a, b, 0)`. -/
theorem C42_gmimc_value {n : Nat} (dbg : Bool) (P : GmimcParams F) (ht : P.t = 3)
    (hrounds : P.rounds = n + 1) (hd : P.d = 3 ∨ P.d = 5 ∨ P.d = 7) (hlen : P.rounds ≤ P.round_constants.length)
    (a b : F) (rest : List F) :
    Gmimc.compress dbg P (a :: b :: rest) = some (gmimc P.d (vec P.round_constants) n ![a, b, 0] 0) := by
  have h := C19_permutation_eq_spec dbg P (s := 2) ht hrounds hd hlen ![a, b, 0]
  have e : List.ofFn ![a, b, 0] = [a, b, 0] := by simp [List.ofFn_succ]
  rw [e] at h
  simp only [Gmimc.compress, List.getElem?_cons_zero, List.getElem?_cons_succ, Option.bind_eq_bind,
    Option.bind_some, h]
  simp

/-- C42, GMiMC, for every parameter value: entry 0 of what `permutation` returns on `[a, b, 0]`. -/
theorem C42_gmimc (dbg : Bool) (P : GmimcParams F) (a b : F) (rest : List F) :
    Gmimc.compress dbg P (a :: b :: rest) = (Gmimc.permutation dbg P [a, b, 0]).bind List.head? := by
  simp only [Gmimc.compress, List.getElem?_cons_zero, List.getElem?_cons_succ, Option.bind_eq_bind,
    Option.bind_some]
  congr 1
  funext out
  cases out <;> rfl

theorem C42_gmimc_panics (dbg : Bool) (P : GmimcParams F) (l : List F) (h : l.length < 2 ∨ P.t ≠ 3) :
    Gmimc.compress dbg P l = none := by
  match l with
  | [] => rfl
  | [_] => rfl
  | a :: b :: rest =>
    rw [C42_gmimc, (C21_wrong_length dbg P [a, b, 0] ?_).1, Option.bind_none]
    have := h.resolve_left (by simp only [List.length_cons]; omega)
    exact fun h => this h.symm

end

section
variable {F : Type} [Field F] [DecidableEq F]

/-- C42, Neptune: entry 0 of the specified permutation of `(a, b, 0, 0)`. -/
theorem C42_neptune_value {d rounds_f rounds_p : Nat} {s r : List F} {P : NeptuneParams F}
    (h : NeptuneParams.new dbg 4 d rounds_f rounds_p s = some (P, r)) (hfit : rounds_f + rounds_p < 2 ^ 64) :
    ∃ M : Matrix (Fin 4) (Fin 4) F, P.m_e = rowsOf M ∧ ∀ (a b : F) (rest : List F),
      Neptune.compress dbg P (a :: b :: rest) = some (neptune (k := 2) M (neptuneInternal 4 (vec P.mu)) d
        P.abc.2.2 (rounds_f / 2) rounds_p (tab P.round_constants) ![a, b, 0, 0] (0 : Fin 4)) := by
  obtain ⟨M, hM, h1⟩ := C25_permutation_eq_spec (k := 2) (by omega) h hfit
  refine ⟨M, hM, fun a b rest => ?_⟩
  have h := h1 ![a, b, 0, 0]
  have e : List.ofFn (n := 2 * 2) ![a, b, 0, 0] = [a, b, 0, 0] := by
    rw [show (List.ofFn (n := 2 * 2) ![a, b, 0, 0]) = List.ofFn (n := 4) ![a, b, 0, 0] from rfl]
    simp [List.ofFn_succ]
  rw [e] at h
  simp only [Neptune.compress, List.getElem?_cons_zero, List.getElem?_cons_succ, Option.bind_eq_bind,
    Option.bind_some, h]
  rw [List.getElem?_ofFn, dif_pos (by omega)]
  rfl

/-- C42, Neptune, for every parameter value: entry 0 of what `permutation` returns on `[a, b, 0, 0]`. -/
theorem C42_neptune (P : NeptuneParams F) (a b : F) (rest : List F) :
    Neptune.compress dbg P (a :: b :: rest) = (Neptune.permutation dbg P [a, b, 0, 0]).bind List.head? := by
  simp only [Neptune.compress, List.getElem?_cons_zero, List.getElem?_cons_succ, Option.bind_eq_bind,
    Option.bind_some]
  congr 1
  funext out
  cases out <;> rfl

theorem C42_neptune_panics (P : NeptuneParams F) (l : List F) (h : l.length < 2 ∨ P.t ≠ 4) :
    Neptune.compress dbg P l = none := by
  match l with
  | [] => rfl
  | [_] => rfl
  | a :: b :: rest =>
    rw [C42_neptune, C25_wrong_length P [a, b, 0, 0] ?_, Option.bind_none]
    have := h.resolve_left (by simp only [List.length_cons]; omega)
    exact fun h => this h.symm

end

/-! ## C43 -/

/-- C43, wrong width: a tree over a permutation of the wrong width panics on every leaf set, for all four hashes. -/
theorem C43_wrong_width {F : Type} [Field F] [DecidableEq F] (dbg : Bool) (set : List F)
    (hlen : set.length ≤ 2 ^ 63) :
    (∀ P : Poseidon2Params F, P.t ≠ 3 → accumulate dbg (Poseidon2.compress dbg P) set = none) ∧
    (∀ P : PoseidonParams F, P.t ≠ 3 → accumulate dbg (Poseidon.compress dbg P) set = none) ∧
    (∀ P : GmimcParams F, P.t ≠ 3 → accumulate dbg (Gmimc.compress dbg P) set = none) ∧
    (∀ P : NeptuneParams F, P.t ≠ 4 → accumulate dbg (Neptune.compress dbg P) set = none) := by
  have key : ∀ c : List F → Option F, (∀ l, c l = none) → accumulate dbg c set = none := by
    intro c hc
    by_cases hne : set = []
    · subst hne
      unfold accumulate
      rw [paddedNodes_nil]
      rfl
    · rw [accumulate_eq dbg c hne hlen, tree_eq_treeLv]
      exact treeLv_none _ _ 0 (depth_pos _) (fun a b => hc _) _
  exact ⟨fun P h => key _ fun l => C42_poseidon2_panics P l (Or.inr h),
    fun P h => key _ fun l => C42_poseidon_panics dbg P l (Or.inr h),
    fun P h => key _ fun l => C42_gmimc_panics dbg P l (Or.inr h),
    fun P h => key _ fun l => C42_neptune_panics P l (Or.inr h)⟩

/-- C43, totality for well-shaped Poseidon2 parameters of width 3: every nonempty set has a root, and it is the
recursive tree over entry 0 of the specified permutation. -/
theorem C43_poseidon2_total {F : Type _} [CommRing F] {d rounds_f rounds_p : Nat} {diag : List F}
    {mat_internal rc : List (List F)} {P : Poseidon2Params F}
    (hP : Poseidon2Params.new dbg 3 d rounds_f rounds_p diag mat_internal rc = some P)
    (hs : WellShaped 3 d rounds_f rounds_p diag rc) (set : List F) (hne : set ≠ [])
    (hlen : set.length ≤ 2 ^ 63) :
    ∃ r, accumulate dbg (Poseidon2.compress dbg P) set = some r ∧
      tree (fun a b => some (poseidon2 (externalMatrix 3) (internalMatrix 3 (vec diag)) d (rounds_f / 2) rounds_p
        (tab rc) ![a, b, 0] 0)) (depth set.length) (padded set hne) = some r :=
  C34_root_total dbg _ _ (fun a b => C42_poseidon2_value hP hs a b []) set hne hlen

/-! ## C46 -/

section
variable {F : Type} [CommRing F]

/-- C46: the S-boxes of Poseidon2, Poseidon and Neptune return `x^d` for `d = 3, 5, 7` and panic for every other
`d`. -/
theorem C46_sbox (d : Nat) (x : F) :
    (d = 3 ∨ d = 5 ∨ d = 7 →
      Poseidon2.sboxP d x = some (x ^ d) ∧ Poseidon.sboxP d x = some (x ^ d) ∧ Neptune.sboxD d x = some (x ^ d)) ∧
    (d ≠ 3 ∧ d ≠ 5 ∧ d ≠ 7 →
      Poseidon2.sboxP d x = none ∧ Poseidon.sboxP d x = none ∧ Neptune.sboxD d x = none) := by
  constructor
  · rintro (rfl | rfl | rfl) <;>
      simp only [Poseidon2.sboxP, Poseidon.sboxP, Neptune.sboxD, Option.some.injEq, and_self] <;> ring
  · rintro ⟨h3, h5, h7⟩
    refine ⟨?_, ?_, ?_⟩
    · unfold Poseidon2.sboxP; split <;> first | rfl | omega
    · unfold Poseidon.sboxP; split <;> first | rfl | omega
    · unfold Neptune.sboxD; split <;> first | rfl | omega

/-- C46, GMiMC: `(x + c_r)^d`, and a panic for every other `d` or a missing constant. -/
theorem C46_gmimc_sbox (P : GmimcParams F) (x : F) (r : Nat) :
    (∀ hr : r < P.round_constants.length, P.d = 3 ∨ P.d = 5 ∨ P.d = 7 →
      Gmimc.sbox P x r = some ((x + P.round_constants[r]) ^ P.d)) ∧
    (P.round_constants.length ≤ r ∨ (P.d ≠ 3 ∧ P.d ≠ 5 ∧ P.d ≠ 7) → Gmimc.sbox P x r = none) := by
  constructor
  · intro hr hd
    simp only [Gmimc.sbox, List.getElem?_eq_getElem hr, Option.bind_eq_bind, Option.bind_some]
    rcases hd with hd | hd | hd <;> rw [hd] <;> simp only [Option.some.injEq] <;> ring
  · intro h
    unfold Gmimc.sbox
    by_cases hr : P.round_constants.length ≤ r
    · rw [List.getElem?_eq_none hr]; rfl
    · rw [List.getElem?_eq_getElem (by omega)]
      simp only [Option.bind_eq_bind, Option.bind_some]
      have := h.resolve_left hr
      split <;> first | rfl | omega

/-- C46, whole layers: the S-box layer of a full round raises every entry to the power `d`. -/
theorem C46_sbox_layer (d : Nat) (hd : d = 3 ∨ d = 5 ∨ d = 7) (x : List F) :
    Poseidon2.sbox d x = some (x.map (· ^ d)) ∧ Poseidon.sbox d x = some (x.map (· ^ d)) := by
  unfold Poseidon2.sbox Poseidon.sbox
  induction x with
  | nil => exact ⟨rfl, rfl⟩
  | cons a x ih =>
    obtain ⟨h1, h2, -⟩ := (C46_sbox d a).1 hd
    rw [List.mapM_cons, List.mapM_cons, ih.1, ih.2, h1, h2]
    exact ⟨rfl, rfl⟩

end

/-- A width-3 parameter set over the field with 11 elements. -/
example : ∃ P, Poseidon2Params.new dbg 3 3 2 1 ([] : List (ZMod 11)) [] [[1, 2, 3], [4], [5, 6, 7]] = some P ∧ P.t = 3 ∧
    (Poseidon2.compress dbg P [1, 2]).isSome := ⟨_, rfl, rfl, by cases dbg <;> decide⟩

example : WellShaped 3 3 2 1 ([] : List (ZMod 11)) [[1, 2, 3], [4, 5, 6], [5, 6, 7]] where
  width := by unfold Supported; omega
  degree := by omega
  diag_len := by omega
  rc_len := by decide
  rc_rows := by decide
  fits := by norm_num

end ZkHash

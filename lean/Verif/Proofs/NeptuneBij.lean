import Verif.Proofs.Neptune
import Mathlib.LinearAlgebra.Matrix.SchurComplement
import Mathlib.Tactic.FieldSimp
import Mathlib.Tactic.LinearCombination

set_option autoImplicit false

/-!
# Neptune: the permutation against its specification, and bijectivity
-/

namespace ZkHash

open Spec Matrix Fields Function

set_option linter.unusedSectionVars false

namespace Neptune

section
variable {F : Type} [CommRing F] [DecidableEq F]

theorem rc_get {P : NeptuneParams F} {n t : Nat} (hlen : P.round_constants.length = n)
    (hrow : ∀ row ∈ P.round_constants, row.length = t) {r : Nat} (hr : r < n) :
    ∃ row, P.round_constants[r]? = some row ∧ row.length = t ∧ ∀ i, vec row i = tab P.round_constants r i := by
  have h : r < P.round_constants.length := by omega
  refine ⟨P.round_constants[r], by simp [h], hrow _ (List.getElem_mem h), fun i => ?_⟩
  simp [vec, tab, List.getD, h]

/-- The permutation of constructed parameters. -/
theorem permutation_ofFn {dbg : Bool} {k d rounds_f rounds_p : Nat} (hk : 0 < k) {P : NeptuneParams F}
    {A B : Matrix (Fin k) (Fin k) F} (hP : NeptuneParams.Made k d rounds_f rounds_p P A B)
    (h4 : k = 2 → P.m_e = rowsOf (neptuneExt4 (F := F))) (h8 : k = 4 → P.m_e = rowsOf (neptuneExt8 (F := F)))
    (hfit : rounds_f + rounds_p < 2 ^ 64) (x : Fin (2 * k) → F) :
    permutation dbg P (List.ofFn x) = some (List.ofFn (neptune (parityMatrix A B) (neptuneInternal (2 * k) (vec P.mu)) d
      P.abc.2.2 (rounds_f / 2) rounds_p (tab P.round_constants) x)) := by
  have hd : P.d = 3 ∨ P.d = 5 ∨ P.d = 7 := by rw [hP.d_eq]; exact hP.degree
  have heven := hP.even
  have hrounds : P.rounds = rounds_f + rounds_p := by rw [hP.rounds_eq, Nat.mod_eq_of_lt hfit]
  have hlen : P.round_constants.length = rounds_f + rounds_p := by rw [hP.rc_len, Nat.mod_eq_of_lt hfit]
  have hext : ∀ r, r < rounds_f + rounds_p → ∀ y : Fin (2 * k) → F, externalRound P (List.ofFn y) r =
      some (List.ofFn (neptuneExtRound (parityMatrix A B) P.abc.2.2
        (fun i : Fin (2 * k) => tab P.round_constants r i) y)) := by
    intro r hr y
    obtain ⟨row, h1, h2, h3⟩ := rc_get hlen hP.rc_row hr
    unfold externalRound
    rw [externalSbox_ofFn]
    simp only [Option.bind_eq_bind, Option.bind_some]
    rw [externalMatmul_ofFn P hP.t_eq A B hP.m_e_eq h4 h8, h1]
    simp only [Option.bind_some, Option.pure_def]
    rw [addRc_ofFn _ _ h2]
    simp only [h3]
    rfl
  have hint : ∀ r, r < rounds_f + rounds_p → ∀ y : Fin (2 * k) → F, internalRound P (List.ofFn y) r =
      some (List.ofFn (neptuneIntRound (neptuneInternal (2 * k) (vec P.mu)) d
        (fun i : Fin (2 * k) => tab P.round_constants r i) y)) := by
    intro r hr y
    obtain ⟨row, h1, h2, h3⟩ := rc_get hlen hP.rc_row hr
    unfold internalRound
    rw [internalSbox_ofFn (by omega) hd]
    simp only [Option.bind_eq_bind, Option.bind_some]
    rw [internalMatmul_ofFn (by omega) P hP.mu_len, h1]
    simp only [Option.bind_some, Option.pure_def]
    rw [addRc_ofFn _ _ h2, hP.d_eq]
    simp only [h3]
    rfl
  unfold permutation
  simp only [List.length_ofFn, hP.t_eq, beq_self_eq_true, assertThat, if_true, Option.bind_eq_bind, Option.bind_some,
    hP.f_eq, hP.p_eq, hrounds, List.range_eq_range',
    uadd_fits dbg (show rounds_f / 2 + rounds_p < 2 ^ 64 by omega)]
  rw [externalMatmul_ofFn P hP.t_eq A B hP.m_e_eq h4 h8, Option.bind_some]
  rw [rounds_loop (fun z : Fin (2 * k) → F => List.ofFn z) _ (fun r => neptuneExtRound (parityMatrix A B) P.abc.2.2
        (fun i : Fin (2 * k) => tab P.round_constants r i)) _ _ (fun r _ hr => hext r (by omega)), Option.bind_some]
  rw [rounds_loop (fun z : Fin (2 * k) → F => List.ofFn z) _ (fun r => neptuneIntRound (neptuneInternal (2 * k) (vec P.mu))
        d (fun i : Fin (2 * k) => tab P.round_constants r i)) _ _ (fun r _ hr => hint r (by omega)), Option.bind_some]
  rw [rounds_loop (fun z : Fin (2 * k) → F => List.ofFn z) _ (fun r => neptuneExtRound (parityMatrix A B) P.abc.2.2
        (fun i : Fin (2 * k) => tab P.round_constants r i)) _ _ (fun r _ hr => hext r (by omega))]
  rw [show rounds_f / 2 + rounds_p - rounds_f / 2 = rounds_p by omega,
    show rounds_f + rounds_p - (rounds_f / 2 + rounds_p) = rounds_f / 2 by omega]
  rfl

end

variable {F : Type} [Field F]

/-! ## Bijectivity -/

/-- The inverse of the pair S-box. -/
def pairInv (γ : F) (y : F × F) : F × F :=
  let w := y.1 - y.2
  let z := (y.1 - (w + γ) ^ 2 + 3 * w) / 5
  (z + (z - w - z ^ 2), z - w - z ^ 2)

theorem neptunePair_bijective_iff (γ : F) : Bijective (neptunePair γ) ↔ (5 : F) ≠ 0 := by
  constructor
  · intro h h5
    obtain ⟨⟨a, b⟩, hab⟩ := h.2 (γ ^ 2 + 1, γ ^ 2 + 1)
    unfold neptunePair at hab
    simp only [Prod.mk.injEq] at hab
    obtain ⟨h1, h2⟩ := hab
    have hw : a - 2 * b - (a - b) ^ 2 = 0 := by linear_combination h1 - h2
    rw [hw] at h1
    have h3 : (1 : F) = 5 * (a - b) := by linear_combination -h1 - 3 * hw
    rw [h5, zero_mul] at h3
    exact one_ne_zero h3
  · intro h5
    apply bijective_iff_has_inverse.mpr
    refine ⟨pairInv γ, fun x => ?_, fun y => ?_⟩
    · obtain ⟨a, b⟩ := x
      unfold pairInv neptunePair
      simp only
      generalize hY1 : 2 * a + b + 3 * (a - b) ^ 2 + (a - 2 * b - (a - b) ^ 2 + γ) ^ 2 = Y1
      generalize hY2 : a + 3 * b + 4 * (a - b) ^ 2 + (a - 2 * b - (a - b) ^ 2 + γ) ^ 2 = Y2
      have hw : Y1 - Y2 = a - 2 * b - (a - b) ^ 2 := by rw [← hY1, ← hY2]; ring
      have hz : (Y1 - (Y1 - Y2 + γ) ^ 2 + 3 * (Y1 - Y2)) / 5 = a - b := by
        rw [div_eq_iff h5, hw, ← hY1]; ring
      rw [hz, hw]
      simp only [Prod.mk.injEq]
      constructor <;> ring
    · obtain ⟨p, q⟩ := y
      unfold pairInv neptunePair
      simp only
      generalize hz : (p - (p - q + γ) ^ 2 + 3 * (p - q)) / 5 = z
      rw [div_eq_iff h5] at hz
      have e1 : z + (z - (p - q) - z ^ 2) - (z - (p - q) - z ^ 2) = z := by ring
      rw [e1]
      have e2 : z + (z - (p - q) - z ^ 2) - 2 * (z - (p - q) - z ^ 2) - z ^ 2 + γ = p - q + γ := by ring
      rw [e2]
      simp only [Prod.mk.injEq]
      constructor
      · linear_combination -hz
      · linear_combination -hz

theorem onPairs_comp {k : Nat} (g h : F × F → F × F) (x : Fin (2 * k) → F) :
    onPairs g (onPairs h x) = onPairs (g ∘ h) x := by
  funext i
  have h1 : (2 * (i.val / 2)) % 2 = 0 := by omega
  have h2 : (2 * (i.val / 2) + 1) % 2 ≠ 0 := by omega
  have h3 : 2 * (2 * (i.val / 2) / 2) = 2 * (i.val / 2) := by omega
  have h4 : 2 * ((2 * (i.val / 2) + 1) / 2) = 2 * (i.val / 2) := by omega
  simp only [onPairs, h1, if_true, h2, if_false, h3, h4, Function.comp_def, Prod.mk.eta]

theorem onPairs_id {k : Nat} (x : Fin (2 * k) → F) : onPairs id x = x := by
  funext i
  unfold onPairs
  simp only [id_eq]
  by_cases h : i.val % 2 = 0
  · rw [if_pos h]; congr 1; apply Fin.ext; simp only; omega
  · rw [if_neg h]; congr 1; apply Fin.ext; simp only; omega

theorem onPairs_bijective_iff {k : Nat} (hk : 0 < k) (g : F × F → F × F) :
    Bijective (onPairs g : (Fin (2 * k) → F) → Fin (2 * k) → F) ↔ Bijective g := by
  constructor
  · intro h
    constructor
    · intro p q hpq
      let f : F × F → Fin (2 * k) → F := fun p => onPairs (fun _ => p) (fun _ => 0)
      have hf : ∀ p, f p = fun i => if i.val % 2 = 0 then p.1 else p.2 := fun p => rfl
      have h1 : ∀ p, onPairs g (f p) = f (g p) := by
        intro p
        rw [show f p = onPairs (fun _ => p) (fun _ => 0) from rfl, onPairs_comp]
        rfl
      have := h.1 (a₁ := f p) (a₂ := f q) (by rw [h1, h1, hpq])
      rw [hf, hf] at this
      have e1 := congrFun this ⟨0, by omega⟩
      have e2 := congrFun this ⟨1, by omega⟩
      simp at e1 e2
      exact Prod.ext e1 e2
    · intro y
      obtain ⟨x, hx⟩ := h.2 (fun i => if i.val % 2 = 0 then y.1 else y.2)
      refine ⟨(x ⟨0, by omega⟩, x ⟨1, by omega⟩), ?_⟩
      have e1 := congrFun hx ⟨0, by omega⟩
      have e2 := congrFun hx ⟨1, by omega⟩
      simp [onPairs] at e1 e2
      exact Prod.ext e1 e2
  · intro h
    obtain ⟨gi, h1, h2⟩ := bijective_iff_has_inverse.mp h
    apply bijective_iff_has_inverse.mpr
    refine ⟨onPairs gi, fun x => ?_, fun x => ?_⟩
    · rw [onPairs_comp, h1.comp_eq_id, onPairs_id]
    · rw [onPairs_comp, h2.comp_eq_id, onPairs_id]

theorem neptuneExtRound_bijective_iff [Fintype F] {k : Nat} (hk : 0 < k) (ME : Matrix (Fin (2 * k)) (Fin (2 * k)) F)
    (γ : F) (c : Fin (2 * k) → F) : Bijective (neptuneExtRound ME γ c) ↔ ME.det ≠ 0 ∧ (5 : F) ≠ 0 := by
  have : neptuneExtRound ME γ c = (Equiv.addRight c) ∘ ME.mulVec ∘ onPairs (neptunePair γ) := rfl
  rw [this, bijective_comp_iff, bijective_comp_iff, mulVec_bijective_iff, onPairs_bijective_iff hk,
    neptunePair_bijective_iff]
  exact ⟨fun h => h.2, fun h => ⟨Equiv.bijective _, h⟩⟩

theorem neptuneIntRound_bijective_iff [Fintype F] {t : Nat} (ht : 0 < t) (MI : Matrix (Fin t) (Fin t) F)
    {d : Nat} (hd : d ≠ 0) (c : Fin t → F) :
    Bijective (neptuneIntRound MI d c) ↔ MI.det ≠ 0 ∧ Nat.Coprime d (Fintype.card F - 1) := by
  have : neptuneIntRound MI d c = (Equiv.addRight c) ∘ MI.mulVec ∘
    fun (x : Fin t → F) i => if i.val = 0 then x i ^ d else x i := rfl
  rw [this, bijective_comp_iff, bijective_comp_iff, mulVec_bijective_iff,
    pi_bijective_iff (f := fun i y => if i.val = 0 then y ^ d else y)]
  constructor
  · rintro ⟨-, h1, h2⟩
    refine ⟨h1, ?_⟩
    have := h2 ⟨0, ht⟩
    simp only [if_true] at this
    rwa [pow_bijective_iff hd] at this
  · rintro ⟨h1, h2⟩
    refine ⟨Equiv.bijective _, h1, fun i => ?_⟩
    by_cases hi : i.val = 0
    · simp only [hi, if_true]
      rwa [pow_bijective_iff hd]
    · simp only [hi, if_false]
      exact bijective_id

theorem neptune_bijective_iff [Fintype F] {k : Nat} (hk : 0 < k) (ME MI : Matrix (Fin (2 * k)) (Fin (2 * k)) F)
    {d : Nat} (hd : d ≠ 0) (γ : F) (rf rp : Nat) (c : Nat → Nat → F) :
    Bijective (neptune ME MI d γ rf rp c) ↔
      ME.det ≠ 0 ∧ (rf = 0 ∨ (5 : F) ≠ 0) ∧ (rp = 0 ∨ (MI.det ≠ 0 ∧ Nat.Coprime d (Fintype.card F - 1))) := by
  have : neptune ME MI d γ rf rp c =
      rounds (fun r => neptuneExtRound ME γ (fun i : Fin (2 * k) => c r i)) (rf + rp) rf ∘
      rounds (fun r => neptuneIntRound MI d (fun i : Fin (2 * k) => c r i)) rf rp ∘
      rounds (fun r => neptuneExtRound ME γ (fun i : Fin (2 * k) => c r i)) 0 rf ∘ ME.mulVec := rfl
  rw [this, bijective_comp_iff, bijective_comp_iff, bijective_comp_iff, rounds_bijective_iff, rounds_bijective_iff,
    rounds_bijective_iff, mulVec_bijective_iff]
  simp only [neptuneExtRound_bijective_iff hk, neptuneIntRound_bijective_iff (show 0 < 2 * k by omega) MI hd]
  constructor
  · rintro ⟨h1, h2, h3, h4⟩
    refine ⟨h4, ?_, ?_⟩
    · by_cases hf : rf = 0
      · exact Or.inl hf
      · exact Or.inr (h3 0 (by omega) (by omega)).2
    · by_cases hp : rp = 0
      · exact Or.inl hp
      · exact Or.inr (h2 rf (by omega) (by omega))
  · rintro ⟨h1, h2, h3⟩
    refine ⟨fun r a b => ⟨h1, ?_⟩, fun r a b => ?_, fun r a b => ⟨h1, ?_⟩, h1⟩
    · exact h2.resolve_left (by omega)
    · exact h3.resolve_left (by omega)
    · exact h2.resolve_left (by omega)

/-! ## Determinants -/

/-- Even positions first, then odd positions. -/
def parityEquiv (k : Nat) : Fin k ⊕ Fin k ≃ Fin (2 * k) where
  toFun := Sum.elim (fun i => ⟨2 * i, by omega⟩) (fun i => ⟨2 * i + 1, by omega⟩)
  invFun i := if i.val % 2 = 0 then Sum.inl ⟨i / 2, by omega⟩ else Sum.inr ⟨i / 2, by omega⟩
  left_inv := by
    rintro (i | i)
    · simp
    · have : (2 * i.val + 1) % 2 ≠ 0 := by omega
      simp only [Sum.elim_inr, this, if_false]
      congr 1; apply Fin.ext; simp only; omega
  right_inv := by
    intro i
    by_cases h : i.val % 2 = 0
    · simp only [h, if_true, Sum.elim_inl]; apply Fin.ext; simp only; omega
    · simp only [h, if_false, Sum.elim_inr]; apply Fin.ext; simp only; omega

theorem parityMatrix_det {k : Nat} (A B : Matrix (Fin k) (Fin k) F) :
    (parityMatrix A B).det = A.det * B.det := by
  rw [← Matrix.det_submatrix_equiv_self (parityEquiv k), ← Matrix.det_fromBlocks_zero₂₁ A 0 B]
  congr 1
  ext i j
  rcases i with i | i <;> rcases j with j | j <;>
    simp [parityEquiv, parityMatrix, Nat.add_mod, Nat.add_div]

theorem ext4_det : (neptuneExt4 (F := F)).det = -9 := by
  unfold neptuneExt4
  rw [parityMatrix_det, Matrix.det_fin_two_of, Matrix.det_fin_two_of]
  ring

theorem ext8_det : (neptuneExt8 (F := F)).det = -1225 := by
  unfold neptuneExt8
  rw [parityMatrix_det]
  simp [Matrix.det_succ_row_zero, Fin.sum_univ_succ, Fin.succAbove, Matrix.submatrix]
  ring

end Neptune

end ZkHash

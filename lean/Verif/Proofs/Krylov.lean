import Verif.Spec.Subspace
import Verif.Proofs.PoseidonCheck
import Mathlib.LinearAlgebra.FiniteDimensional.Lemmas

set_option autoImplicit false

/-!
# Differences that reach no S-box of partial rounds

The rows `e_0 M^j`, `j < t`, checked to be independent by the kernel, and what follows for rounds that are linear away
from the first word.
-/

namespace ZkHash

open Spec Matrix

namespace Krylov

open PoseidonSource

/-- `k` of the rows `row`, `row * M`, ..., (`n` rows), where `T` lists the columns of `M`. -/
noncomputable def rowsF (p : Nat) (T : List (List Nat)) (n : Nat) :
    List Nat → (List (List Nat) → Bool) → Bool :=
  Nat.rec (motive := fun _ => List Nat → (List (List Nat) → Bool) → Bool) (fun _ k => k [])
    (fun _ ih row k => Fast.mulRow p row T fun row' => ih row' fun ks => k (row :: ks)) n

/-- The rows computed by `rowsF`. -/
def rows (p : Nat) (T : List (List Nat)) : Nat → List Nat → List (List Nat)
  | 0, _ => []
  | n + 1, row => row :: rows p T n (T.map fun col => dot row col % p)

theorem rowsF_eq (p : Nat) (T : List (List Nat)) (n : Nat) (row : List Nat) (k : List (List Nat) → Bool) :
    rowsF p T n row k = k (rows p T n row) := by
  induction n generalizing row k with
  | zero => rfl
  | succ n ih =>
    show Fast.mulRow p row T (fun row' => rowsF p T n row' fun ks => k (row :: ks)) = _
    rw [Fast.mulRow_eq, ih, rows]

/-- The first unit vector. -/
def e0 (t : Nat) : List Nat := 1 :: List.replicate (t - 1) 0

/-- The check run by the kernel: the rows `e_0 M^j` have nonzero leading minors. -/
noncomputable def check (p t : Nat) (L : List (List Nat)) : Bool :=
  decide (2 ≤ t) && (L.length == t) && (L.all fun row => row.length == t) &&
  forceMat (cols t L) fun T => forceRow (e0 t) fun e => rowsF p T t e (Fast.minorsOk p t)

variable {p t : Nat}

theorem rows_length (T : List (List Nat)) (n : Nat) (row : List Nat) : (rows p T n row).length = n := by
  induction n generalizing row with
  | zero => rfl
  | succ n ih => rw [rows, List.length_cons, ih]

theorem rows_width {T : List (List Nat)} (hT : T.length = t) (n : Nat) {row : List Nat} (hr : row.length = t) :
    ∀ r ∈ rows p T n row, r.length = t := by
  induction n generalizing row with
  | zero => intro r h; cases h
  | succ n ih =>
    intro r h
    rw [rows, List.mem_cons] at h
    rcases h with rfl | h
    · exact hr
    · exact ih (by simpa using hT) r h

theorem row_mul {L : List (List Nat)} (hL : IsSq t L) {row : List Nat} (hr : row.length = t) (x : Fin t → ZMod p) :
    ∑ k : Fin t, ((((cols t L).map fun col => dot row col % p).getD k 0 : Nat) : ZMod p) * x k =
      ∑ k : Fin t, ((row.getD k 0 : Nat) : ZMod p) * (matOf p t L *ᵥ x) k := by
  have e : ∀ k : Fin t, ((((cols t L).map fun col => dot row col % p).getD k 0 : Nat) : ZMod p) =
      ∑ l : Fin t, ((row.getD l 0 : Nat) : ZMod p) * matOf p t L l k := by
    intro k
    have hT := cols_sq hL
    have hk : k.val < (cols t L).length := by rw [hT.1]; exact k.2
    rw [List.getD_eq_getElem _ _ (by simpa using hk), List.getElem_map, ZMod.natCast_mod,
      dot_eq row _ hr (hT.2 _ (List.getElem_mem hk))]
    refine Finset.sum_congr rfl fun l _ => ?_
    congr 1
    rw [← cols_eq hL, Matrix.transpose_apply, matOf_getD, List.getD_eq_getElem _ _ hk]
  simp only [e, mulVec, dotProduct, Finset.sum_mul, Finset.mul_sum, mul_assoc]
  exact Finset.sum_comm

theorem rows_mulVec {L : List (List Nat)} (hL : IsSq t L) (n : Nat) {row : List Nat} (hr : row.length = t)
    (x : Fin t → ZMod p) (j : Nat) (hj : j < n) :
    ∑ k : Fin t, ((((rows p (cols t L) n row).getD j []).getD k 0 : Nat) : ZMod p) * x k =
      ∑ k : Fin t, ((row.getD k 0 : Nat) : ZMod p) * (matOf p t L ^ j *ᵥ x) k := by
  induction n generalizing row j with
  | zero => omega
  | succ n ih =>
    cases j with
    | zero => simp [rows]
    | succ j =>
      rw [rows, List.getD_cons_succ, ih (by simpa using (cols_sq hL).1) j (by omega), row_mul hL hr, mulVec_mulVec,
        ← pow_succ']

/-- What the check establishes: the map sending `x` to the first words of `x`, `M x`, ..., `M^(t-1) x` is injective. -/
theorem check_imp [Fact p.Prime] {L : List (List Nat)} (h : check p t L = true) (ht : 0 < t) (x : Fin t → ZMod p)
    (hx : ∀ j < t, (matOf p t L ^ j *ᵥ x) ⟨0, ht⟩ = 0) : x = 0 := by
  unfold check at h
  simp only [Bool.and_eq_true, decide_eq_true_eq, beq_iff_eq, List.all_eq_true, forceMat_eq, forceRow_eq, rowsF_eq] at h
  obtain ⟨⟨⟨h2, h3⟩, h4⟩, h5⟩ := h
  have hL : IsSq t L := ⟨h3, h4⟩
  have he : (e0 t).length = t := by simp [e0]; omega
  have hK : IsSq t (rows p (cols t L) t (e0 t)) :=
    ⟨rows_length _ _ _, rows_width (cols_sq hL).1 t he⟩
  have hm := minorsOk_sound t _ hK (Fast.minorsOk_imp _ _ _ h5) (t - 1) (by omega)
  have hdet : (matOf p t (rows p (cols t L) t (e0 t))).det ≠ 0 := by
    unfold leadingMinor at hm
    have : ∀ n (hn : n = t) (h : n ≤ t), ((matOf p t (rows p (cols t L) t (e0 t))).submatrix (Fin.castLE h)
        (Fin.castLE h)).det = (matOf p t (rows p (cols t L) t (e0 t))).det := by
      rintro n rfl h
      rfl
    rwa [this (t - 1 + 1) (by omega)] at hm
  refine eq_zero_of_mulVec_eq_zero hdet ?_
  funext j
  rw [Pi.zero_apply, ← hx j.val j.2]
  have := rows_mulVec (p := p) hL t he x j.val j.2
  simp only [mulVec, dotProduct, matOf_getD]
  simp only [mulVec, dotProduct] at this
  rw [this, Finset.sum_eq_single ⟨0, ht⟩]
  · simp [e0]
  · intro k _ hk
    have hk0 : k.val ≠ 0 := fun h => hk (Fin.ext h)
    obtain ⟨m, hm⟩ := Nat.exists_eq_succ_of_ne_zero hk0
    have : (e0 t).getD k.val 0 = 0 := by
      rw [hm, e0, List.getD_cons_succ]
      by_cases hmt : m < t - 1
      · rw [List.getD_eq_getElem _ _ (by simpa using hmt)]; simp
      · rw [List.getD_eq_default _ _ (by simp; omega)]
    rw [this]; simp
  · simp

/-! ## Rounds that are linear away from the first word -/

section
variable {F : Type _} [Field F] (ht : 0 < t) (M : Matrix (Fin t) (Fin t) F)

/-- The differences with first word zero before each of `k` applications of `M`. -/
def quiet (k : Nat) : Submodule F (Fin t → F) where
  carrier := {x | ∀ j < k, (M ^ j *ᵥ x) ⟨0, ht⟩ = 0}
  add_mem' := by intro a b ha hb j hj; rw [mulVec_add, Pi.add_apply, ha j hj, hb j hj, add_zero]
  zero_mem' := by intro j _; rw [mulVec_zero]; rfl
  smul_mem' := by intro c a ha j hj; rw [mulVec_smul, Pi.smul_apply, ha j hj, smul_zero]

theorem quiet_finrank (hM : ∀ x : Fin t → F, (∀ j < t, (M ^ j *ᵥ x) ⟨0, ht⟩ = 0) → x = 0) {k : Nat} (hk : k ≤ t) :
    Module.finrank F (quiet ht M k) = t - k := by
  let φ : (Fin t → F) →ₗ[F] (Fin t → F) :=
    { toFun := fun x j => (M ^ j.val *ᵥ x) ⟨0, ht⟩
      map_add' := by intro a b; funext j; simp [mulVec_add]
      map_smul' := by intro c a; funext j; simp [mulVec_smul] }
  have hφ : Function.Injective φ := by
    rw [← LinearMap.ker_eq_bot, LinearMap.ker_eq_bot']
    intro x hx
    exact hM x fun j hj => congrFun hx ⟨j, hj⟩
  have hφs : Function.Surjective φ := LinearMap.injective_iff_surjective.mp hφ
  let π : (Fin t → F) →ₗ[F] (Fin k → F) :=
    { toFun := fun x j => x (Fin.castLE hk j)
      map_add' := by intro a b; rfl
      map_smul' := by intro c a; rfl }
  have hπ : Function.Surjective π := by
    intro y
    refine ⟨fun i => if h : i.val < k then y ⟨i.val, h⟩ else 0, ?_⟩
    funext j
    exact dif_pos j.2
  have hs : Function.Surjective (π ∘ₗ φ) := hπ.comp hφs
  have hker : LinearMap.ker (π ∘ₗ φ) = quiet ht M k := by
    ext x
    rw [LinearMap.mem_ker]
    constructor
    · intro h j hj
      exact congrFun h ⟨j, hj⟩
    · intro h
      funext j
      exact h j.val j.2
  have := LinearMap.finrank_range_add_finrank_ker (π ∘ₗ φ)
  rw [LinearMap.range_eq_top.mpr hs, finrank_top, Module.finrank_fin_fun, Module.finrank_fin_fun, hker] at this
  omega

theorem rounds_diff (f : Nat → (Fin t → F) → Fin t → F)
    (hf : ∀ r x y, x ⟨0, ht⟩ = y ⟨0, ht⟩ → f r x - f r y = M *ᵥ (x - y)) (r j : Nat) (x y : Fin t → F)
    (h : ∀ i < j, (M ^ i *ᵥ (x - y)) ⟨0, ht⟩ = 0) :
    rounds f r j x - rounds f r j y = M ^ j *ᵥ (x - y) := by
  induction j with
  | zero => simp [rounds]
  | succ j ih =>
    have hd := ih fun i hi => h i (by omega)
    rw [rounds, rounds, hf, hd, mulVec_mulVec, ← pow_succ']
    have := h j (by omega)
    rw [← hd, Pi.sub_apply, sub_eq_zero] at this
    exact this

omit [Field F] in
theorem head_ofFn (x : Fin t → F) : (List.ofFn x).head? = some (x ⟨0, ht⟩) := by
  cases t with
  | zero => omega
  | succ t => simp

theorem sameFirstWord_iff (f : Nat → (Fin t → F) → Fin t → F)
    (hf : ∀ r x y, x ⟨0, ht⟩ = y ⟨0, ht⟩ → f r x - f r y = M *ᵥ (x - y)) (step : List F → Nat → Option (List F)) (r k : Nat)
    (hstep : ∀ i, r ≤ i → i < r + k → ∀ x, step (List.ofFn x) i = some (List.ofFn (f i x))) (x y : Fin t → F) :
    SameFirstWord step r k (List.ofFn x) (List.ofFn y) ↔ x - y ∈ quiet ht M k := by
  have hl : ∀ j ≤ k, ∀ z : Fin t → F, (List.range' r j).foldlM step (List.ofFn z) = some (List.ofFn (rounds f r j z)) :=
    fun j hj z => rounds_loop (fun z : Fin t → F => List.ofFn z) step f r j
      (fun i h1 h2 x => hstep i h1 (by omega) x) z
  constructor
  · intro h j hj
    induction j using Nat.strong_induction_on with
    | _ j ih =>
      obtain ⟨u, v, h1, h2, h3⟩ := h j hj
      rw [hl j hj.le, Option.some.injEq] at h1 h2
      rw [← h1, ← h2, head_ofFn ht, head_ofFn ht, Option.some.injEq] at h3
      rw [← rounds_diff ht M f hf r j x y fun i hi => ih i hi (by omega), Pi.sub_apply, h3, sub_self]
  · intro h j hj
    refine ⟨_, _, hl j hj.le x, hl j hj.le y, ?_⟩
    rw [head_ofFn ht, head_ofFn ht, Option.some.injEq, ← sub_eq_zero, ← Pi.sub_apply,
      rounds_diff ht M f hf r j x y fun i hi => h i (by omega)]
    exact h j hj

end

end Krylov

end ZkHash

import Verif.Model.SageMatrix
import Verif.Proofs.MinpolyIrred
import Mathlib.LinearAlgebra.Matrix.Notation
import Mathlib.Tactic.LinearCombination
import Mathlib.Tactic.FinCases
import Mathlib.Tactic.NormNum

set_option autoImplicit false

/-!
# The checks of the script's matrix generator
-/

namespace ZkHash.Sage

open Matrix Module

section

variable {F : Type _} [Field F] {t : Nat}

/-- The only subspace that contains the first unit vector and is mapped into itself is the whole space. -/
def Cyclic (M : Matrix (Fin t) (Fin t) F) : Prop :=
  ∀ j0 : Fin t, j0.val = 0 → ∀ W : Submodule F (Fin t → F), Pi.single j0 1 ∈ W → (∀ w ∈ W, M *ᵥ w ∈ W) → W = ⊤

theorem algorithm2Loop_true {M : Matrix (Fin t) (Fin t) F} (hM : Cyclic M) (j0 : Fin t) (hj : j0.val = 0) :
    ∀ (n : Nat) (v : Fin t → F) (IS : Submodule F (Fin t → F)), t - finrank F IS ≤ n → Pi.single j0 1 ∈ IS →
      (∀ w ∈ IS, M *ᵥ w ∈ IS ⊔ Submodule.span F {M *ᵥ v}) → algorithm2Loop M v IS = some true := by
  intro n
  induction n with
  | zero =>
    intro v IS hn he hinv
    have hle := Submodule.finrank_le IS
    have hle' := Submodule.finrank_le (IS ⊔ Submodule.span F {M *ᵥ v})
    have hmono := Submodule.finrank_mono (le_sup_left : IS ≤ IS ⊔ Submodule.span F {M *ᵥ v})
    rw [finrank_fin_fun] at hle hle'
    rw [algorithm2Loop]
    rw [if_pos (Or.inl (by omega))]
  | succ n ih =>
    intro v IS hn he hinv
    have hle' := Submodule.finrank_le (IS ⊔ Submodule.span F {M *ᵥ v})
    have hmono := Submodule.finrank_mono (le_sup_left : IS ≤ IS ⊔ Submodule.span F {M *ᵥ v})
    rw [finrank_fin_fun] at hle'
    rw [algorithm2Loop]
    split_ifs with h1 h2
    · rfl
    · exfalso
      have heq := Submodule.eq_of_le_of_finrank_le (le_sup_left : IS ≤ IS ⊔ Submodule.span F {M *ᵥ v}) h2
      have htop := hM j0 hj IS he fun w hw => by
        have := hinv w hw
        rwa [← heq] at this
      apply h1
      left
      rw [← heq, htop, finrank_top, finrank_fin_fun]
    · refine ih _ _ (by omega) (Submodule.mem_sup_left he) ?_
      intro w hw
      obtain ⟨a, ha, b, hb, rfl⟩ := Submodule.mem_sup.mp hw
      obtain ⟨c, rfl⟩ := Submodule.mem_span_singleton.mp hb
      rw [mulVec_add, mulVec_smul]
      refine Submodule.add_mem _ (Submodule.mem_sup_left (hinv a ha)) ?_
      exact Submodule.mem_sup_right (Submodule.smul_mem _ c (Submodule.mem_span_singleton_self _))

theorem algorithm2_of_cyclic {M : Matrix (Fin t) (Fin t) F} (hM : Cyclic M) : Algorithm2 M := by
  intro j0 hj
  refine algorithm2Loop_true hM j0 hj _ _ _ le_rfl (Submodule.mem_span_singleton_self _) ?_
  intro w hw
  obtain ⟨c, rfl⟩ := Submodule.mem_span_singleton.mp hw
  rw [mulVec_smul]
  exact Submodule.mem_sup_right (Submodule.smul_mem _ c (Submodule.mem_span_singleton_self _))

/-- The space of the script is not zero in the first `t - 1` rounds. -/
theorem generateVectorspace_ne_bot {M : Matrix (Fin t) (Fin t) F} {i : Nat} (hi1 : 1 ≤ i) (hi : i < t) :
    generateVectorspace i M ≠ ⊥ := by
  let j0 : Fin t := ⟨0, by omega⟩
  let φ : (Fin t → F) →ₗ[F] (Fin i → F) :=
    { toFun := fun x k => if k.val = 0 then x j0 else ∑ j : Fin t, (if j.val = 0 then 0 else (M ^ k.val) j0 j) * x j
      map_add' := by
        intro x y; funext k
        simp only [Pi.add_apply]
        split
        · rfl
        · simp only [mul_add, Finset.sum_add_distrib]
      map_smul' := by
        intro c x; funext k
        simp only [Pi.smul_apply, smul_eq_mul, RingHom.id_apply]
        split
        · rfl
        · simp only [mul_left_comm _ c, ← Finset.mul_sum] }
  have hker : LinearMap.ker φ ≠ ⊥ := LinearMap.ker_ne_bot_of_finrank_lt (by rw [finrank_fin_fun, finrank_fin_fun]; exact hi)
  obtain ⟨x, hx, hx0⟩ := (Submodule.ne_bot_iff _).mp hker
  refine (Submodule.ne_bot_iff _).mpr ⟨x, ⟨?_, ?_⟩, hx0⟩
  · intro j hj
    have := congrFun (LinearMap.mem_ker.mp hx) ⟨0, by omega⟩
    have hj0 : j = j0 := Fin.ext hj
    simpa [φ, hj0] using this
  · intro k hk j0' hj0'
    have hj0 : j0' = j0 := Fin.ext hj0'
    have := congrFun (LinearMap.mem_ker.mp hx) ⟨k + 1, by omega⟩
    rw [hj0]
    simpa [φ] using this

theorem generateVectorspace_ne_top {M : Matrix (Fin t) (Fin t) F} (i : Nat) (ht : 0 < t) : generateVectorspace i M ≠ ⊤ := by
  intro h
  have : (Pi.single (⟨0, ht⟩ : Fin t) 1 : Fin t → F) ∈ generateVectorspace i M := by rw [h]; trivial
  have := this.1 ⟨0, ht⟩ rfl
  simp at this

/-- No subspace but the trivial ones is mapped into itself. -/
def Simple (M : Matrix (Fin t) (Fin t) F) : Prop :=
  ∀ W : Submodule F (Fin t → F), (∀ w ∈ W, M *ᵥ w ∈ W) → W = ⊥ ∨ W = ⊤

theorem Simple.cyclic {M : Matrix (Fin t) (Fin t) F} (h : Simple M) : Cyclic M := by
  intro j0 _ W he hW
  refine (h W hW).resolve_left ?_
  rintro rfl
  have := congrFun ((Submodule.mem_bot F).mp he) j0
  simp at this

theorem Simple.not_scalar {M : Matrix (Fin t) (Fin t) F} (h : Simple M) (ht : 2 ≤ t) (c : F)
    (hc : ∀ x, M *ᵥ x = c • x) : False := by
  have htop := h.cyclic ⟨0, by omega⟩ rfl (Submodule.span F {(Pi.single (⟨0, by omega⟩ : Fin t) 1 : Fin t → F)})
    (Submodule.mem_span_singleton_self _) fun w hw => by rw [hc]; exact Submodule.smul_mem _ _ hw
  have h1 := finrank_span_singleton (K := F) (v := (Pi.single (⟨0, by omega⟩ : Fin t) 1 : Fin t → F)) (by
    intro h0
    have := congrFun h0 ⟨0, by omega⟩
    simp at this)
  rw [htop, finrank_top, finrank_fin_fun] at h1
  omega

/-- Matrices whose powers have no invariant subspaces pass the first algorithm. -/
theorem algorithm1_of_simple {M : Matrix (Fin t) (Fin t) F} (h : ∀ i, 1 ≤ i → i ≤ t - 1 → Simple (M ^ i)) :
    Algorithm1 M := by
  intro i hi1 hi2
  have ht : 2 ≤ t := by omega
  refine ⟨?_, ?_, ?_⟩
  · intro j0 hj0 hz
    refine (h i hi1 hi2).not_scalar ht ((M ^ i) j0 j0) fun x => ?_
    rw [sub_eq_zero.mp hz]
    generalize (M ^ i) j0 j0 = c
    funext k
    simp [Matrix.scalar_apply, mulVec_diagonal]
  · rintro ⟨h1, -⟩
    have : eigenIntersection (generateVectorspace i M) (M ^ i) = ⊥ := by
      refine le_bot_iff.mp (iSup_le fun e => ?_)
      refine inf_le_right.trans (le_of_eq ?_)
      refine (h i hi1 hi2 _ ?_).resolve_right ?_
      · intro w hw
        have := End.mem_eigenspace_iff.mp hw
        rw [Matrix.toLin'_apply] at this
        rw [this]
        exact Submodule.smul_mem _ _ hw
      · intro htop
        refine (h i hi1 hi2).not_scalar ht e fun x => ?_
        have hx : x ∈ End.eigenspace (Matrix.toLin' (M ^ i)) e := by rw [htop]; trivial
        have := End.mem_eigenspace_iff.mp hx
        rwa [Matrix.toLin'_apply] at this
    rw [this, finrank_bot] at h1
    omega
  · intro j hj1 hj2 heq
    rcases h j hj1 (by omega) (generateVectorspace i M) (fun w hw => by
      rw [heq]
      exact ⟨w, hw, Matrix.toLin'_apply _ _⟩) with hb | ht'
    · exact generateVectorspace_ne_bot hi1 (by omega) hb
    · exact generateVectorspace_ne_top i (by omega) ht'

end

/-- What the full irreducible minimal polynomials of the powers give. -/
theorem algorithms_of_full {p t : Nat} [Fact p.Prime] {M : Matrix (Fin t) (Fin t) (ZMod p)} (ht : 2 ≤ t)
    (h : ∀ i, 1 ≤ i → i ≤ 4 * t → MinIrred.Full (M ^ i)) :
    CheckMinpolyCondition M ∧ Algorithm1 M ∧ Algorithm2 M ∧ Algorithm3 M := by
  have hs : ∀ i, 1 ≤ i → i ≤ 4 * t → Simple (M ^ i) := fun i h1 h2 => MinIrred.Full.no_invariant (h i h1 h2)
  refine ⟨fun i h1 h2 => (h i h1 (by omega)).symm, algorithm1_of_simple fun i h1 h2 => hs i h1 (by omega), ?_, ?_⟩
  · have := (hs 1 le_rfl (by omega)).cyclic
    rw [pow_one] at this
    exact algorithm2_of_cyclic this
  · exact fun r h1 h2 => algorithm2_of_cyclic (hs r (by omega) h2).cyclic

/-! ## Width 3 -/

section

variable {F : Type _} [Field F]

/-- The partial matrix of the script for `t = 3`. -/
def M3 : Matrix (Fin 3) (Fin 3) F := !![2, 1, 1; 1, 2, 1; 1, 1, 3]

/-- The entries of the powers of `M3`: the diagonal and the corner of the upper left block, the last column, the last
entry. -/
def entries3 : Nat → Nat × Nat × Nat × Nat
  | 0 => (1, 0, 0, 1)
  | r + 1 => let e := entries3 r
    (2 * e.1 + e.2.1 + e.2.2.1, 2 * e.2.1 + e.1 + e.2.2.1, 3 * e.2.2.1 + e.2.2.2, 2 * e.2.2.1 + 3 * e.2.2.2)

theorem entries3_sum (r : Nat) : (entries3 r).1 + (entries3 r).2.1 = (entries3 r).2.2.2 := by
  induction r with
  | zero => rfl
  | succ r ih => simp only [entries3]; omega

theorem M3_pow (r : Nat) : (M3 : Matrix (Fin 3) (Fin 3) F) ^ r =
    !![((entries3 r).1 : F), (entries3 r).2.1, (entries3 r).2.2.1; ((entries3 r).2.1 : F), (entries3 r).1, (entries3 r).2.2.1;
      ((entries3 r).2.2.1 : F), (entries3 r).2.2.1, (entries3 r).2.2.2] := by
  induction r with
  | zero =>
    rw [pow_zero]
    ext i j
    fin_cases i <;> fin_cases j <;> simp [entries3]
  | succ r ih =>
    rw [pow_succ', ih]
    have hsum := entries3_sum r
    generalize hE : entries3 r = e at hsum
    obtain ⟨a, b, c, d⟩ := e
    simp only at hsum
    subst hsum
    simp only [entries3, hE]
    ext i j
    fin_cases i <;> fin_cases j <;> simp [M3, Matrix.mul_apply, Fin.sum_univ_three] <;> ring

/-- A number that vanishes when the first unit vector and its first two images are linearly dependent. -/
def krylov3 (r : Nat) : Int :=
  let e := entries3 r
  e.2.1 * (e.2.2.1 * (e.1 + e.2.1 + e.2.2.2)) - e.2.2.1 * (2 * e.1 * e.2.1 + e.2.2.1 * e.2.2.1)

theorem M3_cyclic (r : Nat) (h : ((krylov3 r : Int) : F) ≠ 0) : Cyclic ((M3 : Matrix (Fin 3) (Fin 3) F) ^ r) := by
  intro j0 hj0 W he hW
  obtain rfl : j0 = 0 := Fin.ext hj0
  rw [M3_pow] at hW
  unfold krylov3 at h
  revert h hW
  generalize hE : entries3 r = e
  obtain ⟨a, b, c, d⟩ := e
  intro h hW
  simp only [Int.cast_sub, Int.cast_mul, Int.cast_add, Int.cast_natCast, Int.cast_ofNat] at h hW
  have h1 := hW _ he
  have h2 := hW _ h1
  have e0 : (Pi.single (0 : Fin 3) 1 : Fin 3 → F) = ![1, 0, 0] := by
    funext i; fin_cases i <;> simp
  rw [e0] at he h1 h2
  have v1 : !![(a : F), b, c; (b : F), a, c; (c : F), c, d] *ᵥ ![1, 0, 0] = ![(a : F), b, c] := by
    funext i; fin_cases i <;> simp [mulVec, dotProduct, Fin.sum_univ_three]
  rw [v1] at h1 h2
  have v2 : !![(a : F), b, c; (b : F), a, c; (c : F), c, d] *ᵥ ![(a : F), b, c] =
      ![(a : F) * a + b * b + c * c, 2 * a * b + c * c, c * (a + b + d)] := by
    funext i; fin_cases i <;> simp [mulVec, dotProduct, Fin.sum_univ_three] <;> ring
  rw [v2] at h2
  generalize hD : (b : F) * (c * (a + b + d)) - c * (2 * a * b + c * c) = D at h
  have u1 : ![0, 1, 0] ∈ W := by
    have := W.smul_mem D⁻¹ (W.sub_mem (W.smul_mem ((c : F) * (a + b + d)) (W.sub_mem h1 (W.smul_mem (a : F) he)))
      (W.smul_mem (c : F) (W.sub_mem h2 (W.smul_mem ((a : F) * a + b * b + c * c) he))))
    convert this using 1
    funext i
    fin_cases i
    · simp
    · have : (1 : F) = D⁻¹ * ((b : F) * (c * (a + b + d)) - c * (2 * a * b + c * c)) := by rw [hD, inv_mul_cancel₀ h]
      simp
      rw [this]; ring
    · simp; right; ring
  have u2 : ![0, 0, 1] ∈ W := by
    have := W.smul_mem D⁻¹ (W.sub_mem (W.smul_mem (b : F) (W.sub_mem h2 (W.smul_mem ((a : F) * a + b * b + c * c) he)))
      (W.smul_mem (2 * (a : F) * b + c * c) (W.sub_mem h1 (W.smul_mem (a : F) he))))
    convert this using 1
    funext i
    fin_cases i
    · simp
    · simp; right; ring
    · have : (1 : F) = D⁻¹ * ((b : F) * (c * (a + b + d)) - c * (2 * a * b + c * c)) := by rw [hD, inv_mul_cancel₀ h]
      simp
      rw [this]; ring
  rw [eq_top_iff]
  intro x _
  have := W.add_mem (W.add_mem (W.smul_mem (x 0) he) (W.smul_mem (x 1) u1)) (W.smul_mem (x 2) u2)
  convert this using 1
  funext i
  fin_cases i <;> simp

theorem M3_algorithm1 : Algorithm1 (M3 : Matrix (Fin 3) (Fin 3) F) := by
  have hS1 : ∀ x ∈ generateVectorspace 1 (M3 : Matrix (Fin 3) (Fin 3) F), x 0 = 0 := fun x hx => hx.1 0 rfl
  have hS2 : ∀ x ∈ generateVectorspace 2 (M3 : Matrix (Fin 3) (Fin 3) F), x 0 = 0 ∧ x 1 + x 2 = 0 := by
    intro x hx
    refine ⟨hx.1 0 rfl, ?_⟩
    have := hx.2 0 (by omega) 0 rfl
    simpa [Fin.sum_univ_three, M3] using this
  have m1 : (![0, 1, 0] : Fin 3 → F) ∈ generateVectorspace 1 (M3 : Matrix (Fin 3) (Fin 3) F) := by
    refine ⟨fun j hj => ?_, fun i hi => absurd hi (by omega)⟩
    obtain rfl : j = 0 := Fin.ext hj
    rfl
  have m2 : (![0, 1, -1] : Fin 3 → F) ∈ generateVectorspace 2 (M3 : Matrix (Fin 3) (Fin 3) F) := by
    refine ⟨fun j hj => ?_, fun i hi j0 hj0 => ?_⟩
    · obtain rfl : j = 0 := Fin.ext hj
      rfl
    · obtain rfl : j0 = 0 := Fin.ext hj0
      obtain rfl : i = 0 := by omega
      simp [Fin.sum_univ_three, M3]
  have hsq : (M3 : Matrix (Fin 3) (Fin 3) F) ^ 2 = !![6, 5, 6; 5, 6, 6; 6, 6, 11] := by
    rw [M3_pow]
    norm_num [entries3]
  have fin : ∀ {S : Submodule F (Fin 3 → F)} {N : Matrix (Fin 3) (Fin 3) F},
      (∀ x ∈ S, ∀ e : F, N *ᵥ x = e • x → x = 0) → finrank F (eigenIntersection S N) = 0 := by
    intro S N h
    have : eigenIntersection S N = ⊥ := by
      refine le_bot_iff.mp (iSup_le fun e => ?_)
      rintro x ⟨h1, h2⟩
      have := End.mem_eigenspace_iff.mp h2
      rw [Matrix.toLin'_apply] at this
      exact (Submodule.mem_bot F).mpr (h x h1 e this)
    rw [this, finrank_bot]
  intro i hi1 hi2
  obtain rfl | rfl : i = 1 ∨ i = 2 := by omega
  · rw [pow_one]
    refine ⟨?_, ?_, ?_⟩
    · intro j0 _ h
      have := congrFun (congrFun h 0) 1
      simp [M3] at this
    · rintro ⟨h, -⟩
      rw [fin] at h
      · omega
      · intro x hx e hex
        have h0 := hS1 x hx
        have g0 := congrFun hex 0
        have g1 := congrFun hex 1
        have g2 := congrFun hex 2
        simp [M3, mulVec, dotProduct, Fin.sum_univ_three, h0] at g0 g1 g2
        have h1 : x 1 = 0 := by linear_combination (4 - e) * g0 - g1 - g2
        have h2 : x 2 = 0 := by linear_combination g0 - h1
        funext i
        fin_cases i <;> assumption
    · intro j hj1 hj2 heq
      obtain rfl : j = 1 := by omega
      have : (M3 : Matrix (Fin 3) (Fin 3) F) *ᵥ ![0, 1, 0] ∈ generateVectorspace 1 (M3 : Matrix (Fin 3) (Fin 3) F) := by
        rw [heq]; exact ⟨_, m1, by rw [pow_one, Matrix.toLin'_apply]⟩
      have := hS1 _ this
      simp [M3, mulVec, dotProduct, Fin.sum_univ_three] at this
  · rw [hsq]
    refine ⟨?_, ?_, ?_⟩
    · intro j0 _ h
      have g1 := congrFun (congrFun h 0) 1
      have g2 := congrFun (congrFun h 0) 2
      simp at g1 g2
      have : (1 : F) = 0 := by linear_combination g2 - g1
      exact one_ne_zero this
    · rintro ⟨h, -⟩
      rw [fin] at h
      · omega
      · intro x hx e hex
        obtain ⟨h0, h1⟩ := hS2 x hx
        have g0 := congrFun hex 0
        simp [mulVec, dotProduct, Fin.sum_univ_three, h0] at g0
        have h2 : x 2 = 0 := by linear_combination g0 - 5 * h1
        have h3 : x 1 = 0 := by linear_combination h1 - h2
        funext i
        fin_cases i <;> assumption
    · intro j hj1 hj2 heq
      obtain rfl | rfl : j = 1 ∨ j = 2 := by omega
      · have : (M3 : Matrix (Fin 3) (Fin 3) F) *ᵥ ![0, 1, -1] ∈ generateVectorspace 2 (M3 : Matrix (Fin 3) (Fin 3) F) := by
          rw [heq]; exact ⟨_, m2, by rw [pow_one, Matrix.toLin'_apply]⟩
        have := (hS2 _ this).2
        simp [M3, mulVec, dotProduct, Fin.sum_univ_three] at this
        have : (1 : F) = 0 := by linear_combination -this
        exact one_ne_zero this
      · have : (M3 : Matrix (Fin 3) (Fin 3) F) ^ 2 *ᵥ ![0, 1, -1] ∈ generateVectorspace 2 (M3 : Matrix (Fin 3) (Fin 3) F) := by
          rw [heq]; exact ⟨_, m2, by rw [Matrix.toLin'_apply]⟩
        have := (hS2 _ this).1
        rw [hsq] at this
        simp [mulVec, dotProduct, Fin.sum_univ_three] at this
        have : (1 : F) = 0 := by linear_combination -this
        exact one_ne_zero this

end

end ZkHash.Sage

import Verif.Spec.Subspace
import Verif.Proofs.Poseidon2Minpoly
import Verif.Theorems.Poseidon2Instances
import Verif.Theorems.NeptuneBranch

set_option autoImplicit false

/-!
# Subspaces invariant under the internal layer of Poseidon2: C54
-/

namespace ZkHash

open Spec Matrix

theorem times_linear {F : Type _} [CommRing F] {t : Nat} {f : List F → Option (List F)} {M : Matrix (Fin t) (Fin t) F}
    (hf : ∀ x : Fin t → F, f (List.ofFn x) = some (List.ofFn (M *ᵥ x))) (n : Nat) (x : Fin t → F) :
    times f n (List.ofFn x) = some (List.ofFn (M ^ n *ᵥ x)) := by
  induction n with
  | zero => simp [times]
  | succ n ih => rw [times, ih, Option.bind_some, hf, mulVec_mulVec, pow_succ']

theorem mapsInto_iff {F : Type _} [Field F] {t : Nat} {f : List F → Option (List F)} {M : Matrix (Fin t) (Fin t) F}
    (hf : ∀ x : Fin t → F, f (List.ofFn x) = some (List.ofFn (M *ᵥ x))) (W : Submodule F (Fin t → F)) :
    MapsInto W f ↔ ∀ w ∈ W, M *ᵥ w ∈ W := by
  refine forall₂_congr fun w hw => ⟨?_, fun h => ⟨_, h, hf w⟩⟩
  rintro ⟨w', hw', h⟩
  rw [hf, Option.some.injEq] at h
  rwa [List.ofFn_injective h]

/-- The internal matrix of a shipped instance, as in its table. -/
theorem Poseidon2Good.onesDiag {S : Poseidon2Source} (h : Poseidon2Good S) :
    internalMatrix S.t (vec S.diagF) = MinCheck.onesDiag S.modulus S.t S.diag := by
  have h1 := h.internal.symm.trans h.entries
  rw [rowsOf_injective h1]
  ext i j
  simp only [MinCheck.onesDiag, of_apply, vec, Poseidon2Source.diagF, getD_map_cast]

/-- The condition `check_minpoly_condition` of the script (`poseidon2_rust_params.sage` lines 382-391) holds for the
internal matrix of every shipped instance whose width is not 3. -/
theorem C54_minimal_polynomials (S : Poseidon2Source) (hS : S ∈ Instances.poseidon2) (ht : S.t ≠ 3) (i : Nat)
    (h1 : 1 ≤ i) (h2 : i ≤ 4 * S.t) :
    Irreducible (minpoly (ZMod S.modulus) (internalMatrix S.t (vec S.diagF) ^ i)) ∧
      (minpoly (ZMod S.modulus) (internalMatrix S.t (vec S.diagF) ^ i)).natDegree = S.t := by
  have hg := poseidon2_good S hS
  have : Fact S.modulus.Prime := ⟨declared_prime hg.declared⟩
  obtain ⟨nf, bits, qus, h⟩ := Instances.poseidon2_minpoly S hS ht
  rw [hg.onesDiag]
  exact MinCheck.check_imp h i h1 h2

/-- **C54**: up to `4t` applications of the internal layer of a shipped instance of width other than 3 map no subspace
into itself, but the zero space and the whole space. -/
theorem C54_no_invariant_subspace (S : Poseidon2Source) (hS : S ∈ Instances.poseidon2) (ht : S.t ≠ 3)
    (hF : Fact S.modulus.Prime) (i : Nat) (h1 : 1 ≤ i) (h2 : i ≤ 4 * S.t)
    (W : Submodule (ZMod S.modulus) (Fin S.t → ZMod S.modulus)) :
    MapsInto W (times (fun x => Poseidon2.matmulInternal S.t x S.diagF) i) ↔ W = ⊥ ∨ W = ⊤ := by
  have hg := poseidon2_good S hS
  have hlin := times_linear (f := fun x => Poseidon2.matmulInternal S.t x S.diagF)
    (Poseidon2.matmulInternal_ofFn hg.width S.diagF hg.shaped.diag_len) i
  rw [mapsInto_iff hlin]
  constructor
  · intro h
    exact MinIrred.Full.no_invariant (C54_minimal_polynomials S hS ht i h1 h2) W h
  · rintro (rfl | rfl)
    · intro w hw
      rw [Submodule.mem_bot] at hw ⊢
      rw [hw, mulVec_zero]
    · intro w _
      trivial

/-- The moduli are prime, as C54 needs. -/
theorem C54_prime (S : Poseidon2Source) (hS : S ∈ Instances.poseidon2) : S.modulus.Prime :=
  declared_prime (poseidon2_good S hS).declared

/-- Eleven of the shipped instances are covered. -/
example : (Instances.poseidon2.filter fun S => S.t ≠ 3).map (fun S => S.t) = [8, 12, 16, 20, 16, 24, 2, 4, 8, 4, 8] := by
  decide +kernel

/-- Width 3 is different: the internal layer fixes the vector `(1, -1, 0)`, over every field and for every diagonal. -/
theorem C54_width_three {F : Type _} [Field F] (diag : List F) :
    Poseidon2.matmulInternal 3 [1, -1, 0] diag = some [1, -1, 0] ∧
    MapsInto (Submodule.span F {![1, -1, 0]}) (fun x => Poseidon2.matmulInternal 3 x diag) ∧
    Submodule.span F {(![1, -1, 0] : Fin 3 → F)} ≠ ⊥ ∧ Submodule.span F {(![1, -1, 0] : Fin 3 → F)} ≠ ⊤ := by
  have hf := Poseidon2.matmulInternal_ofFn (F := F) (t := 3) (Or.inr (Or.inl rfl)) diag (by omega)
  have hfix : internalMatrix 3 (vec diag) *ᵥ (![1, -1, 0] : Fin 3 → F) = ![1, -1, 0] := by
    funext i
    fin_cases i <;> simp [internalMatrix, mulVec, dotProduct, Fin.sum_univ_three] <;> ring
  refine ⟨?_, ?_, ?_, ?_⟩
  · have := hf ![1, -1, 0]
    rw [hfix] at this
    simpa using this
  · rw [mapsInto_iff hf]
    intro w hw
    obtain ⟨c, rfl⟩ := Submodule.mem_span_singleton.mp hw
    rw [mulVec_smul, hfix]
    exact hw
  · rw [Ne, Submodule.span_singleton_eq_bot]
    intro h
    have := congrFun h 0
    simp at this
  · intro h
    have : (![0, 0, 1] : Fin 3 → F) ∈ Submodule.span F {(![1, -1, 0] : Fin 3 → F)} := by rw [h]; trivial
    obtain ⟨c, hc⟩ := Submodule.mem_span_singleton.mp this
    have := congrFun hc 2
    simp at this

end ZkHash

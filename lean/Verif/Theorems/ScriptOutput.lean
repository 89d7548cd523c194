import Verif.Proofs.Poseidon2Script
import Verif.Theorems.Poseidon2Subspace

set_option autoImplicit false

/-!
# The output of the script: C57
-/

namespace ZkHash

variable {dbg : Bool}

open Spec

theorem Instances.poseidon2_small (S : Poseidon2Source) (hS : S ∈ Instances.poseidon2) :
    S.diag.length = S.t ∧ (S.t = 2 → S.diag = [1, 2]) ∧ (S.t = 3 → S.diag = [1, 1, 2]) ∧
      (S.t = 3 → ∀ r ∈ List.range 13, 1 ≤ r → Sage.krylov3 r % (S.modulus : Int) ≠ 0) := by
  have h : ∀ S ∈ Instances.poseidon2, (decide (S.diag.length = S.t) && (decide (S.t = 2 → S.diag = [1, 2]) &&
      (decide (S.t = 3 → S.diag = [1, 1, 2]) &&
        decide (S.t = 3 → ∀ r ∈ List.range 13, 1 ≤ r → Sage.krylov3 r % (S.modulus : Int) ≠ 0)))) = true := by
    decide +kernel
  simpa only [Bool.and_eq_true, decide_eq_true_eq] using h S hS

/-- **C57**: for the modulus, the width and the round numbers of a shipped Poseidon2 instance, the script returns exactly the
shipped tables. -/
theorem C57_script_output (S : Poseidon2Source) (hS : S ∈ Instances.poseidon2) (hF : Fact S.modulus.Prime) :
    ∃ matrix_full, Sage.generate S.modulus S.t S.rounds_f S.rounds_p =
        some (S.rc.flatten, matrix_full, S.matInternalF, S.diagF) ∧
      matrix_full = rowsOf (externalMatrix S.t) := by
  have hg := poseidon2_good S hS
  obtain ⟨ext, blocks, W, certs, h⟩ := Instances.poseidon2_script S hS
  obtain ⟨hdl, h2, h3, hk⟩ := Instances.poseidon2_small S hS
  have := Sage.generate_of hg h h2 h3 (fun ht => by
    obtain ⟨nf, bits, qus, h⟩ := Instances.poseidon2_minpoly S hS ht
    exact MinCheck.check_imp h) (fun ht r h1 h2 hz => by
      refine hk ht r (List.mem_range.mpr (by omega)) h1 ?_
      exact Int.emod_eq_zero_of_dvd ((ZMod.intCast_zmod_eq_zero_iff_dvd _ _).mp hz))
  refine ⟨_, this.trans ?_, rfl⟩
  rw [← hg.onesDiag, ← hg.internal]
  congr 4
  refine List.ext_getElem (by simp [Poseidon2Source.diagF, hdl]) fun i h1 h2 => ?_
  rw [List.getElem_ofFn]
  have : i < S.diag.length := by simpa [Poseidon2Source.diagF] using h2
  simp [Poseidon2Source.diagF, List.getElem_map, List.getElem?_eq_getElem this]

/-- **C57** and C10: a shipped instance computes the reference function of the script on all that the script returns. -/
theorem C57_permutation_from_script (S : Poseidon2Source) (hS : S ∈ Instances.poseidon2) (hF : Fact S.modulus.Prime) :
    ∃ P RC MATRIX_FULL MATRIX_PARTIAL DIAGONAL_M_1, S.params dbg = some P ∧
      Sage.generate S.modulus S.t S.rounds_f S.rounds_p = some (RC, MATRIX_FULL, MATRIX_PARTIAL, DIAGONAL_M_1) ∧
      ∀ x : List (ZMod S.modulus), x.length = S.t → Poseidon2.permutation dbg P x =
        Sage.poseidon2 S.t S.d S.rounds_f S.rounds_p MATRIX_FULL MATRIX_PARTIAL (RC.map fun n : Nat => (n : ZMod S.modulus)) x := by
  obtain ⟨P, full, hP, hfull, h⟩ := C10_reference_script S hS
  obtain ⟨full', hgen, rfl⟩ := C57_script_output S hS hF
  have hg := poseidon2_good S hS
  rw [Sage.generateMatrixFull_eq hg.width, Option.some.injEq] at hfull
  refine ⟨P, _, _, _, _, hP, hgen, fun x hx => ?_⟩
  rw [h x hx, ← hfull, Poseidon2Source.rcF, List.map_flatten]

/-- The moduli are prime, as C57 needs. -/
example (S : Poseidon2Source) (hS : S ∈ Instances.poseidon2) : Fact S.modulus.Prime :=
  ⟨declared_prime (poseidon2_good S hS).declared⟩

end ZkHash

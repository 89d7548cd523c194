import Verif.Instances.All
import Verif.Proofs.Poseidon2Check
import Verif.Theorems.Compress
import Verif.Theorems.Merkle

set_option autoImplicit false

/-!
# The 15 shipped Poseidon2 instances: C08, C09, C10, C43, C45
-/

namespace ZkHash

variable {dbg : Bool}

open Spec Matrix

/-- The kernel evaluates the check on every shipped table. -/
theorem poseidon2_tables_checked : (Instances.poseidon2.all fun S => S.check) = true := by decide +kernel

theorem poseidon2_good (S : Poseidon2Source) (hS : S ∈ Instances.poseidon2) : Poseidon2Good S :=
  S.check_sound (List.all_eq_true.mp poseidon2_tables_checked S hS)

theorem external_declared {p : Nat} (hp : p ∈ Fields.declared.map Prod.fst) {t : Nat} (ht : Supported t) :
    IsPermutation t (Poseidon2.matmulExternal t : List (ZMod p) → Option (List (ZMod p))) := by
  obtain ⟨f, hf, rfl⟩ := List.mem_map.mp hp
  exact C48_shipped_fields f hf t ht

/-- The initializer does not panic. -/
theorem Poseidon2Good.params {S : Poseidon2Source} (h : Poseidon2Good S) : ∃ P, S.params dbg = some P :=
  (C03_permutation_total h.shaped h.even).imp fun _ hP => hP.1

/-- **C08.** Every shipped Poseidon2 instance is a total bijection of the states of its width. -/
theorem C08_shipped_bijective (S : Poseidon2Source) (hS : S ∈ Instances.poseidon2) :
    ∃ P, S.params dbg = some P ∧ IsPermutation S.t (Poseidon2.permutation dbg P) := by
  have hg := poseidon2_good S hS
  obtain ⟨P, hP⟩ := hg.params
  have hp := declared_prime hg.declared
  have : Fact S.modulus.Prime := ⟨hp⟩
  refine ⟨P, hP, ?_⟩
  rw [C02_permutation_bijective_iff hP hg.shaped]
  refine ⟨?_, Or.inr hg.internal_det, Or.inr ?_⟩
  · rw [← mulVec_bijective_iff, ← isPermutation_iff (Poseidon2.matmulExternal_ofFn hg.width)]
    exact external_declared hg.declared hg.width
  · rw [ZMod.card]; exact hg.coprime

/-- **C08**, with the function it computes: the specification with the shipped tables. -/
theorem C08_shipped_eq_spec (S : Poseidon2Source) (hS : S ∈ Instances.poseidon2) :
    ∃ P, S.params dbg = some P ∧ ∀ x : Fin S.t → ZMod S.modulus,
      Poseidon2.permutation dbg P (List.ofFn x) =
        some (List.ofFn (poseidon2 (externalMatrix S.t) (internalMatrix S.t (vec S.diagF)) S.d (S.rounds_f / 2)
          S.rounds_p (tab S.rcF) x)) := by
  have hg := poseidon2_good S hS
  obtain ⟨P, hP⟩ := hg.params
  exact ⟨P, hP, fun x => C01_permutation_eq_spec hP hg.shaped x⟩

/-- **C09.** The partial-round linear layer is multiplication (by the library's `mat_vec_mul`) by the published table
`MAT_INTERNAL`. -/
theorem C09_internal_table (dbg : Bool) (S : Poseidon2Source) (hS : S ∈ Instances.poseidon2) (x : List (ZMod S.modulus))
    (hx : x.length = S.t) :
    Poseidon2.matmulInternal S.t x S.diagF = matVecMul dbg S.matInternalF x := by
  have hg := poseidon2_good S hS
  obtain ⟨x, rfl⟩ := eq_ofFn x hx
  rw [hg.internal, C31_matVecMul dbg _ _ (fun _ => rfl), Poseidon2.matmulInternal_ofFn hg.width _ hg.shaped.diag_len]

/-- **C09**, entry by entry: the published table is the all-ones matrix plus the published diagonal. -/
theorem C09_internal_entries (S : Poseidon2Source) (hS : S ∈ Instances.poseidon2) :
    S.matInternalF = rowsOf (Matrix.of fun i j : Fin S.t => if i = j then 1 + vec S.diagF i else 1) :=
  (poseidon2_good S hS).entries

/-- **C10.** Every shipped instance computes the reference function of the script, called with the script's full matrix,
the published partial matrix and the published constants. -/
theorem C10_reference_script (S : Poseidon2Source) (hS : S ∈ Instances.poseidon2) :
    ∃ P matrix_full, S.params dbg = some P ∧ Sage.generateMatrixFull S.t = some matrix_full ∧
      ∀ x : List (ZMod S.modulus), x.length = S.t →
        Poseidon2.permutation dbg P x =
          Sage.poseidon2 S.t S.d S.rounds_f S.rounds_p matrix_full S.matInternalF S.rcF.flatten x := by
  have hg := poseidon2_good S hS
  obtain ⟨P, hP⟩ := hg.params
  refine ⟨P, _, hP, Sage.generateMatrixFull_eq hg.width, fun x hx => ?_⟩
  obtain ⟨x, rfl⟩ := eq_ofFn x hx
  have heven := hg.even
  rw [C01_permutation_eq_spec hP hg.shaped, hg.internal, Sage.poseidon2_eq_spec (by have := hg.width; unfold Supported at this; omega) _ _ _ _ _ _ hg.rc_rows (by rw [hg.rc_len]; omega) hg.tails]

/-- **C43.** Merkle trees over the shipped width-3 instances: a root for every nonempty leaf set. -/
theorem C43_shipped_total (S : Poseidon2Source) (hS : S ∈ Instances.poseidon2) (h3 : S.t = 3) :
    ∃ P, S.params dbg = some P ∧ ∀ set : List (ZMod S.modulus), set ≠ [] → set.length ≤ 2 ^ 63 →
      ∃ r, Merkle.accumulate dbg (Poseidon2.compress dbg P) set = some r := by
  have hg := poseidon2_good S hS
  obtain ⟨P, hP⟩ := hg.params
  refine ⟨P, hP, fun set hne hlen => ?_⟩
  unfold Poseidon2Source.params at hP
  have hs := hg.shaped
  rw [h3] at hP hs
  obtain ⟨r, hr, _⟩ := C43_poseidon2_total hP hs set hne hlen
  exact ⟨r, hr⟩

/-- **C43**, the other shipped widths: a panic on every leaf set. -/
theorem C43_shipped_other_widths (S : Poseidon2Source) (_hS : S ∈ Instances.poseidon2) (h3 : S.t ≠ 3)
    {P : Poseidon2Params (ZMod S.modulus)} (hP : S.params dbg = some P) (set : List (ZMod S.modulus))
    (hlen : set.length ≤ 2 ^ 63) : Merkle.accumulate dbg (Poseidon2.compress dbg P) set = none := by
  have hg := poseidon2_good S _hS
  have : Fact S.modulus.Prime := ⟨declared_prime hg.declared⟩
  apply (C43_wrong_width dbg set hlen).1
  have : P.t = S.t := by
    unfold Poseidon2Source.params Poseidon2Params.new at hP
    simp only [Option.bind_eq_bind, Option.bind_eq_some_iff, Option.pure_def, Option.some.injEq] at hP
    obtain ⟨_, _, _, _, _, _, rfl⟩ := hP
    rfl
  rwa [this]

/-- Which instances have width 3: the BLS12, BN256, Pallas and Vesta ones named in C43. -/
example : (Instances.poseidon2.filter fun S => S.t = 3).map (fun S => S.modulus) =
    [Fields.bls12Modulus, Fields.bn256Modulus, Fields.pallasModulus, Fields.vestaModulus] := by decide +kernel

/-- The list has 15 members. -/
example : Instances.poseidon2.length = 15 := rfl

end ZkHash

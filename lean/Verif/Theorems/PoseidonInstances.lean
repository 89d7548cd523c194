import Verif.Instances.Shapes
import Verif.Proofs.PoseidonTables
import Verif.Theorems.Poseidon2Instances

set_option autoImplicit false

/-!
# The 15 shipped Poseidon instances: C17, C50; permutation exponents of all shipped instances: C45
-/

namespace ZkHash

open Spec Matrix

theorem poseidon_good (S : PoseidonSource) (hS : S ∈ Instances.poseidon) : PoseidonGood S :=
  S.check_sound (Instances.poseidon_checked S hS)

theorem poseidon_prime (S : PoseidonSource) (hS : S ∈ Instances.poseidon) : S.modulus.Prime :=
  declared_prime (poseidon_good S hS).declared

/-- **C17.** For every shipped Poseidon table the constructor returns (in both profiles), and the value it returns gives
an optimized permutation that equals the plain one on every input of any length, and is a bijection of the states of
width `t`. (That the modulus is prime is `poseidon_prime`.) -/
theorem C17_shipped (S : PoseidonSource) (hS : S ∈ Instances.poseidon) [Fact S.modulus.Prime] (dbg : Bool) :
    ∃ P, S.params dbg = some P ∧
      (∀ x, Poseidon.permutation dbg P x = Poseidon.permutationNotOpt dbg P x) ∧
      IsPermutation S.t (Poseidon.permutation dbg P) := by
  have hg := poseidon_good S hS
  obtain ⟨P, hP⟩ := hg.returns dbg
  refine ⟨P, hP, ?_⟩
  unfold PoseidonSource.params at hP
  rw [hg.mds] at hP
  refine ⟨fun x => C12_optimized_eq_plain hP hg.shaped dbg x, ?_⟩
  rw [(C14_bijective_iff hP hg.shaped dbg).2, ZMod.card]
  exact hg.coprime

/-- The matrix of field elements of a shipped table. -/
def PoseidonSource.mdsMatrix (S : PoseidonSource) : Matrix (Fin S.t) (Fin S.t) (ZMod S.modulus) :=
  Matrix.of fun i j => tab S.mdsF i j

theorem PoseidonGood.mdsMatrix_eq {S : PoseidonSource} (h : PoseidonGood S) :
    S.mdsMatrix = PoseidonSource.matOf S.modulus S.t S.mds := by
  ext i j
  unfold PoseidonSource.mdsMatrix
  rw [h.mds, Matrix.of_apply]
  simp [tab, rowsOf]

/-- **C17**, with the function it computes: the specification with the shipped tables. -/
theorem C17_shipped_eq_spec (S : PoseidonSource) (hS : S ∈ Instances.poseidon) [Fact S.modulus.Prime] (dbg : Bool) :
    ∃ P, S.params dbg = some P ∧ ∀ x : Fin S.t → ZMod S.modulus,
      Poseidon.permutation dbg P (List.ofFn x) =
        some (List.ofFn (poseidon S.mdsMatrix S.d (S.rounds_f / 2) S.rounds_p (tab S.rcF) x)) := by
  have hg := poseidon_good S hS
  obtain ⟨P, hP⟩ := hg.returns dbg
  refine ⟨P, hP, fun x => ?_⟩
  unfold PoseidonSource.params at hP
  rw [hg.mds] at hP
  rw [hg.mdsMatrix_eq]
  exact C12_permutation_eq_spec hP hg.shaped dbg x

/-- **C50.** Every shipped Poseidon instance computes the reference function `poseidon` of the script, called with the
published matrix and constants. -/
theorem C50_reference_script (S : PoseidonSource) (hS : S ∈ Instances.poseidon) [Fact S.modulus.Prime] (dbg : Bool) :
    ∃ P, S.params dbg = some P ∧ ∀ x : List (ZMod S.modulus), x.length = S.t →
      Poseidon.permutation dbg P x =
        Sage.poseidon S.t S.d S.rounds_f S.rounds_p S.mdsF S.rcF.flatten x := by
  have hg := poseidon_good S hS
  obtain ⟨P, hP⟩ := hg.returns dbg
  refine ⟨P, hP, fun x hx => ?_⟩
  obtain ⟨x, rfl⟩ := eq_ofFn x hx
  unfold PoseidonSource.params at hP
  rw [hg.mds] at hP
  have heven := hg.even
  have hw := hg.width
  have hsh : PoseidonShaped S.t S.rounds_f S.rounds_p S.rcF := hg.shaped
  rw [C12_permutation_eq_spec hP hg.shaped dbg x, hg.mds,
    Sage.poseidon_ofFn (by omega) _ _ _ _ _ hsh.rc_rows (by rw [hg.rc_len]; omega)]

/-! ## C45 -/

theorem pow_bijective_declared {p d : Nat} (hp : p ∈ Fields.declared.map Prod.fst) (hd : d ≠ 0)
    (h : Nat.Coprime d (p - 1)) : Function.Bijective fun x : ZMod p => x ^ d := by
  have : Fact p.Prime := ⟨declared_prime hp⟩
  rw [pow_bijective_iff hd, ZMod.card]
  exact h

theorem shapes_checked : ((Instances.neptune ++ Instances.gmimc).all fun S =>
    (Fields.declared.map Prod.fst).contains S.modulus && S.d != 0 && Nat.gcd S.d (S.modulus - 1) == 1) = true := by
  decide +kernel

/-- **C45.** `x ↦ x^d` is a bijection of the field of every shipped instance of every permutation. -/
theorem C45_sbox_bijective :
    (∀ S ∈ Instances.poseidon2, Function.Bijective fun x : ZMod S.modulus => x ^ S.d) ∧
    (∀ S ∈ Instances.poseidon, Function.Bijective fun x : ZMod S.modulus => x ^ S.d) ∧
    (∀ S ∈ Instances.neptune, Function.Bijective fun x : ZMod S.modulus => x ^ S.d) ∧
    (∀ S ∈ Instances.gmimc, Function.Bijective fun x : ZMod S.modulus => x ^ S.d) := by
  have hshape : ∀ S ∈ Instances.neptune ++ Instances.gmimc, Function.Bijective fun x : ZMod S.modulus => x ^ S.d := by
    intro S hS
    have := List.all_eq_true.mp shapes_checked S hS
    simp only [Bool.and_eq_true, bne_iff_ne, beq_iff_eq, List.contains_iff_mem] at this
    exact pow_bijective_declared this.1.1 this.1.2 this.2
  refine ⟨fun S hS => ?_, fun S hS => ?_, fun S hS => hshape S (List.mem_append_left _ hS),
    fun S hS => hshape S (List.mem_append_right _ hS)⟩
  · have hg := poseidon2_good S hS
    exact pow_bijective_declared hg.declared (by have := hg.shaped.degree; omega) hg.coprime
  · have hg := poseidon_good S hS
    have : Fact S.modulus.Prime := ⟨poseidon_prime S hS⟩
    obtain ⟨P, hP⟩ := hg.returns true
    have := (Poseidon.new_args hP).1
    exact pow_bijective_declared hg.declared (by omega) hg.coprime

/-- How many instances the statements range over. -/
example : Instances.poseidon2.length = 15 ∧ Instances.poseidon.length = 15 ∧ Instances.neptune.length = 12 ∧
    Instances.gmimc.length = 43 := ⟨rfl, rfl, rfl, rfl⟩

end ZkHash

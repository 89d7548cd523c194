import Verif.Proofs.Primes
import Verif.Theorems.Invertible
import Verif.Model.Fields
import Mathlib.RingTheory.RootsOfUnity.PrimitiveRoots
import Mathlib.FieldTheory.Finite.Basic

set_option autoImplicit false

/-!
# The six shipped fields: C44, and C48 over them
-/

namespace ZkHash

open Spec Matrix

/-- **C44**, part 1: every declared modulus is prime. -/
theorem C44_modulus_prime : ∀ f ∈ Fields.declared, Nat.Prime f.1 := by
  intro f hf
  simp only [Fields.declared, List.mem_cons, List.not_mem_nil, or_false] at hf
  rcases hf with rfl | rfl | rfl | rfl | rfl | rfl
  · exact Primes.prime_2013265921
  · exact Primes.prime_18446744069414584321
  · exact Primes.prime_52435875175126190479447740508185965837690552500527637822603658699938581184513
  · exact Primes.prime_21888242871839275222246405745257275088548364400416034343698204186575808495617
  · exact Primes.prime_28948022309329048855892746252171976963363056481941560715954676764349967630337
  · exact Primes.prime_28948022309329048855892746252171976963363056481941647379679742748393362948097

/-- **C44**, part 2: every declared generator has multiplicative order `p - 1`. -/
theorem C44_generator_order : ∀ f ∈ Fields.declared, orderOf ((f.2 : Nat) : ZMod f.1) = f.1 - 1 := by
  intro f hf
  simp only [Fields.declared, List.mem_cons, List.not_mem_nil, or_false] at hf
  rcases hf with rfl | rfl | rfl | rfl | rfl | rfl
  · exact Primes.order_2013265921.2
  · exact Primes.order_18446744069414584321.2
  · exact Primes.order_52435875175126190479447740508185965837690552500527637822603658699938581184513.2
  · exact Primes.order_21888242871839275222246405745257275088548364400416034343698204186575808495617.2
  · exact Primes.order_28948022309329048855892746252171976963363056481941560715954676764349967630337.2
  · exact Primes.order_28948022309329048855892746252171976963363056481941647379679742748393362948097.2

/-- An element of order `p - 1` generates all nonzero elements of the field with `p` elements. -/
theorem pow_of_order {p : Nat} (hp : Nat.Prime p) (g : ZMod p) (hg : orderOf g = p - 1) (x : ZMod p) (hx : x ≠ 0) :
    ∃ k < p - 1, x = g ^ k := by
  have : Fact p.Prime := ⟨hp⟩
  have h2 := hp.two_le
  have : NeZero (p - 1) := ⟨by omega⟩
  have hprim : IsPrimitiveRoot g (p - 1) := hg ▸ IsPrimitiveRoot.orderOf g
  obtain ⟨i, hi, h⟩ := hprim.eq_pow_of_pow_eq_one (ξ := x) (ZMod.pow_card_sub_one_eq_one hx)
  exact ⟨i, hi, h.symm⟩

/-- **C44**, consequences: every nonzero element is invertible and is a power of the generator. -/
theorem C44_every_nonzero_element : ∀ f ∈ Fields.declared, ∀ x : ZMod f.1, x ≠ 0 →
    (∃ y, x * y = 1) ∧ ∃ k < f.1 - 1, x = ((f.2 : Nat) : ZMod f.1) ^ k := by
  intro f hf x hx
  have hp := C44_modulus_prime f hf
  have : Fact f.1.Prime := ⟨hp⟩
  exact ⟨⟨x⁻¹, mul_inv_cancel₀ hx⟩, pow_of_order hp _ (C44_generator_order f hf) x hx⟩

/-- **C48**, shipped fields: the external layer is a bijection for every supported width over every declared field. -/
theorem C48_shipped_fields : ∀ f ∈ Fields.declared, ∀ t, Supported t →
    IsPermutation t (Poseidon2.matmulExternal t : List (ZMod f.1) → Option (List (ZMod f.1))) := by
  intro f hf t ht
  have : Fact f.1.Prime := ⟨C44_modulus_prime f hf⟩
  have hne : ∀ n : Nat, 0 < n → n < 2013265921 → ((n : Nat) : ZMod f.1) ≠ 0 := by
    intro n h0 hn hc
    rw [ZMod.natCast_eq_zero_iff] at hc
    have hle := Nat.le_of_dvd h0 hc
    have : 2013265921 ≤ f.1 := by
      simp only [Fields.declared, List.mem_cons, List.not_mem_nil, or_false] at hf
      rcases hf with rfl | rfl | rfl | rfl | rfl | rfl <;> decide
    omega
  have h2 := hne 2 (by omega) (by omega)
  have h3 := hne 3 (by omega) (by omega)
  rw [C48_external_layer_bijective_iff t ht]
  split
  · exact_mod_cast h3
  · split
    · exact_mod_cast h2
    · refine ⟨by exact_mod_cast h2, hne _ (by omega) ?_⟩
      unfold Supported at ht
      omega

/-- The six fields are there, with their sizes. -/
example : Fields.declared.length = 6 ∧ (2013265921, 31) ∈ Fields.declared := by decide

end ZkHash

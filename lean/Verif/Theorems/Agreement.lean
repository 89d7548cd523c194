import Verif.Proofs.Agreement
import Verif.Theorems.Directions

set_option autoImplicit false

/-!
# Polynomial relations between a result and its input: C99
-/

namespace ZkHash

open Spec Polynomial Lines Agreement

variable {dbg : Bool}

/-- **C99** for the shipped Poseidon2 instances over the fields of 254 and 255 bits, with `D` the number `d` to the number of
rounds, less than `p / 2 ^ 100`. Take a polynomial `R` of degree `m` in one variable and a polynomial `g` in the words of the
input of total degree below `m D`. For at most `m D p ^ (t - 1)` of the `p ^ t` inputs `x`, word `i` of the result satisfies
`R(c) = g(x)`; and at most `D p ^ (t - 1)` states are their own result. -/
theorem C99_poseidon2 (S : Poseidon2Source) (hS : S ∈ Instances.poseidon2) (hl : S.modulus ∈ largeFields)
    [Fact S.modulus.Prime] (dbg : Bool) :
    2 ^ 100 * S.d ^ (S.rounds_f + S.rounds_p) < S.modulus ∧
    ∃ P, S.params dbg = some P ∧
      (∀ (i : Nat) (R : (ZMod S.modulus)[X]) (g : MvPolynomial (Fin S.t) (ZMod S.modulus)),
        g.totalDegree < R.natDegree * S.d ^ (S.rounds_f + S.rounds_p) →
        (inputsRelated (Poseidon2.permutation dbg P) i R g).ncard ≤
          R.natDegree * S.d ^ (S.rounds_f + S.rounds_p) * S.modulus ^ (S.t - 1)) ∧
      {x : Fin S.t → ZMod S.modulus | Poseidon2.permutation dbg P (List.ofFn x) = some (List.ofFn x)}.ncard ≤
        S.d ^ (S.rounds_f + S.rounds_p) * S.modulus ^ (S.t - 1) := by
  obtain ⟨ht, -, h2⟩ := Directions.poseidon2_two S hS
  obtain ⟨P, hP, h⟩ := C75_poseidon2_exact (dbg := dbg) S hS
  have h' := fun x => (h x ⟨0, ht⟩).imp fun y hy => And.intro hy.1 fun q hq => (hy.2 q hq).1
  refine ⟨poseidon2_large S hS hl, P, hP, fun i R g hg => ?_, ?_⟩
  · have := related _ h' i hg
    rwa [ZMod.card] at this
  · have := fixed _ h' h2
    rwa [ZMod.card] at this

/-- **C99** for the shipped Poseidon instances over these fields. -/
theorem C99_poseidon (S : PoseidonSource) (hS : S ∈ Instances.poseidon) (hl : S.modulus ∈ largeFields)
    [Fact S.modulus.Prime] (dbg : Bool) :
    2 ^ 100 * S.d ^ (S.rounds_f + S.rounds_p) < S.modulus ∧
    ∃ P, S.params dbg = some P ∧
      (∀ (i : Nat) (R : (ZMod S.modulus)[X]) (g : MvPolynomial (Fin S.t) (ZMod S.modulus)),
        g.totalDegree < R.natDegree * S.d ^ (S.rounds_f + S.rounds_p) →
        (inputsRelated (Poseidon.permutation dbg P) i R g).ncard ≤
          R.natDegree * S.d ^ (S.rounds_f + S.rounds_p) * S.modulus ^ (S.t - 1)) ∧
      {x : Fin S.t → ZMod S.modulus | Poseidon.permutation dbg P (List.ofFn x) = some (List.ofFn x)}.ncard ≤
        S.d ^ (S.rounds_f + S.rounds_p) * S.modulus ^ (S.t - 1) := by
  obtain ⟨ht, -, h2⟩ := Directions.poseidon_two S hS
  obtain ⟨P, hP, h⟩ := C75_poseidon_exact S hS dbg
  have h' := fun x => (h x ⟨0, ht⟩).imp fun y hy => And.intro hy.1 fun q hq => (hy.2 q hq).1
  refine ⟨poseidon_large S hS hl, P, hP, fun i R g hg => ?_, ?_⟩
  · have := related _ h' i hg
    rwa [ZMod.card] at this
  · have := fixed _ h' h2
    rwa [ZMod.card] at this

/-- **C99** for the shipped Neptune instances of width 4, unless the first drawn diagonal entry is 0, with
`D = 56 ^ 2 d ^ rounds_p`, less than `p / 2 ^ 66`. -/
theorem C99_neptune4 (S : Shape) (hS : S ∈ Instances.neptune) (h4 : S.t = 4) [Fact S.modulus.Prime]
    {s r : List (ZMod S.modulus)} {P : NeptuneParams (ZMod S.modulus)}
    (h : NeptuneParams.new dbg S.t S.d S.rounds_f S.rounds_p s = some (P, r)) (hmu : vec P.mu 0 ≠ 0) :
    2 ^ 66 * (56 ^ 2 * S.d ^ S.rounds_p) < S.modulus ∧
    (∀ (i : Nat) (R : (ZMod S.modulus)[X]) (g : MvPolynomial (Fin 4) (ZMod S.modulus)),
      g.totalDegree < R.natDegree * (56 ^ 2 * S.d ^ S.rounds_p) →
      (inputsRelated (Neptune.permutation dbg P) i R g).ncard ≤
        R.natDegree * (56 ^ 2 * S.d ^ S.rounds_p) * S.modulus ^ 3) ∧
    {x : Fin 4 → ZMod S.modulus | Neptune.permutation dbg P (List.ofFn x) = some (List.ofFn x)}.ncard ≤
      56 ^ 2 * S.d ^ S.rounds_p * S.modulus ^ 3 ∧
    (∀ (R : (ZMod S.modulus)[X]) (g : MvPolynomial (Fin 2) (ZMod S.modulus)),
      g.totalDegree < R.natDegree * (56 ^ 2 * S.d ^ S.rounds_p) →
      (pairsRelated (Neptune.compress dbg P) R g).ncard ≤
        R.natDegree * (56 ^ 2 * S.d ^ S.rounds_p) * S.modulus) := by
  have hlt : (Instances.neptune.all fun S => !(decide (S.t = 4)) ||
      decide (2 ^ 66 * (56 ^ 2 * S.d ^ S.rounds_p) < S.modulus ∧ 0 < S.d)) = true := by
    decide +kernel
  have hlt : 2 ^ 66 * (56 ^ 2 * S.d ^ S.rounds_p) < S.modulus ∧ 0 < S.d := by
    have := List.all_eq_true.mp hlt S hS
    simpa [h4] using this
  have h0 : 0 < S.d ^ S.rounds_p := Nat.pow_pos hlt.2
  have h' := fun x => C78_neptune4_shipped S hS h4 h hmu x 0
  rw [show neptune4Degree 3 = 56 from rfl] at h'
  refine ⟨hlt.1, fun i R g hg => ?_, ?_, fun R g hg => ?_⟩
  · have := related _ h' i hg
    rwa [ZMod.card] at this
  · have := fixed _ h' (by omega)
    rwa [ZMod.card] at this
  · have := pairs (t := 4) (by omega) h' (compress := Neptune.compress dbg P) (fun a b => by
      simp [Neptune.compress, List.ofFn_succ]) hg
    rwa [ZMod.card] at this

/-- **C99** for the shipped Neptune instances of width 8 over these fields, unless the first drawn diagonal entry is 0. -/
theorem C99_neptune8 (S : Shape) (hS : S ∈ Instances.neptune) (hl : S.modulus ∈ largeFields) (h8 : S.t = 8)
    [Fact S.modulus.Prime] {s r : List (ZMod S.modulus)} {P : NeptuneParams (ZMod S.modulus)}
    (h : NeptuneParams.new dbg S.t S.d S.rounds_f S.rounds_p s = some (P, r)) (hmu : vec P.mu 0 ≠ 0) :
    2 ^ 66 * (4 ^ S.rounds_f * S.d ^ S.rounds_p) < S.modulus ∧
    (∀ (i : Nat) (R : (ZMod S.modulus)[X]) (g : MvPolynomial (Fin 8) (ZMod S.modulus)),
      g.totalDegree < R.natDegree * (4 ^ S.rounds_f * S.d ^ S.rounds_p) →
      (inputsRelated (Neptune.permutation dbg P) i R g).ncard ≤
        R.natDegree * (4 ^ S.rounds_f * S.d ^ S.rounds_p) * S.modulus ^ 7) ∧
    {x : Fin 8 → ZMod S.modulus | Neptune.permutation dbg P (List.ofFn x) = some (List.ofFn x)}.ncard ≤
      4 ^ S.rounds_f * S.d ^ S.rounds_p * S.modulus ^ 7 := by
  have hc : (Instances.neptune.all fun S => decide (2 ≤ S.d ∧ 0 < S.rounds_p)) = true := by decide +kernel
  have hc := List.all_eq_true.mp hc S hS
  rw [decide_eq_true_eq] at hc
  have hpow : 2 ≤ S.d ^ S.rounds_p := le_trans hc.1 (Nat.le_self_pow (by omega) S.d)
  have h' := fun x => C78_neptune8 S hS h8 h hmu x 0
  refine ⟨neptune_large S hS hl, fun i R g hg => ?_, ?_⟩
  · have := related _ h' i hg
    rwa [ZMod.card] at this
  · have := fixed _ h' (le_trans hpow (Nat.le_mul_of_pos_left _ (Nat.pow_pos (by omega))))
    rwa [ZMod.card] at this

/-- **C99**, Merkle compression with a shipped Poseidon2 instance of width 3: for at most `m D p` of the `p ^ 2` pairs of elements
the digest `h` satisfies `R(h) = g(a, b)`. -/
theorem C99_poseidon2_compress (S : Poseidon2Source) (hS : S ∈ Instances.poseidon2) (hl : S.modulus ∈ largeFields)
    (h3 : S.t = 3) [Fact S.modulus.Prime] (dbg : Bool) :
    2 ^ 100 * S.d ^ (S.rounds_f + S.rounds_p) < S.modulus ∧
    ∃ P, S.params dbg = some P ∧
      ∀ (R : (ZMod S.modulus)[X]) (g : MvPolynomial (Fin 2) (ZMod S.modulus)),
        g.totalDegree < R.natDegree * S.d ^ (S.rounds_f + S.rounds_p) →
        (pairsRelated (Poseidon2.compress dbg P) R g).ncard ≤
          R.natDegree * S.d ^ (S.rounds_f + S.rounds_p) * S.modulus := by
  obtain ⟨P, hP, h⟩ := C75_poseidon2_exact (dbg := dbg) S hS
  rw [h3] at h
  refine ⟨poseidon2_large S hS hl, P, hP, fun R g hg => ?_⟩
  have := pairs (t := 3) (by omega) (fun x => let ⟨y, hy, hD⟩ := h x ⟨0, by omega⟩; ⟨y, hy, fun q hq => (hD q hq).1⟩)
    (compress := Poseidon2.compress dbg P) (fun a b => by simp [Poseidon2.compress, List.ofFn_succ]) hg
  rwa [ZMod.card] at this

/-- **C99**, Merkle compression with a shipped Poseidon instance of width 3. -/
theorem C99_poseidon_compress (S : PoseidonSource) (hS : S ∈ Instances.poseidon) (hl : S.modulus ∈ largeFields)
    (h3 : S.t = 3) [Fact S.modulus.Prime] (dbg : Bool) :
    2 ^ 100 * S.d ^ (S.rounds_f + S.rounds_p) < S.modulus ∧
    ∃ P, S.params dbg = some P ∧
      ∀ (R : (ZMod S.modulus)[X]) (g : MvPolynomial (Fin 2) (ZMod S.modulus)),
        g.totalDegree < R.natDegree * S.d ^ (S.rounds_f + S.rounds_p) →
        (pairsRelated (Poseidon.compress dbg P) R g).ncard ≤
          R.natDegree * S.d ^ (S.rounds_f + S.rounds_p) * S.modulus := by
  obtain ⟨P, hP, h⟩ := C75_poseidon_exact S hS dbg
  rw [h3] at h
  refine ⟨poseidon_large S hS hl, P, hP, fun R g hg => ?_⟩
  have := pairs (t := 3) (by omega) (fun x => let ⟨y, hy, hD⟩ := h x ⟨0, by omega⟩; ⟨y, hy, fun q hq => (hD q hq).1⟩)
    (compress := Poseidon.compress dbg P) (fun a b => by simp [Poseidon.compress, List.ofFn_succ]) hg
  rwa [ZMod.card] at this

/-- A relation that the theorems cover: the digest is the sum of the two elements. -/
example (S : Poseidon2Source) (hS : S ∈ Instances.poseidon2) (hl : S.modulus ∈ largeFields) (h3 : S.t = 3)
    [Fact S.modulus.Prime] (dbg : Bool) : ∃ P, S.params dbg = some P ∧
      2 ^ 100 * {z : ZMod S.modulus × ZMod S.modulus | Poseidon2.compress dbg P [z.1, z.2] = some (z.1 + z.2)}.ncard ≤
        S.modulus * S.modulus := by
  obtain ⟨this, P, hP, h⟩ := C99_poseidon2_compress S hS hl h3 dbg
  refine ⟨P, hP, ?_⟩
  have h1 := h X (MvPolynomial.X 0 + MvPolynomial.X 1) (by
    have := MvPolynomial.totalDegree_add (MvPolynomial.X (R := ZMod S.modulus) (0 : Fin 2)) (MvPolynomial.X 1)
    rw [MvPolynomial.totalDegree_X, MvPolynomial.totalDegree_X] at this
    have := (Directions.poseidon2_two S hS).2.2
    rw [natDegree_X]
    omega)
  rw [natDegree_X, one_mul] at h1
  have e : pairsRelated (Poseidon2.compress dbg P) X (MvPolynomial.X 0 + MvPolynomial.X 1) =
      {z : ZMod S.modulus × ZMod S.modulus | Poseidon2.compress dbg P [z.1, z.2] = some (z.1 + z.2)} := by
    ext z
    simp [pairsRelated]
  rw [e] at h1
  calc _ ≤ 2 ^ 100 * (S.d ^ (S.rounds_f + S.rounds_p) * S.modulus) := Nat.mul_le_mul_left _ h1
    _ = (2 ^ 100 * S.d ^ (S.rounds_f + S.rounds_p)) * S.modulus := (Nat.mul_assoc _ _ _).symm
    _ ≤ S.modulus * S.modulus := Nat.mul_le_mul_right _ this.le

/-- The instances that these theorems are about. -/
example : (Instances.poseidon2.filter fun S => largeFields.contains S.modulus).length = 9 ∧
    (Instances.poseidon.filter fun S => largeFields.contains S.modulus).length = 9 ∧
    (Instances.neptune.filter fun S => S.t == 4).map (fun S => (S.d, S.rounds_f, S.rounds_p)) =
      [(5, 6, 68), (5, 6, 69), (5, 6, 69), (5, 6, 68)] ∧
    (Instances.neptune.filter fun S => largeFields.contains S.modulus && S.t == 8).length = 2 := by
  decide +kernel

end ZkHash

import Verif.Proofs.Lines
import Verif.Theorems.Degree
import Verif.Theorems.DegreeExact

set_option autoImplicit false

/-!
# Sums over lines and affine subspaces: C95. Values and differences along a word: C96
-/

namespace ZkHash

open Spec Matrix

variable {dbg : Bool}

/-! ## C95 -/

/-- **C95** for Poseidon2 over a finite field of `q` elements. Take any `k` directions `v`. If the number `d` to the number
of rounds is below `k (q - 1)`, the results on the `q ^ k` inputs `x + u_1 v_1 + … + u_k v_k` add up to zero in every word;
and so do the results multiplied by any polynomial in `u`, as long as its degree and `d` to the number of rounds together
stay below `k (q - 1)`. -/
theorem C95_poseidon2 {F : Type} [Field F] [Fintype F] {t d rounds_f rounds_p k : Nat} {diag : List F}
    {mat_internal rc : List (List F)} {P : Poseidon2Params F}
    (hP : Poseidon2Params.new dbg t d rounds_f rounds_p diag mat_internal rc = some P)
    (hs : WellShaped t d rounds_f rounds_p diag rc) (x : Fin t → F) (v : Fin k → Fin t → F) :
    ∃ out : (Fin k → F) → Fin t → F,
      (∀ u, Poseidon2.permutation dbg P (List.ofFn fun l => x l + ∑ m, u m * v m l) = some (List.ofFn (out u))) ∧
      ∀ g : MvPolynomial (Fin k) F, g.totalDegree + d ^ (rounds_f + rounds_p) < (Fintype.card F - 1) * k →
        ∑ u, MvPolynomial.eval u g • out u = 0 := by
  obtain ⟨y, hy, hD⟩ := C75_poseidon2 hP hs
  exact Lines.zero_sum hy hD x v

/-- **C95** for Poseidon (and so for its optimized and its plain permutation). -/
theorem C95_poseidon {F : Type} [Field F] [Fintype F] [DecidableEq F] {t d rounds_f rounds_p k : Nat}
    {M : Matrix (Fin t) (Fin t) F} {rc : List (List F)} {P : PoseidonParams F}
    (hP : PoseidonParams.new dbg t d rounds_f rounds_p (rowsOf M) rc = some P)
    (hs : PoseidonShaped t rounds_f rounds_p rc) (dbg' : Bool) (x : Fin t → F) (v : Fin k → Fin t → F) :
    ∃ out : (Fin k → F) → Fin t → F,
      (∀ u, Poseidon.permutation dbg' P (List.ofFn fun l => x l + ∑ m, u m * v m l) = some (List.ofFn (out u))) ∧
      ∀ g : MvPolynomial (Fin k) F, g.totalDegree + d ^ (rounds_f + rounds_p) < (Fintype.card F - 1) * k →
        ∑ u, MvPolynomial.eval u g • out u = 0 := by
  obtain ⟨y, hy, hD⟩ := C75_poseidon hP hs dbg'
  exact Lines.zero_sum hy hD x v

/-- **C95** for Neptune: with `4 ^ rounds_f * d ^ rounds_p`. -/
theorem C95_neptune {F : Type} [Field F] [Fintype F] [DecidableEq F] {t d rounds_f rounds_p k : Nat} (ht : 0 < t)
    {s r : List F} {P : NeptuneParams F} (h : NeptuneParams.new dbg t d rounds_f rounds_p s = some (P, r))
    (hfit : rounds_f + rounds_p < 2 ^ 64) (x : Fin t → F) (v : Fin k → Fin t → F) :
    ∃ out : (Fin k → F) → Fin t → F,
      (∀ u, Neptune.permutation dbg P (List.ofFn fun l => x l + ∑ m, u m * v m l) = some (List.ofFn (out u))) ∧
      ∀ g : MvPolynomial (Fin k) F, g.totalDegree + 4 ^ rounds_f * d ^ rounds_p < (Fintype.card F - 1) * k →
        ∑ u, MvPolynomial.eval u g • out u = 0 := by
  obtain ⟨y, hy, hD⟩ := C75_neptune ht h hfit
  exact Lines.zero_sum hy hD x v

/-- **C95** for GMiMC: with `d ^ rounds`. -/
theorem C95_gmimc {F : Type} [Field F] [Fintype F] (dbg : Bool) {t d rounds k : Nat} (ht : 0 < t) (hr : 0 < rounds)
    {stream rest : List F} {P : GmimcParams F} (hlen : rounds ≤ stream.length)
    (hP : GmimcParams.new t d rounds stream = some (P, rest)) (x : Fin t → F) (v : Fin k → Fin t → F) :
    ∃ out : (Fin k → F) → Fin t → F,
      (∀ u, Gmimc.permutation dbg P (List.ofFn fun l => x l + ∑ m, u m * v m l) = some (List.ofFn (out u))) ∧
      ∀ g : MvPolynomial (Fin k) F, g.totalDegree + d ^ rounds < (Fintype.card F - 1) * k →
        ∑ u, MvPolynomial.eval u g • out u = 0 := by
  obtain ⟨y, hy, hD⟩ := C75_gmimc dbg ht hr hlen hP
  exact Lines.zero_sum hy hD x v

namespace Lines

/-- The bounds are below the size of the field, by a factor of more than `2 ^ 66`, for the shipped instances over these
fields. -/
theorem poseidon2_large (S : Poseidon2Source) (hS : S ∈ Instances.poseidon2) (hl : S.modulus ∈ largeFields) :
    2 ^ 100 * S.d ^ (S.rounds_f + S.rounds_p) < S.modulus := by
  have h : (Instances.poseidon2.all fun S => !(largeFields.contains S.modulus) ||
      decide (2 ^ 100 * S.d ^ (S.rounds_f + S.rounds_p) < S.modulus)) = true := by decide +kernel
  have := List.all_eq_true.mp h S hS
  simpa [hl] using this

theorem poseidon_large (S : PoseidonSource) (hS : S ∈ Instances.poseidon) (hl : S.modulus ∈ largeFields) :
    2 ^ 100 * S.d ^ (S.rounds_f + S.rounds_p) < S.modulus := by
  have h : (Instances.poseidon.all fun S => !(largeFields.contains S.modulus) ||
      decide (2 ^ 100 * S.d ^ (S.rounds_f + S.rounds_p) < S.modulus)) = true := by decide +kernel
  have := List.all_eq_true.mp h S hS
  simpa [hl] using this

theorem neptune_large (S : Shape) (hS : S ∈ Instances.neptune) (hl : S.modulus ∈ largeFields) :
    2 ^ 66 * (4 ^ S.rounds_f * S.d ^ S.rounds_p) < S.modulus := by
  have h : (Instances.neptune.all fun S => !(largeFields.contains S.modulus) ||
      decide (2 ^ 66 * (4 ^ S.rounds_f * S.d ^ S.rounds_p) < S.modulus)) = true := by decide +kernel
  have := List.all_eq_true.mp h S hS
  simpa [hl] using this

end Lines

open Lines

/-- **C95**, the shipped Poseidon2 instances over the fields of 254 and 255 bits: the results on the inputs of any line `x + u v`
add up to zero in every word, and so do the results multiplied by `u ^ m`, as long as `m` and `d` to the number of rounds
together are below `p - 1`. -/
theorem C95_poseidon2_shipped (S : Poseidon2Source) (hS : S ∈ Instances.poseidon2) (hl : S.modulus ∈ largeFields)
    [Fact S.modulus.Prime] (dbg : Bool) :
    ∃ P, S.params dbg = some P ∧ ∀ x v : Fin S.t → ZMod S.modulus, ∃ out : ZMod S.modulus → Fin S.t → ZMod S.modulus,
      (∀ u, Poseidon2.permutation dbg P (List.ofFn fun l => x l + u * v l) = some (List.ofFn (out u))) ∧
      ∑ u, out u = 0 ∧
      ∀ m, m + S.d ^ (S.rounds_f + S.rounds_p) < S.modulus - 1 → ∑ u, u ^ m • out u = 0 := by
  have hg := poseidon2_good S hS
  obtain ⟨P, hP⟩ := hg.params (dbg := dbg)
  refine ⟨P, hP, fun x v => ?_⟩
  obtain ⟨y, hy, hD⟩ := C75_poseidon2 hP hg.shaped
  obtain ⟨out, h1, h2⟩ := zero_sum_line hy hD x v
  rw [ZMod.card] at h2
  have hlt := poseidon2_large S hS hl
  have h0 : 0 < S.d ^ (S.rounds_f + S.rounds_p) := by
    have := hg.shaped.degree
    exact Nat.pow_pos (by omega)
  exact ⟨out, h1, by simpa using h2 0 (by omega), h2⟩

/-- **C95**, the shipped Poseidon instances over these fields. -/
theorem C95_poseidon_shipped (S : PoseidonSource) (hS : S ∈ Instances.poseidon) (hl : S.modulus ∈ largeFields)
    [Fact S.modulus.Prime] (dbg : Bool) :
    ∃ P, S.params dbg = some P ∧ ∀ x v : Fin S.t → ZMod S.modulus, ∃ out : ZMod S.modulus → Fin S.t → ZMod S.modulus,
      (∀ u, Poseidon.permutation dbg P (List.ofFn fun l => x l + u * v l) = some (List.ofFn (out u))) ∧
      ∑ u, out u = 0 ∧
      ∀ m, m + S.d ^ (S.rounds_f + S.rounds_p) < S.modulus - 1 → ∑ u, u ^ m • out u = 0 := by
  have hg := poseidon_good S hS
  obtain ⟨P, hP⟩ := hg.returns dbg
  refine ⟨P, hP, fun x v => ?_⟩
  unfold PoseidonSource.params at hP
  rw [hg.mds] at hP
  obtain ⟨y, hy, hD⟩ := C75_poseidon hP hg.shaped dbg
  obtain ⟨out, h1, h2⟩ := zero_sum_line hy hD x v
  rw [ZMod.card] at h2
  have hlt := poseidon_large S hS hl
  have h0 : 0 < S.d ^ (S.rounds_f + S.rounds_p) := by
    have := (Poseidon.new_args hP).1
    exact Nat.pow_pos (by omega)
  exact ⟨out, h1, by simpa using h2 0 (by omega), h2⟩

/-- **C95**, the shipped Neptune instances over these fields, whatever was drawn. -/
theorem C95_neptune_shipped (S : Shape) (hS : S ∈ Instances.neptune) (hl : S.modulus ∈ largeFields)
    [Fact S.modulus.Prime] {s r : List (ZMod S.modulus)} {P : NeptuneParams (ZMod S.modulus)}
    (h : NeptuneParams.new dbg S.t S.d S.rounds_f S.rounds_p s = some (P, r)) (x v : Fin S.t → ZMod S.modulus) :
    ∃ out : ZMod S.modulus → Fin S.t → ZMod S.modulus,
      (∀ u, Neptune.permutation dbg P (List.ofFn fun l => x l + u * v l) = some (List.ofFn (out u))) ∧
      ∑ u, out u = 0 ∧
      ∀ m, m + 4 ^ S.rounds_f * S.d ^ S.rounds_p < S.modulus - 1 → ∑ u, u ^ m • out u = 0 := by
  have hc : (Instances.neptune.all fun S => decide (0 < S.t ∧ S.rounds_f + S.rounds_p < 2 ^ 64 ∧ 0 < S.d)) = true := by
    decide +kernel
  have hc := List.all_eq_true.mp hc S hS
  rw [decide_eq_true_eq] at hc
  obtain ⟨y, hy, hD⟩ := C75_neptune hc.1 h hc.2.1
  obtain ⟨out, h1, h2⟩ := zero_sum_line hy hD x v
  rw [ZMod.card] at h2
  have hlt := neptune_large S hS hl
  have h0 : 0 < 4 ^ S.rounds_f * S.d ^ S.rounds_p := Nat.mul_pos (Nat.pow_pos (by omega)) (Nat.pow_pos hc.2.2)
  exact ⟨out, h1, by simpa using h2 0 (by omega), h2⟩

/-- **C95**, Merkle compression with a shipped Poseidon2 instance of width 3: along any line of pairs of elements, in
particular when one of the two elements runs through the whole field and the other one is fixed, the digests add up to zero. -/
theorem C95_poseidon2_compress (S : Poseidon2Source) (hS : S ∈ Instances.poseidon2) (hl : S.modulus ∈ largeFields)
    (h3 : S.t = 3) [Fact S.modulus.Prime] (dbg : Bool) :
    ∃ P, S.params dbg = some P ∧ ∀ a a' b b' : ZMod S.modulus, ∃ out : ZMod S.modulus → ZMod S.modulus,
      (∀ u, Poseidon2.compress dbg P [a + u * a', b + u * b'] = some (out u)) ∧ ∑ u, out u = 0 ∧
      ∀ m, m + S.d ^ (S.rounds_f + S.rounds_p) < S.modulus - 1 → ∑ u, u ^ m * out u = 0 := by
  obtain ⟨P, hP, h⟩ := C95_poseidon2_shipped S hS hl dbg
  refine ⟨P, hP, fun a a' b b' => ?_⟩
  rw [h3] at h
  obtain ⟨out, h1, h2, h4⟩ := h ![a, b, 0] ![a', b', 0]
  refine ⟨fun u => out u 0, fun u => ?_, by simpa using congrFun h2 0, fun m hm => by simpa using congrFun (h4 m hm) 0⟩
  have h1 := h1 u
  simp [List.ofFn_succ] at h1
  simp [Poseidon2.compress, h1]

/-- **C95**, Merkle compression with a shipped Poseidon instance of width 3. -/
theorem C95_poseidon_compress (S : PoseidonSource) (hS : S ∈ Instances.poseidon) (hl : S.modulus ∈ largeFields)
    (h3 : S.t = 3) [Fact S.modulus.Prime] (dbg : Bool) :
    ∃ P, S.params dbg = some P ∧ ∀ a a' b b' : ZMod S.modulus, ∃ out : ZMod S.modulus → ZMod S.modulus,
      (∀ u, Poseidon.compress dbg P [a + u * a', b + u * b'] = some (out u)) ∧ ∑ u, out u = 0 ∧
      ∀ m, m + S.d ^ (S.rounds_f + S.rounds_p) < S.modulus - 1 → ∑ u, u ^ m * out u = 0 := by
  obtain ⟨P, hP, h⟩ := C95_poseidon_shipped S hS hl dbg
  refine ⟨P, hP, fun a a' b b' => ?_⟩
  rw [h3] at h
  obtain ⟨out, h1, h2, h4⟩ := h ![a, b, 0] ![a', b', 0]
  refine ⟨fun u => out u 0, fun u => ?_, by simpa using congrFun h2 0, fun m hm => by simpa using congrFun (h4 m hm) 0⟩
  have h1 := h1 u
  simp [List.ofFn_succ] at h1
  simp [Poseidon.compress, h1]

/-- **C95**, Merkle compression with a shipped Neptune instance of width 4, whatever was drawn. -/
theorem C95_neptune_compress (S : Shape) (hS : S ∈ Instances.neptune) (h4 : S.t = 4) [Fact S.modulus.Prime]
    {s r : List (ZMod S.modulus)} {P : NeptuneParams (ZMod S.modulus)}
    (h : NeptuneParams.new dbg S.t S.d S.rounds_f S.rounds_p s = some (P, r)) (a a' b b' : ZMod S.modulus) :
    ∃ out : ZMod S.modulus → ZMod S.modulus,
      (∀ u, Neptune.compress dbg P [a + u * a', b + u * b'] = some (out u)) ∧ ∑ u, out u = 0 ∧
      ∀ m, m + 4 ^ S.rounds_f * S.d ^ S.rounds_p < S.modulus - 1 → ∑ u, u ^ m * out u = 0 := by
  have hl : (Instances.neptune.all fun S => !(decide (S.t = 4)) || largeFields.contains S.modulus) = true := by
    decide +kernel
  have hl : S.modulus ∈ largeFields := by
    have := List.all_eq_true.mp hl S hS
    simpa [h4] using this
  have h := C95_neptune_shipped S hS hl h
  rw [h4] at h
  obtain ⟨out, h1, h2, h5⟩ := h ![a, b, 0, 0] ![a', b', 0, 0]
  refine ⟨fun u => out u 0, fun u => ?_, by simpa using congrFun h2 0, fun m hm => by simpa using congrFun (h5 m hm) 0⟩
  have h1 := h1 u
  simp [List.ofFn_succ] at h1
  simp [Neptune.compress, h1]

/-- The instances that these theorems are about: 9 of Poseidon2, 9 of Poseidon and 6 of Neptune, with one of width 3 (4 for
Neptune) over each of the four fields. -/
example : (Instances.poseidon2.filter fun S => largeFields.contains S.modulus).length = 9 ∧
    (Instances.poseidon.filter fun S => largeFields.contains S.modulus).length = 9 ∧
    (Instances.neptune.filter fun S => largeFields.contains S.modulus).length = 6 ∧
    (∀ p ∈ largeFields, (∃ S ∈ Instances.poseidon2, S.modulus = p ∧ S.t = 3) ∧
      (∃ S ∈ Instances.poseidon, S.modulus = p ∧ S.t = 3) ∧ ∃ S ∈ Instances.neptune, S.modulus = p ∧ S.t = 4) := by
  decide +kernel

/-! ## C96 -/

namespace Lines

/-- A function whose fibres are small has few collisions. -/
theorem collisions {F : Type} [Fintype F] (f : F → F) (D : Nat) (h : ∀ c, {a | f a = c}.ncard ≤ D) :
    {z : F × F | z.1 ≠ z.2 ∧ f z.1 = f z.2}.ncard ≤ Fintype.card F * (D - 1) := by
  classical
  have hf : ∀ a, (Finset.univ.filter fun b => a ≠ b ∧ f a = f b).card ≤ D - 1 := by
    intro a
    have h1 := h (f a)
    rw [Set.ncard_eq_toFinset_card', Set.toFinset_setOf] at h1
    have h2 : (Finset.univ.filter fun b => a ≠ b ∧ f a = f b) = (Finset.univ.filter fun b => f b = f a).erase a := by
      ext b
      simp only [Finset.mem_filter, Finset.mem_univ, true_and, Finset.mem_erase]
      exact ⟨fun h => ⟨fun e => h.1 e.symm, h.2.symm⟩, fun h => ⟨fun e => h.1 e.symm, h.2.symm⟩⟩
    rw [h2, Finset.card_erase_of_mem (by simp)]
    omega
  rw [Set.ncard_eq_toFinset_card', Set.toFinset_setOf]
  calc (Finset.univ.filter fun z : F × F => z.1 ≠ z.2 ∧ f z.1 = f z.2).card
      = ∑ a, (Finset.univ.filter fun b => a ≠ b ∧ f a = f b).card := by
        simp only [Finset.card_filter]
        rw [Fintype.sum_prod_type]
    _ ≤ ∑ _a : F, (D - 1) := Finset.sum_le_sum fun a _ => hf a
    _ = Fintype.card F * (D - 1) := by simp

theorem cast_ne {p D : Nat} (h0 : 0 < D) (h : D < p) : (D : ZMod p) ≠ 0 := by
  intro e
  have := Nat.le_of_dvd h0 ((ZMod.natCast_eq_zero_iff D p).mp e)
  omega

end Lines

/-- **C96** for the shipped Poseidon2 instances over the fields of 254 and 255 bits, with `D` the number `d` to the number of
rounds, less than `p / 2 ^ 100`. Fix all words of the input except word `j`. Every value of any word of the result is taken for
at most `D` values of word `j`; and if a nonzero `δ` is added to word `j`, any word of the result changes by a given amount for
at most `D - 1` values of word `j`. -/
theorem C96_poseidon2 (S : Poseidon2Source) (hS : S ∈ Instances.poseidon2) (hl : S.modulus ∈ largeFields)
    [Fact S.modulus.Prime] (dbg : Bool) :
    2 ^ 100 * S.d ^ (S.rounds_f + S.rounds_p) < S.modulus ∧
    ∃ P, S.params dbg = some P ∧ ∀ (x : Fin S.t → ZMod S.modulus) (j : Fin S.t) (i : Nat),
      (∀ c, (valuesWith (Poseidon2.permutation dbg P) x j i c).ncard ≤ S.d ^ (S.rounds_f + S.rounds_p)) ∧
      ∀ δ β, δ ≠ 0 →
        (valuesWithDifference (Poseidon2.permutation dbg P) x j δ i β).ncard ≤ S.d ^ (S.rounds_f + S.rounds_p) - 1 := by
  have hlt := poseidon2_large S hS hl
  obtain ⟨P, hP, h⟩ := C75_poseidon2_exact (dbg := dbg) S hS
  refine ⟨hlt, P, hP, fun x j i => ?_⟩
  obtain ⟨y, hy, hD⟩ := h x j
  have h2 : 2 ≤ S.d ^ (S.rounds_f + S.rounds_p) := by
    have hd := (poseidon2_good S hS).shaped.degree
    have hc : (Instances.poseidon2.all fun S => decide (0 < S.rounds_f + S.rounds_p)) = true := by decide +kernel
    have hc := List.all_eq_true.mp hc S hS
    rw [decide_eq_true_eq] at hc
    exact le_trans (by omega) (Nat.le_self_pow (by omega) S.d)
  exact ⟨fun c => (values hy (fun q hq => (hD q hq).1) (by omega) i c).2, fun δ β hδ =>
    (differences hy (fun q hq => (hD q hq).1) h2 (cast_ne (by omega) (by omega)) hδ i β).2⟩

/-- **C96** for the shipped Poseidon instances over these fields. -/
theorem C96_poseidon (S : PoseidonSource) (hS : S ∈ Instances.poseidon) (hl : S.modulus ∈ largeFields)
    [Fact S.modulus.Prime] (dbg : Bool) :
    2 ^ 100 * S.d ^ (S.rounds_f + S.rounds_p) < S.modulus ∧
    ∃ P, S.params dbg = some P ∧ ∀ (x : Fin S.t → ZMod S.modulus) (j : Fin S.t) (i : Nat),
      (∀ c, (valuesWith (Poseidon.permutation dbg P) x j i c).ncard ≤ S.d ^ (S.rounds_f + S.rounds_p)) ∧
      ∀ δ β, δ ≠ 0 →
        (valuesWithDifference (Poseidon.permutation dbg P) x j δ i β).ncard ≤ S.d ^ (S.rounds_f + S.rounds_p) - 1 := by
  have hlt := poseidon_large S hS hl
  obtain ⟨P, hP, h⟩ := C75_poseidon_exact S hS dbg
  refine ⟨hlt, P, hP, fun x j i => ?_⟩
  obtain ⟨y, hy, hD⟩ := h x j
  have h2 : 2 ≤ S.d ^ (S.rounds_f + S.rounds_p) := by
    have hc : (Instances.poseidon.all fun S => decide (2 ≤ S.d ∧ 0 < S.rounds_f + S.rounds_p)) = true := by decide +kernel
    have hc := List.all_eq_true.mp hc S hS
    rw [decide_eq_true_eq] at hc
    exact le_trans hc.1 (Nat.le_self_pow (by omega) S.d)
  exact ⟨fun c => (values hy (fun q hq => (hD q hq).1) (by omega) i c).2, fun δ β hδ =>
    (differences hy (fun q hq => (hD q hq).1) h2 (cast_ne (by omega) (by omega)) hδ i β).2⟩

/-- **C96** for the shipped Neptune instances over these fields, unless the first drawn diagonal entry is 0. The degree is at
most `4 ^ rounds_f * d ^ rounds_p`, less than `p / 2 ^ 66`. -/
theorem C96_neptune (S : Shape) (hS : S ∈ Instances.neptune) (hl : S.modulus ∈ largeFields)
    [Fact S.modulus.Prime] {s r : List (ZMod S.modulus)} {P : NeptuneParams (ZMod S.modulus)}
    (h : NeptuneParams.new dbg S.t S.d S.rounds_f S.rounds_p s = some (P, r)) (hmu : vec P.mu 0 ≠ 0) :
    2 ^ 66 * (4 ^ S.rounds_f * S.d ^ S.rounds_p) < S.modulus ∧
    ∀ (x : Fin S.t → ZMod S.modulus) (j : Fin S.t) (i : Nat),
      (∀ c, (valuesWith (Neptune.permutation dbg P) x j i c).ncard ≤ 4 ^ S.rounds_f * S.d ^ S.rounds_p) ∧
      ∀ δ β, δ ≠ 0 →
        (valuesWithDifference (Neptune.permutation dbg P) x j δ i β).ncard ≤ 4 ^ S.rounds_f * S.d ^ S.rounds_p - 1 := by
  have hlt := neptune_large S hS hl
  have hc : (Instances.neptune.all fun S => decide ((!(largeFields.contains S.modulus) || (S.t == 4 || S.t == 8)) = true ∧
      S.rounds_f = 6 ∧ 2 ≤ S.d ∧ 0 < S.rounds_p ∧ 5 < S.modulus)) = true := by decide +kernel
  have hc := List.all_eq_true.mp hc S hS
  rw [decide_eq_true_eq] at hc
  obtain ⟨h48, h6, hd, hrp, h5⟩ := hc
  have h48 : S.t = 4 ∨ S.t = 8 := by simpa [hl] using h48
  have hpow : 2 ≤ S.d ^ S.rounds_p := le_trans hd (Nat.le_self_pow (by omega) S.d)
  refine ⟨hlt, fun x j i => ?_⟩
  obtain ⟨D, y, sym, hy, hD, h2, hle⟩ : ∃ (D : Nat) (y : List (Polynomial (ZMod S.modulus)))
      (sym : List (Polynomial (ZMod S.modulus)) → Option (List (Polynomial (ZMod S.modulus)))),
      LineRun (Neptune.permutation dbg P) sym x j y ∧ (∀ q ∈ y, q.natDegree = D) ∧ 2 ≤ D ∧
        D ≤ 4 ^ S.rounds_f * S.d ^ S.rounds_p := by
    rcases h48 with h4 | h8
    · have key := fun x j => C78_neptune4_shipped S hS h4 h hmu x j
      rw [← h4] at key
      obtain ⟨y, hy, hD⟩ := key x j
      refine ⟨_, y, _, hy, hD, ?_, ?_⟩
      · exact le_trans hpow (Nat.le_mul_of_pos_left _ (by decide))
      · rw [h6]
        exact Nat.mul_le_mul_right _ (by decide)
    · have key := fun x j => C78_neptune8 S hS h8 h hmu x j
      rw [← h8] at key
      obtain ⟨y, hy, hD⟩ := key x j
      exact ⟨_, y, _, hy, hD, le_trans hpow (Nat.le_mul_of_pos_left _ (Nat.pow_pos (by omega))), le_refl _⟩
  exact ⟨fun c => (values hy hD (by omega) i c).2.trans hle, fun δ β hδ =>
    (differences hy hD h2 (cast_ne (by omega) (by omega)) hδ i β).2.trans (by omega)⟩

/-- **C96**, Merkle compression with a shipped Poseidon2 instance of width 3. With the right (or the left) element fixed:
any digest is that of at most `D` of the `p` left (right) elements, and of the `p (p - 1)` ordered pairs of different left
(right) elements at most `p (D - 1)`, less than one in `2 ^ 100`, have the same digest. -/
theorem C96_poseidon2_compress (S : Poseidon2Source) (hS : S ∈ Instances.poseidon2) (hl : S.modulus ∈ largeFields)
    (h3 : S.t = 3) [Fact S.modulus.Prime] (dbg : Bool) :
    ∃ P, S.params dbg = some P ∧ ∀ b : ZMod S.modulus,
      (∀ h, {a | Poseidon2.compress dbg P [a, b] = some h}.ncard ≤ S.d ^ (S.rounds_f + S.rounds_p)) ∧
      (∀ h, {a | Poseidon2.compress dbg P [b, a] = some h}.ncard ≤ S.d ^ (S.rounds_f + S.rounds_p)) ∧
      {z : ZMod S.modulus × ZMod S.modulus | z.1 ≠ z.2 ∧
        Poseidon2.compress dbg P [z.1, b] = Poseidon2.compress dbg P [z.2, b]}.ncard ≤
          S.modulus * (S.d ^ (S.rounds_f + S.rounds_p) - 1) ∧
      {z : ZMod S.modulus × ZMod S.modulus | z.1 ≠ z.2 ∧
        Poseidon2.compress dbg P [b, z.1] = Poseidon2.compress dbg P [b, z.2]}.ncard ≤
          S.modulus * (S.d ^ (S.rounds_f + S.rounds_p) - 1) := by
  obtain ⟨-, P, hP, h⟩ := C96_poseidon2 S hS hl dbg
  obtain ⟨P', hP', htot⟩ := C95_poseidon2_compress S hS hl h3 dbg
  obtain rfl : P = P' := Option.some.inj (hP.symm.trans hP')
  refine ⟨P, hP, fun b => ?_⟩
  rw [h3] at h
  have e1 : ∀ c, {a | Poseidon2.compress dbg P [a, b] = some c} = valuesWith (Poseidon2.permutation dbg P) ![0, b, 0] 0 0 c := by
    intro c
    ext a
    have : List.ofFn (Function.update (![0, b, 0] : Fin 3 → ZMod S.modulus) 0 a) = [a, b, 0] := by
      simp [List.ofFn_succ, Function.update]
    simp [valuesWith, this, Poseidon2.compress, Option.bind_eq_some_iff]
  have e2 : ∀ c, {a | Poseidon2.compress dbg P [b, a] = some c} = valuesWith (Poseidon2.permutation dbg P) ![b, 0, 0] 1 0 c := by
    intro c
    ext a
    have : List.ofFn (Function.update (![b, 0, 0] : Fin 3 → ZMod S.modulus) 1 a) = [b, a, 0] := by
      simp [List.ofFn_succ, Function.update]
    simp [valuesWith, this, Poseidon2.compress, Option.bind_eq_some_iff]
  have f1 := fun c => (e1 c) ▸ (h ![0, b, 0] 0 0).1 c
  have f2 := fun c => (e2 c) ▸ (h ![b, 0, 0] 1 0).1 c
  refine ⟨f1, f2, ?_, ?_⟩
  · obtain ⟨out, ho, -⟩ := htot 0 1 b 0
    simp only [zero_add, mul_one, mul_zero, add_zero] at ho
    have := collisions out _ fun c => by simpa only [ho, Option.some.injEq] using f1 c
    simpa only [ho, Option.some.injEq, ZMod.card] using this
  · obtain ⟨out, ho, -⟩ := htot b 0 0 1
    simp only [zero_add, mul_one, mul_zero, add_zero] at ho
    have := collisions out _ fun c => by simpa only [ho, Option.some.injEq] using f2 c
    simpa only [ho, Option.some.injEq, ZMod.card] using this

/-- **C96**, Merkle compression with a shipped Poseidon instance of width 3. -/
theorem C96_poseidon_compress (S : PoseidonSource) (hS : S ∈ Instances.poseidon) (hl : S.modulus ∈ largeFields)
    (h3 : S.t = 3) [Fact S.modulus.Prime] (dbg : Bool) :
    ∃ P, S.params dbg = some P ∧ ∀ b : ZMod S.modulus,
      (∀ h, {a | Poseidon.compress dbg P [a, b] = some h}.ncard ≤ S.d ^ (S.rounds_f + S.rounds_p)) ∧
      (∀ h, {a | Poseidon.compress dbg P [b, a] = some h}.ncard ≤ S.d ^ (S.rounds_f + S.rounds_p)) ∧
      {z : ZMod S.modulus × ZMod S.modulus | z.1 ≠ z.2 ∧
        Poseidon.compress dbg P [z.1, b] = Poseidon.compress dbg P [z.2, b]}.ncard ≤
          S.modulus * (S.d ^ (S.rounds_f + S.rounds_p) - 1) ∧
      {z : ZMod S.modulus × ZMod S.modulus | z.1 ≠ z.2 ∧
        Poseidon.compress dbg P [b, z.1] = Poseidon.compress dbg P [b, z.2]}.ncard ≤
          S.modulus * (S.d ^ (S.rounds_f + S.rounds_p) - 1) := by
  obtain ⟨-, P, hP, h⟩ := C96_poseidon S hS hl dbg
  obtain ⟨P', hP', htot⟩ := C95_poseidon_compress S hS hl h3 dbg
  obtain rfl : P = P' := Option.some.inj (hP.symm.trans hP')
  refine ⟨P, hP, fun b => ?_⟩
  rw [h3] at h
  have e1 : ∀ c, {a | Poseidon.compress dbg P [a, b] = some c} = valuesWith (Poseidon.permutation dbg P) ![0, b, 0] 0 0 c := by
    intro c
    ext a
    have : List.ofFn (Function.update (![0, b, 0] : Fin 3 → ZMod S.modulus) 0 a) = [a, b, 0] := by
      simp [List.ofFn_succ, Function.update]
    simp [valuesWith, this, Poseidon.compress, Option.bind_eq_some_iff]
  have e2 : ∀ c, {a | Poseidon.compress dbg P [b, a] = some c} = valuesWith (Poseidon.permutation dbg P) ![b, 0, 0] 1 0 c := by
    intro c
    ext a
    have : List.ofFn (Function.update (![b, 0, 0] : Fin 3 → ZMod S.modulus) 1 a) = [b, a, 0] := by
      simp [List.ofFn_succ, Function.update]
    simp [valuesWith, this, Poseidon.compress, Option.bind_eq_some_iff]
  have f1 := fun c => (e1 c) ▸ (h ![0, b, 0] 0 0).1 c
  have f2 := fun c => (e2 c) ▸ (h ![b, 0, 0] 1 0).1 c
  refine ⟨f1, f2, ?_, ?_⟩
  · obtain ⟨out, ho, -⟩ := htot 0 1 b 0
    simp only [zero_add, mul_one, mul_zero, add_zero] at ho
    have := collisions out _ fun c => by simpa only [ho, Option.some.injEq] using f1 c
    simpa only [ho, Option.some.injEq, ZMod.card] using this
  · obtain ⟨out, ho, -⟩ := htot b 0 0 1
    simp only [zero_add, mul_one, mul_zero, add_zero] at ho
    have := collisions out _ fun c => by simpa only [ho, Option.some.injEq] using f2 c
    simpa only [ho, Option.some.injEq, ZMod.card] using this

/-- **C96**, Merkle compression with a shipped Neptune instance of width 4, unless the first drawn diagonal entry is 0: with
`D = 4 ^ rounds_f * d ^ rounds_p`, the same bounds. -/
theorem C96_neptune_compress (S : Shape) (hS : S ∈ Instances.neptune) (hl : S.modulus ∈ largeFields) (h4 : S.t = 4)
    [Fact S.modulus.Prime] {s r : List (ZMod S.modulus)} {P : NeptuneParams (ZMod S.modulus)}
    (h : NeptuneParams.new dbg S.t S.d S.rounds_f S.rounds_p s = some (P, r)) (hmu : vec P.mu 0 ≠ 0)
    (b : ZMod S.modulus) :
    (∀ h, {a | Neptune.compress dbg P [a, b] = some h}.ncard ≤ 4 ^ S.rounds_f * S.d ^ S.rounds_p) ∧
    (∀ h, {a | Neptune.compress dbg P [b, a] = some h}.ncard ≤ 4 ^ S.rounds_f * S.d ^ S.rounds_p) ∧
    {z : ZMod S.modulus × ZMod S.modulus | z.1 ≠ z.2 ∧
      Neptune.compress dbg P [z.1, b] = Neptune.compress dbg P [z.2, b]}.ncard ≤
        S.modulus * (4 ^ S.rounds_f * S.d ^ S.rounds_p - 1) ∧
    {z : ZMod S.modulus × ZMod S.modulus | z.1 ≠ z.2 ∧
      Neptune.compress dbg P [b, z.1] = Neptune.compress dbg P [b, z.2]}.ncard ≤
        S.modulus * (4 ^ S.rounds_f * S.d ^ S.rounds_p - 1) := by
  obtain ⟨-, hb⟩ := C96_neptune S hS hl h hmu
  obtain ⟨out, ho⟩ : ∃ out : ZMod S.modulus → ZMod S.modulus → ZMod S.modulus,
      ∀ a c, Neptune.compress dbg P [a, c] = some (out a c) := by
    refine ⟨fun a c => (Neptune.compress dbg P [a, c]).getD 0, fun a c => ?_⟩
    obtain ⟨o, ho, -⟩ := C95_neptune_compress S hS h4 h a 0 c 0
    have := ho 0
    simp only [mul_zero, add_zero] at this
    simp only [this, Option.getD_some]
  rw [h4] at hb
  have e1 : ∀ c, {a | Neptune.compress dbg P [a, b] = some c} =
      valuesWith (Neptune.permutation dbg P) ![0, b, 0, 0] 0 0 c := by
    intro c
    ext a
    have : List.ofFn (Function.update (![0, b, 0, 0] : Fin 4 → ZMod S.modulus) 0 a) = [a, b, 0, 0] := by
      simp [List.ofFn_succ, Function.update]
    simp [valuesWith, this, Neptune.compress, Option.bind_eq_some_iff]
  have e2 : ∀ c, {a | Neptune.compress dbg P [b, a] = some c} =
      valuesWith (Neptune.permutation dbg P) ![b, 0, 0, 0] 1 0 c := by
    intro c
    ext a
    have : List.ofFn (Function.update (![b, 0, 0, 0] : Fin 4 → ZMod S.modulus) 1 a) = [b, a, 0, 0] := by
      simp [List.ofFn_succ, Function.update]
    simp [valuesWith, this, Neptune.compress, Option.bind_eq_some_iff]
  have f1 := fun c => (e1 c) ▸ (hb ![0, b, 0, 0] 0 0).1 c
  have f2 := fun c => (e2 c) ▸ (hb ![b, 0, 0, 0] 1 0).1 c
  refine ⟨f1, f2, ?_, ?_⟩
  · have := collisions (fun a => out a b) _ fun c => by simpa only [ho, Option.some.injEq] using f1 c
    simpa only [ho, Option.some.injEq, ZMod.card] using this
  · have := collisions (fun a => out b a) _ fun c => by simpa only [ho, Option.some.injEq] using f2 c
    simpa only [ho, Option.some.injEq, ZMod.card] using this

end ZkHash

import Verif.Proofs.Trail
import Verif.Theorems.Activity
import Verif.Theorems.PoseidonBranch

set_option autoImplicit false

/-!
# S-boxes with different inputs over the whole permutation: C67
-/

namespace ZkHash

variable {dbg : Bool}

open Spec Matrix

/-- **C67**, one S-box: over a field whose characteristic does not divide the degree, an input difference `a ≠ 0` leads
to an output difference `b` for at most `d - 1` inputs, for the S-box code of Poseidon2. -/
theorem C67_sbox_poseidon2 {K : Type _} [Field K] {d : Nat} (hd : d = 3 ∨ d = 5 ∨ d = 7) (hc : (d : K) ≠ 0) {a : K}
    (ha : a ≠ 0) (b : K) :
    {x : K | ∃ u v, Poseidon2.sboxP d (x + a) = some u ∧ Poseidon2.sboxP d x = some v ∧ u - v = b}.ncard ≤ d - 1 := by
  refine le_trans (le_of_eq ?_) (Trail.diff_pow hd hc ha b)
  congr 1
  ext x
  simp [Poseidon2.sboxP_eq hd]

/-- **C67**, one S-box, for the S-box code of Poseidon. -/
theorem C67_sbox_poseidon {K : Type _} [Field K] {d : Nat} (hd : d = 3 ∨ d = 5 ∨ d = 7) (hc : (d : K) ≠ 0) {a : K}
    (ha : a ≠ 0) (b : K) :
    {x : K | ∃ u v, Poseidon.sboxP d (x + a) = some u ∧ Poseidon.sboxP d x = some v ∧ u - v = b}.ncard ≤ d - 1 := by
  refine le_trans (le_of_eq ?_) (Trail.diff_pow hd hc ha b)
  congr 1
  ext x
  simp [Poseidon.sboxP_eq hd]

/-- The characteristic of every declared field is larger than every supported degree. -/
theorem C67_characteristic {p : Nat} (hp : p ∈ Fields.declared.map Prod.fst) {d : Nat} (hd : d = 3 ∨ d = 5 ∨ d = 7) :
    (d : ZMod p) ≠ 0 := by
  have h : ∀ q ∈ Fields.declared.map Prod.fst, 7 < q := by decide +kernel
  have := h p hp
  rw [Ne, ZMod.natCast_eq_zero_iff]
  intro hdvd
  have := Nat.le_of_dvd (by omega) hdvd
  omega

/-- **C67** for Poseidon2: take a shipped instance, `rb = rounds_f / 2`, and `B = t + 1` for `t ≤ 4`, otherwise
`B = t / 4 + 4`. When two different inputs are permuted, at least `2 * ((rb / 2) * B + rb % 2) + rounds_p / t` S-boxes
receive different inputs. -/
theorem C67_poseidon2 (S : Poseidon2Source) (hS : S ∈ Instances.poseidon2) [Fact S.modulus.Prime] :
    ∃ P, S.params dbg = some P ∧ ∀ x y : Fin S.t → ZMod S.modulus, x ≠ y → ∃ s s' : Nat → List (ZMod S.modulus),
      Poseidon2.matmulExternal S.t (List.ofFn x) = some (s 0) ∧
      Poseidon2.matmulExternal S.t (List.ofFn y) = some (s' 0) ∧
      Trail (Poseidon2.fullRound P) (Poseidon2.partialRound P) (S.rounds_f / 2) S.rounds_p (S.rounds_f + S.rounds_p) s ∧
      Trail (Poseidon2.fullRound P) (Poseidon2.partialRound P) (S.rounds_f / 2) S.rounds_p (S.rounds_f + S.rounds_p) s' ∧
      Poseidon2.permutation dbg P (List.ofFn x) = some (s (S.rounds_f + S.rounds_p)) ∧
      Poseidon2.permutation dbg P (List.ofFn y) = some (s' (S.rounds_f + S.rounds_p)) ∧
      2 * (S.rounds_f / 2 / 2 * (if S.t ≤ 4 then S.t + 1 else S.t / 4 + 4) + S.rounds_f / 2 % 2) + S.rounds_p / S.t ≤
        activeTotal (S.rounds_f / 2) S.rounds_p (S.rounds_f + S.rounds_p) s s' := by
  have hg := poseidon2_good S hS
  have hs := hg.shaped
  have hw := hg.width
  have ht : 0 < S.t := by unfold Supported at hw; omega
  obtain ⟨P, hP, hfull⟩ := C53_full_round (dbg := dbg) S hS
  obtain ⟨P', hP', hact⟩ := C59_poseidon2_active (dbg := dbg) S hS
  obtain ⟨P'', hP'', hbij⟩ := C08_shipped_bijective (dbg := dbg) S hS
  obtain rfl : P = P' := Option.some.inj (hP.symm.trans hP')
  obtain rfl : P = P'' := Option.some.inj (hP.symm.trans hP'')
  have hfits := hs.fits
  have hev := hg.even
  have hq := hP
  unfold Poseidon2Source.params at hq
  obtain ⟨h1, h2, h3, h4⟩ := Poseidon2.new_fields hq
  have h5 := Poseidon2.new_diag hq
  obtain ⟨h6, h7⟩ := Poseidon2.new_round_fields hq
  rw [Nat.mod_eq_of_lt hfits] at h3
  obtain ⟨rb, hrb⟩ : ∃ rb, rb = S.rounds_f / 2 := ⟨_, rfl⟩
  have hR : S.rounds_f + S.rounds_p = rb + S.rounds_p + rb := by omega
  rw [hR] at h3
  rw [h3] at hfull hact
  have hpart : ∀ r < rb + S.rounds_p + rb, ∀ z : Fin S.t → ZMod S.modulus, ∃ z' : Fin S.t → ZMod S.modulus,
      Poseidon2.partialRound P (List.ofFn z) r = some (List.ofFn z') := by
    intro r hr z
    have hlen : r < P.round_constants.length := by rw [h4]; have := hs.rc_len; omega
    have hrow : 1 ≤ (P.round_constants.getD r []).length := by
      rw [List.getD_eq_getElem _ _ hlen]
      have := List.getElem_mem hlen
      generalize P.round_constants[r] = z at this
      rw [h4] at this
      have := hs.rc_rows _ this
      omega
    generalize S.t = t at *
    subst h1
    exact ⟨_, Poseidon2.partialRound_ofFn P hw (by rw [h2]; exact hs.degree) (by rw [h5]; exact hs.diag_len) hlen hrow z⟩
  refine ⟨P, hP, fun x y hxy => ?_⟩
  obtain ⟨σ, h0, htr, hend, hcount⟩ := Trail.bound (rb := rb) (rp := S.rounds_p) ht (Poseidon2.fullRound P)
    (Poseidon2.partialRound P) hfull hpart hact
  have hperm : ∀ z, Poseidon2.permutation dbg P (List.ofFn z) =
      some (List.ofFn (σ (externalMatrix S.t *ᵥ z) (rb + S.rounds_p + rb))) := by
    intro z
    unfold Poseidon2.permutation
    rw [h1, h3, h6, h7, ← hrb, uadd_fits dbg (by omega), Poseidon2.matmulExternal_ofFn hw, ← hend]
    have e1 : rb + S.rounds_p - rb = S.rounds_p := by omega
    have e2 : rb + S.rounds_p + rb - (rb + S.rounds_p) = rb := by omega
    simp only [assertThat, List.length_ofFn, beq_self_eq_true, Option.bind_eq_bind, Option.bind_some, if_true, e1, e2]
  rw [hR, ← hrb]
  refine ⟨fun r => List.ofFn (σ (externalMatrix S.t *ᵥ x) r), fun r => List.ofFn (σ (externalMatrix S.t *ᵥ y) r), ?_, ?_,
    htr _, htr _, hperm x, hperm y, hcount _ _ fun he => hxy ?_⟩
  · beta_reduce
    rw [h0, Poseidon2.matmulExternal_ofFn hw]
  · beta_reduce
    rw [h0, Poseidon2.matmulExternal_ofFn hw]
  · have hy := hperm y
    rw [← he] at hy
    obtain ⟨z, -, huniq⟩ := hbij.2 _ (List.length_ofFn (f := σ (externalMatrix S.t *ᵥ x) (rb + S.rounds_p + rb)))
    exact List.ofFn_injective ((huniq _ ⟨List.length_ofFn, hperm x⟩).trans (huniq _ ⟨List.length_ofFn, hy⟩).symm)

/-- **C67** for Poseidon: take a shipped instance and `rb = rounds_f / 2`. When two different inputs are permuted, at
least `2 * ((rb / 2) * (t + 1) + rb % 2) + rounds_p / t` S-boxes receive different inputs. The rounds are those of
`permutation_not_opt`, which returns what `permutation` returns. -/
theorem C67_poseidon (S : PoseidonSource) (hS : S ∈ Instances.poseidon) [Fact S.modulus.Prime] :
    ∃ P, S.params dbg = some P ∧ ∀ x y : Fin S.t → ZMod S.modulus, x ≠ y → ∃ s s' : Nat → List (ZMod S.modulus),
      s 0 = List.ofFn x ∧ s' 0 = List.ofFn y ∧
      Trail (Poseidon.fullRound dbg P) (Poseidon.partialRound dbg P) (S.rounds_f / 2) S.rounds_p
        (S.rounds_f + S.rounds_p) s ∧
      Trail (Poseidon.fullRound dbg P) (Poseidon.partialRound dbg P) (S.rounds_f / 2) S.rounds_p
        (S.rounds_f + S.rounds_p) s' ∧
      Poseidon.permutation dbg P (List.ofFn x) = some (s (S.rounds_f + S.rounds_p)) ∧
      Poseidon.permutation dbg P (List.ofFn y) = some (s' (S.rounds_f + S.rounds_p)) ∧
      2 * (S.rounds_f / 2 / 2 * (S.t + 1) + S.rounds_f / 2 % 2) + S.rounds_p / S.t ≤
        activeTotal (S.rounds_f / 2) S.rounds_p (S.rounds_f + S.rounds_p) s s' := by
  have hg := poseidon_good S hS
  have hs := hg.shaped
  have ht : 0 < S.t := by have := hg.width; omega
  obtain ⟨P, hP, hfull⟩ := C52_full_round S hS dbg
  obtain ⟨P', hP', hact⟩ := C59_poseidon_active S hS dbg
  obtain ⟨P'', hP'', hopt, hbij⟩ := C17_shipped S hS dbg
  obtain rfl : P = P' := Option.some.inj (hP.symm.trans hP')
  obtain rfl : P = P'' := Option.some.inj (hP.symm.trans hP'')
  have hfits := hs.fits
  have hq := hP
  unfold PoseidonSource.params at hq
  rw [hg.mds] at hq
  obtain ⟨hd, hev, -⟩ := Poseidon.new_args hq
  obtain ⟨h1, h2, h3, h4, h5, h6, h7⟩ := Poseidon.new_fields hq
  rw [Nat.mod_eq_of_lt hfits] at h5
  obtain ⟨rb, hrb⟩ : ∃ rb, rb = S.rounds_f / 2 := ⟨_, rfl⟩
  have hR : S.rounds_f + S.rounds_p = rb + S.rounds_p + rb := by omega
  rw [hR] at h5
  rw [h5] at hfull hact
  have hpart : ∀ r < rb + S.rounds_p + rb, ∀ z : Fin S.t → ZMod S.modulus, ∃ z' : Fin S.t → ZMod S.modulus,
      Poseidon.partialRound dbg P (List.ofFn z) r = some (List.ofFn z') := by
    intro r hr z
    have hlen : r < P.round_constants.length := by rw [h7]; have := hs.rc_len; omega
    have hrow : (P.round_constants.getD r []).length = S.t := by
      rw [List.getD_eq_getElem _ _ hlen]
      have := List.getElem_mem hlen
      generalize P.round_constants[r] = z at this
      rw [h7] at this
      exact hs.rc_rows _ this
    exact ⟨_, Poseidon.partialRound_cut ht dbg P _ h6 (by rw [h2]; exact hd) hlen (fun _ => hrow.ge) (by omega) z⟩
  refine ⟨P, hP, fun x y hxy => ?_⟩
  obtain ⟨σ, h0, htr, hend, hcount⟩ := Trail.bound (rb := rb) (rp := S.rounds_p) ht (Poseidon.fullRound dbg P)
    (Poseidon.partialRound dbg P) hfull hpart hact
  have hperm : ∀ z, Poseidon.permutation dbg P (List.ofFn z) =
      some (List.ofFn (σ z (rb + S.rounds_p + rb))) := by
    intro z
    rw [hopt]
    unfold Poseidon.permutationNotOpt
    rw [h1, h3, h4, h5, ← hrb, uadd_fits dbg (by omega), ← hend]
    have e1 : rb + S.rounds_p - rb = S.rounds_p := by omega
    have e2 : rb + S.rounds_p + rb - (rb + S.rounds_p) = rb := by omega
    simp only [assertThat, List.length_ofFn, beq_self_eq_true, Option.bind_eq_bind, Option.bind_some, if_true, e1, e2]
  rw [hR, ← hrb]
  refine ⟨fun r => List.ofFn (σ x r), fun r => List.ofFn (σ y r), ?_, ?_,
    htr _, htr _, hperm x, hperm y, hcount _ _ fun he => hxy ?_⟩
  · beta_reduce
    rw [h0]
  · beta_reduce
    rw [h0]
  · have hy := hperm y
    rw [← he] at hy
    obtain ⟨z, -, huniq⟩ := hbij.2 _ (List.length_ofFn (f := σ x (rb + S.rounds_p + rb)))
    exact List.ofFn_injective ((huniq _ ⟨List.length_ofFn, hperm x⟩).trans (huniq _ ⟨List.length_ofFn, hy⟩).symm)

/-- The number the theorem gives for each shipped Poseidon2 instance, with its width. -/
example : (Instances.poseidon2.map fun S => (S.t,
      2 * (S.rounds_f / 2 / 2 * (if S.t ≤ 4 then S.t + 1 else S.t / 4 + 4) + S.rounds_f / 2 % 2) + S.rounds_p / S.t)) =
    [(8, 26), (12, 29), (16, 33), (20, 37), (16, 32), (24, 40), (2, 40), (3, 34), (4, 34), (8, 31), (3, 34), (3, 34),
      (4, 34), (8, 31), (3, 34)] := by
  decide +kernel

/-- Likewise for Poseidon. -/
example : (Instances.poseidon.map fun S => (S.t,
      2 * (S.rounds_f / 2 / 2 * (S.t + 1) + S.rounds_f / 2 % 2) + S.rounds_p / S.t)) =
    [(8, 38), (12, 53), (16, 69), (20, 85), (16, 68), (24, 100), (2, 40), (3, 34), (4, 34), (8, 43), (3, 34), (3, 34),
      (4, 34), (8, 43), (3, 34)] := by
  decide +kernel

/-- The hypotheses of the S-box theorem hold, and its bound is attained: over the field with 11 elements, cubing, input
difference 1 and output difference 1 have the two solutions 0 and 10. -/
example : (3 : ZMod 11) ≠ 0 ∧ (Finset.univ.filter fun x : ZMod 11 => (x + 1) ^ 3 - x ^ 3 = 1) = {0, 10} := by
  decide

end ZkHash

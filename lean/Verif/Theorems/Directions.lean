import Verif.Proofs.Directions
import Verif.Theorems.Lines
import Verif.Theorems.ScriptAny
import Verif.Theorems.PoseidonBranch
import Verif.Theorems.NeptuneWide

set_option autoImplicit false

/-!
# Differences in all directions: C97
-/

namespace ZkHash

open Spec Matrix

namespace Directions
open Degree

/-- What is needed about a shipped Poseidon2 instance. -/
theorem poseidon2_facts (S : Poseidon2Source) (hS : S ∈ Instances.poseidon2) [Fact S.modulus.Prime] (ht : 0 < S.t)
    (dbg : Bool) : ∃ (P : Poseidon2Params (ZMod S.modulus)) (G : (Fin S.t → ZMod S.modulus) → Fin S.t → ZMod S.modulus)
      (E : Matrix (Fin S.t) (Fin S.t) (ZMod S.modulus)), S.params dbg = some P ∧
      (∀ z, Poseidon2.permutation dbg P (List.ofFn z) = some (List.ofFn (G z))) ∧
      (∀ v, (leadFull E S.d)^[S.rounds_f / 2] (E *ᵥ v) ⟨0, ht⟩ ≠ 0 → Good G (S.d ^ (S.rounds_f + S.rounds_p)) v) ∧
      (Function.Injective fun v => (leadFull E S.d)^[S.rounds_f / 2] (E *ᵥ v)) ∧
      ∀ j, (leadFull E S.d)^[S.rounds_f / 2] (E *ᵥ Pi.single j 1) ⟨0, ht⟩ ≠ 0 := by
  have hg := poseidon2_good S hS
  have hs := hg.shaped
  obtain ⟨P, hP⟩ := hg.params (dbg := dbg)
  have hev := hg.even
  have hc := List.all_eq_true.mp Degree.poseidon2_checked S hS
  rw [Bool.and_eq_true, bne_iff_ne] at hc
  obtain ⟨hc, hrp⟩ := hc
  have hI : (Matrix.of fun i j : Fin S.t => ((((S.matInternal.getD i []).getD j 0 : Nat)) : ZMod S.modulus)) =
      internalMatrix S.t (vec S.diagF) := hg.matOf.symm
  obtain ⟨h1, h2, h3⟩ := check_parts ht hc
  rw [Degree.extN_cast, hI] at h3
  rw [hI] at h2
  refine ⟨P, _, externalMatrix S.t, hP, C01_permutation_eq_spec hP hs, fun v hv => ?_, ?_, fun j => ?_⟩
  · have := good_poseidon2 ht (show 1 < S.d by have := hs.degree; omega) (externalMatrix S.t)
      (internalMatrix S.t (vec S.diagF)) (show 0 < S.rounds_p by omega) (tab S.rcF) h2 h3 v hv
    rwa [show 2 * (S.rounds_f / 2) = S.rounds_f by omega] at this
  · have h7 : 7 < S.modulus := by
      have hc : (Instances.poseidon2.all fun S => decide (7 < S.modulus)) = true := by decide +kernel
      simpa using List.all_eq_true.mp hc S hS
    have hdet := C64_external_matrix (p := S.modulus) h7 hg.width
    have hb := ((pow_bijective_iff (by have := hs.degree; omega)).mpr (by rw [ZMod.card]; exact hg.coprime) :
      Function.Bijective fun x : ZMod S.modulus => x ^ S.d).1
    exact ((leadFull_injective hdet hb).iterate _).comp (Matrix.mulVec_injective_iff_isUnit.mpr
      ((Matrix.isUnit_iff_isUnit_det _).mpr (isUnit_iff_ne_zero.mpr hdet)))
  · have := h1 j
    have hstart : (fun i : Fin S.t => ((Degree.extN S.t i j : Nat) : ZMod S.modulus)) =
        externalMatrix S.t *ᵥ Pi.single j 1 := by
      rw [← Degree.extN_cast S.modulus S.t]
      funext i
      simp
    rw [Degree.extN_cast, hstart] at this
    exact this

/-- What is needed about a shipped Poseidon instance. -/
theorem poseidon_facts (S : PoseidonSource) (hS : S ∈ Instances.poseidon) [Fact S.modulus.Prime] (ht : 0 < S.t)
    (dbg : Bool) : ∃ (P : PoseidonParams (ZMod S.modulus)) (G : (Fin S.t → ZMod S.modulus) → Fin S.t → ZMod S.modulus)
      (M : Matrix (Fin S.t) (Fin S.t) (ZMod S.modulus)), S.params dbg = some P ∧
      (∀ z, Poseidon.permutation dbg P (List.ofFn z) = some (List.ofFn (G z))) ∧
      (∀ v, (leadFull M S.d)^[S.rounds_f / 2] v ⟨0, ht⟩ ≠ 0 → Good G (S.d ^ (S.rounds_f + S.rounds_p)) v) ∧
      (Function.Injective fun v => (leadFull M S.d)^[S.rounds_f / 2] v) ∧
      ∀ j, (leadFull M S.d)^[S.rounds_f / 2] (Pi.single j 1) ⟨0, ht⟩ ≠ 0 := by
  have hg := poseidon_good S hS
  have hs := hg.shaped
  obtain ⟨P, hP0⟩ := hg.returns dbg
  have hP := hP0
  unfold PoseidonSource.params at hP
  rw [hg.mds] at hP
  obtain ⟨hd, hev, -, -, -⟩ := Poseidon.new_args hP
  have hc := List.all_eq_true.mp Degree.poseidon_checked S hS
  rw [Bool.and_eq_true, bne_iff_ne] at hc
  obtain ⟨hc, hrp⟩ := hc
  have hM : (Matrix.of fun i j : Fin S.t => ((((S.mds.getD i []).getD j 0 : Nat)) : ZMod S.modulus)) =
      PoseidonSource.matOf S.modulus S.t S.mds := rfl
  obtain ⟨h1, h2, h3⟩ := check_parts ht hc
  rw [hM] at h2 h3
  refine ⟨P, _, PoseidonSource.matOf S.modulus S.t S.mds, hP0, C12_permutation_eq_spec hP hs dbg, fun v hv => ?_, ?_,
    fun j => ?_⟩
  · have := good_poseidon ht (show 1 < S.d by omega) (PoseidonSource.matOf S.modulus S.t S.mds)
      (show 0 < S.rounds_p by omega) (tab S.rcF) h2 h3 v hv
    rwa [show 2 * (S.rounds_f / 2) = S.rounds_f by omega] at this
  · have hdet := det_ne_zero_of_mds (C52_mds S hS)
    rw [hg.mdsMatrix_eq] at hdet
    have hb := ((pow_bijective_iff (by omega)).mpr (by rw [ZMod.card]; exact hg.coprime) :
      Function.Bijective fun x : ZMod S.modulus => x ^ S.d).1
    exact (leadFull_injective hdet hb).iterate _
  · have := h1 j
    have hstart : (fun i : Fin S.t => (((if i.val = j.val then 1 else 0 : Nat)) : ZMod S.modulus)) = Pi.single j 1 := by
      funext i
      simp [Pi.single_apply, Fin.ext_iff]
    rw [hM, hstart] at this
    exact this

theorem single_ne {F : Type} [Field F] {t : Nat} (M A : Matrix (Fin t) (Fin t) F) (d n : Nat) (i j : Fin t)
    (h : (leadFull M d)^[n] (A *ᵥ Pi.single j 1) i ≠ 0) {δ : F} (hδ : δ ≠ 0) :
    (leadFull M d)^[n] (A *ᵥ Pi.single j δ) i ≠ 0 := by
  have e : (Pi.single j δ : Fin t → F) = δ • Pi.single j 1 := by
    rw [← Pi.single_smul, smul_eq_mul, mul_one]
  obtain ⟨k, hk, ek⟩ := leadFull_iterate_smul M d (A *ᵥ Pi.single j 1) n δ hδ
  rw [e, Matrix.mulVec_smul, ek]
  exact mul_ne_zero hk h

theorem poseidon2_two (S : Poseidon2Source) (hS : S ∈ Instances.poseidon2) :
    0 < S.t ∧ 1 < S.d ∧ 2 ≤ S.d ^ (S.rounds_f + S.rounds_p) := by
  have hc : (Instances.poseidon2.all fun S => decide (0 < S.t ∧ 1 < S.d ∧ 0 < S.rounds_f + S.rounds_p)) = true := by
    decide +kernel
  have hc := List.all_eq_true.mp hc S hS
  rw [decide_eq_true_eq] at hc
  exact ⟨hc.1, hc.2.1, le_trans hc.2.1 (Nat.le_self_pow (by omega) S.d)⟩

theorem poseidon_two (S : PoseidonSource) (hS : S ∈ Instances.poseidon) :
    0 < S.t ∧ 1 < S.d ∧ 2 ≤ S.d ^ (S.rounds_f + S.rounds_p) := by
  have hc : (Instances.poseidon.all fun S => decide (0 < S.t ∧ 1 < S.d ∧ 0 < S.rounds_f + S.rounds_p)) = true := by
    decide +kernel
  have hc := List.all_eq_true.mp hc S hS
  rw [decide_eq_true_eq] at hc
  exact ⟨hc.1, hc.2.1, le_trans hc.2.1 (Nat.le_self_pow (by omega) S.d)⟩

end Directions

open Directions Lines

/-- **C97** for the shipped Poseidon2 instances over the fields of 254 and 255 bits, with `D` the number `d` to the number of
rounds, less than `p / 2 ^ 100`. For all but `p ^ (t - 1)` of the `p ^ t` directions `v`, adding `v` to the input changes a word
of the result by a given amount for at most `(D - 1) p ^ (t - 1)` of the `p ^ t` inputs, and a word of the result takes a given
value at most `D` times on any line in direction `v`. The directions that change only one word are not exceptions. -/
theorem C97_poseidon2 (S : Poseidon2Source) (hS : S ∈ Instances.poseidon2) (hl : S.modulus ∈ largeFields)
    [Fact S.modulus.Prime] (dbg : Bool) :
    2 ^ 100 * S.d ^ (S.rounds_f + S.rounds_p) < S.modulus ∧
    ∃ P, S.params dbg = some P ∧
      {v : Fin S.t → ZMod S.modulus |
        (∃ i β, (S.d ^ (S.rounds_f + S.rounds_p) - 1) * S.modulus ^ (S.t - 1) <
          (inputsWithDifference (Poseidon2.permutation dbg P) v i β).ncard) ∨
        ∃ x i c, S.d ^ (S.rounds_f + S.rounds_p) < (pointsWith (Poseidon2.permutation dbg P) x v i c).ncard}.ncard ≤
          S.modulus ^ (S.t - 1) ∧
      ∀ (j : Fin S.t) (δ : ZMod S.modulus), δ ≠ 0 → ∀ i β,
        (inputsWithDifference (Poseidon2.permutation dbg P) (Pi.single j δ) i β).ncard ≤
          (S.d ^ (S.rounds_f + S.rounds_p) - 1) * S.modulus ^ (S.t - 1) := by
  have hlt := poseidon2_large S hS hl
  obtain ⟨ht, -, h2⟩ := poseidon2_two S hS
  have hDF : ((S.d ^ (S.rounds_f + S.rounds_p) : Nat) : ZMod S.modulus) ≠ 0 := cast_ne (by omega) (by omega)
  obtain ⟨P, G, E, hP, hrun, hgood, hinj, hone⟩ := poseidon2_facts S hS ht dbg
  have hcard := zeros hinj ⟨0, ht⟩
  have hd := fun v hv i β => differences ht hrun h2 hDF (hgood v hv) i β
  rw [ZMod.card] at hcard hd
  refine ⟨hlt, P, hP, ?_, fun j δ hδ i β => hd _ (single_ne E E _ _ _ j (hone j) hδ) i β⟩
  refine le_trans (Set.ncard_le_ncard (fun v hv => ?_) (Set.toFinite _)) hcard.le
  by_contra hne
  rcases hv with ⟨i, β, hv⟩ | ⟨x, i, c, hv⟩
  · exact absurd (hd v hne i β) (by omega)
  · exact absurd (points hrun (by omega) (hgood v hne) x i c) (by omega)

/-- **C97** for the shipped Poseidon instances over these fields. -/
theorem C97_poseidon (S : PoseidonSource) (hS : S ∈ Instances.poseidon) (hl : S.modulus ∈ largeFields)
    [Fact S.modulus.Prime] (dbg : Bool) :
    2 ^ 100 * S.d ^ (S.rounds_f + S.rounds_p) < S.modulus ∧
    ∃ P, S.params dbg = some P ∧
      {v : Fin S.t → ZMod S.modulus |
        (∃ i β, (S.d ^ (S.rounds_f + S.rounds_p) - 1) * S.modulus ^ (S.t - 1) <
          (inputsWithDifference (Poseidon.permutation dbg P) v i β).ncard) ∨
        ∃ x i c, S.d ^ (S.rounds_f + S.rounds_p) < (pointsWith (Poseidon.permutation dbg P) x v i c).ncard}.ncard ≤
          S.modulus ^ (S.t - 1) ∧
      ∀ (j : Fin S.t) (δ : ZMod S.modulus), δ ≠ 0 → ∀ i β,
        (inputsWithDifference (Poseidon.permutation dbg P) (Pi.single j δ) i β).ncard ≤
          (S.d ^ (S.rounds_f + S.rounds_p) - 1) * S.modulus ^ (S.t - 1) := by
  have hlt := poseidon_large S hS hl
  obtain ⟨ht, -, h2⟩ := poseidon_two S hS
  have hDF : ((S.d ^ (S.rounds_f + S.rounds_p) : Nat) : ZMod S.modulus) ≠ 0 := cast_ne (by omega) (by omega)
  obtain ⟨P, G, M, hP, hrun, hgood, hinj, hone⟩ := poseidon_facts S hS ht dbg
  have hcard := zeros hinj ⟨0, ht⟩
  have hd := fun v hv i β => differences ht hrun h2 hDF (hgood v hv) i β
  rw [ZMod.card] at hcard hd
  refine ⟨hlt, P, hP, ?_, fun j δ hδ i β => hd _ ?_ i β⟩
  · refine le_trans (Set.ncard_le_ncard (fun v hv => ?_) (Set.toFinite _)) hcard.le
    by_contra hne
    rcases hv with ⟨i, β, hv⟩ | ⟨x, i, c, hv⟩
    · exact absurd (hd v hne i β) (by omega)
    · exact absurd (points hrun (by omega) (hgood v hne) x i c) (by omega)
  · have := single_ne M 1 S.d (S.rounds_f / 2) ⟨0, ht⟩ j (by rw [Matrix.one_mulVec]; exact hone j) hδ
    rwa [Matrix.one_mulVec] at this

/-- **C97**, Merkle compression with a shipped Poseidon2 instance of width 3. For all but `d ^ (rounds_f / 2) p` (here `625 p`)
of the `p ^ 2` differences of a pair of elements, the digest changes by a given amount for at most `(D - 1) p` of the `p ^ 2`
pairs. The same holds for every nonzero difference of one of the two elements. And of all pairs of pairs of elements at most
`D p ^ 3`, less than one in `2 ^ 100`, have the same digest. -/
theorem C97_poseidon2_compress (S : Poseidon2Source) (hS : S ∈ Instances.poseidon2) (hl : S.modulus ∈ largeFields)
    (h3 : S.t = 3) [Fact S.modulus.Prime] (dbg : Bool) :
    ∃ P, S.params dbg = some P ∧
      {δ : ZMod S.modulus × ZMod S.modulus | ∃ β, (S.d ^ (S.rounds_f + S.rounds_p) - 1) * S.modulus <
        (pairsWithDifference (Poseidon2.compress dbg P) δ β).ncard}.ncard ≤ S.d ^ (S.rounds_f / 2) * S.modulus ∧
      (∀ δ : ZMod S.modulus, δ ≠ 0 → ∀ β,
        (pairsWithDifference (Poseidon2.compress dbg P) (δ, 0) β).ncard ≤
          (S.d ^ (S.rounds_f + S.rounds_p) - 1) * S.modulus ∧
        (pairsWithDifference (Poseidon2.compress dbg P) (0, δ) β).ncard ≤
          (S.d ^ (S.rounds_f + S.rounds_p) - 1) * S.modulus) ∧
      {z : (ZMod S.modulus × ZMod S.modulus) × ZMod S.modulus × ZMod S.modulus |
        Poseidon2.compress dbg P [z.1.1, z.1.2] = Poseidon2.compress dbg P [z.2.1, z.2.2]}.ncard ≤
          S.d ^ (S.rounds_f + S.rounds_p) * S.modulus ^ 3 := by
  have hlt := poseidon2_large S hS hl
  obtain ⟨ht, hd1, h2⟩ := poseidon2_two S hS
  have hDF : ((S.d ^ (S.rounds_f + S.rounds_p) : Nat) : ZMod S.modulus) ≠ 0 := cast_ne (by omega) (by omega)
  obtain ⟨P, G, E, hP, hrun, hgood, -, hone⟩ := poseidon2_facts S hS ht dbg
  obtain ⟨P', hP', hval⟩ := C96_poseidon2_compress S hS hl h3 dbg
  obtain rfl : P = P' := Option.some.inj (hP.symm.trans hP')
  refine ⟨P, hP, ?_⟩
  clear hP hP'
  revert G E
  generalize S.rounds_f + S.rounds_p = n at *
  generalize S.rounds_f / 2 = m at *
  generalize S.d = d at *
  revert ht
  rw [h3]
  intro ht G E hrun hgood hone
  have hc : ∀ a b, Poseidon2.compress dbg P [a, b] = (Poseidon2.permutation dbg P [a, b, 0]).bind fun y => y[0]? := by
    intro a b
    rfl
  have hdiff := fun δ hδ β => compress_differences hrun hc h2 hDF (δ := δ) (hgood _ hδ) β
  have hcard := plane_zeros hd1 E E m (hone 0)
  rw [ZMod.card] at hdiff hcard
  refine ⟨le_trans (Set.ncard_le_ncard (fun δ hδ => ?_) (Set.toFinite _)) hcard, fun δ hδ β => ⟨?_, ?_⟩, ?_⟩
  · by_contra hne
    obtain ⟨β, hβ⟩ := hδ
    exact absurd (hdiff δ hne β) (by omega)
  · refine hdiff (δ, 0) ?_ β
    have := single_ne E E d m ⟨0, ht⟩ 0 (hone 0) hδ
    rwa [show (Pi.single 0 δ : Fin 3 → ZMod S.modulus) = ![δ, 0, 0] by funext l; fin_cases l <;> simp] at this
  · refine hdiff (0, δ) ?_ β
    have := single_ne E E d m ⟨0, ht⟩ 1 (hone 1) hδ
    rwa [show (Pi.single 1 δ : Fin 3 → ZMod S.modulus) = ![0, δ, 0] by funext l; fin_cases l <;> simp] at this
  · have := pairs (compress := Poseidon2.compress dbg P) (D := d ^ n) (fun a b => by
      rw [hc, show [a, b, 0] = List.ofFn ![a, b, (0 : ZMod S.modulus)] by simp [List.ofFn_succ], hrun]
      simp) fun b c => (hval b).1 c
    rwa [ZMod.card] at this

/-- **C97**, Merkle compression with a shipped Poseidon instance of width 3. -/
theorem C97_poseidon_compress (S : PoseidonSource) (hS : S ∈ Instances.poseidon) (hl : S.modulus ∈ largeFields)
    (h3 : S.t = 3) [Fact S.modulus.Prime] (dbg : Bool) :
    ∃ P, S.params dbg = some P ∧
      {δ : ZMod S.modulus × ZMod S.modulus | ∃ β, (S.d ^ (S.rounds_f + S.rounds_p) - 1) * S.modulus <
        (pairsWithDifference (Poseidon.compress dbg P) δ β).ncard}.ncard ≤ S.d ^ (S.rounds_f / 2) * S.modulus ∧
      (∀ δ : ZMod S.modulus, δ ≠ 0 → ∀ β,
        (pairsWithDifference (Poseidon.compress dbg P) (δ, 0) β).ncard ≤
          (S.d ^ (S.rounds_f + S.rounds_p) - 1) * S.modulus ∧
        (pairsWithDifference (Poseidon.compress dbg P) (0, δ) β).ncard ≤
          (S.d ^ (S.rounds_f + S.rounds_p) - 1) * S.modulus) ∧
      {z : (ZMod S.modulus × ZMod S.modulus) × ZMod S.modulus × ZMod S.modulus |
        Poseidon.compress dbg P [z.1.1, z.1.2] = Poseidon.compress dbg P [z.2.1, z.2.2]}.ncard ≤
          S.d ^ (S.rounds_f + S.rounds_p) * S.modulus ^ 3 := by
  have hlt := poseidon_large S hS hl
  obtain ⟨ht, hd1, h2⟩ := poseidon_two S hS
  have hDF : ((S.d ^ (S.rounds_f + S.rounds_p) : Nat) : ZMod S.modulus) ≠ 0 := cast_ne (by omega) (by omega)
  obtain ⟨P, G, M, hP, hrun, hgood, -, hone⟩ := poseidon_facts S hS ht dbg
  obtain ⟨P', hP', hval⟩ := C96_poseidon_compress S hS hl h3 dbg
  obtain rfl : P = P' := Option.some.inj (hP.symm.trans hP')
  refine ⟨P, hP, ?_⟩
  clear hP hP'
  revert G M
  generalize S.rounds_f + S.rounds_p = n at *
  generalize S.rounds_f / 2 = m at *
  generalize S.d = d at *
  revert ht
  rw [h3]
  intro ht G M hrun hgood hone
  have hc : ∀ a b, Poseidon.compress dbg P [a, b] = (Poseidon.permutation dbg P [a, b, 0]).bind fun y => y[0]? := by
    intro a b
    rfl
  have hdiff := fun δ hδ β => compress_differences hrun hc h2 hDF (δ := δ) (hgood _ hδ) β
  have hcard := plane_zeros hd1 M 1 m (by rw [Matrix.one_mulVec]; exact hone 0)
  simp only [Matrix.one_mulVec] at hcard
  rw [ZMod.card] at hdiff hcard
  refine ⟨le_trans (Set.ncard_le_ncard (fun δ hδ => ?_) (Set.toFinite _)) hcard, fun δ hδ β => ⟨?_, ?_⟩, ?_⟩
  · by_contra hne
    obtain ⟨β, hβ⟩ := hδ
    exact absurd (hdiff δ hne β) (by omega)
  · refine hdiff (δ, 0) ?_ β
    have := single_ne M 1 d m ⟨0, ht⟩ 0 (by rw [Matrix.one_mulVec]; exact hone 0) hδ
    rwa [Matrix.one_mulVec,
      show (Pi.single 0 δ : Fin 3 → ZMod S.modulus) = ![δ, 0, 0] by funext l; fin_cases l <;> simp] at this
  · refine hdiff (0, δ) ?_ β
    have := single_ne M 1 d m ⟨0, ht⟩ 1 (by rw [Matrix.one_mulVec]; exact hone 1) hδ
    rwa [Matrix.one_mulVec,
      show (Pi.single 1 δ : Fin 3 → ZMod S.modulus) = ![0, δ, 0] by funext l; fin_cases l <;> simp] at this
  · have := pairs (compress := Poseidon.compress dbg P) (D := d ^ n) (fun a b => by
      rw [hc, show [a, b, 0] = List.ofFn ![a, b, (0 : ZMod S.modulus)] by simp [List.ofFn_succ], hrun]
      simp) fun b c => (hval b).1 c
    rwa [ZMod.card] at this

/-- **C97**, Merkle compression with a shipped Neptune instance of width 4, unless the first drawn diagonal entry is 0: of all
`p ^ 4` pairs of inputs at most `D p ^ 3`, less than one in `2 ^ 66`, have equal digests. -/
theorem C97_neptune_compress {dbg : Bool} (S : Shape) (hS : S ∈ Instances.neptune) (hl : S.modulus ∈ largeFields) (h4 : S.t = 4)
    [Fact S.modulus.Prime] {s r : List (ZMod S.modulus)} {P : NeptuneParams (ZMod S.modulus)}
    (h : NeptuneParams.new dbg S.t S.d S.rounds_f S.rounds_p s = some (P, r)) (hmu : vec P.mu 0 ≠ 0) :
    2 ^ 66 * (4 ^ S.rounds_f * S.d ^ S.rounds_p) < S.modulus ∧
    {z : (ZMod S.modulus × ZMod S.modulus) × ZMod S.modulus × ZMod S.modulus |
      Neptune.compress dbg P [z.1.1, z.1.2] = Neptune.compress dbg P [z.2.1, z.2.2]}.ncard ≤
        4 ^ S.rounds_f * S.d ^ S.rounds_p * S.modulus ^ 3 := by
  refine ⟨(C96_neptune S hS hl h hmu).1, ?_⟩
  have := pairs (compress := Neptune.compress dbg P) (D := 4 ^ S.rounds_f * S.d ^ S.rounds_p) (fun a b => by
    obtain ⟨o, ho, -⟩ := C95_neptune_compress S hS h4 h a 0 b 0
    have := ho 0
    simp only [mul_zero, add_zero] at this
    exact ⟨_, this⟩) fun b c => (C96_neptune_compress S hS hl h4 h hmu b).1 c
  rwa [ZMod.card] at this

/-- The numbers for the four instances of width 3 over the large fields: `d = 5` and `rounds_f = 8`, so `625 p` exceptional
differences. -/
example : (Instances.poseidon2.filter fun S => largeFields.contains S.modulus && S.t == 3).map
      (fun S => (S.d, S.rounds_f, S.rounds_p)) = [(5, 8, 56), (5, 8, 56), (5, 8, 56), (5, 8, 56)] ∧
    (Instances.poseidon.filter fun S => largeFields.contains S.modulus && S.t == 3).map
      (fun S => (S.d, S.rounds_f, S.rounds_p)) = [(5, 8, 56), (5, 8, 56), (5, 8, 56), (5, 8, 56)] := by
  decide +kernel

end ZkHash

import Verif.Proofs.BranchBlocks
import Verif.Theorems.Poseidon2Instances

set_option autoImplicit false

/-!
# Branch number of the external layer of Poseidon2: C53
-/

namespace ZkHash

variable {dbg : Bool}

open Spec Matrix

namespace Branch

/-- The minors of size `k` of an integer matrix are nonzero and smaller than every shipped modulus. -/
def minorsSmall (k t : Nat) (M : Matrix (Fin t) (Fin t) ℤ) : Prop :=
  ∀ r : Fin k → Fin t, (∀ a b, a < b → r a < r b) → ∀ c : Fin k → Fin t, (∀ a b, a < b → c a < c b) →
    (M.submatrix r c).det ≠ 0 ∧ (M.submatrix r c).det.natAbs < 2013265921

theorem minors_M4_1 : minorsSmall 1 4 M4 := by unfold minorsSmall; decide +kernel
theorem minors_M4_2 : minorsSmall 2 4 M4 := by unfold minorsSmall; decide +kernel
theorem minors_M4_3 : minorsSmall 3 4 M4 := by unfold minorsSmall; decide +kernel
theorem minors_ext_2_1 : minorsSmall 1 2 (externalMatrix 2) := by unfold minorsSmall; decide +kernel
theorem minors_ext_3_1 : minorsSmall 1 3 (externalMatrix 3) := by unfold minorsSmall; decide +kernel
theorem minors_ext_3_2 : minorsSmall 2 3 (externalMatrix 3) := by unfold minorsSmall; decide +kernel

theorem declared_le {p : Nat} (hp : p ∈ Fields.declared.map Prod.fst) : 2013265921 ≤ p := by
  simp only [Fields.declared, List.map_cons, List.map_nil, List.mem_cons, List.not_mem_nil, or_false] at hp
  rcases hp with h | h | h | h | h | h <;> rw [h] <;> decide

theorem cast_ne_zero {p : Nat} (hp : 2013265921 ≤ p) {z : ℤ} (h0 : z ≠ 0) (h : z.natAbs < 2013265921) :
    (z : ZMod p) ≠ 0 := by
  intro hc
  rw [ZMod.intCast_zmod_eq_zero_iff_dvd] at hc
  have := Nat.le_of_dvd (Int.natAbs_pos.mpr h0) (Int.natCast_dvd.mp hc)
  omega

theorem minors_ne_zero {p : Nat} (hp : 2013265921 ≤ p) {k t : Nat} {M : Matrix (Fin t) (Fin t) ℤ}
    (h : minorsSmall k t M) (r c : Fin k → Fin t) (hr : StrictMono r) (hc : StrictMono c) :
    ((M.map (Int.cast : ℤ → ZMod p)).submatrix r c).det ≠ 0 := by
  obtain ⟨h1, h2⟩ := h r (fun a b hab => hr hab) c (fun a b hab => hc hab)
  have e : (M.map (Int.cast : ℤ → ZMod p)).submatrix r c = (Int.castRingHom (ZMod p)).mapMatrix (M.submatrix r c) := rfl
  rw [e, ← RingHom.map_det]
  exact cast_ne_zero hp h1 h2

theorem M4_map (p : Nat) : (M4 : Matrix (Fin 4) (Fin 4) ℤ).map (Int.cast : ℤ → ZMod p) = M4 := by
  ext i j
  fin_cases i <;> fin_cases j <;> simp [M4]

theorem ext_map_small (p : Nat) {t : Nat} (h : t < 4) :
    (externalMatrix t : Matrix (Fin t) (Fin t) ℤ).map (Int.cast : ℤ → ZMod p) = externalMatrix t := by
  ext i j
  rw [Matrix.map_apply]
  unfold externalMatrix
  rw [of_apply, of_apply, if_pos h, if_pos h]
  split <;> simp

variable {p : Nat} [Fact p.Prime]

theorem norm_M4 (hp : 2013265921 ≤ p) : Norm (M4 : Matrix (Fin 4) (Fin 4) (ZMod p)) 5 := by
  refine norm_of_minors ?_ fun k h1 h2 => ?_
  · rw [Poseidon2.M4_det]
    have := cast_ne_zero hp (show (-64 : ℤ) ≠ 0 by decide) (by decide)
    simpa using this
  · rw [← M4_map]
    have : k = 1 ∨ k = 2 ∨ k = 3 := by omega
    rcases this with rfl | rfl | rfl
    · exact minors_ne_zero hp minors_M4_1
    · exact minors_ne_zero hp minors_M4_2
    · exact minors_ne_zero hp minors_M4_3

theorem norm_two (hp : 2013265921 ≤ p) : Norm (externalMatrix 2 : Matrix (Fin 2) (Fin 2) (ZMod p)) 3 := by
  refine norm_of_minors ?_ fun k h1 h2 => ?_
  · rw [Poseidon2.external_det_two]
    have := cast_ne_zero hp (show (3 : ℤ) ≠ 0 by decide) (by decide)
    simpa using this
  · rw [← ext_map_small p (by omega)]
    obtain rfl : k = 1 := by omega
    exact minors_ne_zero hp minors_ext_2_1

theorem norm_three (hp : 2013265921 ≤ p) : Norm (externalMatrix 3 : Matrix (Fin 3) (Fin 3) (ZMod p)) 4 := by
  refine norm_of_minors ?_ fun k h1 h2 => ?_
  · rw [Poseidon2.external_det_three]
    have := cast_ne_zero hp (show (4 : ℤ) ≠ 0 by decide) (by decide)
    simpa using this
  · rw [← ext_map_small p (by omega)]
    have : k = 1 ∨ k = 2 := by omega
    rcases this with rfl | rfl
    · exact minors_ne_zero hp minors_ext_3_1
    · exact minors_ne_zero hp minors_ext_3_2

theorem external_mulVec_blocks {F : Type _} [Field F] {k : Nat} (hk : 2 ≤ k) (x : Fin (k * 4) → F) (b : Fin k) (j : Fin 4) :
    (externalMatrix (k * 4) *ᵥ x) (finProdFinEquiv (b, j)) =
      (M4 *ᵥ ((fun i => x (finProdFinEquiv (b, i))) + ∑ c : Fin k, fun i => x (finProdFinEquiv (c, i)))) j := by
  rw [Poseidon2.externalMatrix_blocks hk]
  simp only [mulVec, dotProduct, reindex_apply, submatrix_apply, Pi.add_apply, Finset.sum_apply, mul_add, Finset.mul_sum,
    Equiv.symm_apply_apply]
  rw [← Equiv.sum_comp finProdFinEquiv, Fintype.sum_prod_type, Finset.sum_add_distrib]
  simp only [Equiv.symm_apply_apply, kroneckerMap_apply, of_apply]
  rw [Finset.sum_comm (s := (Finset.univ : Finset (Fin 4)))]
  rw [← Finset.sum_erase_add _ _ (Finset.mem_univ b), ← Finset.sum_erase_add (a := b) Finset.univ
    (fun y => ∑ i, M4 j i * x (finProdFinEquiv (y, i))) (Finset.mem_univ b), if_pos rfl]
  rw [Finset.sum_congr rfl (s₁ := Finset.univ.erase b) (g := fun c => ∑ i, M4 j i * x (finProdFinEquiv (c, i)))
    fun c hc => by simp [(Finset.mem_erase.mp hc).1.symm]]
  simp only [add_mul, one_mul, Finset.sum_add_distrib]
  ring

theorem norm_blocks (hp : 2013265921 ≤ p) {k : Nat} (h2 : 2 ≤ k) (h6 : k ≤ 6) :
    Norm (externalMatrix (k * 4) : Matrix (Fin (k * 4)) (Fin (k * 4)) (ZMod p)) (k + 4) := by
  intro x hx
  have hM := norm_M4 (p := p) hp
  have := blocks (n := k) hM (fun a ha => by
    have := cast_ne_zero hp (z := (a : ℤ) + 1) (by omega) (by omega)
    push_cast at this
    exact this) (fun b i => x (finProdFinEquiv (b, i))) (fun h0 => hx (by
      funext i
      obtain ⟨⟨a, b⟩, rfl⟩ := finProdFinEquiv.surjective i
      exact congrFun (congrFun h0 a) b))
  rw [hammingNorm_blocks (n := k) (m := 4) x, hammingNorm_blocks (n := k) (m := 4) (_ *ᵥ x), ← Finset.sum_add_distrib]
  simp only [external_mulVec_blocks h2]
  exact le_trans (by omega) this

theorem norm_external (hp : 2013265921 ≤ p) {t : Nat} (ht : Supported t) :
    Norm (externalMatrix t : Matrix (Fin t) (Fin t) (ZMod p)) (if t ≤ 4 then t + 1 else t / 4 + 4) := by
  rcases ht with rfl | rfl | rfl | rfl | rfl | rfl | rfl | rfl
  · exact norm_two hp
  · exact norm_three hp
  · rw [Poseidon2.externalMatrix_four]; exact norm_M4 hp
  · exact norm_blocks (k := 2) hp (by decide) (by decide)
  · exact norm_blocks (k := 3) hp (by decide) (by decide)
  · exact norm_blocks (k := 4) hp (by decide) (by decide)
  · exact norm_blocks (k := 5) hp (by decide) (by decide)
  · exact norm_blocks (k := 6) hp (by decide) (by decide)

end Branch

/-- **C53.** Over every shipped field and for every supported width the external layer has branch number at least
`t + 1` (widths 2, 3, 4) or `t/4 + 4` (widths 8 to 24). -/
theorem C53_external_layer {p : Nat} (hp : p ∈ Fields.declared.map Prod.fst) {t : Nat} (ht : Supported t) :
    BranchAtLeast t (if t ≤ 4 then t + 1 else t / 4 + 4)
      (Poseidon2.matmulExternal t : List (ZMod p) → Option (List (ZMod p))) := by
  have : Fact p.Prime := ⟨declared_prime hp⟩
  exact Branch.branchAtLeast_of_norm (Poseidon2.matmulExternal_ofFn ht) (Branch.norm_external (Branch.declared_le hp) ht)

/-- **C53**: widths 2, 3 and 4 are MDS. -/
theorem C53_mds {p : Nat} (hp : p ∈ Fields.declared.map Prod.fst) [Fact p.Prime] {t : Nat} (ht : Supported t) (h4 : t ≤ 4) :
    IsMDS (externalMatrix t : Matrix (Fin t) (Fin t) (ZMod p)) := by
  have := Branch.norm_external (p := p) (Branch.declared_le hp) ht
  rw [if_pos h4] at this
  exact Branch.mds_of_norm this

/-- **C53**: the numbers are exact. -/
theorem C53_exact {p : Nat} (hp : p ∈ Fields.declared.map Prod.fst) {t : Nat} (ht : Supported t) {b : Nat}
    (hb : BranchAtLeast t b (Poseidon2.matmulExternal t : List (ZMod p) → Option (List (ZMod p)))) :
    b ≤ if t ≤ 4 then t + 1 else t / 4 + 4 := by
  have hF : Fact p.Prime := ⟨declared_prime hp⟩
  have key : ∀ x : Fin t → ZMod p, x ≠ 0 → b ≤ hammingNorm x + hammingNorm (externalMatrix t *ᵥ x) := by
    intro x hx
    obtain ⟨x', y', h1, h2, h3⟩ := hb x 0
    rw [Poseidon2.matmulExternal_ofFn ht, Option.some.injEq] at h1 h2
    have h1 := List.ofFn_injective h1
    have h2 := List.ofFn_injective h2
    rw [mulVec_zero] at h2
    have := h3 hx
    rw [← h1, ← h2, hammingDist_zero_right, hammingDist_zero_right] at this
    exact this
  by_cases h4 : t ≤ 4
  · rw [if_pos h4]
    have hpos : 0 < t := by unfold Supported at ht; omega
    have h1 := key (Pi.single ⟨0, hpos⟩ 1) (by simp)
    have h2 : hammingNorm (Pi.single ⟨0, hpos⟩ 1 : Fin t → ZMod p) ≤ 1 := by
      have : (Finset.univ.filter fun j => (Pi.single ⟨0, hpos⟩ 1 : Fin t → ZMod p) j ≠ 0) ⊆ {⟨0, hpos⟩} := by
        intro j hj
        rw [Finset.mem_singleton]
        by_contra h
        exact (Finset.mem_filter.mp hj).2 (by rw [Pi.single_eq_of_ne h])
      exact (Finset.card_le_card this).trans (by simp)
    have h3 : hammingNorm (externalMatrix t *ᵥ (Pi.single ⟨0, hpos⟩ 1 : Fin t → ZMod p)) ≤ t := by
      simpa using (hammingNorm_le_card_fintype (x := externalMatrix t *ᵥ (Pi.single ⟨0, hpos⟩ 1 : Fin t → ZMod p)))
    omega
  · rw [if_neg h4]
    obtain ⟨k, rfl, hk⟩ : ∃ k, t = k * 4 ∧ 2 ≤ k := by
      rcases ht with h | h | h | h | h | h | h | h
      · omega
      · omega
      · omega
      · exact ⟨2, h, by decide⟩
      · exact ⟨3, h, by decide⟩
      · exact ⟨4, h, by decide⟩
      · exact ⟨5, h, by decide⟩
      · exact ⟨6, h, by decide⟩
    have hdet : (M4 : Matrix (Fin 4) (Fin 4) (ZMod p)).det ≠ 0 := by
      rw [Poseidon2.M4_det]
      have := Branch.cast_ne_zero (Branch.declared_le hp) (show (-64 : ℤ) ≠ 0 by decide) (by decide)
      simpa using this
    -- the block whose image is a unit vector
    let u : Fin 4 → ZMod p := Pi.single 0 1
    obtain ⟨v, hv⟩ := (mulVec_bijective_iff (M4 : Matrix (Fin 4) (Fin 4) (ZMod p))).mpr hdet |>.2 u
    have hv0 : v ≠ 0 := by
      rintro rfl
      have := congrFun hv 0
      simp [u] at this
    have hk0 : 0 < k := by omega
    let x : Fin (k * 4) → ZMod p := fun i =>
      if (finProdFinEquiv.symm i).1 = ⟨0, hk0⟩ then v (finProdFinEquiv.symm i).2 else 0
    have hx : ∀ b j, x (finProdFinEquiv (b, j)) = if b = ⟨0, hk0⟩ then v j else 0 := by
      intro b j
      simp only [x, Equiv.symm_apply_apply]
    have hsum : (∑ c : Fin k, fun i => x (finProdFinEquiv (c, i))) = v := by
      funext j
      simp only [Finset.sum_apply, hx]
      simp
    have hx0 : x ≠ 0 := by
      intro h0
      apply hv0
      funext j
      have h1 := hx ⟨0, hk0⟩ j
      rw [h0, if_pos rfl] at h1
      exact h1.symm
    have h1 := key x hx0
    have hu : hammingNorm u ≤ 1 := by
      have : (Finset.univ.filter fun j => u j ≠ 0) ⊆ {0} := by
        intro j hj
        rw [Finset.mem_singleton]
        by_contra h
        exact (Finset.mem_filter.mp hj).2 (Pi.single_eq_of_ne h _)
      exact (Finset.card_le_card this).trans (by simp)
    have h2 : hammingNorm x ≤ 4 := by
      rw [Branch.hammingNorm_blocks (n := k) (m := 4) x, Finset.sum_eq_single ⟨0, hk0⟩]
      · simpa using (hammingNorm_le_card_fintype (x := fun j : Fin 4 => x (finProdFinEquiv (⟨0, hk0⟩, j))))
      · intro b _ hb
        rw [hammingNorm_eq_zero]
        funext j
        rw [hx, if_neg hb]; rfl
      · simp
    have h3 : hammingNorm (externalMatrix (k * 4) *ᵥ x) ≤ k := by
      rw [Branch.hammingNorm_blocks (n := k) (m := 4) (_ *ᵥ x)]
      refine (Finset.sum_le_card_nsmul _ _ 1 fun b _ => ?_).trans (by simp)
      refine le_trans (Finset.card_le_card (t := Finset.univ.filter fun j => u j ≠ 0) fun j hj => ?_) hu
      have hj := (Finset.mem_filter.mp hj).2
      rw [Finset.mem_filter]
      refine ⟨Finset.mem_univ _, fun h0 => hj ?_⟩
      simp only [Branch.external_mulVec_blocks hk, hsum, mulVec_add]
      have e : (fun i => x (finProdFinEquiv (b, i))) = if b = ⟨0, hk0⟩ then v else 0 := by
        funext i
        rw [hx]
        split <;> rfl
      have hvj : (M4 *ᵥ v) j = 0 := by
        have := congrFun hv j
        rw [h0] at this
        exact this
      rw [e, Pi.add_apply, hvj, add_zero]
      split
      · exact hvj
      · simp
    omega

theorem Poseidon2.new_fields {F : Type _} {t d rounds_f rounds_p : Nat} {diag : List F} {mi rc : List (List F)}
    {P : Poseidon2Params F} (hP : Poseidon2Params.new dbg t d rounds_f rounds_p diag mi rc = some P) :
    P.t = t ∧ P.d = d ∧ P.rounds = (rounds_f + rounds_p) % 2 ^ 64 ∧ P.round_constants = rc := by
  unfold Poseidon2Params.new at hP
  simp only [Option.bind_eq_bind, Option.bind_eq_some_iff] at hP
  obtain ⟨_, _, _, _, _, hn, h⟩ := hP
  simp only [Option.pure_def, Option.some.injEq] at h
  rw [← h]
  exact ⟨rfl, rfl, (uadd_some_iff.mp hn).2, rfl⟩

theorem Poseidon2.new_diag {F : Type _} {t d rounds_f rounds_p : Nat} {diag : List F} {mi rc : List (List F)}
    {P : Poseidon2Params F} (hP : Poseidon2Params.new dbg t d rounds_f rounds_p diag mi rc = some P) :
    P.mat_internal_diag_m_1 = diag := by
  unfold Poseidon2Params.new at hP
  simp only [Option.bind_eq_bind, Option.bind_eq_some_iff] at hP
  obtain ⟨_, _, _, _, _, _, h⟩ := hP
  simp only [Option.pure_def, Option.some.injEq] at h
  rw [← h]

theorem Poseidon2.new_round_fields {F : Type _} {t d rounds_f rounds_p : Nat} {diag : List F} {mi rc : List (List F)}
    {P : Poseidon2Params F} (hP : Poseidon2Params.new dbg t d rounds_f rounds_p diag mi rc = some P) :
    P.rounds_f_beginning = rounds_f / 2 ∧ P.rounds_p = rounds_p := by
  unfold Poseidon2Params.new at hP
  simp only [Option.bind_eq_bind, Option.bind_eq_some_iff] at hP
  obtain ⟨_, _, _, _, _, _, h⟩ := hP
  simp only [Option.pure_def, Option.some.injEq] at h
  rw [← h]
  exact ⟨rfl, rfl⟩

/-- **C53**, for a whole full round of every shipped instance. -/
theorem C53_full_round (S : Poseidon2Source) (hS : S ∈ Instances.poseidon2) :
    ∃ P, S.params dbg = some P ∧ ∀ r < P.rounds,
      BranchAtLeast S.t (if S.t ≤ 4 then S.t + 1 else S.t / 4 + 4) fun x => Poseidon2.fullRound P x r := by
  have hg := poseidon2_good S hS
  obtain ⟨P, hP⟩ := hg.params
  refine ⟨P, hP, ?_⟩
  have : Fact S.modulus.Prime := ⟨declared_prime hg.declared⟩
  have hb := ((pow_bijective_iff (by have := hg.shaped.degree; omega)).mpr (by rw [ZMod.card]; exact hg.coprime) :
    Function.Bijective fun x : ZMod S.modulus => x ^ S.d).1
  have hN := Branch.norm_external (p := S.modulus) (Branch.declared_le hg.declared) hg.width
  unfold Poseidon2Source.params at hP
  obtain ⟨h1, h2, h3, h4⟩ := Poseidon2.new_fields hP
  have hs := hg.shaped
  rw [Nat.mod_eq_of_lt hs.fits] at h3
  have hw := hg.width
  generalize S.t = t at *
  subst h1
  intro r hr
  have hlen : r < P.round_constants.length := by rw [h4]; have := hs.rc_len; omega
  have hrow : P.t ≤ (P.round_constants.getD r []).length := by
    rw [List.getD_eq_getElem _ _ hlen]
    have := List.getElem_mem hlen
    generalize P.round_constants[r] = z at this
    rw [h4] at this
    exact hs.rc_rows _ this
  refine Branch.branchAtLeast_round (M := externalMatrix P.t) (fun i z => (z + tab P.round_constants r i) ^ P.d)
    (fun i => ?_) (fun x => ?_) hN
  · intro u v huv
    simp only [h2] at huv
    exact add_right_cancel (hb huv)
  · exact Poseidon2.fullRound_ofFn P hw (by rw [h2]; exact hs.degree) hlen hrow x

end ZkHash

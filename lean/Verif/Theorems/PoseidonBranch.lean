import Verif.Proofs.Mds
import Verif.Proofs.PoseidonMds
import Verif.Theorems.PoseidonInstances

set_option autoImplicit false

/-!
# The shipped Poseidon matrices are MDS: C52
-/

namespace ZkHash

open Spec Matrix

theorem poseidon_norm (S : PoseidonSource) (hS : S ∈ Instances.poseidon) [Fact S.modulus.Prime] :
    Branch.Norm S.mdsMatrix (S.t + 1) := by
  obtain ⟨xs, ys, h⟩ := Instances.poseidon_cauchy S hS
  obtain ⟨a, b, ha, hb, hM⟩ := PoseidonSource.cauchyOk_sound h (Fact.out : S.modulus.Prime).one_lt
  rw [(poseidon_good S hS).mdsMatrix_eq]
  exact fun x hx => Branch.cauchy _ a b ha hb hM x hx

/-- **C52.** The matrix of every shipped Poseidon parameter set is MDS: all its square submatrices are invertible. -/
theorem C52_mds (S : PoseidonSource) (hS : S ∈ Instances.poseidon) [Fact S.modulus.Prime] : IsMDS S.mdsMatrix :=
  Branch.mds_of_norm (poseidon_norm S hS)

/-- **C52**, for the code of the linear layer: two different states differ in at least `t + 1` positions before and after
it, counted together. -/
theorem C52_linear_layer (S : PoseidonSource) (hS : S ∈ Instances.poseidon) [Fact S.modulus.Prime] (dbg : Bool) :
    ∃ P, S.params dbg = some P ∧ BranchAtLeast S.t (S.t + 1) fun x => Poseidon.matmul dbg x P.mds := by
  have hg := poseidon_good S hS
  obtain ⟨P, hP⟩ := hg.returns dbg
  refine ⟨P, hP, ?_⟩
  unfold PoseidonSource.params at hP
  rw [hg.mds] at hP
  obtain ⟨-, -, -, -, -, h6, -⟩ := Poseidon.new_fields hP
  refine Branch.branchAtLeast_of_norm (M := S.mdsMatrix) (fun x => ?_) (poseidon_norm S hS)
  rw [h6, hg.mdsMatrix_eq, ofFn_eq_tl 0 x, Poseidon.matmul_cut dbg _ _ S.t (by simp) (fun _ => le_rfl), Poseidon.cut_full le_rfl]
  congr 3
  funext i
  simp [ext0]

/-- **C52**, for a whole full round (constants, S-boxes, linear layer): of the S-boxes of two consecutive full rounds at
least `t + 1` receive different inputs when two different states are processed. -/
theorem C52_full_round (S : PoseidonSource) (hS : S ∈ Instances.poseidon) [Fact S.modulus.Prime] (dbg : Bool) :
    ∃ P, S.params dbg = some P ∧ ∀ r < P.rounds, BranchAtLeast S.t (S.t + 1) fun x => Poseidon.fullRound dbg P x r := by
  have hg := poseidon_good S hS
  obtain ⟨P, hP⟩ := hg.returns dbg
  refine ⟨P, hP, fun r hr => ?_⟩
  unfold PoseidonSource.params at hP
  rw [hg.mds] at hP
  obtain ⟨hd, -⟩ := Poseidon.new_args hP
  obtain ⟨-, h2, -, -, h5, h6, h7⟩ := Poseidon.new_fields hP
  have hs := hg.shaped
  have hlen : r < P.round_constants.length := by rw [h7]; have := hs.rc_len; omega
  have hrow : (P.round_constants.getD r []).length = S.t := by
    rw [List.getD_eq_getElem _ _ hlen]
    have := List.getElem_mem hlen
    generalize P.round_constants[r] = z at this
    rw [h7] at this
    exact hs.rc_rows _ this
  refine Branch.branchAtLeast_round (M := S.mdsMatrix) (fun i z => (z + tab P.round_constants r i) ^ P.d) (fun i => ?_) (fun x => ?_)
    (poseidon_norm S hS)
  · have hb := (C45_sbox_bijective.2.1 S hS).1
    intro u v huv
    simp only [h2] at huv
    exact add_right_cancel (hb huv)
  · rw [Poseidon.fullRound_cut dbg P _ h6 (by rw [h2]; exact hd) hlen (fun _ => hrow.ge), hrow, Poseidon.cut_full le_rfl,
      hg.mdsMatrix_eq]

end ZkHash

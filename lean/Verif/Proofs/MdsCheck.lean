import Verif.Proofs.Branch
import Verif.Proofs.PoseidonCheck

set_option autoImplicit false

/-!
# Certificates that a table is a Cauchy matrix
-/

namespace ZkHash

open Spec Matrix

namespace PoseidonSource

/-- `M_ij (x_i + y_j) = 1` for all entries, with distinct `x_i` and distinct `y_j`. -/
def cauchyOk (S : PoseidonSource) (xs ys : List Nat) : Bool :=
  xs.length == S.t && ys.length == S.t && xs.all (· < S.modulus) && ys.all (· < S.modulus) &&
  decide xs.Nodup && decide ys.Nodup &&
  (List.range S.t).all fun i => (List.range S.t).all fun j =>
    (S.mds.getD i []).getD j 0 * (xs.getD i 0 + ys.getD j 0) % S.modulus == 1

theorem injective_getD {p t : Nat} {xs : List Nat} (hl : xs.length = t) (hp : ∀ x ∈ xs, x < p) (hn : xs.Nodup) :
    Function.Injective fun i : Fin t => ((xs.getD i 0 : Nat) : ZMod p) := by
  subst hl
  intro i j h
  simp only [List.getD_eq_getElem _ _ i.isLt, List.getD_eq_getElem _ _ j.isLt] at h
  rw [ZMod.natCast_eq_natCast_iff', Nat.mod_eq_of_lt (hp _ (List.getElem_mem _)),
    Nat.mod_eq_of_lt (hp _ (List.getElem_mem _))] at h
  exact Fin.ext ((hn.getElem_inj_iff).mp h)

theorem cauchyOk_sound {S : PoseidonSource} {xs ys : List Nat} (h : S.cauchyOk xs ys = true) (hp : 1 < S.modulus) :
    ∃ a b : Fin S.t → ZMod S.modulus, Function.Injective a ∧ Function.Injective b ∧
      ∀ i j, matOf S.modulus S.t S.mds i j * (a i + b j) = 1 := by
  simp only [cauchyOk, Bool.and_eq_true, beq_iff_eq, List.all_eq_true, decide_eq_true_eq, List.mem_range] at h
  obtain ⟨⟨⟨⟨⟨⟨h1, h2⟩, h3⟩, h4⟩, h5⟩, h6⟩, h7⟩ := h
  refine ⟨_, _, injective_getD h1 h3 h5, injective_getD h2 h4 h6, fun i j => ?_⟩
  have := h7 i i.isLt j j.isLt
  rw [matOf_getD, ← Nat.cast_add, ← Nat.cast_mul]
  rw [← Nat.cast_one, ZMod.natCast_eq_natCast_iff', this, Nat.mod_eq_of_lt hp]

end PoseidonSource

end ZkHash

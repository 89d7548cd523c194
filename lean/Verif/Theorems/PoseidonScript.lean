import Verif.Proofs.PoseidonScript
import Verif.Theorems.Activity
import Verif.Theorems.PoseidonBranch
import Verif.Theorems.ScriptAny

set_option autoImplicit false

/-!
# The matrix generator of the script and the shipped Poseidon tables: C65
-/

namespace ZkHash

open Spec Matrix

namespace Sage

variable {F : Type _} [Field F]

theorem drawDistinct_injective {n m : Nat} {s : List Bool} {r : (Fin m → F) × List Bool}
    (h : drawDistinct F n m s = some r) : Function.Injective r.1 := by
  refine drawDistinct.partial_correctness F n m (fun _ r => Function.Injective r.1) ?_ s r h
  intro rec hrec s r e
  simp only [Option.bind_eq_bind] at e
  rw [Option.bind_eq_some_iff] at e
  obtain ⟨q, -, e⟩ := e
  split at e
  · exact hrec _ _ e
  · rename_i hq
    cases e
    exact not_not.mp hq

theorem createMdsP_cauchy {n t : Nat} {s : List Bool} {r : Matrix (Fin t) (Fin t) F × List Bool}
    (h : createMdsP F n t s = some r) : ∃ a b : Fin t → F, Function.Injective a ∧ Function.Injective b ∧
      ∀ i j, r.1 i j * (a i + b j) = 1 := by
  refine createMdsP.partial_correctness F n t (fun _ r => ∃ a b : Fin t → F, Function.Injective a ∧ Function.Injective b ∧
      ∀ i j, r.1 i j * (a i + b j) = 1) ?_ s r h
  intro rec hrec s r e
  simp only [Option.bind_eq_bind] at e
  rw [Option.bind_eq_some_iff] at e
  obtain ⟨q, hq, e⟩ := e
  have hinj := drawDistinct_injective hq
  split at e
  · exact hrec _ _ e
  · rename_i hne
    cases e
    refine ⟨fun i => q.1 ⟨i.val, by omega⟩, fun j => q.1 ⟨t + j.val, by omega⟩, fun i j hij => ?_, fun i j hij => ?_,
      fun i j => ?_⟩
    · have := congrArg Fin.val (hinj hij)
      exact Fin.ext this
    · have := congrArg Fin.val (hinj hij)
      exact Fin.ext (Nat.add_left_cancel this)
    · exact inv_mul_cancel₀ fun h0 => hne ⟨i, j, h0⟩

theorem generateMatrix_post {n t : Nat} {s : List Bool} {r : Matrix (Fin t) (Fin t) F × List Bool}
    (h : generateMatrix F n t s = some r) :
    (∃ a b : Fin t → F, Function.Injective a ∧ Function.Injective b ∧ ∀ i j, r.1 i j * (a i + b j) = 1) ∧
      Algorithm1 r.1 ∧ Algorithm2 r.1 ∧ Algorithm3 r.1 := by
  refine generateMatrix.partial_correctness F n t (fun _ r =>
    (∃ a b : Fin t → F, Function.Injective a ∧ Function.Injective b ∧ ∀ i j, r.1 i j * (a i + b j) = 1) ∧
      Algorithm1 r.1 ∧ Algorithm2 r.1 ∧ Algorithm3 r.1) ?_ s r h
  intro rec hrec s r e
  simp only [Option.bind_eq_bind] at e
  rw [Option.bind_eq_some_iff] at e
  obtain ⟨q, hq, e⟩ := e
  split at e
  · exact hrec _ _ e
  · rename_i hne
    cases e
    simp only [not_or, not_not] at hne
    exact ⟨createMdsP_cauchy hq, hne⟩

/-- With no partial round the constants are the drawn numbers. -/
theorem generateConstants_full {n t R p : Nat} {s s' : List Bool} {RC : List Nat}
    (h : generateConstants n t R 0 p s = some (RC, s')) : RC.length = R * t ∧ ∀ x ∈ RC, x < p := by
  obtain ⟨c, hc, rfl⟩ := generateConstants_layout h
  have : layout t R 0 c (R * t + 0) = (List.range (R * t)).map c := by
    unfold layout
    rw [Nat.add_zero, List.map_eq_flatMap]
    congr 1
    funext i
    rw [if_neg (by omega)]
  rw [this]
  refine ⟨by simp, fun x hx => ?_⟩
  obtain ⟨i, hi, rfl⟩ := List.mem_map.mp hx
  exact hc i (by rw [List.mem_range] at hi; omega)

end Sage

/-- **C65**: for the modulus, the width and the round numbers of a shipped Poseidon instance, the script's functions with
`SBOX = 1` return exactly the shipped round constants and the shipped matrix. -/
theorem C65_script_output (S : PoseidonSource) (hS : S ∈ Instances.poseidon) (hF : Fact S.modulus.Prime) :
    ∃ M, Sage.generatePoseidon 1 S.modulus S.t S.rounds_f S.rounds_p = some (S.rc.flatten, M) ∧ S.mdsF = rowsOf M := by
  obtain ⟨ext, blocks, W, h⟩ := Instances.poseidon_tables S hS
  obtain ⟨c, hc⟩ := Instances.poseidon_cyclic S hS
  exact ⟨_, Sage.generatePoseidon_of h hc (List.all_eq_true.mp poseidon_krylov_checked S hS), (poseidon_good S hS).mds⟩

/-- **C65**, any field: whatever matrix the generator returns is MDS and passes the three tests of the script. -/
theorem C65_generated_mds {F : Type _} [Field F] {n t : Nat} {s s' : List Bool} {M : Matrix (Fin t) (Fin t) F}
    (h : Sage.generateMatrix F n t s = some (M, s')) :
    IsMDS M ∧ Sage.Algorithm1 M ∧ Sage.Algorithm2 M ∧ Sage.Algorithm3 M := by
  classical
  obtain ⟨⟨a, b, ha, hb, hM⟩, h⟩ := Sage.generateMatrix_post h
  exact ⟨Branch.mds_of_norm fun x hx => Branch.cauchy _ a b ha hb hM x hx, h⟩

theorem leadingMinor_of_mds {F : Type _} [Field F] {t : Nat} {M : Matrix (Fin t) (Fin t) F} (h : IsMDS M) (k : Nat)
    (hk : k < t) : ZkHash.leadingMinor M (k + 1) hk ≠ 0 :=
  h (k + 1) (Fin.castLEEmb hk) (Fin.castLEEmb hk)

theorem Sage.splitRows_shape {F : Type _} {t R : Nat} (ht : 0 < t) (cs : List F) (h : cs.length = R * t) :
    (Sage.splitRows t cs).length = R ∧ ∀ row ∈ Sage.splitRows t cs, row.length = t := by
  have hR : (cs.length + t - 1) / t = R := by
    rw [h, show R * t + t - 1 = (t - 1) + R * t by omega, Nat.add_mul_div_right _ _ ht, Nat.div_eq_of_lt (by omega), Nat.zero_add]
  unfold Sage.splitRows
  rw [hR]
  refine ⟨by simp, fun row hrow => ?_⟩
  obtain ⟨k, hk, rfl⟩ := List.mem_map.mp hrow
  rw [List.mem_range] at hk
  have : (k + 1) * t ≤ R * t := Nat.mul_le_mul_right t hk
  rw [Nat.add_mul, Nat.one_mul] at this
  rw [List.length_take, List.length_drop, h]
  omega

/-- **C65**, any prime, width and round numbers: `PoseidonParams::new` accepts the generated tables exactly if the leading
minors of the powers up to `R_P` of the matrix without its first row and column do not vanish; then the optimized
permutation is the textbook permutation with the generated tables, and a bijection if `d` is coprime to `p - 1`. -/
theorem C65_generate_any {SBOX p s d R_F R_P : Nat} [Fact p.Prime] (hs : 0 < s) (hd : d = 3 ∨ d = 5 ∨ d = 7)
    (heven : R_F % 2 = 0) (hP : 0 < R_P) (hfit : R_F + R_P < 2 ^ 64) {RC : List Nat} {M : Matrix (Fin (s + 1)) (Fin (s + 1)) (ZMod p)}
    (h : Sage.generatePoseidon SBOX p (s + 1) R_F R_P = some (RC, M)) (dbg : Bool) (rc : List (List (ZMod p)))
    (hrc : rc = Sage.splitRows (s + 1) (RC.map fun n : Nat => (n : ZMod p))) :
    ((∃ P, PoseidonParams.new dbg (s + 1) d R_F R_P (rowsOf M) rc = some P) ↔
      ∀ n, 1 ≤ n → n ≤ R_P → ∀ k, ∀ hk : k < s, leadingMinor ((M.submatrix Fin.succ Fin.succ) ^ n) (k + 1) hk ≠ 0) ∧
    ∀ P, PoseidonParams.new dbg (s + 1) d R_F R_P (rowsOf M) rc = some P → ∀ dbg',
      (∀ x : Fin (s + 1) → ZMod p, Poseidon.permutation dbg' P (List.ofFn x) =
        some (List.ofFn (poseidon M d (R_F / 2) R_P (tab rc) x))) ∧
      (Nat.Coprime d (p - 1) → IsPermutation (s + 1) (Poseidon.permutation dbg' P)) := by
  unfold Sage.generatePoseidon at h
  simp only [Option.bind_eq_bind, Option.bind_eq_some_iff, Option.pure_def, Option.some.injEq, Prod.mk.injEq] at h
  obtain ⟨s0, -, ⟨RC', s1⟩, hcs, ⟨M', s2⟩, hM, rfl, rfl⟩ := h
  obtain ⟨hmds, -⟩ := C65_generated_mds hM
  obtain ⟨hlen, -⟩ := Sage.generateConstants_full hcs
  obtain ⟨h1, h2⟩ := Sage.splitRows_shape (F := ZMod p) (Nat.succ_pos s) (RC'.map fun n : Nat => (n : ZMod p))
    (by rw [List.length_map, hlen])
  have hsh : PoseidonShaped (s + 1) R_F R_P rc := by
    subst hrc
    exact ⟨h1.ge, h2, hfit⟩
  refine ⟨?_, fun P hP dbg' => ⟨fun x => C12_permutation_eq_spec hP hsh dbg' x, fun hcop => ?_⟩⟩
  · rw [C15_new_returns_iff dbg hs d R_F R_P M' rc hsh]
    exact ⟨fun h => h.2.2.2.2, fun h => ⟨hd, heven, hP, fun k hk => leadingMinor_of_mds hmds k hk, h⟩⟩
  · refine (C14_bijective_iff hP hsh dbg').2.mpr ?_
    rwa [ZMod.card]

/-- The hypotheses of `C65_generate_any` are met by every shipped instance. -/
example (S : PoseidonSource) (hS : S ∈ Instances.poseidon) (hF : Fact S.modulus.Prime) :
    (S.d = 3 ∨ S.d = 5 ∨ S.d = 7) ∧ S.rounds_f % 2 = 0 ∧ 2 ≤ S.t ∧ S.rounds_f + S.rounds_p < 2 ^ 64 ∧
      ∃ M, Sage.generatePoseidon 1 S.modulus S.t S.rounds_f S.rounds_p = some (S.rc.flatten, M) := by
  have hg := poseidon_good S hS
  obtain ⟨M, hM, -⟩ := C65_script_output S hS hF
  obtain ⟨P, hP⟩ := hg.returns true
  unfold PoseidonSource.params at hP
  rw [hg.mds] at hP
  exact ⟨(Poseidon.new_args hP).1, hg.even, hg.width, hg.shaped.fits, M, hM⟩

end ZkHash

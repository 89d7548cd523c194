import Verif.Theorems.PoseidonInstances
import Verif.Theorems.NeptuneNew
import Verif.Theorems.Compress

set_option autoImplicit false

/-!
# The shipped GMiMC and Neptune shapes, and Merkle trees over all shipped widths: C55, C56
-/

namespace ZkHash

variable {dbg : Bool}

open Spec Matrix Merkle

theorem gmimc_shapes_checked : (Instances.gmimc.all fun S =>
    (Fields.declared.map Prod.fst).contains S.modulus && (S.d == 3 || S.d == 5 || S.d == 7) && decide (2 ≤ S.t) &&
      decide (1 ≤ S.rounds_f)) = true := by
  decide +kernel

theorem gmimc_good (S : Shape) (hS : S ∈ Instances.gmimc) :
    S.modulus.Prime ∧ (S.d = 3 ∨ S.d = 5 ∨ S.d = 7) ∧ 2 ≤ S.t ∧ 1 ≤ S.rounds_f := by
  have := List.all_eq_true.mp gmimc_shapes_checked S hS
  simp only [Bool.and_eq_true, Bool.or_eq_true, beq_iff_eq, List.contains_iff_mem, decide_eq_true_eq] at this
  exact ⟨declared_prime this.1.1.1, by omega, this.1.2, this.2⟩

theorem neptune_shapes_checked : (Instances.neptune.all fun S =>
    (Fields.declared.map Prod.fst).contains S.modulus && (S.d == 3 || S.d == 5 || S.d == 7) && S.t % 2 == 0 &&
      decide (2 ≤ S.t) && S.rounds_f % 2 == 0 && decide (S.rounds_f + S.rounds_p < 2 ^ 64)) = true := by
  decide +kernel

theorem neptune_good (S : Shape) (hS : S ∈ Instances.neptune) :
    S.modulus.Prime ∧ (S.d = 3 ∨ S.d = 5 ∨ S.d = 7) ∧ S.t % 2 = 0 ∧ 2 ≤ S.t ∧ S.rounds_f % 2 = 0 ∧
      S.rounds_f + S.rounds_p < 2 ^ 64 := by
  have := List.all_eq_true.mp neptune_shapes_checked S hS
  simp only [Bool.and_eq_true, Bool.or_eq_true, beq_iff_eq, List.contains_iff_mem, decide_eq_true_eq] at this
  exact ⟨declared_prime this.1.1.1.1.1, by omega, this.1.1.1.2, this.1.1.2, this.1.2, this.2⟩

/-- **C55.** Every shipped GMiMC parameter set, whatever the generator delivers (at least `rounds` elements): the
constructor returns, and the result gives a permutation that is a total bijection of the states of its width and equals
the plain one on every input of any length. -/
theorem C55_gmimc (S : Shape) (hS : S ∈ Instances.gmimc) [Fact S.modulus.Prime] (dbg : Bool) (s : List (ZMod S.modulus))
    (hs : S.rounds_f ≤ s.length) :
    ∃ P, GmimcParams.new S.t S.d S.rounds_f s = some (P, s.drop S.rounds_f) ∧
      (∀ x, Gmimc.permutation dbg P x = Gmimc.permutationNotOpt dbg P x) ∧
      IsPermutation S.t (Gmimc.permutation dbg P) := by
  obtain ⟨-, hd, ht, hr⟩ := gmimc_good S hS
  obtain ⟨h1, h2⟩ := C21_new S.t S.d S.rounds_f s hs
  cases hn : GmimcParams.new S.t S.d S.rounds_f s with
  | none => exact absurd (h1.mp hn) (by omega)
  | some p =>
    obtain ⟨P, rest⟩ := p
    obtain ⟨-, -, rfl⟩ := h2 P rest hn
    exact ⟨P, rfl, fun x => C19_optimized_eq_plain dbg P x, C20_bijective dbg hs hn (by omega) hr⟩

/-- **C55**, Neptune: every shipped parameter set, whatever the generator delivers (if it delivers enough): the
permutation never panics on a state of its width (what it computes is C25). -/
theorem C55_neptune (S : Shape) (hS : S ∈ Instances.neptune) [Fact S.modulus.Prime] {s r : List (ZMod S.modulus)}
    {P : NeptuneParams (ZMod S.modulus)} (h : NeptuneParams.new dbg S.t S.d S.rounds_f S.rounds_p s = some (P, r))
    (x : List (ZMod S.modulus)) (hx : x.length = S.t) :
    ∃ y, Neptune.permutation dbg P x = some y ∧ y.length = S.t := by
  obtain ⟨-, -, -, ht, -, hfit⟩ := neptune_good S hS
  exact C25_total (by omega) h hfit x hx

/-- **C55**, Neptune, for the shipped widths 4 and 8: a bijection unless the drawn diagonal is singular. -/
theorem C55_neptune_bijective (S : Shape) (hS : S ∈ Instances.neptune) (h48 : S.t = 4 ∨ S.t = 8) [Fact S.modulus.Prime]
    {s r : List (ZMod S.modulus)} {P : NeptuneParams (ZMod S.modulus)}
    (h : NeptuneParams.new dbg S.t S.d S.rounds_f S.rounds_p s = some (P, r)) :
    IsPermutation S.t (Neptune.permutation dbg P) ↔ (neptuneInternal S.t (vec P.mu)).det ≠ 0 := by
  have hc := List.all_eq_true.mp shapes_checked S (List.mem_append_left _ hS)
  simp only [Bool.and_eq_true, bne_iff_ne, beq_iff_eq, List.contains_iff_mem] at hc
  have hp : S.rounds_p ≠ 0 := by
    have : (Instances.neptune.all fun S => S.rounds_p != 0) = true := by decide +kernel
    simpa using List.all_eq_true.mp this S hS
  have hle : 2013265921 ≤ S.modulus := by
    have h := hc.1.1
    simp only [Fields.declared, List.map_cons, List.map_nil, List.mem_cons, List.not_mem_nil, or_false] at h
    rcases h with h | h | h | h | h | h <;> rw [h] <;> decide
  have hne : ∀ n : Nat, 0 < n → n < 2013265921 → ((n : Nat) : ZMod S.modulus) ≠ 0 := by
    intro n h0 hn hz
    rw [ZMod.natCast_eq_zero_iff] at hz
    have := Nat.le_of_dvd h0 hz
    omega
  rw [C26_bijective_4_8 h48 h (neptune_good S hS).2.2.2.2.2 (by simpa using hne 3 (by decide) (by decide)) (by simpa using hne 5 (by decide) (by decide))
    (by simpa using hne 7 (by decide) (by decide)), ZMod.card]
  constructor
  · rintro (h | h)
    · exact absurd h hp
    · exact h.2
  · exact fun h => Or.inr ⟨hc.2, h⟩

/-! ## C56 -/

/-- **C56**, Poseidon: a root for every nonempty leaf set over the shipped width-3 parameter sets. -/
theorem C56_poseidon (S : PoseidonSource) (hS : S ∈ Instances.poseidon) (h3 : S.t = 3) [Fact S.modulus.Prime] (dbg : Bool) :
    ∃ P, S.params dbg = some P ∧ ∀ set : List (ZMod S.modulus), set ≠ [] → set.length ≤ 2 ^ 63 →
      ∃ r, accumulate dbg (Poseidon.compress dbg P) set = some r := by
  have hg := poseidon_good S hS
  obtain ⟨P, hP⟩ := hg.returns dbg
  refine ⟨P, hP, fun set hne hlen => ?_⟩
  unfold PoseidonSource.params at hP
  rw [hg.mds] at hP
  have hs := hg.shaped
  generalize PoseidonSource.matOf S.modulus S.t S.mds = M at hP
  generalize S.rcF = rc at hP hs
  have key : ∀ t, t = 3 → ∀ M : Matrix (Fin t) (Fin t) (ZMod S.modulus),
      PoseidonParams.new dbg t S.d S.rounds_f S.rounds_p (rowsOf M) rc = some P →
      PoseidonShaped t S.rounds_f S.rounds_p rc → ∃ r, accumulate dbg (Poseidon.compress dbg P) set = some r := by
    rintro t rfl M hP hs
    obtain ⟨r, hr, -⟩ := C34_root_total dbg _ _ (fun a b => C42_poseidon_value hP hs dbg a b []) set hne hlen
    exact ⟨r, hr⟩
  exact key S.t h3 M hP hs

/-- **C56**, GMiMC: the same over the shipped width-3 parameter sets, whatever was drawn. -/
theorem C56_gmimc (S : Shape) (hS : S ∈ Instances.gmimc) (h3 : S.t = 3) [Fact S.modulus.Prime] (dbg : Bool)
    (s : List (ZMod S.modulus)) (hs : S.rounds_f ≤ s.length) :
    ∃ P, GmimcParams.new S.t S.d S.rounds_f s = some (P, s.drop S.rounds_f) ∧
      ∀ set : List (ZMod S.modulus), set ≠ [] → set.length ≤ 2 ^ 63 →
        ∃ r, accumulate dbg (Gmimc.compress dbg P) set = some r := by
  obtain ⟨-, hd, ht, hr⟩ := gmimc_good S hS
  obtain ⟨P, hP, -, -⟩ := C55_gmimc S hS dbg s hs
  refine ⟨P, hP, fun set hne hlen => ?_⟩
  obtain ⟨rfl, hl, -⟩ := (C21_new S.t S.d S.rounds_f s hs).2 P _ hP
  obtain ⟨n, hn⟩ : ∃ n, S.rounds_f = n + 1 := ⟨S.rounds_f - 1, by omega⟩
  obtain ⟨r, hr, -⟩ := C34_root_total dbg _ _ (fun a b => C42_gmimc_value dbg
    ⟨S.t, S.d, S.rounds_f, s.take S.rounds_f⟩ h3 hn hd (le_of_eq hl.symm) a b []) set hne hlen
  exact ⟨r, hr⟩

/-- **C56**, Neptune: the same over the shipped width-4 parameter sets, whatever was drawn. -/
theorem C56_neptune (S : Shape) (hS : S ∈ Instances.neptune) (h4 : S.t = 4) [Fact S.modulus.Prime] (dbg : Bool)
    {s r : List (ZMod S.modulus)} {P : NeptuneParams (ZMod S.modulus)}
    (h : NeptuneParams.new dbg S.t S.d S.rounds_f S.rounds_p s = some (P, r)) (set : List (ZMod S.modulus)) (hne : set ≠ [])
    (hlen : set.length ≤ 2 ^ 63) :
    ∃ r, accumulate dbg (Neptune.compress dbg P) set = some r := by
  rw [h4] at h
  obtain ⟨M, -, hM⟩ := C42_neptune_value h (neptune_good S hS).2.2.2.2.2
  obtain ⟨r, hr, -⟩ := C34_root_total dbg _ _ (fun a b => hM a b []) set hne hlen
  exact ⟨r, hr⟩

/-- Which instances the tree statements are about: four Poseidon, four GMiMC (width 3) and four Neptune (width 4) ones. -/
example : (Instances.poseidon.filter fun S => S.t = 3).map (fun S => S.modulus) =
      [Fields.bls12Modulus, Fields.bn256Modulus, Fields.pallasModulus, Fields.vestaModulus] ∧
    (Instances.gmimc.filter fun S => S.t = 3).length = 4 ∧ (Instances.neptune.filter fun S => S.t = 4).length = 4 := by
  decide +kernel

end ZkHash

import Verif.Proofs.Gmimc
import Verif.Proofs.Bijective
import Verif.Theorems.Poseidon
import Mathlib.Data.ZMod.Basic

set_option autoImplicit false

/-!
# Properties of GMiMC (C19-C21)
-/

namespace ZkHash

open Spec

set_option linter.unusedSectionVars false

namespace Fields

/-- Drawing `n` scalars takes the first `n` numbers of the stream. -/
theorem repeatDraw_randomScalar {F : Type} (n : Nat) (s : List F) (h : n ≤ s.length) :
    repeatDraw randomScalar n s = some (s.take n, s.drop n) := by
  induction n generalizing s with
  | zero => rfl
  | succ n ih =>
    cases s with
    | nil => simp at h
    | cons x s =>
      simp only [List.length_cons] at h
      show (repeatDraw randomScalar n s).bind (fun p => some (x :: p.1, p.2)) = _
      rw [ih s (by omega)]
      rfl

end Fields

section
variable {F : Type} [CommRing F]

/-- **C19.** The optimized permutation and the plain one give the same result - the same value or a panic - for every
parameter value (any width, number of rounds, degree and list of constants), every input of any length, and both
profiles. -/
theorem C19_optimized_eq_plain (dbg : Bool) (P : GmimcParams F) (x : List F) :
    Gmimc.permutation dbg P x = Gmimc.permutationNotOpt dbg P x :=
  Gmimc.permutation_eq dbg P x

/-- **C19**, what both compute: with enough constants and at least one round, the GMiMC specification. -/
theorem C19_permutation_eq_spec {s n : Nat} (dbg : Bool) (P : GmimcParams F) (ht : P.t = s + 1)
    (hrounds : P.rounds = n + 1) (hd : P.d = 3 ∨ P.d = 5 ∨ P.d = 7) (hlen : P.rounds ≤ P.round_constants.length)
    (x : Fin (s + 1) → F) :
    Gmimc.permutation dbg P (List.ofFn x) = some (List.ofFn (gmimc P.d (vec P.round_constants) n x)) := by
  rw [C19_optimized_eq_plain, Gmimc.permutationNotOpt_ofFn dbg P ht n hrounds hd hlen]

/-- **C21**, constructor: it panics exactly when `d` is not 3, 5 or 7 (given that the random generator delivers the
`rounds` elements asked for), and otherwise stores exactly the first `rounds` elements delivered. -/
theorem C21_new (t d rounds : Nat) (stream : List F) (hs : rounds ≤ stream.length) :
    (GmimcParams.new t d rounds stream = none ↔ d ≠ 3 ∧ d ≠ 5 ∧ d ≠ 7) ∧
    ∀ P rest, GmimcParams.new t d rounds stream = some (P, rest) →
      P = ⟨t, d, rounds, stream.take rounds⟩ ∧ P.round_constants.length = rounds ∧ rest = stream.drop rounds := by
  have key : GmimcParams.new t d rounds stream =
      (assertThat (d == 3 || d == 5 || d == 7)).bind fun _ =>
        some (⟨t, d, rounds, stream.take rounds⟩, stream.drop rounds) := by
    unfold GmimcParams.new
    show ((assertThat _).bind fun a => some (a, stream)).bind _ = _
    cases assertThat (d == 3 || d == 5 || d == 7) with
    | none => rfl
    | some u =>
      show (Fields.repeatDraw Fields.randomScalar rounds stream).bind _ = _
      rw [Fields.repeatDraw_randomScalar _ _ hs]
      rfl
  rw [key]
  by_cases h : (d == 3 || d == 5 || d == 7) = true
  · simp only [assertThat, h, if_true, Option.bind_some]
    simp only [Bool.or_eq_true, beq_iff_eq] at h
    refine ⟨⟨fun h => (Option.some_ne_none _ h).elim, fun h' => by omega⟩, ?_⟩
    intro P rest he
    simp only [Option.some.injEq, Prod.mk.injEq] at he
    obtain ⟨rfl, rfl⟩ := he
    exact ⟨rfl, by simp [hs], rfl⟩
  · simp only [assertThat, h, Bool.false_eq_true, if_false, Option.bind_none]
    simp only [Bool.or_eq_true, beq_iff_eq] at h
    refine ⟨⟨fun _ => by omega, fun _ => trivial⟩, ?_⟩
    intro P rest he
    cases he

/-- **C21**, totality: parameters made by the constructor with at least one round give a state of width `t` on every
input of length `t ≥ 1`. -/
theorem C21_total (dbg : Bool) {t d rounds : Nat} {stream rest : List F} {P : GmimcParams F}
    (hs : rounds ≤ stream.length) (hP : GmimcParams.new t d rounds stream = some (P, rest)) (ht : 1 ≤ t)
    (hr : 1 ≤ rounds) (x : List F) (hx : x.length = t) :
    ∃ y, Gmimc.permutation dbg P x = some y ∧ y.length = t := by
  obtain ⟨rfl, hlen, -⟩ := (C21_new t d rounds stream hs).2 P rest hP
  have hd : d = 3 ∨ d = 5 ∨ d = 7 := by
    by_contra h
    rw [(C21_new t d rounds stream hs).1.mpr (by omega)] at hP
    cases hP
  obtain ⟨s, rfl⟩ : ∃ s, t = s + 1 := ⟨t - 1, by omega⟩
  obtain ⟨n, rfl⟩ : ∃ n, rounds = n + 1 := ⟨rounds - 1, by omega⟩
  obtain ⟨x, rfl⟩ := eq_ofFn x hx
  exact ⟨_, C19_permutation_eq_spec dbg _ rfl rfl hd (le_of_eq hlen.symm) x, by simp⟩

/-- **C21**, guard: an input whose length is not `t` panics, whatever the parameters. -/
theorem C21_wrong_length (dbg : Bool) (P : GmimcParams F) (x : List F) (hx : x.length ≠ P.t) :
    Gmimc.permutation dbg P x = none ∧ Gmimc.permutationNotOpt dbg P x = none := by
  have : Gmimc.permutationNotOpt dbg P x = none := by
    simp [Gmimc.permutationNotOpt, assertThat, hx.symm]
  exact ⟨by rw [C19_optimized_eq_plain, this], this⟩

/-- **C21**, no rounds: with `rounds = 0` every call panics, in both profiles (with overflow checks by the underflow of
`rounds - 1`, without them because the wrapped round number indexes the empty list of constants). -/
theorem C21_no_rounds (dbg : Bool) {t d : Nat} {stream rest : List F} {P : GmimcParams F}
    (hP : GmimcParams.new t d 0 stream = some (P, rest)) (x : List F) :
    Gmimc.permutation dbg P x = none ∧ Gmimc.permutationNotOpt dbg P x = none := by
  obtain ⟨rfl, -, -⟩ := (C21_new t d 0 stream (Nat.zero_le _)).2 P rest hP
  have key : Gmimc.permutationNotOpt dbg ⟨t, d, 0, stream.take 0⟩ x = none := by
    unfold Gmimc.permutationNotOpt
    have hround : ∀ y r, Gmimc.round (⟨t, d, 0, stream.take 0⟩ : GmimcParams F) y r = none := by
      intro y r
      simp [Gmimc.round, Gmimc.sbox]
    cases dbg
    · obtain ⟨n, hn, h⟩ := Poseidon.usub_zero_one
      simp only [h, hround, Option.bind_eq_bind, Option.bind_some, Option.bind_none, Poseidon.bind_none_fun]
    · have h : usub true 0 1 = none := rfl
      simp only [h, Option.bind_eq_bind, Option.bind_none, Poseidon.bind_none_fun]
  exact ⟨by rw [C19_optimized_eq_plain, key], key⟩

/-- **C20.** For every width, at least one round and any constants, over any field (no condition on `d` beyond what the
constructor checks), the permutation is a bijection of the states of width `t`. -/
theorem C20_bijective (dbg : Bool) {t d rounds : Nat} {stream rest : List F} {P : GmimcParams F}
    (hs : rounds ≤ stream.length) (hP : GmimcParams.new t d rounds stream = some (P, rest)) (ht : 1 ≤ t)
    (hr : 1 ≤ rounds) : IsPermutation t (Gmimc.permutation dbg P) := by
  obtain ⟨rfl, hlen, -⟩ := (C21_new t d rounds stream hs).2 P rest hP
  have hd : d = 3 ∨ d = 5 ∨ d = 7 := by
    by_contra h
    rw [(C21_new t d rounds stream hs).1.mpr (by omega)] at hP
    cases hP
  obtain ⟨s, rfl⟩ : ∃ s, t = s + 1 := ⟨t - 1, by omega⟩
  obtain ⟨n, rfl⟩ : ∃ n, rounds = n + 1 := ⟨rounds - 1, by omega⟩
  rw [isPermutation_iff (fun x => C19_permutation_eq_spec dbg _ rfl rfl hd (le_of_eq hlen.symm) x)]
  exact Gmimc.gmimc_bijective _ _ _

end

/-! ## The hypotheses are met by concrete parameters -/

section examples

/-- Ten rounds of width 8 (so the optimized path is taken) over the integers modulo 11. -/
def exGm : List (ZMod 11) := [1, 2, 3, 4, 5, 6, 7, 8, 9, 10]

/-- Witness for C19, C20 and C21: the constructor succeeds with ten constants. -/
example : ∃ P, GmimcParams.new 8 3 10 exGm = some (P, []) ∧ 10 ≤ exGm.length := ⟨_, rfl, by decide⟩

/-- The optimized path returns, and its value is not the input. -/
example : ∃ y, Gmimc.permutation true (⟨8, 3, 10, exGm⟩ : GmimcParams (ZMod 11)) [0, 1, 2, 3, 4, 5, 6, 7] = some y ∧
    y ≠ [0, 1, 2, 3, 4, 5, 6, 7] := by
  have h := C19_permutation_eq_spec (F := ZMod 11) (s := 7) (n := 9) true ⟨8, 3, 10, exGm⟩ rfl rfl (Or.inl rfl)
    (by decide) ![0, 1, 2, 3, 4, 5, 6, 7]
  exact ⟨_, h, by decide +kernel⟩

/-- Without rounds the constructor succeeds too. -/
example : ∃ P, GmimcParams.new 3 5 0 exGm = some (P, exGm) := ⟨_, rfl⟩

end examples

end ZkHash

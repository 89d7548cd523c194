import Verif.Model.Fields
import Mathlib.Data.Nat.Digits.Lemmas
import Mathlib.Tactic.Ring

set_option autoImplicit false

/-!
# Parsing of field elements: C32
-/

namespace ZkHash

open Fields

/-- The ASCII byte `c` is a hexadecimal digit, of either case, with value `v`. -/
inductive HexDigit : UInt8 → Nat → Prop where
  | digit (v : Nat) (h : v < 10) : HexDigit (UInt8.ofNat ('0'.toNat + v)) v
  | lower (v : Nat) (h : v < 6) : HexDigit (UInt8.ofNat ('a'.toNat + v)) (10 + v)
  | upper (v : Nat) (h : v < 6) : HexDigit (UInt8.ofNat ('A'.toNat + v)) (10 + v)

theorem hexVal_iff (c : UInt8) (v : Nat) : hexVal c = some v ↔ HexDigit c v := by
  constructor
  · intro h
    unfold hexVal at h
    simp only at h
    have hc : c = UInt8.ofNat c.toNat := by simp
    split at h
    · next h1 =>
      simp only [Option.some.injEq] at h
      have := HexDigit.digit v (by omega)
      rw [show '0'.toNat + v = c.toNat by rw [← h]; simp only [show '0'.toNat = 48 from rfl]; omega, ← hc] at this
      exact this
    · split at h
      · simp only [Option.some.injEq] at h
        have := HexDigit.upper (v - 10) (by omega)
        rw [show 'A'.toNat + (v - 10) = c.toNat by rw [← h]; simp only [show 'A'.toNat = 65 from rfl]; omega, ← hc,
          show 10 + (v - 10) = v by omega] at this
        exact this
      · split at h
        · simp only [Option.some.injEq] at h
          have := HexDigit.lower (v - 10) (by omega)
          rw [show 'a'.toNat + (v - 10) = c.toNat by rw [← h]; simp only [show 'a'.toNat = 97 from rfl]; omega, ← hc,
            show 10 + (v - 10) = v by omega] at this
          exact this
        · cases h
  · intro h
    cases h with
    | digit v h => interval_cases v <;> rfl
    | lower v h => interval_cases v <;> rfl
    | upper v h => interval_cases v <;> rfl

theorem HexDigit.not_continuation {c : UInt8} {v : Nat} (h : HexDigit c v) : c.toNat / 64 ≠ 2 := by
  cases h with
  | digit v h => interval_cases v <;> decide
  | lower v h => interval_cases v <;> decide
  | upper v h => interval_cases v <;> decide

/-- Big-endian value of a list of base-16 digits. -/
def bigEndian (l : List Nat) : Nat := l.foldl (fun acc d => 16 * acc + d) 0

theorem hexDecode_some {cs : List UInt8} {vs : List Nat} (h : List.Forall₂ HexDigit cs vs) (he : Even cs.length)
    (acc : Nat) : ∃ bs, hexDecode cs = some bs ∧
      bs.foldl (fun acc byte => acc * 256 + byte) acc = vs.foldl (fun acc d => 16 * acc + d) acc := by
  induction hn : cs.length using Nat.strong_induction_on generalizing cs vs acc with
  | _ n ih =>
    match cs, vs, h with
    | [], _, .nil => exact ⟨[], rfl, rfl⟩
    | [_], _, .cons _ .nil => simp at he
    | a :: b :: cs, x :: y :: vs, .cons h1 (.cons h2 h3) =>
      simp only [List.length_cons] at hn he
      obtain ⟨bs, h4, h5⟩ := ih cs.length (by omega) h3 (by
        rw [Nat.even_add_one, Nat.even_add_one, not_not] at he; exact he) (acc * 256 + (x * 16 + y)) rfl
      refine ⟨(x * 16 + y) :: bs, ?_, ?_⟩
      · simp only [hexDecode, (hexVal_iff _ _).mpr h1, (hexVal_iff _ _).mpr h2, h4, Option.bind_eq_bind,
          Option.bind_some, Option.pure_def]
      · rw [List.foldl_cons, h5, List.foldl_cons, List.foldl_cons]
        congr 1
        ring

theorem hexDecode_none (cs : List UInt8) :
    hexDecode cs = none ↔ (¬ Even cs.length ∨ ∃ c ∈ cs, ∀ v, ¬ HexDigit c v) := by
  constructor
  · intro h
    by_contra hc
    push Not at hc
    obtain ⟨he, hd⟩ := hc
    have : ∃ vs, List.Forall₂ HexDigit cs vs := by
      clear he h
      induction cs with
      | nil => exact ⟨[], .nil⟩
      | cons c cs ih =>
        obtain ⟨vs, hv⟩ := ih fun c hc => hd c (List.mem_cons_of_mem _ hc)
        obtain ⟨v, hv'⟩ := hd c List.mem_cons_self
        exact ⟨v :: vs, .cons hv' hv⟩
    obtain ⟨vs, hv⟩ := this
    obtain ⟨bs, h1, -⟩ := hexDecode_some hv he 0
    rw [h1] at h
    cases h
  · intro h
    induction hn : cs.length using Nat.strong_induction_on generalizing cs with
    | _ n ih =>
      match cs with
      | [] => simp at h
      | [_] => rfl
      | a :: b :: cs =>
        simp only [hexDecode, Option.bind_eq_bind, Option.pure_def]
        cases ha : hexVal a with
        | none => rfl
        | some x =>
          cases hb : hexVal b with
          | none => rfl
          | some y =>
            simp only [Option.bind_some]
            rw [ih cs.length (by simp only [List.length_cons] at hn; omega) cs ?_ rfl]
            · rfl
            · rcases h with h | ⟨c, hc, h⟩
              · left
                simp only [List.length_cons] at h
                rw [Nat.even_add_one, Nat.even_add_one, not_not] at h
                exact h
              · right
                rcases List.mem_cons.mp hc with rfl | hc
                · exact absurd ((hexVal_iff _ _).mp ha) (h x)
                · rcases List.mem_cons.mp hc with rfl | hc
                  · exact absurd ((hexVal_iff _ _).mp hb) (h y)
                  · exact ⟨c, hc, h⟩

/-- C32: two arbitrary bytes followed by an even number of hex digits parse to the big-endian value modulo `p`. -/
theorem C32_value (p : Nat) (a b : UInt8) (cs : List UInt8) (vs : List Nat) (h : List.Forall₂ HexDigit cs vs)
    (he : Even cs.length) : fromHex p (a :: b :: cs) = some (bigEndian vs % p) := by
  obtain ⟨bs, h1, h2⟩ := hexDecode_some h he 0
  have h3 : strFrom2 (a :: b :: cs) = some cs := by
    unfold strFrom2
    rw [if_neg (by simp only [List.length_cons]; omega), List.drop_succ_cons, List.drop_succ_cons, List.drop_zero]
    cases h with
    | nil => rfl
    | cons hc _ =>
      simp only
      rw [if_neg hc.not_continuation]
  simp only [fromHex, h3, h1, h2, Option.bind_eq_bind, Option.bind_some, Option.pure_def, bigEndian]

/-- C32: `from_hex` panics exactly on strings of fewer than two bytes, with byte 2 inside a character (a UTF-8
continuation byte, `10xxxxxx`), with an odd number of bytes after the first two, or with one that is not a hex digit
among them. -/
theorem C32_panics_iff (p : Nat) (s : List UInt8) :
    fromHex p s = none ↔
      s.length < 2 ∨ (∃ c, s[2]? = some c ∧ 128 ≤ c.toNat ∧ c.toNat < 192) ∨ ¬ Even (s.length - 2) ∨
        ∃ c ∈ s.drop 2, ∀ v, ¬ HexDigit c v := by
  have key : ∀ cs, (do let a ← hexDecode cs; pure (a.foldl (fun acc byte => acc * 256 + byte) 0 % p) : Option Nat)
      = none ↔ hexDecode cs = none := by
    intro cs
    cases hexDecode cs <;> simp
  match s with
  | [] => simp [fromHex, strFrom2]
  | [_] => simp [fromHex, strFrom2]
  | [a, b] => simp [fromHex, strFrom2, hexDecode]
  | a :: b :: c :: rest =>
    have hlen : (a :: b :: c :: rest).length - 2 = (c :: rest).length := by simp
    have hdrop : (a :: b :: c :: rest).drop 2 = c :: rest := rfl
    rw [hlen, hdrop]
    by_cases hc : c.toNat / 64 = 2
    · refine iff_of_true ?_ (Or.inr (Or.inl ⟨c, rfl, by omega, by omega⟩))
      simp [fromHex, strFrom2, hc]
    · have h3 : strFrom2 (a :: b :: c :: rest) = some (c :: rest) := by
        simp [strFrom2, hc]
      unfold fromHex
      rw [h3]
      simp only [Option.bind_eq_bind, Option.bind_some]
      have := key (c :: rest)
      simp only [Option.bind_eq_bind] at this
      rw [this, hexDecode_none]
      constructor
      · intro h
        exact Or.inr (Or.inr h)
      · rintro (h | ⟨d, h, h1, h2⟩ | h)
        · simp at h
        · simp only [List.getElem?_cons_succ, List.getElem?_cons_zero, Option.some.injEq] at h
          subst h
          omega
        · exact h

/-- `"0x1fA0"`. -/
example : fromHex 101 [48, 120, 49, 102, 65, 48] = some (0x1fa0 % 101) := by decide

example : List.Forall₂ HexDigit [49, 102, 65, 48] [1, 15, 10, 0] :=
  .cons (.digit 1 (by omega)) (.cons (.lower 5 (by omega)) (.cons (.upper 0 (by omega)) (.cons (.digit 0 (by omega))
    .nil)))

end ZkHash

import Verif.Theorems.ScriptSmall
import Verif.Theorems.ScriptText

set_option autoImplicit false

/-!
# The lines that `print_round_constants` prints: C86
-/

namespace ZkHash

open Spec Reader ScriptText

/-- **C86**, the lines of the listing: the number of constants, the kind of field (`0` and `1` are the values of `field` for
which a line is printed), and a list in brackets. -/
theorem C86_listing_lines (rc : List Nat) (n field : Nat) : ∃ count list : List UInt8,
    count ≠ [] ∧ (∀ c ∈ count, digit c = true) ∧ number (count ++ bytes "\n") = some (rc.length, bytes "\n") ∧
      Sage.printRoundConstants rc n field = bytes "Number of round constants: " ++ count ++ bytes "\n" ++
        (if field = 0 then bytes "Round constants for GF(2^n):\n"
          else if field = 1 then bytes "Round constants for GF(p):\n" else []) ++
        bytes "[" ++ list ++ bytes "]\n" := by
  let hex_length := (n + 3) / 4 + 2
  refine ⟨Sage.dec rc.length, [44, 32].intercalate ((rc.map fun entry => Sage.formatHex entry hex_length).map
    fun s => [39] ++ s ++ [39]), ?_, ?_, ?_, ?_⟩
  · unfold Sage.dec
    split
    · simp
    · rename_i h
      simpa [Nat.digits_eq_nil_iff_eq_zero] using h
  · intro c hc
    unfold Sage.dec at hc
    split at hc
    · rw [List.mem_singleton] at hc
      rw [hc]
      rfl
    · obtain ⟨d, hd, rfl⟩ := List.mem_map.mp hc
      exact (digit_ofNat (Nat.digits_lt_base (by omega) (List.mem_reverse.mp hd))).1
  · exact number_dec_cons rc.length 10 rfl []
  · have e1 : bytes "Number of round constants: " = Sage.ascii "Number of round constants:" ++ [32] := by decide +kernel
    have e2 : bytes "Round constants for GF(2^n):\n" = Sage.ascii "Round constants for GF(2^n):" ++ [10] := by
      decide +kernel
    have e3 : bytes "Round constants for GF(p):\n" = Sage.ascii "Round constants for GF(p):" ++ [10] := by decide +kernel
    have e4 : bytes "\n" = [10] := by decide +kernel
    have e5 : bytes "[" = [91] := by decide +kernel
    have e6 : bytes "]\n" = [93] ++ [10] := by decide +kernel
    rw [e1, e2, e3, e4, e5, e6]
    simp only [Sage.printRoundConstants, Sage.println, Sage.pyList, List.append_assoc]
    rfl

/-- Two constants of a field of 31 bits. -/
example : Sage.printRoundConstants [5, 2013265920] 31 1 =
    bytes "Number of round constants: 2\nRound constants for GF(p):\n['0x00000005', '0x78000000']\n" := by decide +kernel

end ZkHash

import Verif.Model.SageMain

set_option autoImplicit false

/-!
# Model of functions of `/repo/poseidon2_rust_params.sage` that the script defines and does not call
-/

namespace ZkHash.Sage

/-- `list(itertools.product(vals, repeat=n))`: lexicographic order. -/
def product {α : Type _} (vals : List α) : Nat → List (List α)
  | 0 => [[]]
  | n + 1 => vals.flatMap fun a => (product vals n).map (a :: ·)

open Classical in
/-- `generate_matrix_partial_small_entries(FIELD, FIELD_SIZE, NUM_CELLS)` for `FIELD = 1`, `poseidon2_rust_params.sage` lines
458-471: the first matrix that passes; `none` is the `None` that a Python function returns at its end. Each matrix is printed
(line 466), which is not modelled. -/
noncomputable def generateMatrixPartialSmallEntries (F : Type _) [Field F] (t : Nat) : Option (Matrix (Fin t) (Fin t) F) :=
  ((product (List.range' 2 4) t).map fun entry => circulantPlusDiagonal fun i => ((entry.getD i.val 0 : Nat) : F)).find?
    fun M => decide (¬ (M.det = 0 ∨ ¬ CheckMinpolyCondition M))

/-- `"{0:#0{1}x}".format(entry, hex_length)`: Python's `hex`, with zeros after `0x` up to `hex_length` characters. -/
def formatHex (entry hex_length : Nat) : List UInt8 := [48, 120] ++ zfill ((pyHex entry).drop 2) (hex_length - 2)

/-- What `print` shows of a list of strings without quotes and backslashes: `['a', 'b']`. -/
def pyList (strings : List (List UInt8)) : List UInt8 :=
  [91] ++ [44, 32].intercalate (strings.map fun s => [39] ++ s ++ [39]) ++ [93]

/-- `print_round_constants(round_constants, n, field)`, lines 194-202: the text. (`print` with two arguments puts a space
between them.) -/
def printRoundConstants (round_constants : List Nat) (n field : Nat) : List UInt8 :=
  let hex_length := (n + 3) / 4 + 2
  println (ascii "Number of round constants:" ++ [32] ++ dec round_constants.length) ++
  (if field = 0 then println (ascii "Round constants for GF(2^n):")
    else if field = 1 then println (ascii "Round constants for GF(p):") else []) ++
  println (pyList (round_constants.map fun entry => formatHex entry hex_length))

end ZkHash.Sage

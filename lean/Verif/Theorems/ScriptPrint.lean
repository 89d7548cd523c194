import Verif.Model.SagePrint
import Verif.Theorems.Fields
import Verif.Theorems.ScriptOutput

set_option autoImplicit false

/-!
# What the reference script prints, `from_hex` reads back: C61
-/

namespace ZkHash

open Fields

theorem hexChar_digit {d : Nat} (h : d < 16) : HexDigit (Sage.hexChar d) d := by
  rw [← hexVal_iff]
  interval_cases d <;> rfl

/-- The digits `hex` prints, most significant first. -/
def hexDigits (n : Nat) : List Nat := if n = 0 then [0] else (Nat.digits 16 n).reverse

theorem pyHex_eq (n : Nat) : Sage.pyHex n = 48 :: 120 :: (hexDigits n).map Sage.hexChar := by
  unfold Sage.pyHex hexDigits
  split <;> rfl

theorem bigEndian_append (a b : List Nat) : bigEndian (a ++ b) = b.foldl (fun acc d => 16 * acc + d) (bigEndian a) := by
  unfold bigEndian
  rw [List.foldl_append]

theorem bigEndian_zeros (k : Nat) (l : List Nat) : bigEndian (List.replicate k 0 ++ l) = bigEndian l := by
  rw [bigEndian_append]
  congr 1
  induction k with
  | zero => rfl
  | succ k ih => rw [List.replicate_succ]; exact ih

theorem bigEndian_reverse (l : List Nat) : bigEndian l.reverse = Nat.ofDigits 16 l := by
  induction l with
  | nil => rfl
  | cons d l ih =>
    rw [List.reverse_cons, bigEndian_append, ih, Nat.ofDigits_cons]
    simp only [List.foldl_cons, List.foldl_nil, Nat.cast_id]
    ring

theorem bigEndian_hexDigits (n : Nat) : bigEndian (hexDigits n) = n := by
  unfold hexDigits
  split
  · next h => rw [h]; rfl
  · rw [bigEndian_reverse, Nat.ofDigits_digits]

theorem hexDigits_lt {n d : Nat} (h : d ∈ hexDigits n) : d < 16 := by
  unfold hexDigits at h
  split at h
  · simp only [List.mem_singleton] at h; omega
  · exact Nat.digits_lt_base (by omega) (List.mem_reverse.mp h)

theorem hexDigits_length_mono {m n : Nat} (h : m ≤ n) : (hexDigits m).length ≤ (hexDigits n).length := by
  unfold hexDigits
  split
  · split
    · rfl
    · next h1 => simpa using Nat.one_le_iff_ne_zero.mpr (by simpa [Nat.digits_eq_nil_iff_eq_zero] using h1)
  · rw [if_neg (by omega)]
    simpa using Nat.le_length_digits_le 16 _ _ h

/-- The number of characters `to_hex` prints after `0x`: the digits of `p - 1`, made even. -/
def printWidth (p : Nat) : Nat := 2 * (((hexDigits (p - 1)).length + 1) / 2)

theorem toHex_eq (p v : Nat) : Sage.toHex p v = 48 :: 120 :: (List.replicate (printWidth p - (hexDigits v).length) 0 ++
    hexDigits v).map Sage.hexChar := by
  unfold Sage.toHex Sage.zfill
  simp only [pyHex_eq, List.length_cons, List.length_map, List.drop_succ_cons, List.drop_zero, List.map_append,
    List.map_replicate, List.cons_append, List.nil_append]
  have h : (if ((hexDigits (p - 1)).length + 1 + 1) % 2 == 1 then (hexDigits (p - 1)).length + 1 + 1 + 1
      else (hexDigits (p - 1)).length + 1 + 1) - 2 = printWidth p := by
    unfold printWidth
    split
    · next h => simp only [beq_iff_eq] at h; omega
    · next h => simp only [beq_iff_eq] at h; omega
  rw [h]
  rfl

theorem toHex_digits (p v : Nat) :
    List.Forall₂ HexDigit ((Sage.toHex p v).drop 2) (List.replicate (printWidth p - (hexDigits v).length) 0 ++
      hexDigits v) := by
  rw [toHex_eq]
  simp only [List.drop_succ_cons, List.drop_zero]
  rw [List.forall₂_map_left_iff, List.forall₂_same]
  intro d hd
  apply hexChar_digit
  rcases List.mem_append.mp hd with h | h
  · rw [List.eq_of_mem_replicate h]; omega
  · exact hexDigits_lt h

/-- **C61.** All elements of a field are printed at the same, even, width. -/
theorem C61_width (p v : Nat) (hv : v < p) :
    (Sage.toHex p v).length = (Sage.toHex p 0).length ∧ Even (Sage.toHex p v).length := by
  have h : ∀ w, w < p → (Sage.toHex p w).length = printWidth p + 2 := by
    intro w hw
    rw [toHex_eq]
    have h1 := hexDigits_length_mono (Nat.le_sub_one_of_lt hw)
    simp only [List.length_cons, List.length_map, List.length_append, List.length_replicate]
    unfold printWidth at *
    omega
  rw [h v hv, h 0 (by omega)]
  refine ⟨rfl, ?_⟩
  unfold printWidth
  exact ⟨((hexDigits (p - 1)).length + 1) / 2 + 1, by ring⟩

/-- **C61.** What the script prints for a field element, `from_hex` reads back as that element, for every modulus. -/
theorem C61_round_trip (p v : Nat) (hv : v < p) : fromHex p (Sage.toHex p v) = some v := by
  have hd := toHex_digits p v
  have hl := (C61_width p v hv).2
  rw [toHex_eq] at hd hl ⊢
  simp only [List.drop_succ_cons, List.drop_zero] at hd
  rw [C32_value p 48 120 _ _ hd (by
    simp only [List.length_cons] at hl
    rw [Nat.even_add_one, Nat.even_add_one, not_not] at hl
    exact hl), bigEndian_zeros, bigEndian_hexDigits, Nat.mod_eq_of_lt hv]

/-- **C61.** Reading never panics, even into another field: the value is then reduced. -/
theorem C61_other_field (p q v : Nat) (hv : v < p) : fromHex q (Sage.toHex p v) = some (v % q) := by
  have hd := toHex_digits p v
  have hl := (C61_width p v hv).2
  rw [toHex_eq] at hd hl ⊢
  simp only [List.drop_succ_cons, List.drop_zero] at hd
  rw [C32_value q 48 120 _ _ hd (by
    simp only [List.length_cons] at hl
    rw [Nat.even_add_one, Nat.even_add_one, not_not] at hl
    exact hl), bigEndian_zeros, bigEndian_hexDigits]

/-- **C61**, in terms of field elements: printing a whole table and reading it returns the table. -/
theorem C61_table (p : Nat) [NeZero p] (rows : List (List (ZMod p))) :
    rows.mapM (fun row => row.mapM fun x => (fromHex p (Sage.toHex p x.val)).map fun n : Nat => (n : ZMod p)) = some rows := by
  have h1 : ∀ row : List (ZMod p),
      row.mapM (fun x => (fromHex p (Sage.toHex p x.val)).map fun n : Nat => (n : ZMod p)) = some row := by
    intro row
    induction row with
    | nil => rfl
    | cons x row ih =>
      rw [List.mapM_cons, ih, C61_round_trip p x.val (ZMod.val_lt x)]
      simp
  induction rows with
  | nil => rfl
  | cons row rows ih =>
    rw [List.mapM_cons, ih, h1]
    rfl

/-- In `F_257` the last element is `0x0100`: the width is made even. -/
example : Sage.toHex 257 256 = [48, 120, 48, 49, 48, 48] ∧ Sage.toHex 257 171 = [48, 120, 48, 48, 97, 98] := by
  refine ⟨?_, ?_⟩ <;> simp [Sage.toHex, Sage.pyHex, Sage.zfill, Sage.hexChar]

end ZkHash

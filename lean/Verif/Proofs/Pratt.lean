import Mathlib.NumberTheory.LucasPrimality
import Mathlib.GroupTheory.OrderOfElement
import Mathlib.Data.Nat.Prime.Basic
import Mathlib.Algebra.BigOperators.Associated

set_option autoImplicit false

/-!
# Primality certificates

Pratt certificates: a witness whose order modulo `p` is `p - 1`, checked by the kernel through modular exponentiation
on natural numbers.
-/

namespace ZkHash

/-- Square-and-multiply, `acc * b^e mod p`, with `fuel` bits. -/
def powModAux (p : Nat) : Nat → Nat → Nat → Nat → Nat
  | 0, _, _, acc => acc
  | fuel + 1, b, e, acc =>
    if e % 2 = 1 then powModAux p fuel (b * b % p) (e / 2) (acc * b % p)
    else powModAux p fuel (b * b % p) (e / 2) acc

/-- `a^e mod p` for `e < 2^300`. -/
def powMod (p a e : Nat) : Nat := powModAux p 300 (a % p) e (1 % p)

theorem powModAux_eq (p fuel b e acc : Nat) (he : e < 2 ^ fuel) :
    ((powModAux p fuel b e acc : Nat) : ZMod p) = (acc : ZMod p) * (b : ZMod p) ^ e := by
  induction fuel generalizing b e acc with
  | zero =>
    have : e = 0 := by simpa using he
    subst this
    simp [powModAux]
  | succ fuel ih =>
    have h2 : e / 2 < 2 ^ fuel := by rw [pow_succ] at he; omega
    unfold powModAux
    have hsq : ((b * b % p : Nat) : ZMod p) = (b : ZMod p) ^ 2 := by
      rw [ZMod.natCast_mod, Nat.cast_mul, sq]
    by_cases h : e % 2 = 1
    · rw [if_pos h, ih _ _ _ h2, hsq, ZMod.natCast_mod, Nat.cast_mul, ← pow_mul, mul_assoc]
      congr 1
      rw [← pow_succ']
      congr 1
      omega
    · rw [if_neg h, ih _ _ _ h2, hsq, ← pow_mul]
      congr 2
      omega

theorem powModAux_lt {p : Nat} (hp : 0 < p) (fuel b e acc : Nat) (h : acc < p) : powModAux p fuel b e acc < p := by
  induction fuel generalizing b e acc with
  | zero => exact h
  | succ fuel ih =>
    unfold powModAux
    split
    · exact ih _ _ _ (Nat.mod_lt _ hp)
    · exact ih _ _ _ h

theorem powMod_eq (p a e : Nat) (he : e < 2 ^ 300) : ((powMod p a e : Nat) : ZMod p) = (a : ZMod p) ^ e := by
  unfold powMod
  rw [powModAux_eq _ _ _ _ _ he]
  simp

theorem powMod_lt {p : Nat} (hp : 0 < p) (a e : Nat) : powMod p a e < p :=
  powModAux_lt hp _ _ _ _ (Nat.mod_lt _ hp)

theorem powMod_eq_one_iff {p : Nat} (hp : 1 < p) (a e : Nat) (he : e < 2 ^ 300) :
    powMod p a e = 1 ↔ (a : ZMod p) ^ e = 1 := by
  rw [← powMod_eq p a e he]
  constructor
  · intro h; rw [h]; simp
  · intro h
    have h1 : ((powMod p a e : Nat) : ZMod p) = ((1 : Nat) : ZMod p) := by rw [h]; simp
    rw [ZMod.natCast_eq_natCast_iff'] at h1
    rw [Nat.mod_eq_of_lt (powMod_lt (by omega) a e), Nat.mod_eq_of_lt hp] at h1
    exact h1

/-- The certificate check: the factors multiply to `p - 1`, `a^(p-1) = 1` and no `a^((p-1)/q) = 1`. -/
def prattCheck (p a : Nat) (fs : List (Nat × Nat)) : Bool :=
  decide (1 < p) && decide (p < 2 ^ 300) && ((fs.map fun f => f.1 ^ f.2).prod == p - 1) &&
    (powMod p a (p - 1) == 1) && fs.all fun f => powMod p a ((p - 1) / f.1) != 1

/-- All factors of a certificate are prime. -/
inductive AllPrime : List (Nat × Nat) → Prop where
  | nil : AllPrime []
  | cons {q e : Nat} {l : List (Nat × Nat)} (hq : Nat.Prime q) (h : AllPrime l) : AllPrime ((q, e) :: l)

theorem AllPrime.prime {l : List (Nat × Nat)} (h : AllPrime l) : ∀ f ∈ l, Nat.Prime f.1 := by
  induction h with
  | nil => simp
  | cons hq _ ih =>
    intro f hf
    rcases List.mem_cons.mp hf with rfl | hf
    · exact hq
    · exact ih f hf

/-- A checked certificate with prime factors proves primality and the order of the witness. -/
theorem pratt (p a : Nat) (fs : List (Nat × Nat)) (h : prattCheck p a fs = true)
    (hq : AllPrime fs) : Nat.Prime p ∧ orderOf ((a : Nat) : ZMod p) = p - 1 := by
  simp only [prattCheck, Bool.and_eq_true, decide_eq_true_eq, beq_iff_eq, List.all_eq_true, bne_iff_ne, ne_eq] at h
  obtain ⟨⟨⟨⟨h1, h2⟩, h3⟩, h4⟩, h5⟩ := h
  have hpow : ((a : Nat) : ZMod p) ^ (p - 1) = 1 := (powMod_eq_one_iff h1 a _ (by omega)).mp h4
  have hdiv : ∀ q, Nat.Prime q → q ∣ p - 1 → ((a : Nat) : ZMod p) ^ ((p - 1) / q) ≠ 1 := by
    intro q hqp hqd
    rw [← h3] at hqd
    obtain ⟨x, hx, hqx⟩ := (Prime.dvd_prod_iff hqp.prime).mp hqd
    obtain ⟨f, hf, rfl⟩ := List.mem_map.mp hx
    have hqf : q ∣ f.1 := hqp.dvd_of_dvd_pow hqx
    have hfp := hq.prime f hf
    have : q = f.1 := (Nat.prime_dvd_prime_iff_eq hqp hfp).mp hqf
    subst this
    intro hc
    exact h5 f hf ((powMod_eq_one_iff h1 a _ (by
      have := Nat.div_le_self (p - 1) f.1
      omega)).mpr hc)
  refine ⟨lucas_primality p _ hpow hdiv, ?_⟩
  exact orderOf_eq_of_pow_and_pow_div_prime (by omega) hpow hdiv

end ZkHash

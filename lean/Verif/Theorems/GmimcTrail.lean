import Verif.Theorems.ShippedOther
import Verif.Proofs.Trail

set_option autoImplicit false

/-!
# S-boxes with different inputs in GMiMC: C72
-/

namespace ZkHash

open Spec

namespace GmimcTrail

open Fin.CommRing

variable {F : Type} [CommRing F] {s : Nat}

/-- One round with a rotation. -/
def g (d : Nat) (c : Nat → F) (r : Nat) (y : Fin (s + 1) → F) : Fin (s + 1) → F := rotate (feistel d (c r) y)

theorem g_apply (d : Nat) (c : Nat → F) (r : Nat) (y : Fin (s + 1) → F) (i : Fin (s + 1)) :
    g d c r y i = if i - 1 = 0 then y 0 else y (i - 1) + (y 0 + c r) ^ d := rfl

/-- Differences of two states rotate as long as the first words agree. -/
theorem inactive_run (d : Nat) (c : Nat → F) (z z' : Nat → Fin (s + 1) → F)
    (hz : ∀ r, z (r + 1) = g d c r (z r)) (hz' : ∀ r, z' (r + 1) = g d c r (z' r)) (a : Nat) :
    ∀ m, (∀ j < m, z (a + j) 0 = z' (a + j) 0) → ∀ i, z (a + m) i - z' (a + m) i = z a (i - m) - z' a (i - m) := by
  intro m
  induction m with
  | zero => intro _ i; simp
  | succ m ih =>
    intro h i
    have h0 := h m (by omega)
    have hi := ih (fun j hj => h j (by omega)) (i - 1)
    have e : i - ((m + 1 : ℕ) : Fin (s + 1)) = i - 1 - (m : Fin (s + 1)) := by push_cast; ring
    rw [e, ← hi, ← Nat.add_assoc, hz, hz', g_apply, g_apply, h0]
    split
    · next he => rw [he, h0]
    · ring

/-- Two different states: among the next `s + 2` rounds at least two have different S-box inputs. -/
theorem window {d : Nat} (hinj : Function.Injective fun x : F => x ^ d) (c : Nat → F)
    (z z' : Nat → Fin (s + 1) → F)
    (hz : ∀ r, z (r + 1) = g d c r (z r)) (hz' : ∀ r, z' (r + 1) = g d c r (z' r)) (a : Nat) (hne : z a ≠ z' a) :
    ∃ j k, j < k ∧ k < s + 2 ∧ z (a + j) 0 ≠ z' (a + j) 0 ∧ z (a + k) 0 ≠ z' (a + k) 0 := by
  classical
  have hex : ∃ j, j < s + 1 ∧ z (a + j) 0 ≠ z' (a + j) 0 := by
    by_contra hno
    push Not at hno
    apply hne
    funext i
    have h1 := inactive_run d c z z' hz hz' a (-i : Fin (s + 1)).val
      (fun j hj => hno j (by have := (-i : Fin (s + 1)).isLt; omega)) 0
    rw [Fin.cast_val_eq_self, hno _ (-i : Fin (s + 1)).isLt, sub_self, zero_sub, neg_neg] at h1
    exact sub_eq_zero.mp h1.symm
  obtain ⟨hj, hact⟩ := Nat.find_spec hex
  have hmin := fun m (hm : m < Nat.find hex) => Nat.find_min hex hm
  generalize Nat.find hex = j at hj hact hmin
  have hbefore : ∀ m < j, z (a + m) 0 = z' (a + m) 0 := by
    intro m hm
    by_contra h
    exact hmin m hm ⟨by omega, h⟩
  by_contra hno
  push Not at hno
  have hafter : ∀ m, m < s + 1 - j → z (a + j + 1 + m) 0 = z' (a + j + 1 + m) 0 := by
    intro m hm
    by_contra h
    exact h (by have := hno j (j + 1 + m) (by omega) (by omega) hact; rwa [← Nat.add_assoc, ← Nat.add_assoc] at this)
  have hlast := inactive_run d c z z' hz hz' (a + j + 1) (s - j) (fun m hm => hafter m (by omega)) 0
  rw [hafter (s - j) (by omega), sub_self] at hlast
  have hidx : (0 : Fin (s + 1)) - ((s - j : ℕ) : Fin (s + 1)) - 1 = (j : Fin (s + 1)) := by
    have h1 : ((s - j + 1 + j : ℕ) : Fin (s + 1)) = 0 := by
      rw [show s - j + 1 + j = s + 1 by omega]
      exact Fin.natCast_self _
    push_cast at h1
    linear_combination -h1
  rw [hz (a + j), hz' (a + j), g_apply, g_apply, hidx] at hlast
  rcases Nat.eq_zero_or_pos j with rfl | hpos
  · simp only [Nat.cast_zero, if_true] at hlast
    exact hact (sub_eq_zero.mp hlast.symm)
  · have hj0 : (j : Fin (s + 1)) ≠ 0 := by
      intro h
      have := congrArg Fin.val h
      rw [Fin.val_natCast, Nat.mod_eq_of_lt hj] at this
      simp at this
      omega
    rw [if_neg hj0, if_neg hj0] at hlast
    have hrun := inactive_run d c z z' hz hz' a j hbefore (j : Fin (s + 1))
    have h0 := hbefore 0 hpos
    rw [Nat.add_zero] at h0
    rw [sub_self, h0, sub_self] at hrun
    apply hact
    have he : (fun x : F => x ^ d) (z (a + j) 0 + c (a + j)) = (fun x : F => x ^ d) (z' (a + j) 0 + c (a + j)) := by
      beta_reduce
      linear_combination -hlast - hrun
    exact add_right_cancel (hinj he)

/-- Blocks of `t` with at least two each. -/
theorem blocks_two (h : Nat → Nat) (t n : Nat)
    (hB : ∀ r, r + t ≤ n → 2 ≤ ∑ j ∈ Finset.range t, h (r + j)) :
    2 * (n / t) ≤ ∑ i ∈ Finset.range n, h i := by
  have key : ∀ q, q * t ≤ n → 2 * q ≤ ∑ i ∈ Finset.range (q * t), h i := by
    intro q
    induction q with
    | zero => simp
    | succ q ih =>
      intro hq
      rw [Nat.succ_mul] at hq
      rw [Nat.succ_mul q t, Finset.sum_range_add]
      have h1 := ih (by omega)
      have h2 := hB (q * t) (by omega)
      omega
  have hle := Nat.div_mul_le_self n t
  exact (key _ hle).trans (Finset.sum_le_sum_of_subset (Finset.range_mono hle))

end GmimcTrail

/-- **C72.** Take a shipped GMiMC parameter set, whatever the generator delivered, and two different inputs of its width.
The states before the rounds of the two computations are `s 0, s 1, ...` and `s' 0, s' 1, ...`. The S-box of round `r`
gets the first word of `s r` (plus the constant of the round). At least `2 * (rounds / (t + 1))` rounds give their S-box
different inputs in the two computations; more precisely, any `t + 1` consecutive rounds contain two such rounds. -/
theorem C72_gmimc_active (S : Shape) (hS : S ∈ Instances.gmimc) [Fact S.modulus.Prime] (dbg : Bool)
    (stream : List (ZMod S.modulus)) (hlen : S.rounds_f ≤ stream.length) :
    ∃ P, GmimcParams.new S.t S.d S.rounds_f stream = some (P, stream.drop S.rounds_f) ∧
      ∀ x y : List (ZMod S.modulus), x.length = S.t → y.length = S.t → x ≠ y →
        ∃ s s' : Nat → List (ZMod S.modulus), s 0 = x ∧ s' 0 = y ∧
          (∀ r < S.rounds_f - 1, (Gmimc.round P (s r) r).bind rotateRight1 = some (s (r + 1))) ∧
          (∀ r < S.rounds_f - 1, (Gmimc.round P (s' r) r).bind rotateRight1 = some (s' (r + 1))) ∧
          Gmimc.permutation dbg P x = Gmimc.round P (s (S.rounds_f - 1)) (S.rounds_f - 1) ∧
          Gmimc.permutation dbg P y = Gmimc.round P (s' (S.rounds_f - 1)) (S.rounds_f - 1) ∧
          (∀ a, a + (S.t + 1) ≤ S.rounds_f → ∃ j k, a ≤ j ∧ j < k ∧ k < a + (S.t + 1) ∧
            (s j).head? ≠ (s' j).head? ∧ (s k).head? ≠ (s' k).head?) ∧
          2 * (S.rounds_f / (S.t + 1)) ≤ (List.range S.rounds_f).countP fun r => (s r).head? ≠ (s' r).head? := by
  obtain ⟨-, hd, ht, hr⟩ := gmimc_good S hS
  obtain ⟨P, hP, hopt, hbij⟩ := C55_gmimc S hS dbg stream hlen
  obtain ⟨hPeq, hl, -⟩ := (C21_new S.t S.d S.rounds_f stream hlen).2 P _ hP
  have hinj := (C45_sbox_bijective.2.2.2 S hS).injective
  refine ⟨P, hP, ?_⟩
  have hPt : P.t = S.t := by rw [hPeq]
  have hPd : P.d = S.d := by rw [hPeq]
  have hPr : P.rounds = S.rounds_f := by rw [hPeq]
  clear hPeq hS hP
  obtain ⟨n, hn⟩ : ∃ n, S.rounds_f = n + 1 := ⟨S.rounds_f - 1, by omega⟩
  obtain ⟨k, hk⟩ : ∃ k, S.t = k + 1 := ⟨S.t - 1, by omega⟩
  rw [hn] at hl hPr ⊢
  rw [hk] at hPt hbij ht ⊢
  have hround : ∀ (z : Fin (k + 1) → ZMod S.modulus) r, r ≤ n →
      Gmimc.round P (List.ofFn z) r = some (List.ofFn (feistel P.d (vec P.round_constants r) z)) := by
    intro z r hrn
    exact Gmimc.round_ofFn P (by rw [hPd]; exact hd) (by omega) z
  have hrot : ∀ z : Fin (k + 1) → ZMod S.modulus, rotateRight1 (List.ofFn z) = some (List.ofFn (rotate z)) := by
    intro z
    exact Gmimc.rotateRight1_ofFn z
  have hperm := fun z => C19_permutation_eq_spec (s := k) (n := n) dbg P hPt hPr (by rw [hPd]; exact hd) (by omega) z
  intro x y hx hy hxy
  obtain ⟨x, rfl⟩ := eq_ofFn x hx
  obtain ⟨y, rfl⟩ := eq_ofFn y hy
  obtain ⟨z, hzdef⟩ : ∃ z : Nat → Fin (k + 1) → ZMod S.modulus, z =
    fun r => rounds (fun r y => rotate (feistel P.d (vec P.round_constants r) y)) 0 r x := ⟨_, rfl⟩
  obtain ⟨z', hzdef'⟩ : ∃ z' : Nat → Fin (k + 1) → ZMod S.modulus, z' =
    fun r => rounds (fun r y => rotate (feistel P.d (vec P.round_constants r) y)) 0 r y := ⟨_, rfl⟩
  have hz : ∀ r, z (r + 1) = GmimcTrail.g P.d (vec P.round_constants) r (z r) := by
    intro r; rw [hzdef]; simp only [rounds, Nat.zero_add]; rfl
  have hz' : ∀ r, z' (r + 1) = GmimcTrail.g P.d (vec P.round_constants) r (z' r) := by
    intro r; rw [hzdef']; simp only [rounds, Nat.zero_add]; rfl
  have hne : ∀ r ≤ n, z r ≠ z' r := by
    have hout : z n ≠ z' n := by
      intro he
      have h1 := hperm x
      have h2 := hperm y
      unfold gmimc at h1 h2
      have e1 : z n = rounds (fun r y => rotate (feistel P.d (vec P.round_constants r) y)) 0 n x := by rw [hzdef]
      have e2 : z' n = rounds (fun r y => rotate (feistel P.d (vec P.round_constants r) y)) 0 n y := by rw [hzdef']
      rw [← e1, he] at h1
      rw [← e2] at h2
      obtain ⟨w, -, huniq⟩ := hbij.2 _ (List.length_ofFn (f := feistel P.d (vec P.round_constants n) (z' n)))
      exact hxy ((huniq _ ⟨List.length_ofFn, h1⟩).trans (huniq _ ⟨List.length_ofFn, h2⟩).symm)
    rw [hzdef, hzdef'] at hout ⊢
    exact Trail.rounds_ne _ hout
  have hhead : ∀ w : Fin (k + 1) → ZMod S.modulus, (List.ofFn w).head? = some (w 0) := by
    intro w; rw [List.ofFn_succ]; rfl
  have hinj' : Function.Injective fun x : ZMod S.modulus => x ^ P.d := by rw [hPd]; exact hinj
  have hwin : ∀ a, a + (k + 1 + 1) ≤ n + 1 → ∃ j l, a ≤ j ∧ j < l ∧ l < a + (k + 1 + 1) ∧
      (List.ofFn (z j)).head? ≠ (List.ofFn (z' j)).head? ∧ (List.ofFn (z l)).head? ≠ (List.ofFn (z' l)).head? := by
    intro a ha
    obtain ⟨j, l, h1, h2, h3, h4⟩ := GmimcTrail.window hinj' (vec P.round_constants) z z' hz hz' a
      (hne a (by omega))
    refine ⟨a + j, a + l, by omega, by omega, by omega, ?_, ?_⟩
    · rw [hhead, hhead]; simpa using h3
    · rw [hhead, hhead]; simpa using h4
  refine ⟨fun r => List.ofFn (z r), fun r => List.ofFn (z' r), ?_, ?_, ?_, ?_, ?_, ?_, hwin, ?_⟩
  · rw [hzdef]; rfl
  · rw [hzdef']; rfl
  · intro r hr
    beta_reduce
    rw [hround _ _ (by omega), Option.bind_some, hrot, hz]; rfl
  · intro r hr
    beta_reduce
    rw [hround _ _ (by omega), Option.bind_some, hrot, hz']; rfl
  · rw [hperm, Nat.add_sub_cancel, hround _ _ le_rfl, hzdef]; rfl
  · rw [hperm, Nat.add_sub_cancel, hround _ _ le_rfl, hzdef']; rfl
  · obtain ⟨h, hh⟩ : ∃ h : Nat → Nat, h = fun r => if (List.ofFn (z r)).head? ≠ (List.ofFn (z' r)).head? then 1 else 0 :=
      ⟨_, rfl⟩
    have hsum : ((List.range (n + 1)).countP fun r => (List.ofFn (z r)).head? ≠ (List.ofFn (z' r)).head?) =
        ∑ r ∈ Finset.range (n + 1), h r := by
      generalize n + 1 = N
      induction N with
      | zero => rfl
      | succ N ih =>
        rw [List.range_succ, List.countP_append, ih, Finset.sum_range_succ, List.countP_singleton, hh]
        simp
    rw [hsum]
    refine GmimcTrail.blocks_two h _ _ fun r hr => ?_
    obtain ⟨j, l, h1, h2, h3, h4, h5⟩ := hwin r hr
    have hsub : ∑ i ∈ ({j - r, l - r} : Finset Nat), h (r + i) ≤ ∑ i ∈ Finset.range (k + 1 + 1), h (r + i) :=
      Finset.sum_le_sum_of_subset (by
        intro i hi
        simp only [Finset.mem_insert, Finset.mem_singleton] at hi
        rw [Finset.mem_range]
        omega)
    rw [Finset.sum_pair (by omega), show r + (j - r) = j by omega, show r + (l - r) = l by omega] at hsub
    have e1 : h j = 1 := by rw [hh]; exact if_pos h4
    have e2 : h l = 1 := by rw [hh]; exact if_pos h5
    omega

/-- The numbers the theorem gives: at least 32 for every shipped parameter set, 112 for width 3. -/
example : (Instances.gmimc.all fun S => decide (32 ≤ 2 * (S.rounds_f / (S.t + 1)))) = true ∧
    ((Instances.gmimc.filter fun S => S.t == 3).map fun S => 2 * (S.rounds_f / (S.t + 1))) = [112, 112, 112, 112] := by
  decide +kernel

/-- Two different inputs may agree in the S-box of most rounds of a window: two states of width 3 over the field with 7
elements that differ only in position 2 reach the S-box with different inputs in round 1 (and in no round before). -/
example : GmimcTrail.g (s := 2) 5 (fun _ => (0 : ZMod 7)) 0 ![1, 2, 3] 0 ≠
      GmimcTrail.g (s := 2) 5 (fun _ => (0 : ZMod 7)) 0 ![1, 2, 4] 0 ∧
    (![1, 2, 3] : Fin 3 → ZMod 7) 0 = (![1, 2, 4] : Fin 3 → ZMod 7) 0 := by
  decide

end ZkHash

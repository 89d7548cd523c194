import Verif.Proofs.Uniform
import Verif.Theorems.NeptuneLast
import Verif.Theorems.ShippedOther

set_option autoImplicit false

/-!
# Which constants send a given input to a given output: C90
-/

namespace ZkHash

open Spec Matrix

variable {dbg : Bool}

/-- The constructor of GMiMC on exactly as many elements as it asks for. -/
theorem gmimc_new_exact {F : Type} [Field F] {t d rounds : Nat} (hd : d = 3 ∨ d = 5 ∨ d = 7) {l : List F}
    (hl : l.length = rounds) : GmimcParams.new t d rounds l = some (⟨t, d, rounds, l⟩, []) := by
  obtain ⟨h1, h2⟩ := C21_new t d rounds l hl.ge
  cases hnew : GmimcParams.new t d rounds l with
  | none => have := h1.mp hnew; omega
  | some pr =>
    obtain ⟨P, rest⟩ := pr
    obtain ⟨h3, -, h4⟩ := h2 P rest hnew
    rw [h3, h4, List.take_of_length_le hl.le, List.drop_of_length_le hl.le]

/-- **C90**, GMiMC. Over a finite field on which `x ↦ x ^ d` is a bijection and in which `t - 1` is not zero, with at least
as many rounds as words: whatever the generator delivers for all but the last `t` rounds, for every input `x` and every
state `y` exactly one delivery for the last `t` rounds gives parameters whose permutation sends `x` to `y`. -/
theorem C90_gmimc {F : Type} [Field F] [Fintype F] (dbg : Bool) {t d rounds : Nat} (hd : d = 3 ∨ d = 5 ∨ d = 7)
    (hcop : Nat.Coprime d (Fintype.card F - 1)) (ht : ((t - 1 : Nat) : F) ≠ 0) {pre : List F}
    (hpre : pre.length + t = rounds) {x y : List F} (hx : x.length = t) (hy : y.length = t) :
    ∃! c : Fin t → F, ∃ P, GmimcParams.new t d rounds (pre ++ List.ofFn c) = some (P, []) ∧
      Gmimc.permutation dbg P x = some y := by
  obtain ⟨s, rfl⟩ : ∃ s, t = s + 1 := ⟨t - 1, by
    rcases t with _ | t
    · simp at ht
    · omega⟩
  obtain ⟨n, rfl⟩ : ∃ n, rounds = n + 1 := ⟨rounds - 1, by omega⟩
  obtain ⟨x, rfl⟩ := eq_ofFn x hx
  obtain ⟨y, rfl⟩ := eq_ofFn y hy
  have hbij := Uniform.gmimc_bijective (by simpa using ht) ((pow_bijective_iff (by omega)).mpr hcop).injective pre hpre x
  have hkey : ∀ c : Fin (s + 1) → F, (∃ P, GmimcParams.new (s + 1) d (n + 1) (pre ++ List.ofFn c) = some (P, []) ∧
      Gmimc.permutation dbg P (List.ofFn x) = some (List.ofFn y)) ↔ gmimc d (vec (pre ++ List.ofFn c)) n x = y := by
    intro c
    have hlen : (pre ++ List.ofFn c).length = n + 1 := by simpa using hpre
    have hspec := C19_permutation_eq_spec dbg (⟨s + 1, d, n + 1, pre ++ List.ofFn c⟩ : GmimcParams F) rfl rfl hd
      hlen.ge x
    constructor
    · rintro ⟨P, h1, h2⟩
      rw [gmimc_new_exact hd hlen] at h1
      cases h1
      rw [hspec] at h2
      exact List.ofFn_injective (Option.some.inj h2)
    · intro h
      exact ⟨_, gmimc_new_exact hd hlen, by rw [hspec]; simp only [h]⟩
  obtain ⟨c, hc, huniq⟩ := hbij.existsUnique y
  exact ⟨c, (hkey c).mpr hc, fun c' hc' => huniq c' ((hkey c').mp hc')⟩

/-- **C90**, counted: of the `q ^ rounds` deliveries, exactly `q ^ (rounds - t)` send `x` to `y`, the same number for every
`y`. -/
theorem C90_gmimc_count {F : Type} [Field F] [Fintype F] (dbg : Bool) {t d rounds : Nat} (hd : d = 3 ∨ d = 5 ∨ d = 7)
    (hcop : Nat.Coprime d (Fintype.card F - 1)) (ht : ((t - 1 : Nat) : F) ≠ 0) (hr : t ≤ rounds)
    {x y : List F} (hx : x.length = t) (hy : y.length = t) :
    Nat.card {c : Fin rounds → F // ∃ P, GmimcParams.new t d rounds (List.ofFn c) = some (P, []) ∧
      Gmimc.permutation dbg P x = some y} = Fintype.card F ^ (rounds - t) := by
  obtain ⟨a, rfl⟩ : ∃ a, rounds = a + t := ⟨rounds - t, by omega⟩
  rw [Nat.add_sub_cancel]
  exact Uniform.count_unique (a := a) (b := t) (fun l => ∃ P, GmimcParams.new t d (a + t) l = some (P, []) ∧
    Gmimc.permutation dbg P x = some y) fun u => C90_gmimc dbg hd hcop ht (pre := List.ofFn u) (by simp) hx hy

/-- **C90**, one word of the result: exactly `1 / q` of the deliveries give word `i` the value `v`. -/
theorem C90_gmimc_word {F : Type} [Field F] [Fintype F] (dbg : Bool) {t d rounds : Nat} (hd : d = 3 ∨ d = 5 ∨ d = 7)
    (hcop : Nat.Coprime d (Fintype.card F - 1)) (ht : ((t - 1 : Nat) : F) ≠ 0) (hr : t ≤ rounds)
    {x : List F} (hx : x.length = t) {i : Nat} (hi : i < t) (v : F) :
    Nat.card {c : Fin rounds → F // ∃ P y, GmimcParams.new t d rounds (List.ofFn c) = some (P, []) ∧
      Gmimc.permutation dbg P x = some y ∧ y[i]? = some v} = Fintype.card F ^ (rounds - 1) := by
  have hnew : ∀ c : Fin rounds → F, GmimcParams.new t d rounds (List.ofFn c) = some (⟨t, d, rounds, List.ofFn c⟩, []) :=
    fun c => gmimc_new_exact hd (by simp)
  have h1 : ∀ y : Fin t → F, Nat.card {c : Fin rounds → F //
      Gmimc.permutation dbg ⟨t, d, rounds, List.ofFn c⟩ x = some (List.ofFn y)} = Fintype.card F ^ (rounds - t) := by
    intro y
    rw [← C90_gmimc_count dbg hd hcop ht hr hx (y := List.ofFn y) (by simp)]
    refine Nat.card_congr (Equiv.subtypeEquivRight fun c => ⟨fun h => ⟨_, hnew c, h⟩, ?_⟩)
    rintro ⟨P, h2, h3⟩
    rw [hnew c] at h2
    cases h2
    exact h3
  have h2 := Uniform.count_of_states (fun c : Fin rounds → F => Gmimc.permutation dbg ⟨t, d, rounds, List.ofFn c⟩ x) h1
    (fun c y hcy => by
      obtain ⟨s, rfl⟩ : ∃ s, t = s + 1 := ⟨t - 1, by omega⟩
      obtain ⟨n, rfl⟩ : ∃ n, rounds = n + 1 := ⟨rounds - 1, by omega⟩
      obtain ⟨x, rfl⟩ := eq_ofFn x hx
      rw [C19_permutation_eq_spec dbg _ rfl rfl hd (by simp) x] at hcy
      cases hcy
      simp) ⟨i, hi⟩ v
  rw [← pow_add, show t - 1 + (rounds - t) = rounds - 1 by omega] at h2
  rw [← h2]
  refine Nat.card_congr (Equiv.subtypeEquivRight fun c => ?_)
  rw [Option.bind_eq_some_iff]
  constructor
  · rintro ⟨P, y, h3, h4, h5⟩
    rw [hnew c] at h3
    cases h3
    exact ⟨y, h4, h5⟩
  · rintro ⟨y, h4, h5⟩
    exact ⟨_, y, hnew c, h4, h5⟩

/-- **C90**, compression: for two given elements every digest is the result of exactly `1 / q` of the deliveries. -/
theorem C90_gmimc_compress {F : Type} [Field F] [Fintype F] (dbg : Bool) {d rounds : Nat} (hd : d = 3 ∨ d = 5 ∨ d = 7)
    (hcop : Nat.Coprime d (Fintype.card F - 1)) (h2 : (2 : F) ≠ 0) (hr : 3 ≤ rounds) (a b h : F) :
    Nat.card {c : Fin rounds → F // ∃ P, GmimcParams.new 3 d rounds (List.ofFn c) = some (P, []) ∧
      Gmimc.compress dbg P [a, b] = some h} = Fintype.card F ^ (rounds - 1) := by
  rw [← C90_gmimc_word dbg hd hcop (t := 3) (by simpa using h2) hr (x := [a, b, 0]) rfl (i := 0) (by omega) h]
  refine Nat.card_congr (Equiv.subtypeEquivRight fun c => ?_)
  constructor
  · rintro ⟨P, h3, h4⟩
    cases hp : Gmimc.permutation dbg P [a, b, 0] with
    | none => simp [Gmimc.compress, hp] at h4
    | some y => exact ⟨P, y, h3, hp, by simpa [Gmimc.compress, hp] using h4⟩
  · rintro ⟨P, y, h3, h4, h5⟩
    exact ⟨P, h3, by simp [Gmimc.compress, h4, h5]⟩

/-- **C90** for the shipped GMiMC parameter sets. -/
theorem C90_gmimc_shipped (S : Shape) (hS : S ∈ Instances.gmimc) [Fact S.modulus.Prime] (dbg : Bool)
    {x y : List (ZMod S.modulus)} (hx : x.length = S.t) (hy : y.length = S.t) :
    Nat.card {c : Fin S.rounds_f → ZMod S.modulus // ∃ P,
      GmimcParams.new S.t S.d S.rounds_f (List.ofFn c) = some (P, []) ∧ Gmimc.permutation dbg P x = some y} =
        S.modulus ^ (S.rounds_f - S.t) := by
  have : NeZero S.modulus := ⟨(Fact.out : S.modulus.Prime).ne_zero⟩
  obtain ⟨-, hd, ht, -⟩ := gmimc_good S hS
  have h : (Instances.gmimc.all fun S => decide (S.t < S.rounds_f ∧ S.t < S.modulus)) = true := by decide +kernel
  have := List.all_eq_true.mp h S hS
  rw [decide_eq_true_eq] at this
  have hcop := (pow_bijective_iff (F := ZMod S.modulus) (by omega)).mp (C45_sbox_bijective.2.2.2 S hS)
  have ht1 : ((S.t - 1 : Nat) : ZMod S.modulus) ≠ 0 := by
    rw [Ne, ZMod.natCast_eq_zero_iff]
    intro hdvd
    have := Nat.le_of_dvd (by omega) hdvd
    omega
  rw [C90_gmimc_count (F := ZMod S.modulus) dbg hd hcop ht1 this.1.le hx hy, ZMod.card]

/-- **C90**, Poseidon2. If well-shaped arguments with at least two full rounds give a bijection, then for every input `x`
and every state `y` exactly one row of constants, put in the place of the constants of the last round, gives parameters
whose permutation sends `x` to `y`. -/
theorem C90_poseidon2 {F : Type} [Field F] [Fintype F] {t d rounds_f rounds_p : Nat} {diag : List F}
    {mat_internal rc : List (List F)} {P : Poseidon2Params F}
    (hP : Poseidon2Params.new dbg t d rounds_f rounds_p diag mat_internal rc = some P)
    (hs : WellShaped t d rounds_f rounds_p diag rc) (hf : 2 ≤ rounds_f)
    (hperm : IsPermutation t (Poseidon2.permutation dbg P)) {x y : List F} (hx : x.length = t) (hy : y.length = t) :
    ∃! c : Fin t → F, ∃ Q, Poseidon2Params.new dbg t d rounds_f rounds_p diag mat_internal
        (rc.set (rounds_f + rounds_p - 1) (List.ofFn c)) = some Q ∧ Poseidon2.permutation dbg Q x = some y := by
  have heven : rounds_f % 2 = 0 := by
    by_contra h
    rw [(C05_new_panics_iff dbg t d rounds_f rounds_p diag mat_internal rc).mpr (Or.inr (Or.inl (by omega)))] at hP
    cases hP
  obtain ⟨hdet, -, hcop⟩ := (C02_permutation_bijective_iff hP hs).mp hperm
  have hd := hs.degree
  have hpow : Function.Bijective fun x : F => x ^ d := (pow_bijective_iff (by omega)).mpr (by
    rcases hcop with h | h
    · omega
    · exact h)
  obtain ⟨x, rfl⟩ := eq_ofFn x hx
  obtain ⟨y, rfl⟩ := eq_ofFn y hy
  obtain ⟨rf, hrf⟩ : ∃ rf, rounds_f / 2 = rf + 1 := ⟨rounds_f / 2 - 1, by omega⟩
  have hn : rounds_f + rounds_p - 1 = rf + 1 + rounds_p + rf := by omega
  have hlen := hs.rc_len
  have hkey : ∀ c : Fin t → F, (∃ Q, Poseidon2Params.new dbg t d rounds_f rounds_p diag mat_internal
        (rc.set (rounds_f + rounds_p - 1) (List.ofFn c)) = some Q ∧
        Poseidon2.permutation dbg Q (List.ofFn x) = some (List.ofFn y)) ↔
      fullRound (externalMatrix t) d c
        (Universal.beforeLast2 (externalMatrix t) (internalMatrix t (vec diag)) d rf rounds_p (tab rc) x) = y := by
    intro c
    have hs' := WellShaped.set hs (rounds_f + rounds_p - 1) c
    obtain ⟨Q, hQ, -⟩ := C03_permutation_total (dbg := dbg) (mat_internal := mat_internal) hs' heven
    have hQx := C01_permutation_eq_spec hQ hs' x
    have hlast : poseidon2 (externalMatrix t) (internalMatrix t (vec diag)) d (rounds_f / 2) rounds_p
        (tab (rc.set (rounds_f + rounds_p - 1) (List.ofFn c))) x = fullRound (externalMatrix t) d c
          (Universal.beforeLast2 (externalMatrix t) (internalMatrix t (vec diag)) d rf rounds_p (tab rc) x) := by
      rw [hrf, Universal.poseidon2_last, hn,
        Universal.beforeLast2_congr _ _ _ _ _ (fun r hr i => Universal.tab_set_ne rc _ _ (by omega) i) x]
      congr 1
      funext j
      exact Universal.tab_set_self rc (by omega) c j
    rw [hlast] at hQx
    constructor
    · rintro ⟨Q', h1, h2⟩
      rw [hQ] at h1
      cases h1
      rw [hQx] at h2
      exact List.ofFn_injective (Option.some.inj h2)
    · intro h
      exact ⟨Q, hQ, by rw [hQx, h]⟩
  obtain ⟨c, hc, huniq⟩ := (Uniform.fullRound_bijective hdet hpow
    (Universal.beforeLast2 (externalMatrix t) (internalMatrix t (vec diag)) d rf rounds_p (tab rc) x)).existsUnique y
  exact ⟨c, (hkey c).mpr hc, fun c' hc' => huniq c' ((hkey c').mp hc')⟩

/-- **C90** for the shipped Poseidon2 parameter sets. -/
theorem C90_poseidon2_shipped (S : Poseidon2Source) (hS : S ∈ Instances.poseidon2) (dbg : Bool)
    {x y : List (ZMod S.modulus)} (hx : x.length = S.t) (hy : y.length = S.t) :
    ∃! c : Fin S.t → ZMod S.modulus, ∃ Q,
      Poseidon2Params.new dbg S.t S.d S.rounds_f S.rounds_p S.diagF S.matInternalF
        (S.rcF.set (S.rounds_f + S.rounds_p - 1) (List.ofFn c)) = some Q ∧ Poseidon2.permutation dbg Q x = some y := by
  have hg := poseidon2_good S hS
  have hF : Fact S.modulus.Prime := ⟨declared_prime hg.declared⟩
  have hN : NeZero S.modulus := ⟨hF.out.ne_zero⟩
  obtain ⟨P, hP, hperm⟩ := C08_shipped_bijective (dbg := dbg) S hS
  have h2 : (Instances.poseidon2.all fun S => decide (2 ≤ S.rounds_f)) = true := by decide +kernel
  have h2 := List.all_eq_true.mp h2 S hS
  rw [decide_eq_true_eq] at h2
  exact C90_poseidon2 hP hg.shaped h2 hperm hx hy

/-- **C90**, Poseidon: the same for both permutations of Poseidon. -/
theorem C90_poseidon {F : Type} [Field F] [Fintype F] [DecidableEq F] {t d rounds_f rounds_p : Nat}
    {M : Matrix (Fin t) (Fin t) F} {rc : List (List F)} {P : PoseidonParams F}
    (hP : PoseidonParams.new dbg t d rounds_f rounds_p (rowsOf M) rc = some P)
    (hs : PoseidonShaped t rounds_f rounds_p rc) (hf : 2 ≤ rounds_f)
    (hperm : IsPermutation t (Poseidon.permutation dbg P)) {x y : List F} (hx : x.length = t) (hy : y.length = t) :
    ∃! c : Fin t → F, ∃ Q, PoseidonParams.new dbg t d rounds_f rounds_p (rowsOf M)
        (rc.set (rounds_f + rounds_p - 1) (List.ofFn c)) = some Q ∧ Poseidon.permutation dbg Q x = some y ∧
        Poseidon.permutationNotOpt dbg Q x = some y := by
  obtain ⟨hd, heven, hp, ht, -⟩ := Poseidon.new_args hP
  obtain ⟨hdet, hiff⟩ := C14_bijective_iff hP hs dbg
  have hpow : Function.Bijective fun x : F => x ^ d := (pow_bijective_iff (by omega)).mpr (hiff.mp hperm)
  obtain ⟨x, rfl⟩ := eq_ofFn x hx
  obtain ⟨y, rfl⟩ := eq_ofFn y hy
  obtain ⟨rf, hrf⟩ : ∃ rf, rounds_f / 2 = rf + 1 := ⟨rounds_f / 2 - 1, by omega⟩
  have hn : rounds_f + rounds_p - 1 = rf + 1 + rounds_p + rf := by omega
  have hlen := hs.rc_len
  have hkey : ∀ c : Fin t → F, (∃ Q, PoseidonParams.new dbg t d rounds_f rounds_p (rowsOf M)
        (rc.set (rounds_f + rounds_p - 1) (List.ofFn c)) = some Q ∧
        Poseidon.permutation dbg Q (List.ofFn x) = some (List.ofFn y) ∧
        Poseidon.permutationNotOpt dbg Q (List.ofFn x) = some (List.ofFn y)) ↔
      fullRound M d c (Universal.beforeLast M d rf rounds_p (tab rc) x) = y := by
    intro c
    have hs' := PoseidonShaped.set hs (rounds_f + rounds_p - 1) c
    obtain ⟨Q, hQ⟩ : ∃ Q, PoseidonParams.new dbg t d rounds_f rounds_p (rowsOf M)
        (rc.set (rounds_f + rounds_p - 1) (List.ofFn c)) = some Q := by
      clear hiff hperm
      obtain ⟨s, rfl⟩ : ∃ s, t = s + 1 := ⟨t - 1, by omega⟩
      rw [C15_new_returns_iff dbg (by omega) d rounds_f rounds_p M _ hs']
      exact (C15_new_returns_iff dbg (by omega) d rounds_f rounds_p M _ hs).mp ⟨P, hP⟩
    have hQx := C12_permutation_eq_spec hQ hs' dbg x
    have hQx' := C13_plain_eq_spec hQ hs' dbg x
    have hlast : poseidon M d (rounds_f / 2) rounds_p
        (tab (rc.set (rounds_f + rounds_p - 1) (List.ofFn c))) x = fullRound M d c
          (Universal.beforeLast M d rf rounds_p (tab rc) x) := by
      rw [hrf, Universal.poseidon_last, hn,
        Universal.beforeLast_congr _ _ _ _ (fun r hr i => Universal.tab_set_ne rc _ _ (by omega) i) x]
      congr 1
      funext j
      exact Universal.tab_set_self rc (by omega) c j
    rw [hlast] at hQx hQx'
    constructor
    · rintro ⟨Q', h1, h2, -⟩
      rw [hQ] at h1
      cases h1
      rw [hQx] at h2
      exact List.ofFn_injective (Option.some.inj h2)
    · intro h
      exact ⟨Q, hQ, by rw [hQx, h], by rw [hQx', h]⟩
  obtain ⟨c, hc, huniq⟩ := (Uniform.fullRound_bijective hdet hpow
    (Universal.beforeLast M d rf rounds_p (tab rc) x)).existsUnique y
  exact ⟨c, (hkey c).mpr hc, fun c' hc' => huniq c' ((hkey c').mp hc')⟩

/-- **C90** for the shipped Poseidon parameter sets. -/
theorem C90_poseidon_shipped (S : PoseidonSource) (hS : S ∈ Instances.poseidon) [Fact S.modulus.Prime] (dbg : Bool)
    {x y : List (ZMod S.modulus)} (hx : x.length = S.t) (hy : y.length = S.t) :
    ∃! c : Fin S.t → ZMod S.modulus, ∃ Q,
      PoseidonParams.new dbg S.t S.d S.rounds_f S.rounds_p S.mdsF
        (S.rcF.set (S.rounds_f + S.rounds_p - 1) (List.ofFn c)) = some Q ∧ Poseidon.permutation dbg Q x = some y ∧
        Poseidon.permutationNotOpt dbg Q x = some y := by
  have hg := poseidon_good S hS
  have hN : NeZero S.modulus := ⟨(Fact.out : S.modulus.Prime).ne_zero⟩
  obtain ⟨P, hP, -, hperm⟩ := C17_shipped S hS dbg
  unfold PoseidonSource.params at hP
  rw [hg.mds] at hP ⊢
  have h2 : (Instances.poseidon.all fun S => decide (2 ≤ S.rounds_f)) = true := by decide +kernel
  have h2 := List.all_eq_true.mp h2 S hS
  rw [decide_eq_true_eq] at h2
  exact C90_poseidon hP hg.shaped h2 hperm hx hy

/-- **C90**, Neptune. Fix what the generator delivers, `pre` (the constants of all rounds but the last), `t` further
elements and `post`, and suppose that the constructor accepts it. Then for every input `x` and every state `y` exactly one
choice of the `t` elements between `pre` and `post` gives parameters whose permutation sends `x` to `y`, whether the
permutation is a bijection or not. -/
theorem C90_neptune {F : Type} [Field F] [DecidableEq F] {t d rounds_f rounds_p : Nat} {P : NeptuneParams F}
    {pre post r : List F} {c0 : Fin t → F} (ht : 0 < t) (hfit : rounds_f + rounds_p < 2 ^ 64)
    (hf : 1 ≤ rounds_f + rounds_p)
    (hP : NeptuneParams.new dbg t d rounds_f rounds_p (pre ++ List.ofFn c0 ++ post) = some (P, r))
    (hpre : pre.length = (rounds_f + rounds_p - 1) * t) {x y : List F} (hx : x.length = t) (hy : y.length = t) :
    ∃! c : Fin t → F, ∃ Q, NeptuneParams.new dbg t d rounds_f rounds_p (pre ++ List.ofFn c ++ post) = some (Q, r) ∧
      Neptune.permutation dbg Q x = some y := by
  obtain ⟨k, rfl⟩ : ∃ k, t = 2 * k := ⟨t / 2, by have := NeptuneParams.new_even hP; omega⟩
  have heven := (C51_constructor_iff.mp hP).2.1
  have hrclen := (C51_constructor_iff.mp hP).2.2.2.2.2.2.2.2.2.1
  rw [Nat.mod_eq_of_lt hfit] at hrclen
  obtain ⟨x, rfl⟩ := eq_ofFn x hx
  obtain ⟨y, rfl⟩ := eq_ofFn y hy
  obtain ⟨m, hm⟩ : ∃ m, rounds_f + rounds_p = m + 1 := ⟨rounds_f + rounds_p - 1, by omega⟩
  have hm' : rounds_f / 2 + rounds_p + rounds_f / 2 = m + 1 := by omega
  obtain ⟨M, hMe, -⟩ := C25_permutation_eq_spec (by omega) hP hfit
  -- the state before the constants of the last round are added
  obtain ⟨z, hz⟩ : ∃ z : Fin (2 * k) → F, ∀ c : Fin (2 * k) → F, ∃ Q,
      NeptuneParams.new dbg (2 * k) d rounds_f rounds_p (pre ++ List.ofFn c ++ post) = some (Q, r) ∧
      Neptune.permutation dbg Q (List.ofFn x) = some (List.ofFn (z + c)) := by
    refine ⟨Universal.bare M (neptuneInternal (2 * k) (vec P.mu)) d P.abc.2.2 (rounds_f / 2) rounds_p m
      (rounds (fun r y => Universal.bare M (neptuneInternal (2 * k) (vec P.mu)) d P.abc.2.2 (rounds_f / 2) rounds_p r y +
        fun i : Fin (2 * k) => tab P.round_constants r i) 0 m (M *ᵥ x)), fun c => ?_⟩
    have hQ := Universal.neptune_replace hfit hP (m := m) (by omega) (by rw [hpre, hm, Nat.add_sub_cancel]) c
    obtain ⟨M', hMe', hspec'⟩ := C25_permutation_eq_spec (by omega) hQ hfit
    have hM' : M' = M := rowsOf_injective (hMe'.symm.trans hMe)
    rw [hM'] at hspec'
    refine ⟨_, hQ, ?_⟩
    rw [hspec' x, Universal.neptune_rounds, hm']
    simp only [rounds, Nat.zero_add]
    congr 2
    congr 1
    · congr 1
      refine ZkHash.rounds_congr _ _ 0 m (fun r _ hr y => ?_) _
      have : (fun i : Fin (2 * k) => tab (P.round_constants.set m (List.ofFn c)) r i) =
          fun i : Fin (2 * k) => tab P.round_constants r i :=
        funext fun i => Universal.tab_set_ne P.round_constants _ _ (by omega) _
      simp only [this]
    · funext j
      exact Universal.tab_set_self P.round_constants (by omega) c j
  refine ⟨y - z, ?_, fun c' hc' => ?_⟩
  · obtain ⟨Q, h1, h2⟩ := hz (y - z)
    exact ⟨Q, h1, by rw [h2, add_sub_cancel]⟩
  · obtain ⟨Q, h1, h2⟩ := hc'
    obtain ⟨Q', h1', h2'⟩ := hz c'
    rw [h1] at h1'
    cases h1'
    rw [h2] at h2'
    have := List.ofFn_injective (Option.some.inj h2')
    rw [this]
    simp

/-- Concrete hypotheses: width 2, three rounds, `d = 3` over the field with 11 elements. Of the 1331 deliveries exactly 11
send `[1, 2]` to `[7, 5]`. -/
example : Nat.card {c : Fin 3 → ZMod 11 // ∃ P, GmimcParams.new 2 3 3 (List.ofFn c) = some (P, []) ∧
    Gmimc.permutation true P [1, 2] = some [7, 5]} = 11 := by
  have h1 : ((2 - 1 : Nat) : ZMod 11) ≠ 0 := by decide
  have : Fact (Nat.Prime 11) := ⟨by norm_num⟩
  have h := C90_gmimc_count (F := ZMod 11) true (t := 2) (d := 3) (rounds := 3) (Or.inl rfl) (by rw [ZMod.card]; norm_num)
    h1 (by omega) (x := [1, 2]) (y := [7, 5]) rfl rfl
  rw [ZMod.card] at h
  simpa using h

/-- The condition on `t - 1` is needed: over the field with 5 elements and with six words and six rounds, adding 1 to the
difference of every round leaves the sum of the gains in every word zero; two different deliveries give one result. -/
example : Gmimc.permutation true (⟨6, 3, 6, [0, 0, 0, 0, 0, 0]⟩ : GmimcParams (ZMod 5)) [0, 0, 0, 0, 0, 0] =
    Gmimc.permutation true (⟨6, 3, 6, [1, 0, 4, 3, 2, 1]⟩ : GmimcParams (ZMod 5)) [0, 0, 0, 0, 0, 0] ∧
    Gmimc.permutation true (⟨6, 3, 6, [0, 0, 0, 0, 0, 0]⟩ : GmimcParams (ZMod 5)) [0, 0, 0, 0, 0, 0] ≠ none := by
  decide +kernel

/-- The small Poseidon2 parameter set `exDiag`, `exRc`: exactly one row for the last round sends `[1, 2, 3, 4]` to
`[0, 0, 0, 0]`. -/
example : ∃! c : Fin 4 → ZMod 11, ∃ Q,
    Poseidon2Params.new true 4 3 2 1 exDiag [] (exRc.set 2 (List.ofFn c)) = some Q ∧
    Poseidon2.permutation true Q [1, 2, 3, 4] = some [0, 0, 0, 0] :=
  by
  have h1 : (externalMatrix 4 : Matrix (Fin 4) (Fin 4) (ZMod 11)).det ≠ 0 := by decide +kernel
  have h2 : (internalMatrix 4 (vec exDiag) : Matrix (Fin 4) (Fin 4) (ZMod 11)).det ≠ 0 := by decide +kernel
  exact C90_poseidon2 (P := _) rfl ex_wellShaped (by omega)
    ((C02_permutation_bijective_iff rfl ex_wellShaped).mpr ⟨h1, Or.inr h2, Or.inr (by decide)⟩) rfl rfl

/-- The small Poseidon parameter set `exM`, `exRc3`, in both profiles. -/
example (dbg : Bool) : ∃! c : Fin 3 → _, ∃ Q, PoseidonParams.new dbg 3 3 2 2 (rowsOf exM) (exRc3.set 3 (List.ofFn c)) = some Q ∧
    Poseidon.permutation dbg Q [1, 2, 3] = some [0, 0, 0] ∧ Poseidon.permutationNotOpt dbg Q [1, 2, 3] = some [0, 0, 0] := by
  obtain ⟨P, hP⟩ := ex_new dbg
  exact C90_poseidon hP ex_shaped (by omega) ((C14_bijective_iff hP ex_shaped dbg).2.mpr (by decide)) rfl rfl

/-- The stream `exStream4` of Neptune, with any four elements in the place of the constants of the last round. -/
example : ∃! c : Fin 4 → ZMod 11, ∃ Q,
    NeptuneParams.new true 4 3 2 1 ([1, 2, 3, 4, 5, 6, 7, 8] ++ List.ofFn c ++ [0, 2, 3, 4, 5, 6]) = some (Q, []) ∧
    Neptune.permutation true Q [1, 2, 3, 4] = some [0, 0, 0, 0] := by
  have hstream : ([1, 2, 3, 4, 5, 6, 7, 8] ++ List.ofFn ![9, 10, 1, 2] ++ [0, 2, 3, 4, 5, 6] : List (ZMod 11)) =
      exStream4 := by
    decide
  have hP : ∃ P, NeptuneParams.new true 4 3 2 1 exStream4 = some (P, []) := ⟨_, rfl⟩
  obtain ⟨P, hP⟩ := hP
  rw [← hstream] at hP
  exact C90_neptune (by omega) (by omega) (by omega) hP rfl rfl rfl

end ZkHash

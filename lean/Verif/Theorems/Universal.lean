import Verif.Proofs.Universal

set_option autoImplicit false

/-!
# How rarely a draw of constants produces a given difference of outputs: C87
-/

namespace ZkHash

open Spec

theorem card_subtype_le {α : Type} [Fintype α] {p q : α → Prop} [DecidablePred q] (h : ∀ a, p a → q a) :
    Nat.card {a // p a} ≤ (Finset.univ.filter q).card := by
  classical
  rw [Nat.card_eq_fintype_card, Fintype.card_subtype]
  exact Finset.card_le_card fun a ha => by
    rw [Finset.mem_filter] at ha ⊢
    exact ⟨ha.1, h a ha.2⟩

theorem vec_ofFn {F : Type} [Field F] {R : Nat} (c : Fin R → F) : vec (List.ofFn c) = Universal.ext c := by
  funext j
  unfold vec Universal.ext
  split
  · next h => simp [List.getD, h]
  · next h => simp [List.getD, h]

/-- **C87.** GMiMC over a finite field with `q` elements in which `d` is not zero, with at least two words and more
rounds than words. Fix two different inputs, a word `i` and a difference `v`. Among the `q ^ rounds` sequences of
constants that the generator may deliver, all but a fraction of at most `t * (d - 1) / q` are good: the constructor
accepts them, the permutation returns on both inputs, and the two results differ in word `i` by something else than `v`.
(With `v = 0`: the results differ in word `i`.) -/
theorem C87_gmimc {F : Type} [Field F] [Fintype F] (dbg : Bool) {t d rounds : Nat} (hd : d = 3 ∨ d = 5 ∨ d = 7)
    (hdF : (d : F) ≠ 0) (ht : 2 ≤ t) (hr : t < rounds) {x x' : List F} (hx : x.length = t) (hx' : x'.length = t)
    (hne : x ≠ x') {i : Nat} (hi : i < t) (v : F) :
    Nat.card {c : Fin rounds → F // ¬ ∃ P y y' a b, GmimcParams.new t d rounds (List.ofFn c) = some (P, []) ∧
        Gmimc.permutation dbg P x = some y ∧ Gmimc.permutation dbg P x' = some y' ∧
        y[i]? = some a ∧ y'[i]? = some b ∧ a - b ≠ v} * Fintype.card F ≤
      t * (d - 1) * Fintype.card F ^ rounds := by
  classical
  obtain ⟨s, rfl⟩ : ∃ s, t = s + 1 := ⟨t - 1, by omega⟩
  obtain ⟨n, rfl⟩ : ∃ n, rounds = n + 1 := ⟨rounds - 1, by omega⟩
  obtain ⟨x, rfl⟩ := eq_ofFn x hx
  obtain ⟨x', rfl⟩ := eq_ofFn x' hx'
  have hne' : x ≠ x' := fun h => hne (by rw [h])
  refine le_trans (Nat.mul_le_mul_right _ (card_subtype_le fun c hc => ?_))
    (Universal.gmimc_count (R := n + 1) (by omega) hdF (by omega) rfl (by omega) hne' ⟨i, hi⟩ v)
  by_contra hv
  refine hc ⟨⟨s + 1, d, n + 1, List.ofFn c⟩, _, _, _, _, ?_,
    C19_permutation_eq_spec dbg _ rfl rfl hd (by simp) x, C19_permutation_eq_spec dbg _ rfl rfl hd (by simp) x',
    List.getElem?_eq_getElem (by simpa using hi), List.getElem?_eq_getElem (by simpa using hi), ?_⟩
  · have hl : n + 1 ≤ (List.ofFn c).length := by simp
    obtain ⟨h1, h2⟩ := C21_new (s + 1) d (n + 1) (List.ofFn c) hl
    cases hnew : GmimcParams.new (s + 1) d (n + 1) (List.ofFn c) with
    | none => have := h1.mp hnew; omega
    | some pr =>
      obtain ⟨P, rest⟩ := pr
      obtain ⟨h3, -, h4⟩ := h2 P rest hnew
      rw [h3, h4, List.take_of_length_le (by simp), List.drop_of_length_le (by simp)]
  · rw [List.getElem_ofFn, List.getElem_ofFn]
    show gmimc d (vec (List.ofFn c)) n x ⟨i, hi⟩ - gmimc d (vec (List.ofFn c)) n x' ⟨i, hi⟩ ≠ v
    rw [vec_ofFn]
    exact hv

/-- **C87** for the shipped parameter sets. -/
theorem C87_gmimc_shipped (S : Shape) (hS : S ∈ Instances.gmimc) [Fact S.modulus.Prime] (dbg : Bool)
    {x x' : List (ZMod S.modulus)} (hx : x.length = S.t) (hx' : x'.length = S.t) (hne : x ≠ x') {i : Nat} (hi : i < S.t)
    (v : ZMod S.modulus) :
    Nat.card {c : Fin S.rounds_f → ZMod S.modulus // ¬ ∃ P y y' a b,
        GmimcParams.new S.t S.d S.rounds_f (List.ofFn c) = some (P, []) ∧
        Gmimc.permutation dbg P x = some y ∧ Gmimc.permutation dbg P x' = some y' ∧
        y[i]? = some a ∧ y'[i]? = some b ∧ a - b ≠ v} * S.modulus ≤
      S.t * (S.d - 1) * S.modulus ^ S.rounds_f := by
  have : NeZero S.modulus := ⟨(Fact.out : S.modulus.Prime).ne_zero⟩
  obtain ⟨-, hd, ht, -⟩ := gmimc_good S hS
  have h : (Instances.gmimc.all fun S => decide (S.t < S.rounds_f ∧ 7 < S.modulus)) = true := by decide +kernel
  have := List.all_eq_true.mp h S hS
  rw [decide_eq_true_eq] at this
  have hdF : ((S.d : Nat) : ZMod S.modulus) ≠ 0 := by
    rw [Ne, ZMod.natCast_eq_zero_iff]
    intro hdvd
    have := Nat.le_of_dvd (by omega) hdvd
    omega
  have := C87_gmimc (F := ZMod S.modulus) dbg hd hdF ht this.1 hx hx' hne hi v
  rwa [ZMod.card] at this

/-- **C87**, compression: two different pairs of elements have the same digest for at most a fraction `3 * (d - 1) / q`
of the draws (and no draw makes a call panic). -/
theorem C87_compress {F : Type} [Field F] [Fintype F] (dbg : Bool) {d rounds : Nat} (hd : d = 3 ∨ d = 5 ∨ d = 7)
    (hdF : (d : F) ≠ 0) (hr : 3 < rounds) {a b a' b' : F} (hne : (a, b) ≠ (a', b')) :
    Nat.card {c : Fin rounds → F // ¬ ∃ P h h', GmimcParams.new 3 d rounds (List.ofFn c) = some (P, []) ∧
        Gmimc.compress dbg P [a, b] = some h ∧ Gmimc.compress dbg P [a', b'] = some h' ∧ h ≠ h'} * Fintype.card F ≤
      3 * (d - 1) * Fintype.card F ^ rounds := by
  classical
  refine le_trans (Nat.mul_le_mul_right _ ?_)
    (C87_gmimc dbg (t := 3) hd hdF (by omega) hr (x := [a, b, 0]) (x' := [a', b', 0]) rfl rfl
      (fun h => hne (by simp only [List.cons.injEq] at h; rw [h.1, h.2.1])) (i := 0) (by omega) 0)
  refine le_trans (card_subtype_le fun c hc => ?_) (le_of_eq (by rw [Nat.card_eq_fintype_card, Fintype.card_subtype]))
  rintro ⟨P, y, y', u, w, h1, h2, h3, h4, h5, h6⟩
  refine hc ⟨P, u, w, h1, ?_, ?_, fun h => h6 (sub_eq_zero.mpr h)⟩
  · simp [Gmimc.compress, h2, h4]
  · simp [Gmimc.compress, h3, h5]

/-- The fraction for the shipped sets of width 3: less than one draw in `2 ^ 250`. -/
example : ((Instances.gmimc.filter fun S => S.t == 3).all fun S => decide (3 * (S.d - 1) * 2 ^ 250 < S.modulus)) = true ∧
    (Instances.gmimc.filter fun S => S.t == 3).length = 4 := by
  decide +kernel

/-- The bound is not vacuous for a small field: width 2, three rounds, `d = 3` over the field with 11 elements. Of the
1331 draws at most 484 are bad. -/
example : Nat.card {c : Fin 3 → ZMod 11 // ¬ ∃ P y y' a b, GmimcParams.new 2 3 3 (List.ofFn c) = some (P, []) ∧
        Gmimc.permutation true P [1, 2] = some y ∧ Gmimc.permutation true P [5, 2] = some y' ∧
        y[0]? = some a ∧ y'[0]? = some b ∧ a - b ≠ 0} ≤ 484 := by
  have h3 : ((3 : Nat) : ZMod 11) ≠ 0 := by decide
  have hne : ([1, 2] : List (ZMod 11)) ≠ [5, 2] := by decide
  have : Fact (Nat.Prime 11) := ⟨by norm_num⟩
  have h := C87_gmimc (F := ZMod 11) true (t := 2) (d := 3) (rounds := 3) (Or.inl rfl) h3 (by omega) (by omega)
    (x := [1, 2]) (x' := [5, 2]) rfl rfl hne (i := 0) (by omega) 0
  rw [ZMod.card] at h
  have : (2 * (3 - 1) * 11 ^ 3 : ℕ) = 484 * 11 := by norm_num
  rw [this] at h
  exact Nat.le_of_mul_le_mul_right h (by norm_num)

/-- Some draws are bad: these constants give two inputs that differ the same first word. -/
example : Gmimc.permutation true (⟨2, 3, 3, [0, 0, 0]⟩ : GmimcParams (ZMod 7)) [1, 2] ≠ none ∧
    (Gmimc.permutation true (⟨2, 3, 3, [0, 0, 0]⟩ : GmimcParams (ZMod 7)) [1, 2]).bind (·[0]?) =
      (Gmimc.permutation true (⟨2, 3, 3, [0, 0, 0]⟩ : GmimcParams (ZMod 7)) [6, 2]).bind (·[0]?) := by
  decide +kernel

end ZkHash

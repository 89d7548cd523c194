import Verif.Theorems.CompressCount

set_option autoImplicit false

/-!
# How often two processes agree: C71, counted
-/

namespace ZkHash

open Spec

namespace Uniform

/-- If every `e v` is the result of exactly `m` draws, and there are no other results, then `|β| * m * m` pairs of draws
have equal results. -/
theorem count_pairs {α β γ : Type} [Finite α] [Fintype β] (g : α → γ) (e : β → γ) (he : Function.Injective e) {m : Nat}
    (hm : ∀ v, Nat.card {c // g c = e v} = m) (hall : ∀ c, ∃ v, g c = e v) :
    Nat.card {p : α × α // g p.1 = g p.2} = Fintype.card β * (m * m) := by
  classical
  let f : (Σ v : β, {c // g c = e v} × {c // g c = e v}) ≃ {p : α × α // g p.1 = g p.2} :=
    Equiv.ofBijective (fun s => ⟨(s.2.1.1, s.2.2.1), s.2.1.2.trans s.2.2.2.symm⟩) (by
      constructor
      · rintro ⟨v, ⟨c, hc⟩, ⟨c', hc'⟩⟩ ⟨v', ⟨b, hb⟩, ⟨b', hb'⟩⟩ h
        have h := congrArg Subtype.val h
        simp only [Prod.mk.injEq] at h
        obtain ⟨rfl, rfl⟩ := h
        have : v = v' := he (hc.symm.trans hb)
        subst this
        rfl
      · rintro ⟨⟨c, c'⟩, h⟩
        obtain ⟨v, hv⟩ := hall c
        exact ⟨⟨v, ⟨c, hv⟩, ⟨c', h.symm.trans hv⟩⟩, rfl⟩)
  rw [← Nat.card_congr f, Nat.card_sigma]
  simp only [Nat.card_prod, hm]
  rw [Finset.sum_const, Finset.card_univ, smul_eq_mul]

end Uniform

variable {F : Type} [Field F] [Fintype F] {t d rounds : Nat}

/-- **C71**, counted, GMiMC. Two processes draw `rounds` constants each. Of the `q ^ (2 * rounds)` pairs of deliveries
exactly `q ^ (2 * rounds - t)`, one in `q ^ t`, make them agree on a given input. -/
theorem C71_gmimc_agree (dbg dbg' : Bool) (hd : d = 3 ∨ d = 5 ∨ d = 7) (hcop : Nat.Coprime d (Fintype.card F - 1))
    (ht : ((t - 1 : Nat) : F) ≠ 0) (hr : t ≤ rounds) {x : List F} (hx : x.length = t) :
    Nat.card {c : (Fin rounds → F) × (Fin rounds → F) // ∃ P P' y,
      GmimcParams.new t d rounds (List.ofFn c.1) = some (P, []) ∧
      GmimcParams.new t d rounds (List.ofFn c.2) = some (P', []) ∧
      Gmimc.permutation dbg P x = some y ∧ Gmimc.permutation dbg' P' x = some y} = Fintype.card F ^ (2 * rounds - t) := by
  have hnew : ∀ c : Fin rounds → F, GmimcParams.new t d rounds (List.ofFn c) = some (⟨t, d, rounds, List.ofFn c⟩, []) :=
    fun c => gmimc_new_exact hd (by simp)
  have htpos : 0 < t := by
    rcases t with _ | t
    · simp at ht
    · omega
  have hspec : ∀ (b : Bool) (c : Fin rounds → F), ∃ y : Fin t → F,
      Gmimc.permutation b ⟨t, d, rounds, List.ofFn c⟩ x = some (List.ofFn y) ∧
      Gmimc.permutation b ⟨t, d, rounds, List.ofFn c⟩ x = Gmimc.permutation dbg ⟨t, d, rounds, List.ofFn c⟩ x := by
    intro b c
    obtain ⟨s, rfl⟩ : ∃ s, t = s + 1 := ⟨t - 1, by omega⟩
    obtain ⟨n, rfl⟩ : ∃ n, rounds = n + 1 := ⟨rounds - 1, by omega⟩
    obtain ⟨x, rfl⟩ := eq_ofFn x hx
    refine ⟨_, C19_permutation_eq_spec b _ rfl rfl hd (by simp) x, ?_⟩
    rw [C19_permutation_eq_spec b _ rfl rfl hd (by simp) x, C19_permutation_eq_spec dbg _ rfl rfl hd (by simp) x]
  have h := Uniform.count_pairs (fun c : Fin rounds → F => Gmimc.permutation dbg ⟨t, d, rounds, List.ofFn c⟩ x)
    (fun y : Fin t → F => some (List.ofFn y)) (fun y y' h => List.ofFn_injective (Option.some.inj h))
    (m := Fintype.card F ^ (rounds - t)) (fun y => by
      rw [← C90_gmimc_count dbg hd hcop ht hr hx (y := List.ofFn y) (by simp)]
      refine Nat.card_congr (Equiv.subtypeEquivRight fun c => ⟨fun h => ⟨_, hnew c, h⟩, ?_⟩)
      rintro ⟨P, h2, h3⟩
      rw [hnew c] at h2
      cases h2
      exact h3)
    (fun c => by obtain ⟨y, hy, -⟩ := hspec dbg c; exact ⟨y, hy⟩)
  rw [Fintype.card_fun, Fintype.card_fin, ← pow_add, ← pow_add,
    show t + (rounds - t + (rounds - t)) = 2 * rounds - t by omega] at h
  rw [← h]
  refine Nat.card_congr (Equiv.subtypeEquivRight fun c => ?_)
  constructor
  · rintro ⟨P, P', y, h1, h2, h3, h4⟩
    rw [hnew] at h1 h2
    cases h1
    cases h2
    rw [(hspec dbg' c.2).choose_spec.2] at h4
    exact h3.trans h4.symm
  · intro he
    obtain ⟨y, hy, -⟩ := hspec dbg c.1
    exact ⟨_, _, _, hnew _, hnew _, hy, by rw [(hspec dbg' c.2).choose_spec.2]; exact he.symm.trans hy⟩

/-- **C71**, counted, digests: exactly one in `q` of the pairs of deliveries makes two processes agree on the digest of two
given elements. -/
theorem C71_gmimc_compress_agree (dbg : Bool) (hd : d = 3 ∨ d = 5 ∨ d = 7) (hcop : Nat.Coprime d (Fintype.card F - 1))
    (h2 : (2 : F) ≠ 0) (hr : 3 ≤ rounds) (a b : F) :
    Nat.card {c : (Fin rounds → F) × (Fin rounds → F) // ∃ P P' h,
      GmimcParams.new 3 d rounds (List.ofFn c.1) = some (P, []) ∧
      GmimcParams.new 3 d rounds (List.ofFn c.2) = some (P', []) ∧
      Gmimc.compress dbg P [a, b] = some h ∧ Gmimc.compress dbg P' [a, b] = some h} =
        Fintype.card F ^ (2 * rounds - 1) := by
  have hnew : ∀ c : Fin rounds → F, GmimcParams.new 3 d rounds (List.ofFn c) = some (⟨3, d, rounds, List.ofFn c⟩, []) :=
    fun c => gmimc_new_exact hd (by simp)
  have htot : ∀ c : Fin rounds → F, ∃ h, Gmimc.compress dbg ⟨3, d, rounds, List.ofFn c⟩ [a, b] = some h := by
    intro c
    obtain ⟨n, rfl⟩ : ∃ n, rounds = n + 1 := ⟨rounds - 1, by omega⟩
    have := C19_permutation_eq_spec dbg (⟨3, d, n + 1, List.ofFn c⟩ : GmimcParams F) (s := 2) rfl rfl hd (by simp) ![a, b, 0]
    have e : List.ofFn ![a, b, 0] = [a, b, 0] := by simp [List.ofFn_succ]
    rw [e] at this
    refine ⟨gmimc d (vec (List.ofFn c)) n ![a, b, 0] 0, ?_⟩
    simp only [Gmimc.compress, List.getElem?_cons_zero, List.getElem?_cons_succ, Option.bind_eq_bind, Option.bind_some, this]
    rw [List.getElem?_ofFn, dif_pos (by omega)]
    rfl
  have h := Uniform.count_pairs (fun c : Fin rounds → F => Gmimc.compress dbg ⟨3, d, rounds, List.ofFn c⟩ [a, b])
    (fun v : F => some v) (fun y y' h => Option.some.inj h) (m := Fintype.card F ^ (rounds - 1)) (fun v => by
      rw [← C90_gmimc_compress dbg hd hcop h2 hr a b v]
      refine Nat.card_congr (Equiv.subtypeEquivRight fun c => ⟨fun h => ⟨_, hnew c, h⟩, ?_⟩)
      rintro ⟨P, h2, h3⟩
      rw [hnew c] at h2
      cases h2
      exact h3) htot
  rw [← pow_add, ← pow_succ', show rounds - 1 + (rounds - 1) + 1 = 2 * rounds - 1 by omega] at h
  rw [← h]
  refine Nat.card_congr (Equiv.subtypeEquivRight fun c => ?_)
  constructor
  · rintro ⟨P, P', y, h1, h2, h3, h4⟩
    rw [hnew] at h1 h2
    cases h1
    cases h2
    exact h3.trans h4.symm
  · intro he
    obtain ⟨y, hy⟩ := htot c.1
    exact ⟨_, _, _, hnew _, hnew _, hy, he.symm.trans hy⟩

/-- Concrete hypotheses: width 2, three rounds, `d = 3` over the field with 11 elements. Of the `11 ^ 6` pairs of deliveries
`11 ^ 4` agree on `[1, 2]`. -/
example : Nat.card {c : (Fin 3 → ZMod 11) × (Fin 3 → ZMod 11) // ∃ P P' y,
    GmimcParams.new 2 3 3 (List.ofFn c.1) = some (P, []) ∧ GmimcParams.new 2 3 3 (List.ofFn c.2) = some (P', []) ∧
    Gmimc.permutation true P [1, 2] = some y ∧ Gmimc.permutation true P' [1, 2] = some y} = 14641 := by
  have h1 : ((2 - 1 : Nat) : ZMod 11) ≠ 0 := by decide
  have h := C71_gmimc_agree (F := ZMod 11) true true (t := 2) (d := 3) (rounds := 3) (Or.inl rfl)
    (by rw [ZMod.card]; norm_num) h1 (by omega) (x := [1, 2]) rfl
  rw [ZMod.card] at h
  simpa using h

end ZkHash

import Verif.Model.SelfTests
import Verif.Theorems.ShippedOther

set_option autoImplicit false

/-!
# What the repository's randomized tests can and cannot find: C63
-/

namespace ZkHash

variable {dbg : Bool}

open Spec Matrix Fields SelfTests

set_option linter.unusedSectionVars false

variable {F : Type} [Field F] [DecidableEq F]

/-- Whatever the generator delivers, the test does not fail. -/
def AlwaysPasses (T : Draw F Bool) : Prop := ∀ s b r, T s = some (b, r) → b = true

/-- The test can come to an end. -/
def Ends (T : Draw F Bool) : Prop := ∃ s0 b, ∀ s, T (s0 ++ s) = some (b, s)

namespace SelfTests

theorem runs_succ (body : Draw F Bool) (n : Nat) (s : List F) :
    runs body (n + 1) s = (body s).bind fun p => if p.1 then runs body n p.2 else some (false, p.2) := by
  show (body s).bind _ = _
  congr 1
  funext p
  obtain ⟨b, s'⟩ := p
  cases b <;> rfl

theorem over_cons {ι : Type} (body : ι → Draw F Bool) (i : ι) (l : List ι) (s : List F) :
    overInstances body (i :: l) s =
      (runs (body i) TESTRUNS s).bind fun p => if p.1 then overInstances body l p.2 else some (false, p.2) := by
  show (runs (body i) TESTRUNS s).bind _ = _
  congr 1
  funext p
  obtain ⟨b, s'⟩ := p
  cases b <;> rfl

theorem runs_always {body : Draw F Bool} (h : AlwaysPasses body) (n : Nat) : AlwaysPasses (runs body n) := by
  induction n with
  | zero =>
    intro s b r e
    exact (pure_some.mp e).1
  | succ n ih =>
    intro s b r e
    rw [runs_succ, Option.bind_eq_some_iff] at e
    obtain ⟨⟨b', s'⟩, e1, e2⟩ := e
    obtain rfl := h _ _ _ e1
    exact ih _ _ _ e2

theorem runs_ends {body : Draw F Bool} (h : Ends body) (n : Nat) : Ends (runs body n) := by
  obtain ⟨s0, b, hb⟩ := h
  induction n with
  | zero => exact ⟨[], true, fun s => rfl⟩
  | succ n ih =>
    obtain ⟨s1, b1, h1⟩ := ih
    cases b with
    | false => exact ⟨s0, false, fun s => by rw [runs_succ, hb]; rfl⟩
    | true =>
      refine ⟨s0 ++ s1, b1, fun s => ?_⟩
      rw [runs_succ, List.append_assoc, hb]
      exact h1 s

theorem over_always_iff {ι : Type} {body : ι → Draw F Bool} (l : List ι) (he : ∀ i ∈ l, Ends (body i)) :
    AlwaysPasses (overInstances body l) ↔ ∀ i ∈ l, AlwaysPasses (body i) := by
  induction l with
  | nil =>
    refine ⟨fun _ i hi => by simp at hi, fun _ s b r e => (pure_some.mp e).1⟩
  | cons i l ih =>
    have ih := ih fun j hj => he j (List.mem_cons_of_mem _ hj)
    constructor
    · intro h
      have h1 : AlwaysPasses (body i) := by
        intro s b r e
        cases b with
        | true => rfl
        | false =>
          refine h s false r ?_
          rw [over_cons]
          have : runs (body i) TESTRUNS s = some (false, r) := by
            show runs (body i) (4 + 1) s = _
            rw [runs_succ, e]
            rfl
          rw [this]
          rfl
      have h2 : AlwaysPasses (overInstances body l) := by
        obtain ⟨s0, b0, hs0⟩ := runs_ends (he i (List.mem_cons_self ..)) TESTRUNS
        intro s b r e
        have hb0 : b0 = true := runs_always h1 TESTRUNS _ _ _ (hs0 [])
        refine h (s0 ++ s) b r ?_
        rw [over_cons, hs0, hb0]
        exact e
      intro j hj
      rcases List.mem_cons.mp hj with rfl | hj
      · exact h1
      · exact ih.mp h2 j hj
    · intro h s b r e
      rw [over_cons, Option.bind_eq_some_iff] at e
      obtain ⟨⟨b', s'⟩, e1, e2⟩ := e
      obtain rfl := runs_always (h i (List.mem_cons_self ..)) _ _ _ _ e1
      exact ih.mpr (fun j hj => h j (List.mem_cons_of_mem _ hj)) _ _ _ e2

theorem over_ends {ι : Type} {body : ι → Draw F Bool} (l : List ι) (he : ∀ i ∈ l, Ends (body i)) :
    Ends (overInstances body l) := by
  induction l with
  | nil => exact ⟨[], true, fun s => rfl⟩
  | cons i l ih =>
    obtain ⟨s0, b0, h0⟩ := runs_ends (he i (List.mem_cons_self ..)) TESTRUNS
    obtain ⟨s1, b1, h1⟩ := ih fun j hj => he j (List.mem_cons_of_mem _ hj)
    cases b0 with
    | false => exact ⟨s0, false, fun s => by rw [over_cons, h0]; rfl⟩
    | true =>
      refine ⟨s0 ++ s1, b1, fun s => ?_⟩
      rw [over_cons, List.append_assoc, h0]
      exact h1 s

/-! ## One run -/

theorem drawOther_sound (t : Nat) (x : List F) (s y r : List F) (h : drawOther t x s = some (y, r)) :
    y.length = t ∧ y ≠ x := by
  refine drawOther.partial_correctness t x (fun _ p => p.1.length = t ∧ p.1 ≠ x) ?_ s (y, r) h
  intro rec hrec s p e
  simp only [Option.bind_eq_bind] at e
  rw [Option.bind_eq_some_iff] at e
  obtain ⟨⟨y', s'⟩, e1, e2⟩ := e
  by_cases hxy : x ≠ y'
  · rw [if_pos hxy] at e2
    cases e2
    obtain ⟨-, hl⟩ := NeptuneParams.repeat_scalar_iff.mp e1
    exact ⟨hl, fun h => hxy h.symm⟩
  · rw [if_neg hxy] at e2
    exact hrec _ _ e2

theorem drawOther_eq {t : Nat} {x y s : List F} (hy : y.length = t) (hne : y ≠ x) :
    drawOther t x (y ++ s) = some (y, s) := by
  rw [drawOther, NeptuneParams.repeat_scalar_iff.mpr ⟨rfl, hy⟩]
  simp only [Option.bind_eq_bind, Option.bind_some]
  rw [if_pos (fun h => hne h.symm)]

/-- A run passes exactly when both calls return and the results differ. -/
theorem checks_iff {f : List F → Option (List F)} {x y : List F} :
    (do let perm1 ← f x
        let perm2 ← f x
        let perm3 ← f y
        assertThat (perm1 == perm2)
        assertThat (perm1 != perm3) : Option Unit).isSome = true ↔
      ∃ u v, f x = some u ∧ f y = some v ∧ u ≠ v := by
  cases hx : f x with
  | none => simp
  | some u =>
    cases hy : f y with
    | none => simp
    | some v => by_cases h : u = v <;> simp [assertThat, h]

theorem consistentRun_post {t : Nat} {f : List F → Option (List F)} {s r : List F} {b : Bool}
    (h : consistentRun t f s = some (b, r)) :
    ∃ x y : List F, x.length = t ∧ y.length = t ∧ x ≠ y ∧
      (b = true ↔ ∃ u v, f x = some u ∧ f y = some v ∧ u ≠ v) := by
  unfold consistentRun at h
  obtain ⟨x, s1, h1, h⟩ := bind_some.mp h
  obtain ⟨y, s2, h2, h⟩ := bind_some.mp h
  obtain ⟨rfl, -⟩ := pure_some.mp h
  obtain ⟨-, hx⟩ := NeptuneParams.repeat_scalar_iff.mp h1
  obtain ⟨hy, hne⟩ := drawOther_sound t x s1 y s2 h2
  exact ⟨x, y, hx, hy, fun h => hne h.symm, checks_iff⟩

theorem consistentRun_eq {t : Nat} (f : List F → Option (List F)) {x y : List F} (hx : x.length = t) (hy : y.length = t)
    (hne : x ≠ y) : ∃ b, (∀ s, consistentRun t f (x ++ y ++ s) = some (b, s)) ∧
      (b = true ↔ ∃ u v, f x = some u ∧ f y = some v ∧ u ≠ v) := by
  refine ⟨_, fun s => ?_, checks_iff⟩
  unfold consistentRun
  rw [List.append_assoc, bind_eq (NeptuneParams.repeat_scalar_iff.mpr ⟨rfl, hx⟩),
    bind_eq (drawOther_eq hy (fun h => hne h.symm))]
  rfl

theorem exists_two {t : Nat} (ht : 0 < t) : ∃ x y : List F, x.length = t ∧ y.length = t ∧ x ≠ y := by
  refine ⟨List.replicate t 0, List.replicate t 1, by simp, by simp, fun h => ?_⟩
  obtain ⟨n, rfl⟩ : ∃ n, t = n + 1 := ⟨t - 1, by omega⟩
  rw [List.replicate_succ, List.replicate_succ] at h
  exact zero_ne_one (List.cons.inj h).1

theorem consistentRun_ends {t : Nat} (ht : 0 < t) (f : List F → Option (List F)) : Ends (consistentRun t f) := by
  obtain ⟨x, y, hx, hy, hne⟩ := exists_two (F := F) ht
  obtain ⟨b, hb, -⟩ := consistentRun_eq f hx hy hne
  exact ⟨x ++ y, b, hb⟩

theorem consistentRun_always_iff {t : Nat} (ht : 0 < t) (f : List F → Option (List F)) :
    AlwaysPasses (consistentRun t f) ↔
      (∀ x, x.length = t → f x ≠ none) ∧ ∀ x y, x.length = t → y.length = t → x ≠ y → f x ≠ f y := by
  constructor
  · intro h
    have key : ∀ x y : List F, x.length = t → y.length = t → x ≠ y → ∃ u v, f x = some u ∧ f y = some v ∧ u ≠ v := by
      intro x y hx hy hne
      obtain ⟨b, hb, hiff⟩ := consistentRun_eq f hx hy hne
      exact hiff.mp (h _ _ _ (hb []))
    refine ⟨fun x hx hn => ?_, fun x y hx hy hne he => ?_⟩
    · obtain ⟨a, b, ha, hb, hab⟩ := exists_two (F := F) ht
      obtain ⟨y, hy, hne⟩ : ∃ y : List F, y.length = t ∧ x ≠ y := by
        by_cases h : x = a
        · exact ⟨b, hb, h ▸ hab⟩
        · exact ⟨a, ha, h⟩
      obtain ⟨u, v, hu, -⟩ := key x y hx hy hne
      rw [hn] at hu
      cases hu
    · obtain ⟨u, v, hu, hv, huv⟩ := key x y hx hy hne
      rw [hu, hv] at he
      exact huv (Option.some.inj he)
  · rintro ⟨h1, h2⟩ s b r e
    obtain ⟨x, y, hx, hy, hne, hiff⟩ := consistentRun_post e
    obtain ⟨u, hu⟩ := Option.ne_none_iff_exists'.mp (h1 x hx)
    obtain ⟨v, hv⟩ := Option.ne_none_iff_exists'.mp (h1 y hy)
    refine hiff.mpr ⟨u, v, hu, hv, fun huv => h2 x y hx hy hne ?_⟩
    rw [hu, hv, huv]

theorem equal_checks_iff {f g : List F → Option (List F)} {x : List F} :
    (do let perm1 ← f x
        let perm2 ← g x
        assertThat (perm1 == perm2) : Option Unit).isSome = true ↔ f x ≠ none ∧ f x = g x := by
  cases hx : f x with
  | none => simp
  | some u =>
    cases hy : g x with
    | none => simp
    | some v => by_cases h : u = v <;> simp [assertThat, h]

theorem equalRun_eq {t : Nat} (f g : List F → Option (List F)) {x : List F} (hx : x.length = t) :
    ∃ b, (∀ s, equalRun t f g (x ++ s) = some (b, s)) ∧ (b = true ↔ f x ≠ none ∧ f x = g x) := by
  refine ⟨_, fun s => ?_, equal_checks_iff⟩
  unfold equalRun
  rw [bind_eq (NeptuneParams.repeat_scalar_iff.mpr ⟨rfl, hx⟩)]
  rfl

theorem equalRun_always_iff (t : Nat) (f g : List F → Option (List F)) :
    AlwaysPasses (equalRun t f g) ↔ ∀ x, x.length = t → f x ≠ none ∧ f x = g x := by
  constructor
  · intro h x hx
    obtain ⟨b, hb, hiff⟩ := equalRun_eq f g hx
    exact hiff.mp (h _ _ _ (hb []))
  · intro h s b r e
    unfold equalRun at e
    obtain ⟨x, s1, h1, e⟩ := bind_some.mp e
    obtain ⟨rfl, -⟩ := pure_some.mp e
    obtain ⟨-, hx⟩ := NeptuneParams.repeat_scalar_iff.mp h1
    exact equal_checks_iff.mpr (h x hx)

end SelfTests

/-! ## C63 -/

/-- **C63.** What the test `consistent_perm` is about: for every list of instances (a width and a function), the test
cannot fail - whatever the generator delivers - exactly when every instance's function returns on all states of its width
and gives different results on different states. -/
theorem C63_consistent_perm_iff (instances : List (Nat × (List F → Option (List F)))) (ht : ∀ i ∈ instances, 0 < i.1) :
    AlwaysPasses (consistentPerm instances) ↔ ∀ i ∈ instances,
      (∀ x, x.length = i.1 → i.2 x ≠ none) ∧
      ∀ x y, x.length = i.1 → y.length = i.1 → x ≠ y → i.2 x ≠ i.2 y := by
  unfold consistentPerm
  rw [over_always_iff _ fun i hi => consistentRun_ends (ht i hi) i.2]
  exact forall₂_congr fun i hi => consistentRun_always_iff (ht i hi) i.2

/-- **C63**: and it does come to an end on some generator outputs, so the statement above is not empty. -/
theorem C63_consistent_perm_ends (instances : List (Nat × (List F → Option (List F)))) (ht : ∀ i ∈ instances, 0 < i.1) :
    Ends (consistentPerm instances) :=
  over_ends _ fun i hi => consistentRun_ends (ht i hi) i.2

/-- **C63.** What `opt_equals_not_opt` is about: it cannot fail exactly when on all states of the instance's width the
optimized function returns, and returns what the plain one returns. -/
theorem C63_opt_iff (instances : List (Nat × (List F → Option (List F)) × (List F → Option (List F)))) :
    AlwaysPasses (optEqualsNotOpt instances) ↔ ∀ i ∈ instances, ∀ x, x.length = i.1 →
      i.2.1 x ≠ none ∧ i.2.1 x = i.2.2 x := by
  unfold optEqualsNotOpt
  rw [over_always_iff _ fun i _ => ?_]
  · exact forall₂_congr fun i _ => equalRun_always_iff i.1 i.2.1 i.2.2
  · obtain ⟨b, hb, -⟩ := equalRun_eq (t := i.1) i.2.1 i.2.2 (x := List.replicate i.1 0) (by simp)
    exact ⟨_, b, hb⟩

/-- A permutation of the states of width `t` passes. -/
theorem Spec.IsPermutation.passes {t : Nat} {f : List F → Option (List F)} (h : IsPermutation t f) :
    (∀ x, x.length = t → f x ≠ none) ∧ ∀ x y, x.length = t → y.length = t → x ≠ y → f x ≠ f y := by
  obtain ⟨h1, h2⟩ := h
  refine ⟨fun x hx hn => ?_, fun x y hx hy hne he => ?_⟩
  · obtain ⟨y, -, e⟩ := h1 x hx
    rw [hn] at e
    cases e
  · obtain ⟨u, hu, eu⟩ := h1 x hx
    exact hne ((h2 u hu).unique ⟨hx, eu⟩ ⟨hy, he ▸ eu⟩)

/-- **C63**, Poseidon2: `consistent_perm` never fails on the shipped parameter sets. -/
theorem C63_poseidon2 (S : Poseidon2Source) (hS : S ∈ Instances.poseidon2) [Fact S.modulus.Prime] :
    ∃ P, S.params dbg = some P ∧ AlwaysPasses (consistentPerm [(S.t, Poseidon2.permutation dbg P)]) := by
  obtain ⟨P, hP, h⟩ := C08_shipped_bijective S hS
  have ht : 0 < S.t := by
    have := (poseidon2_good S hS).width
    unfold Supported at this
    omega
  refine ⟨P, hP, (C63_consistent_perm_iff _ (by simpa using ht)).mpr ?_⟩
  intro i hi
  obtain rfl := List.mem_singleton.mp hi
  exact h.passes

/-- **C63**, Poseidon: neither randomized test ever fails on the shipped parameter sets, in either build profile. -/
theorem C63_poseidon (S : PoseidonSource) (hS : S ∈ Instances.poseidon) [Fact S.modulus.Prime] (dbg : Bool) :
    ∃ P, S.params dbg = some P ∧ AlwaysPasses (consistentPerm [(S.t, Poseidon.permutation dbg P)]) ∧
      AlwaysPasses (optEqualsNotOpt [(S.t, Poseidon.permutation dbg P, Poseidon.permutationNotOpt dbg P)]) := by
  obtain ⟨P, hP, he, h⟩ := C17_shipped S hS dbg
  have ht : 0 < S.t := by
    have : (Instances.poseidon.all fun S => decide (0 < S.t)) = true := by decide +kernel
    exact of_decide_eq_true (List.all_eq_true.mp this S hS)
  refine ⟨P, hP, (C63_consistent_perm_iff _ (by simpa using ht)).mpr ?_, (C63_opt_iff _).mpr ?_⟩
  · intro i hi
    obtain rfl := List.mem_singleton.mp hi
    exact h.passes
  · intro i hi x hx
    obtain rfl := List.mem_singleton.mp hi
    exact ⟨h.passes.1 x hx, he x⟩

/-- **C63**, GMiMC: neither randomized test ever fails on the shipped parameter sets, whatever constants were drawn. -/
theorem C63_gmimc (S : Shape) (hS : S ∈ Instances.gmimc) [Fact S.modulus.Prime] (dbg : Bool) (s : List (ZMod S.modulus))
    (hs : S.rounds_f ≤ s.length) :
    ∃ P, GmimcParams.new S.t S.d S.rounds_f s = some (P, s.drop S.rounds_f) ∧
      AlwaysPasses (consistentPerm [(S.t, Gmimc.permutation dbg P)]) ∧
      AlwaysPasses (optEqualsNotOpt [(S.t, Gmimc.permutation dbg P, Gmimc.permutationNotOpt dbg P)]) := by
  obtain ⟨P, hP, he, h⟩ := C55_gmimc S hS dbg s hs
  have ht := (gmimc_good S hS).2.2.1
  refine ⟨P, hP, (C63_consistent_perm_iff _ (by simp; omega)).mpr ?_, (C63_opt_iff _).mpr ?_⟩
  · intro i hi
    obtain rfl := List.mem_singleton.mp hi
    exact h.passes
  · intro i hi x hx
    obtain rfl := List.mem_singleton.mp hi
    exact ⟨h.passes.1 x hx, he x⟩

/-- A total function that preserves the width of states over a finite field is injective on them only if it permutes them. -/
theorem isPermutation_of_injective [Fintype F] {t : Nat} {f : List F → Option (List F)}
    (h1 : ∀ x, x.length = t → ∃ y, f x = some y ∧ y.length = t)
    (h2 : ∀ x y, x.length = t → y.length = t → x ≠ y → f x ≠ f y) : IsPermutation t f := by
  refine ⟨fun x hx => ?_, fun y hy => ?_⟩
  · obtain ⟨y, e, hy⟩ := h1 x hx
    exact ⟨y, hy, e⟩
  · choose g hg hgl using fun x : List.Vector F t => h1 x.1 x.2
    let G : List.Vector F t → List.Vector F t := fun x => ⟨g x, hgl x⟩
    have hinj : Function.Injective G := by
      intro a b hab
      by_contra hne
      refine h2 a.1 b.1 a.2 b.2 (fun h => hne (Subtype.ext h)) ?_
      rw [hg, hg]
      exact congrArg some (congrArg Subtype.val hab)
    obtain ⟨x, hx⟩ := (Finite.injective_iff_surjective.mp hinj) ⟨y, hy⟩
    have hxy : f x.1 = some y := by rw [hg]; exact congrArg some (congrArg Subtype.val hx)
    refine ⟨x.1, ⟨x.2, hxy⟩, fun z hz => ?_⟩
    by_contra hne
    exact h2 z x.1 hz.1 x.2 hne (hz.2.trans hxy.symm)

/-- **C63**, Neptune: for parameters the constructor returned, `consistent_perm` can fail exactly when the permutation is not
a bijection of the states (C26 says which draws those are). -/
theorem C63_neptune [Fintype F] {t d rounds_f rounds_p : Nat} (ht : 0 < t) {s r : List F} {P : NeptuneParams F}
    (h : NeptuneParams.new dbg t d rounds_f rounds_p s = some (P, r)) (hfit : rounds_f + rounds_p < 2 ^ 64) :
    AlwaysPasses (consistentPerm [(t, Neptune.permutation dbg P)]) ↔ IsPermutation t (Neptune.permutation dbg P) := by
  rw [C63_consistent_perm_iff _ (by simpa using ht)]
  constructor
  · intro hi
    exact isPermutation_of_injective (fun x hx => C25_total ht h hfit x hx) (hi _ (List.mem_singleton_self _)).2
  · intro hp i hi
    obtain rfl := List.mem_singleton.mp hi
    exact hp.passes

/-! ## `matmul_equalities` -/

namespace SelfTests

theorem foldlM_unit_iff {α : Type _} (g : α → Option Unit) (l : List α) :
    l.foldlM (fun _ a => g a) () = some () ↔ ∀ a ∈ l, g a = some () := by
  induction l with
  | nil => simp
  | cons a l ih =>
    rw [List.foldlM_cons]
    cases h : g a with
    | none => simp [h]
    | some u => simpa [h] using ih

theorem checkExternal_iff {t : Nat} (M : Matrix (Fin t) (Fin t) F) :
    checkExternal t (rowsOf M) = some () ↔
      ∀ i j : Fin t, if (i.val + j.val) % 2 = 0 then M i j ≠ 0 else M i j = 0 := by
  unfold checkExternal
  rw [foldlM_unit_iff, List.take_of_length_le (by simp [rowsOf])]
  constructor
  · intro h i j
    have h1 := h (List.ofFn fun j => M i j, i.val) (by
      rw [List.mem_zipIdx_iff_getElem?]
      simp [rowsOf])
    rw [foldlM_unit_iff, List.take_of_length_le (by simp)] at h1
    have h2 := h1 (M i j, j.val) (by
      rw [List.mem_zipIdx_iff_getElem?]
      simp)
    simp only at h2
    split <;> rename_i hp
    · simpa [hp, assertThat] using h2
    · simpa [hp, assertThat] using h2
  · rintro h ⟨row, i⟩ hrow
    rw [List.mem_zipIdx_iff_getElem?] at hrow
    simp only [rowsOf, List.getElem?_ofFn] at hrow
    split at hrow
    · rename_i hi
      cases hrow
      rw [foldlM_unit_iff, List.take_of_length_le (by simp)]
      rintro ⟨x, j⟩ hx
      rw [List.mem_zipIdx_iff_getElem?] at hx
      simp only [List.getElem?_ofFn] at hx
      split at hx
      · rename_i hj
        cases hx
        have := h ⟨i, hi⟩ ⟨j, hj⟩
        simp only at this ⊢
        split <;> rename_i hp
        · simpa [hp, assertThat] using this
        · simpa [hp, assertThat] using this
      · cases hx
    · cases hrow

theorem buildMi_eq {t : Nat} (P : NeptuneParams F) (ht : P.t = t) (hmu : P.mu.length = t) :
    buildMi P = some (rowsOf (neptuneInternal t (vec P.mu))) := by
  unfold buildMi
  rw [ht, rowsOf_eq_tm, replicate2_eq_tm]
  have hmu' : P.mu = tl t (vec P.mu) := by
    conv_lhs => rw [eq_tl P.mu 0, hmu]
    rfl
  have step := foldlM_range (fun (mi : List (List F)) i => (do
    let m ← P.mu[i]?
    let mi ← set2 mi i i m
    let x ← get2 mi i i
    set2 mi i i (x + 1) : Option (List (List F)))) t
    (fun n => tm t t fun i j => if i = j ∧ i < n then vec P.mu i + 1 else 1) (by
      intro n hn
      have h0 : P.mu[n]? = some (vec P.mu n) := by rw [hmu', tl_get _ hn, ← hmu']
      simp only [h0, Option.bind_eq_bind, Option.bind_some, set2_tm _ _ hn hn, get2_tm _ hn hn]
      congr 1
      apply tm_congr
      intro i hi j hj
      simp only [upd2, and_self, if_true]
      by_cases h : i = n ∧ j = n
      · obtain ⟨rfl, rfl⟩ := h
        simp
      · rw [if_neg h, if_neg h]
        by_cases hij : i = j
        · subst hij
          have : i ≠ n := fun e => h ⟨e, e⟩
          by_cases hlt : i < n
          · rw [if_pos ⟨rfl, hlt⟩, if_pos ⟨rfl, by omega⟩]
          · rw [if_neg (fun e => hlt e.2), if_neg (fun e => by omega)]
        · rw [if_neg (fun e => hij e.1), if_neg (fun e => hij e.1)])
  have e0 : (tm t t fun _ _ => (1 : F)) = tm t t fun i j => if i = j ∧ i < 0 then vec P.mu i + 1 else 1 := by
    apply tm_congr
    intro i _ j _
    rw [if_neg (by omega)]
  rw [e0, step]
  congr 1
  apply tm_congr
  intro i hi j hj
  rw [dif_pos ⟨hi, hj⟩]
  simp [neptuneInternal, hi, vec]

theorem matmul_eq {n : Nat} (dbg : Bool) (A : Matrix (Fin n) (Fin n) F) (x : Fin n → F) :
    SelfTests.matmul dbg (List.ofFn x) (rowsOf A) = some (List.ofFn (A *ᵥ x)) :=
  C31_matmul dbg A x

theorem matmulRun_always {t d rounds_f rounds_p : Nat} (dbg : Bool) (ht : 0 < t) {s r : List F} {P : NeptuneParams F}
    (h : NeptuneParams.new dbg t d rounds_f rounds_p s = some (P, r)) (hPt : P.t = t) :
    AlwaysPasses (matmulRun dbg P (rowsOf (neptuneInternal t (vec P.mu)))) := by
  obtain ⟨M, hM, -, hext⟩ := C22_external_layer h
  obtain ⟨hmu, -, hint⟩ := C23_internal_layer ht h
  intro s' b r' e
  unfold matmulRun at e
  obtain ⟨x, s1, h1, e⟩ := bind_some.mp e
  obtain ⟨rfl, -⟩ := pure_some.mp e
  obtain ⟨-, hx⟩ := NeptuneParams.repeat_scalar_iff.mp h1
  rw [hPt] at hx
  obtain ⟨y, rfl⟩ : ∃ y : Fin t → F, x = List.ofFn y := by
    subst hx
    exact ⟨fun i => x[i], by simp⟩
  have e1 : Neptune.internalMatmul P (List.ofFn y) = some (List.ofFn (neptuneInternal t (vec P.mu) *ᵥ y)) := hint y
  rw [hM]
  simp [hext, matmul_eq, e1, assertThat]

theorem checkExternal_new {k : Nat} {s s1 : List F} {P : NeptuneParams F}
    (hP : NeptuneParams.new dbg (2 * k) 3 2 1 s = some (P, s1)) :
    checkExternal P.t P.m_e = some () ↔
      ∀ i j, i < 2 * k → j < 2 * k → i % 2 = j % 2 → tab P.m_e i j ≠ 0 := by
  have hPt : P.t = 2 * k := (C51_constructor_iff.mp hP).2.2.2.1
  obtain ⟨M, hM, hpar, -⟩ := C22_external_layer hP
  have htab : ∀ i j : Fin (2 * k), tab P.m_e i j = M i j := by
    intro i j
    rw [hM]
    simp [tab, rowsOf]
  rw [hPt, hM, checkExternal_iff, ← hM]
  constructor
  · intro h i j hi hj hij
    have := h ⟨i, hi⟩ ⟨j, hj⟩
    rw [if_pos (by simp only; omega)] at this
    rwa [htab ⟨i, hi⟩ ⟨j, hj⟩]
  · intro h i j
    split <;> rename_i hp
    · rw [← htab]
      exact h i j i.2 j.2 (by omega)
    · exact hpar i j (by omega)

theorem parityMatrix_ne {k : Nat} {A B : Matrix (Fin k) (Fin k) F} (hA : ∀ i j, A i j ≠ 0) (hB : ∀ i j, B i j ≠ 0)
    (i j : Nat) (hi : i < 2 * k) (hj : j < 2 * k) (hij : i % 2 = j % 2) : tab (rowsOf (parityMatrix A B)) i j ≠ 0 := by
  have : tab (rowsOf (parityMatrix A B)) i j = parityMatrix A B ⟨i, hi⟩ ⟨j, hj⟩ := by
    simp [tab, rowsOf, hi, hj]
  rw [this]
  unfold parityMatrix
  simp only [hij, ne_eq, not_true_eq_false, if_false]
  split
  · exact hA _ _
  · exact hB _ _

end SelfTests

/-- **C63**, Neptune's `matmul_equalities`: for every even width the test ends with "passed" exactly when all drawn entries
of the external matrix at positions of equal parity are nonzero; nothing else it asserts can fail. -/
theorem C63_matmul_equalities {k : Nat} (hk : 0 < k) (dbg : Bool) {s s1 r : List F} {P : NeptuneParams F} {b : Bool}
    (hP : NeptuneParams.new dbg (2 * k) 3 2 1 s = some (P, s1)) (h : matmulEqualities dbg (2 * k) s = some (b, r)) :
    b = true ↔ ∀ i j, i < 2 * k → j < 2 * k → i % 2 = j % 2 → tab P.m_e i j ≠ 0 := by
  have hPt : P.t = 2 * k := (C51_constructor_iff.mp hP).2.2.2.1
  obtain ⟨hmu, -, -⟩ := C23_internal_layer (by omega) hP
  rw [← checkExternal_new hP]
  unfold matmulEqualities at h
  rw [bind_eq hP] at h
  cases hc : checkExternal P.t P.m_e with
  | none =>
    rw [hc] at h
    obtain ⟨rfl, -⟩ := pure_some.mp h
    simp
  | some u =>
    rw [hc] at h
    simp only [buildMi_eq P hPt hmu] at h
    refine ⟨fun _ => rfl, fun _ => ?_⟩
    exact runs_always (matmulRun_always dbg (by omega) hP hPt) _ _ _ _ h

/-- **C63**: at widths 4 and 8 (where the matrix is fixed) the test never fails, in characteristic other than 2 and 3. -/
theorem C63_matmul_equalities_4_8 {t : Nat} (ht : t = 4 ∨ t = 8) (dbg : Bool) (h2 : (2 : F) ≠ 0) (h3 : (3 : F) ≠ 0) :
    AlwaysPasses (matmulEqualities (F := F) dbg t) := by
  intro s b r h
  have h' := h
  unfold matmulEqualities at h'
  obtain ⟨P, s1, hP, -⟩ := bind_some.mp h'
  rcases ht with rfl | rfl
  · have hE := (C51_constructor_iff (k := 2)).mp hP
    obtain ⟨E, -, -, -, -, -, -, hE⟩ := hE.2.2.2.2.2.2.2.2.2.2.2.2.2
    refine (C63_matmul_equalities (k := 2) (by decide) dbg hP h).mpr ?_
    rcases hE with ⟨-, -, hE⟩ | ⟨h, -⟩ | ⟨h, -⟩
    · rw [hE]
      refine parityMatrix_ne ?_ ?_ <;> intro i j <;> fin_cases i <;> fin_cases j <;> simp [h2]
    · omega
    · omega
  · have hE := (C51_constructor_iff (k := 4)).mp hP
    obtain ⟨E, -, -, -, -, -, -, hE⟩ := hE.2.2.2.2.2.2.2.2.2.2.2.2.2
    refine (C63_matmul_equalities (k := 4) (by decide) dbg hP h).mpr ?_
    rcases hE with ⟨h, -⟩ | ⟨-, -, hE⟩ | ⟨-, h, -⟩
    · omega
    · rw [hE]
      refine parityMatrix_ne ?_ ?_ <;> intro i j <;> fin_cases i <;> fin_cases j <;> simp [h2, h3]
    · omega

/-- **C63**: at every other even width the test does fail for some generator outputs (those that put a zero among the
drawn matrix entries) - it is a test whose result depends on chance. -/
theorem C63_matmul_equalities_can_fail {k : Nat} (hk : 0 < k) (h2 : k ≠ 2) (h4 : k ≠ 4) (dbg : Bool) :
    ∃ s : List F, matmulEqualities dbg (2 * k) s = some (false, []) := by
  let P : NeptuneParams F := ⟨2 * k, 3, 1, 1, 1, 3, List.replicate 3 (List.replicate (2 * k) 0),
    rowsOf (parityMatrix (k := k) 0 0), List.replicate (2 * k) 0, (1, 1, 0), (1, 3, 4)⟩
  let s : List F := P.round_constants.flatten ++
    (((rowsOf (0 : Matrix (Fin k) (Fin k) F)).flatten ++ (rowsOf (0 : Matrix (Fin k) (Fin k) F)).flatten) ++
      (List.replicate (2 * k) 1 ++ 0 :: []))
  have hP : NeptuneParams.new dbg (2 * k) 3 2 1 s = some (P, []) := by
    refine C51_constructor_iff.mpr ⟨Or.inl rfl, rfl, fun _ => by norm_num, rfl, rfl, rfl, rfl, rfl, rfl, by simp [P], ?_, by simp [P], rfl,
      _, List.replicate (2 * k) 1, 0, rfl, rfl, ?_, ?_, Or.inr (Or.inr ⟨h2, h4, 0, 0, rfl, rfl⟩)⟩
    · intro row hrow
      rw [List.eq_of_mem_replicate hrow]
      simp
    · simp [P]
    · rw [List.getLast?_replicate]
      simp
  refine ⟨s, ?_⟩
  unfold matmulEqualities
  rw [bind_eq hP]
  cases hc : checkExternal P.t P.m_e with
  | none => rfl
  | some u =>
    refine absurd ((checkExternal_new hP).mp hc 0 0 (by omega) (by omega) rfl) ?_
    have : ∃ n, 2 * k = n + 1 := ⟨2 * k - 1, by omega⟩
    simp [P, tab, rowsOf, parityMatrix, hk]

/-- **C63**, the test `input_24_elements` (`src/poseidon2/poseidon2.rs` lines 511-518): the parameters it builds - width 24
with the tables of width 3 over BN256 - are accepted by the constructor, and then the permutation panics, on this and on
every other input; so this test of the repository cannot pass. -/
theorem C63_input_24_elements :
    let S := Instances.Poseidon2Bn256.POSEIDON2_BN256_PARAMS
    ∃ P, Poseidon2Params.new dbg 24 5 8 56 S.diagF S.matInternalF S.rcF = some P ∧
      ∀ x : List (ZMod S.modulus), Poseidon2.permutation dbg P x = none := by
  intro S
  refine ⟨_, rfl, fun x => C07_short_rows_panic _ 0 (by norm_num) (Or.inl ⟨Or.inl (by decide), ?_⟩) x⟩
  have h : ((S.rc.getD 0 []).length = 3) := by decide +kernel
  show ((S.rcF.getD 0 []).length < 24)
  unfold Poseidon2Source.rcF
  rw [List.getD_eq_getElem?_getD, List.getElem?_map]
  rw [List.getD_eq_getElem?_getD] at h
  cases hr : S.rc[0]? with
  | none => simp
  | some row =>
    rw [hr] at h
    simp only [Option.getD_some] at h
    simp [h]

section examples

/-- Witness for C63: a constant function can fail `consistent_perm`, the identity and a function that panics nowhere on the
tested width cannot, and one that panics on a single input can. -/
example : ¬ AlwaysPasses (consistentPerm [(1, fun _ => some [(7 : ℚ)])]) ∧
    AlwaysPasses (consistentPerm [(1, fun x : List ℚ => some x), (2, fun x => if x.length = 2 then some x else none)]) ∧
    ¬ AlwaysPasses (consistentPerm [(1, fun x : List ℚ => if x = [5] then none else some x)]) := by
  refine ⟨fun h => ?_, (C63_consistent_perm_iff _ (by simp)).mpr ?_, fun h => ?_⟩
  · have := (C63_consistent_perm_iff _ (by simp)).mp h _ (List.mem_singleton_self _)
    exact this.2 [1] [2] rfl rfl (by decide) rfl
  · intro i hi
    rcases List.mem_cons.mp hi with rfl | hi
    · exact ⟨by simp, by simp⟩
    · obtain rfl := List.mem_singleton.mp hi
      exact ⟨fun x hx => by simp [hx], fun x y hx hy => by simp [hx, hy]⟩
  · have := (C63_consistent_perm_iff _ (by simp)).mp h _ (List.mem_singleton_self _)
    exact this.1 [5] rfl (by simp)

/-- The second input is drawn again while it equals the first. -/
example : drawOther 1 [(1 : ℚ)] [1, 1, 3, 9] = some ([3], [9]) := by
  have e : ∀ (x : ℚ) (r : List ℚ), repeatDraw randomScalar 1 (x :: r) = some ([x], r) := fun _ _ => rfl
  rw [drawOther, e]
  simp only [Option.bind_eq_bind, Option.bind_some, ne_eq, not_true_eq_false, if_false]
  rw [drawOther, e]
  simp only [Option.bind_eq_bind, Option.bind_some, ne_eq, not_true_eq_false, if_false]
  exact drawOther_eq (y := [3]) rfl (by decide)

/-- Width 6 of `matmul_equalities` is one of the widths at which the test can fail. -/
example : ∃ s : List ℚ, matmulEqualities true 6 s = some (false, []) :=
  C63_matmul_equalities_can_fail (k := 3) (by decide) (by decide) (by decide) true

end examples

end ZkHash

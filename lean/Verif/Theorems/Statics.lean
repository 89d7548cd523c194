import Verif.Proofs.Statics
import Verif.Theorems.ShippedOther

set_option autoImplicit false

/-!
# The lazily initialized parameter sets under every schedule: C70
-/

namespace ZkHash

open Statics Fields

section any
variable {n : Nat} {ι V R : Type} [DecidableEq ι]

/-- **C70**, agreement: whatever the initializers do (panic, draw random numbers, dereference other statics), and
however the threads are scheduled, two threads - or the same thread twice, or at different times - never get different
values of the same static. -/
theorem C70_agree (P : Program ι V R) (todo : Fin n → List ι) (gen : Fin n → R) (sched later : List (Fin n))
    (τ τ' : Fin n) (i : ι) (v v' : V)
    (h : (i, v) ∈ ((run P (start todo gen) sched).thread τ).seen)
    (h' : (i, v') ∈ ((run P (start todo gen) (sched ++ later)).thread τ').seen) : v = v' := by
  have hT : Typed P (fun _ _ => True) (fun (_ : Fin n) _ => True) := fun _ _ _ _ _ _ _ _ _ => ⟨trivial, trivial⟩
  have hI := inv_run hT (inv_start (P := P) (todo := todo) gen fun _ => trivial) sched
  have h1 := hI.seen τ i v h
  have h2 := ready_run hT hI later h1
  have e : run P (start todo gen) (sched ++ later) = run P (run P (start todo gen) sched) later := by
    unfold run; rw [List.foldl_append]
  rw [e] at h'
  have h3 := (inv_run hT hI later).seen τ' i v' h'
  rw [h2] at h3
  exact Cell.ready.inj h3

/-- **C70**, the order of use is kept: a thread has got the values of a beginning of the statics it asks for, in order. -/
theorem C70_order (P : Program ι V R) (todo : Fin n → List ι) (gen : Fin n → R) (sched : List (Fin n)) (τ : Fin n) :
    ((run P (start todo gen) sched).thread τ).seen.reverse.map Prod.fst ++
      ((run P (start todo gen) sched).thread τ).todo = todo τ := by
  have hT : Typed P (fun _ _ => True) (fun (_ : Fin n) _ => True) := fun _ _ _ _ _ _ _ _ _ => ⟨trivial, trivial⟩
  exact (inv_run hT (inv_start (P := P) (todo := todo) gen fun _ => trivial) sched).hist τ

/-- **C70**, no endless execution: with finitely many statics every execution, with or without panics, consists of at
most `∑ (number of dereferences in the initializer + 2) + ∑ (number of uses)` steps. -/
theorem C70_bound [Fintype ι] (P : Program ι V R) (todo : Fin n → List ι) (gen : Fin n → R) (sched : List (Fin n))
    (s' : State n ι V R) (h : moves P (start todo gen) sched = some s') :
    sched.length ≤ (∑ i, ((P.deps i).length + 2)) + ∑ τ, (todo τ).length := by
  have hT : Typed P (fun _ _ => True) (fun (_ : Fin n) _ => True) := fun _ _ _ _ _ _ _ _ _ => ⟨trivial, trivial⟩
  have := moves_bound hT (inv_start (P := P) (todo := todo) gen fun _ => trivial) sched h
  rw [weight_start] at this
  omega

end any

/-! ## The statics of the crate -/

namespace Statics

instance (k : Fin Instances.poseidon.length) : Fact Instances.poseidon[k].modulus.Prime :=
  ⟨poseidon_prime _ (List.getElem_mem _)⟩

instance (k : Fin Instances.neptune.length) : Fact Instances.neptune[k].modulus.Prime :=
  ⟨(neptune_good _ (List.getElem_mem _)).1⟩

/-- What a static of the crate holds, once it is initialized: the tables hold the published numbers; Poseidon2 and
Poseidon parameter sets hold what their constructor returns for the published tables; a GMiMC parameter set holds
consecutive elements of the generator of one thread; a Neptune parameter set holds what its constructor returns for
consecutive elements of the generator of one thread. -/
def Holds (dbg : Bool) {n : Nat} (gen : Fin n → Gen) : Name → Value → Prop
  | .poseidon2Diag k, v => v = .row Instances.poseidon2[k].diag
  | .poseidon2Internal k, v => v = .table Instances.poseidon2[k].matInternal
  | .poseidon2Rc k, v => v = .table Instances.poseidon2[k].rc
  | .poseidonMds k, v => v = .table Instances.poseidon[k].mds
  | .poseidonRc k, v => v = .table Instances.poseidon[k].rc
  | .poseidon2 k, v => ∃ P, Instances.poseidon2[k].params dbg = some P ∧ v = .poseidon2 k P
  | .poseidon k, v => ∃ P, Instances.poseidon[k].params dbg = some P ∧ v = .poseidon k P
  | .gmimc k, v => ∃ τ m, v = .gmimc k ⟨Instances.gmimc[k].t, Instances.gmimc[k].d, Instances.gmimc[k].rounds_f,
      (List.range Instances.gmimc[k].rounds_f).map fun i => gen τ Instances.gmimc[k].modulus (m + i)⟩
  | .neptune k, v => ∃ τ m l P, NeptuneParams.new dbg Instances.neptune[k].t Instances.neptune[k].d
      Instances.neptune[k].rounds_f Instances.neptune[k].rounds_p
      ((List.range l).map fun i => gen τ Instances.neptune[k].modulus (m + i)) = some (P, []) ∧ v = .neptune k P

/-- The generators that a thread can have after some draws. -/
def Later {n : Nat} (gen : Fin n → Gen) (τ : Fin n) (g : Gen) : Prop := ∀ p, ∃ m, g p = fun i => gen τ p (m + i)

/-- A generator delivers nonzero elements again and again, for every declared field. -/
def Plenty (g : Gen) : Prop := ∀ f ∈ Fields.declared, ∀ m, ∃ i, m ≤ i ∧ g f.1 i ≠ 0

theorem draw_some {F α : Type} {f : Draw F α} {s : Nat → F} {a : α} {r : Nat → F} (h : draw f s = some (a, r)) :
    ∃ m, f ((List.range m).map s) = some (a, []) ∧ r = fun i => s (m + i) := by
  classical
  unfold draw at h
  split at h
  · rename_i hm
    cases h
    exact ⟨Nat.find hm, Classical.choose_spec (Nat.find_spec hm), rfl⟩
  · cases h

theorem draw_isSome {F α : Type} {f : Draw F α} {s : Nat → F} (h : ∃ m a, f ((List.range m).map s) = some (a, [])) :
    ∃ a r, draw f s = some (a, r) := by
  classical
  unfold draw
  rw [dif_pos h]
  exact ⟨_, _, rfl⟩

theorem later_update {n : Nat} {gen : Fin n → Gen} {τ : Fin n} {g : Gen} (hg : Later gen τ g) {α : Type} {p : Nat}
    {f : Draw (ZMod p) α} {a : α} {g' : Gen} (h : drawIn p f g = some (a, g')) :
    Later gen τ g' ∧ ∃ m l, f ((List.range l).map fun i => gen τ p (m + i)) = some (a, []) := by
  unfold drawIn at h
  obtain ⟨⟨a', r⟩, hd, he⟩ := Option.map_eq_some_iff.mp h
  obtain ⟨rfl, rfl⟩ := Prod.ext_iff.mp he
  obtain ⟨l, hl, hr⟩ := draw_some hd
  obtain ⟨m, hm⟩ := hg p
  dsimp only at hl hr ⊢
  refine ⟨fun q => ?_, m, l, by rw [hm] at hl; exact hl⟩
  by_cases hq : q = p
  · subst hq
    refine ⟨m + l, ?_⟩
    rw [Function.update_self, hr, hm]
    funext i
    rw [Nat.add_assoc]
  · obtain ⟨m', hm'⟩ := hg q
    exact ⟨m', by rw [Function.update_of_ne hq]; exact hm'⟩

/-! ### Constructors on an endless supply -/

/-- On every endless supply with infinitely many nonzero elements, `f` returns, having used up a beginning. -/
def Returns {F α : Type} [Zero F] (f : Draw F α) : Prop :=
  ∀ s : Nat → F, (∀ m, ∃ i, m ≤ i ∧ s i ≠ 0) → ∃ m a, ∀ l, f ((List.range m).map s ++ l) = some (a, l)

section returns
variable {F α β : Type} [Zero F]

theorem returns_pure (a : α) : Returns (pure a : Draw F α) := fun _ _ => ⟨0, a, fun _ => rfl⟩

theorem returns_lift {o : Option α} {a : α} (h : o = some a) : Returns (StateT.lift o : Draw F α) := by
  subst h
  exact fun _ _ => ⟨0, a, fun _ => rfl⟩

theorem returns_bind {f : Draw F α} {g : α → Draw F β} (hf : Returns f) (hg : ∀ a, (∃ s r, f s = some (a, r)) → Returns (g a)) :
    Returns (f >>= g) := by
  intro s hs
  obtain ⟨m1, a, h1⟩ := hf s hs
  obtain ⟨m2, b, h2⟩ := hg a ⟨_, _, h1 []⟩ (fun i => s (m1 + i)) (fun m => by
    obtain ⟨i, hi, hne⟩ := hs (m1 + m)
    exact ⟨i - m1, by omega, by rwa [show m1 + (i - m1) = i by omega]⟩)
  refine ⟨m1 + m2, b, fun l => ?_⟩
  rw [List.range_add, List.map_append, List.map_map, List.append_assoc, bind_eq (h1 _)]
  exact h2 l

theorem returns_randomScalar : Returns (randomScalar : Draw F F) := fun s _ => ⟨1, s 0, fun _ => rfl⟩

theorem returns_randomScalarWithout0 [DecidableEq F] : Returns (randomScalarWithout0 : Draw F F) := by
  intro s hs
  obtain ⟨i, -, hi⟩ := hs 0
  induction i generalizing s with
  | zero =>
    refine ⟨1, s 0, fun l => ?_⟩
    show randomScalarWithout0 (s 0 :: l) = _
    rw [randomScalarWithout0, if_neg hi]
  | succ i ih =>
    by_cases h0 : s 0 = 0
    · obtain ⟨m, a, h⟩ := ih (fun j => s (j + 1)) (fun m => by
        obtain ⟨j, hj, hne⟩ := hs (m + 1)
        exact ⟨j - 1, by omega, by rwa [show j - 1 + 1 = j by omega]⟩) hi
      refine ⟨m + 1, a, fun l => ?_⟩
      rw [List.range_succ_eq_map, List.map_cons, List.map_map, List.cons_append, randomScalarWithout0, if_pos h0]
      exact h l
    · refine ⟨1, s 0, fun l => ?_⟩
      show randomScalarWithout0 (s 0 :: l) = _
      rw [randomScalarWithout0, if_neg h0]

theorem returns_repeat {f : Draw F α} (hf : Returns f) (n : Nat) : Returns (repeatDraw f n) := by
  induction n with
  | zero => exact returns_pure _
  | succ n ih => exact returns_bind hf fun a _ => returns_bind ih fun l _ => returns_pure _

end returns

theorem returns_neptune {F : Type} [Field F] [DecidableEq F] {dbg : Bool} {k d rounds_f rounds_p : Nat}
    (hd : d = 3 ∨ d = 5 ∨ d = 7) (hr : rounds_f % 2 = 0) (hfit : rounds_f + rounds_p < 2 ^ 64) :
    Returns (NeptuneParams.new dbg (2 * k) d rounds_f rounds_p : Draw F (NeptuneParams F)) := by
  have hblocks : Returns (NeptuneParams.externalBlocks (2 * k) : Draw F _) := by
    by_cases h2 : k = 2
    · subst h2
      exact fun _ _ => ⟨0, _, fun l => NeptuneParams.blocks_four l⟩
    by_cases h4 : k = 4
    · subst h4
      exact fun _ _ => ⟨0, _, fun l => NeptuneParams.blocks_eight l⟩
    unfold NeptuneParams.externalBlocks
    rw [if_neg (by omega), if_neg (by omega)]
    exact returns_bind (returns_repeat (returns_repeat returns_randomScalar _) _) fun _ _ =>
      returns_bind (returns_repeat (returns_repeat returns_randomScalar _) _) fun _ _ => returns_pure _
  have hext : Returns (NeptuneParams.instantiateExternalMatrix (2 * k) : Draw F _) := by
    intro s hs
    obtain ⟨m, p, h⟩ := hblocks s hs
    obtain ⟨A, B, rfl⟩ := NeptuneParams.blocks_post (h [])
    exact ⟨m, _, fun l => NeptuneParams.external_eq (h l)⟩
  have hass : ∀ b : Bool, b = true → Returns (StateT.lift (assertThat b) : Draw F Unit) := fun b hb => by
    subst hb; exact returns_lift rfl
  unfold NeptuneParams.new
  refine returns_bind (hass _ (by simp; omega)) fun _ _ => ?_
  refine returns_bind (hass _ (by simpa using hr)) fun _ _ => ?_
  refine returns_bind (hass _ (by simp)) fun _ _ => ?_
  refine returns_bind (returns_lift (uadd_fits dbg hfit)) fun _ _ => ?_
  refine returns_bind (returns_repeat (returns_repeat returns_randomScalar _) _) fun _ _ => ?_
  refine returns_bind hext fun _ _ => ?_
  refine returns_bind (returns_repeat (returns_bind returns_randomScalarWithout0 fun _ _ => returns_pure _) _) fun _ _ => ?_
  exact returns_bind returns_randomScalar fun _ _ => returns_pure _

theorem returns_gmimc {F : Type} [Zero F] [One F] [Add F] [Sub F] [Mul F] {t d rounds : Nat}
    (hd : d = 3 ∨ d = 5 ∨ d = 7) : Returns (GmimcParams.new t d rounds : Draw F (GmimcParams F)) := by
  unfold GmimcParams.new
  refine returns_bind ?_ fun _ _ => ?_
  · refine returns_lift (a := ()) ?_
    rcases hd with rfl | rfl | rfl <;> rfl
  · exact returns_bind (returns_repeat returns_randomScalar _) fun _ _ => returns_pure _

theorem repeat_scalar {F : Type} {n : Nat} {s l r : List F} (h : repeatDraw randomScalar n s = some (l, r)) :
    s = l ++ r ∧ l.length = n := by
  induction n generalizing s l r with
  | zero =>
    obtain ⟨rfl, rfl⟩ := pure_some.mp h
    exact ⟨rfl, rfl⟩
  | succ n ih =>
    obtain ⟨x, s1, h1, h2⟩ := bind_some.mp h
    obtain ⟨xs, s2, h3, h4⟩ := bind_some.mp h2
    obtain ⟨rfl, rfl⟩ := pure_some.mp h4
    obtain ⟨rfl, hl⟩ := ih h3
    cases s with
    | nil => cases h1
    | cons y s => cases h1; exact ⟨rfl, by rw [List.length_cons, hl]⟩

theorem gmimc_new_eq {F : Type} [Zero F] [One F] [Add F] [Sub F] [Mul F] {t d rounds : Nat} {s : List F}
    {P : GmimcParams F} (h : GmimcParams.new t d rounds s = some (P, [])) :
    P = ⟨t, d, rounds, s⟩ ∧ s.length = rounds := by
  unfold GmimcParams.new at h
  obtain ⟨_, s1, h1, h'⟩ := bind_some.mp h
  obtain ⟨-, rfl⟩ := lift_some.mp h1
  obtain ⟨c, s2, h2, h3⟩ := bind_some.mp h'
  obtain ⟨rfl, rfl⟩ := pure_some.mp h3
  obtain ⟨rfl, hl⟩ := repeat_scalar h2
  simp [hl]

theorem shapes_declared (S : Shape) (hS : S ∈ Instances.neptune ++ Instances.gmimc) :
    S.modulus ∈ Fields.declared.map Prod.fst := by
  have := List.all_eq_true.mp shapes_checked S hS
  simp only [Bool.and_eq_true, List.contains_iff_mem] at this
  exact this.1.1

theorem Returns.draw {F α : Type} [Zero F] {f : Draw F α} (hf : Returns f) {s : Nat → F}
    (hs : ∀ m, ∃ i, m ≤ i ∧ s i ≠ 0) : ∃ a r, Statics.draw f s = some (a, r) := by
  obtain ⟨m, a, h⟩ := hf s hs
  refine draw_isSome ⟨m, a, ?_⟩
  have := h []
  rwa [List.append_nil] at this

/-! ### The initializers -/

theorem gmimc_mem (k : Fin Instances.gmimc.length) : Instances.gmimc[k] ∈ Instances.gmimc := List.getElem_mem _
theorem neptune_mem (k : Fin Instances.neptune.length) : Instances.neptune[k] ∈ Instances.neptune := List.getElem_mem _
theorem poseidon_mem (k : Fin Instances.poseidon.length) : Instances.poseidon[k] ∈ Instances.poseidon := List.getElem_mem _
theorem poseidon2_mem (k : Fin Instances.poseidon2.length) : Instances.poseidon2[k] ∈ Instances.poseidon2 :=
  List.getElem_mem _

theorem crate_typed (dbg : Bool) {n : Nat} (gen : Fin n → Gen) : Typed (crate dbg) (Holds dbg gen) (Later gen) := by
  intro τ i args r v r' hok hargs hi
  cases i with
  | poseidon2Diag k => cases hi; exact ⟨rfl, hok⟩
  | poseidon2Internal k => cases hi; exact ⟨rfl, hok⟩
  | poseidon2Rc k => cases hi; exact ⟨rfl, hok⟩
  | poseidonMds k => cases hi; exact ⟨rfl, hok⟩
  | poseidonRc k => cases hi; exact ⟨rfl, hok⟩
  | poseidon2 k =>
    obtain ⟨a, l1, rfl, h1, rfl⟩ := List.forall₂_cons_left_iff.mp hargs
    obtain ⟨b, l2, rfl, h2, rfl⟩ := List.forall₂_cons_left_iff.mp h1
    obtain ⟨c, l3, rfl, h3, rfl⟩ := List.forall₂_cons_left_iff.mp h2
    cases List.forall₂_nil_left_iff.mp h3
    obtain ⟨P, hP, he⟩ := Option.map_eq_some_iff.mp hi
    cases he
    exact ⟨⟨P, hP, rfl⟩, hok⟩
  | poseidon k =>
    obtain ⟨a, l1, rfl, h1, rfl⟩ := List.forall₂_cons_left_iff.mp hargs
    obtain ⟨b, l2, rfl, h2, rfl⟩ := List.forall₂_cons_left_iff.mp h1
    cases List.forall₂_nil_left_iff.mp h2
    obtain ⟨P, hP, he⟩ := Option.map_eq_some_iff.mp hi
    cases he
    exact ⟨⟨P, hP, rfl⟩, hok⟩
  | gmimc k =>
    obtain ⟨⟨P, g⟩, hP, he⟩ := Option.map_eq_some_iff.mp hi
    cases he
    obtain ⟨h1, m, l, h2⟩ := later_update hok hP
    refine ⟨?_, h1⟩
    refine ⟨τ, m, ?_⟩
    obtain ⟨rfl, hl⟩ := gmimc_new_eq h2
    rw [List.length_map, List.length_range] at hl
    rw [hl]
  | neptune k =>
    obtain ⟨⟨P, g⟩, hP, he⟩ := Option.map_eq_some_iff.mp hi
    cases he
    obtain ⟨h1, m, l, h2⟩ := later_update hok hP
    exact ⟨⟨τ, m, l, P, h2, rfl⟩, h1⟩

theorem plenty_later {n : Nat} {gen : Fin n → Gen} (hgen : ∀ τ, Plenty (gen τ)) {τ : Fin n} {g : Gen} (hg : Later gen τ g)
    {p : Nat} (hp : p ∈ Fields.declared.map Prod.fst) (m : Nat) : ∃ i, m ≤ i ∧ g p i ≠ 0 := by
  obtain ⟨f, hf, rfl⟩ := List.mem_map.mp hp
  obtain ⟨m', hm'⟩ := hg f.1
  obtain ⟨i, hi, hne⟩ := hgen τ f hf (m' + m)
  refine ⟨i - m', by omega, ?_⟩
  rw [hm']
  dsimp only
  rwa [show m' + (i - m') = i by omega]

theorem crate_total (dbg : Bool) {n : Nat} (gen : Fin n → Gen) (hgen : ∀ τ, Plenty (gen τ)) :
    Total (crate dbg) (Holds dbg gen) (Later gen) := by
  intro τ i args r hok hargs
  cases i with
  | poseidon2Diag k => exact ⟨_, _, rfl⟩
  | poseidon2Internal k => exact ⟨_, _, rfl⟩
  | poseidon2Rc k => exact ⟨_, _, rfl⟩
  | poseidonMds k => exact ⟨_, _, rfl⟩
  | poseidonRc k => exact ⟨_, _, rfl⟩
  | poseidon2 k =>
    obtain ⟨a, l1, rfl, h1, rfl⟩ := List.forall₂_cons_left_iff.mp hargs
    obtain ⟨b, l2, rfl, h2, rfl⟩ := List.forall₂_cons_left_iff.mp h1
    obtain ⟨c, l3, rfl, h3, rfl⟩ := List.forall₂_cons_left_iff.mp h2
    cases List.forall₂_nil_left_iff.mp h3
    obtain ⟨P, hP⟩ := (poseidon2_good _ (poseidon2_mem k)).params (dbg := dbg)
    exact ⟨.poseidon2 k P, r, Option.map_eq_some_iff.mpr ⟨P, hP, rfl⟩⟩
  | poseidon k =>
    obtain ⟨a, l1, rfl, h1, rfl⟩ := List.forall₂_cons_left_iff.mp hargs
    obtain ⟨b, l2, rfl, h2, rfl⟩ := List.forall₂_cons_left_iff.mp h1
    cases List.forall₂_nil_left_iff.mp h2
    obtain ⟨P, hP⟩ := (poseidon_good _ (poseidon_mem k)).returns dbg
    exact ⟨.poseidon k P, r, Option.map_eq_some_iff.mpr ⟨P, hP, rfl⟩⟩
  | gmimc k =>
    obtain ⟨a, s', h⟩ := (returns_gmimc (F := ZMod Instances.gmimc[k].modulus) (t := Instances.gmimc[k].t)
      (rounds := Instances.gmimc[k].rounds_f) (gmimc_good _ (gmimc_mem k)).2.1).draw
      (plenty_later hgen hok (shapes_declared _ (List.mem_append_right _ (gmimc_mem k))))
    exact ⟨_, _, Option.map_eq_some_iff.mpr ⟨_, Option.map_eq_some_iff.mpr ⟨_, h, rfl⟩, rfl⟩⟩
  | neptune k =>
    obtain ⟨-, hd, ht, -, hr, hfit⟩ := neptune_good _ (neptune_mem k)
    have e : Instances.neptune[k].t = 2 * (Instances.neptune[k].t / 2) := by omega
    have := returns_neptune (F := ZMod Instances.neptune[k].modulus) (dbg := dbg) (k := Instances.neptune[k].t / 2) hd hr hfit
    rw [← e] at this
    obtain ⟨a, s', h⟩ := this.draw (plenty_later hgen hok (shapes_declared _ (List.mem_append_left _ (neptune_mem k))))
    exact ⟨_, _, Option.map_eq_some_iff.mpr ⟨_, Option.map_eq_some_iff.mpr ⟨_, h, rfl⟩, rfl⟩⟩

/-- Tables come before the parameter sets made from them. -/
def rank : Name → Nat
  | .poseidon2 _ => 1
  | .poseidon _ => 1
  | _ => 0

theorem crate_rank (dbg : Bool) : ∀ i, ∀ j ∈ (crate dbg).deps i, rank j < rank i := by
  intro i j hj
  cases i <;> simp only [crate, List.mem_cons, List.not_mem_nil, or_false] at hj
  · rcases hj with rfl | rfl | rfl <;> exact Nat.zero_lt_one
  · rcases hj with rfl | rfl <;> exact Nat.zero_lt_one

end Statics

/-- **C70** for the crate, at any time: what a thread has got for a static is what that static is documented to hold. -/
theorem C70_crate_values (dbg : Bool) {n : Nat} (todo : Fin n → List Name) (gen : Fin n → Gen) (sched : List (Fin n))
    (τ : Fin n) (i : Name) (v : Value) (h : (i, v) ∈ ((run (crate dbg) (start todo gen) sched).thread τ).seen) :
    Holds dbg gen i v := by
  have hI := inv_run (crate_typed dbg gen) (inv_start (P := crate dbg) (todo := todo) gen fun τ p => ⟨0, by simp⟩) sched
  exact hI.ready i v (hI.seen τ i v h)

/-- **C70** for the crate, no panic and no deadlock: as long as some thread has not got all it asks for, some thread can
move, and no thread has panicked. -/
theorem C70_crate_progress (dbg : Bool) {n : Nat} (todo : Fin n → List Name) (gen : Fin n → Gen)
    (hgen : ∀ τ, Plenty (gen τ)) (sched : List (Fin n)) :
    (∀ τ, ((run (crate dbg) (start todo gen) sched).thread τ).dead = false) ∧
    ∀ τ, ((run (crate dbg) (start todo gen) sched).thread τ).todo ≠ [] →
      ∃ σ s', step (crate dbg) (run (crate dbg) (start todo gen) sched) σ = some s' := by
  have h0 : Inv (crate dbg) (Holds dbg gen) (Later gen) todo (start todo gen) :=
    inv_start gen fun τ p => ⟨0, by simp⟩
  have hI := inv_run (crate_typed dbg gen) h0 sched
  have hF := fine_run (crate_typed dbg gen) (crate_total dbg gen hgen) h0
    ⟨fun _ => rfl, fun _ h => by cases h⟩ sched
  have hN := nested_run (crate_rank dbg) (crate_typed dbg gen) h0 (fun _ => List.Pairwise.nil) sched
  exact ⟨hF.1, fun τ hτ => progress (crate_rank dbg) hI hF hN τ fun h => hτ h.2⟩

/-- **C70** for the crate, the outcome: there are executions in which no thread can move any more, and in every one of
them every thread has got all it asks for, in order, with one value for each static. -/
theorem C70_crate_outcome (dbg : Bool) {n : Nat} (todo : Fin n → List Name) (gen : Fin n → Gen)
    (hgen : ∀ τ, Plenty (gen τ)) :
    (∃ sched, ∀ τ, step (crate dbg) (run (crate dbg) (start todo gen) sched) τ = none) ∧
    ∀ sched, (∀ τ, step (crate dbg) (run (crate dbg) (start todo gen) sched) τ = none) →
      ∃ value : Name → Value, (∀ τ, ((run (crate dbg) (start todo gen) sched).thread τ).seen.reverse =
        (todo τ).map fun i => (i, value i)) ∧ ∀ τ, ∀ i ∈ todo τ, Holds dbg gen i (value i) := by
  have h0 : Inv (crate dbg) (Holds dbg gen) (Later gen) todo (start todo gen) :=
    inv_start gen fun τ p => ⟨0, by simp⟩
  refine ⟨?_, fun sched hstuck => ?_⟩
  · obtain ⟨sched, s', h1, h2⟩ := exists_moves (crate_typed dbg gen) h0
    exact ⟨sched, by rw [run_eq_of_moves h1]; exact h2⟩
  · have hI := inv_run (crate_typed dbg gen) h0 sched
    have hdone : ∀ τ, ((run (crate dbg) (start todo gen) sched).thread τ).todo = [] := by
      intro τ
      by_contra hne
      obtain ⟨σ, s', hs⟩ := (C70_crate_progress dbg todo gen hgen sched).2 τ hne
      rw [hstuck σ] at hs
      cases hs
    generalize run (crate dbg) (start todo gen) sched = s at hI hdone
    refine ⟨fun i => match s.cell i with | .ready v => v | _ => .row [], fun τ => ?_, fun τ i hi => ?_⟩
    · have hh := hI.hist τ
      rw [hdone τ, List.append_nil] at hh
      rw [← hh, List.map_map]
      refine (List.map_id _).symm.trans (List.map_congr_left fun p hp => ?_)
      obtain ⟨i, v⟩ := p
      have := hI.seen τ i v (List.mem_reverse.mp hp)
      simp [this]
    · have hh := hI.hist τ
      rw [hdone τ, List.append_nil] at hh
      rw [← hh] at hi
      obtain ⟨⟨j, v⟩, hp, rfl⟩ := List.mem_map.mp hi
      have := hI.seen τ j v (List.mem_reverse.mp hp)
      simp only [this]
      exact hI.ready j v this

/-! ## Witnesses -/

/-- Generators as in the hypotheses exist. -/
example : Plenty (fun _ _ => 1) := by
  intro f hf m
  have : Fact f.1.Prime := ⟨declared_prime (List.mem_map_of_mem hf)⟩
  exact ⟨m, le_refl m, one_ne_zero⟩

/-- A table `false`, drawn, and a parameter set `true` made from it. -/
private def two : Program Bool Nat Nat where
  deps i := if i then [false] else []
  init
    | false, _, r => some (r, r + 1)
    | true, [a], r => some (10 * a, r)
    | _, _, _ => none

/-- Thread 0 begins with `true` and is interrupted; thread 1 begins with `false` meanwhile, so that its number, 7, is
used; thread 1 has to wait for `true`. Both get 70. -/
example : ∀ τ : Fin 2, ((run two (start ![[true, false], [false, true]] ![5, 7]) [0, 1, 0, 1, 1, 1, 0, 0, 0, 0, 1]).thread
    τ).seen.reverse = (![[(true, 70), (false, 7)], [(false, 7), (true, 70)]] : Fin 2 → List (Bool × Nat)) τ := by decide

/-- Statics that need each other can block for ever: the order of the statics is needed. -/
private def knot : Program Bool Nat Nat where
  deps i := [!i]
  init _ _ r := some (r, r)

example : ∀ τ : Fin 2, (step knot (run knot (start ![[true], [false]] ![5, 7]) [0, 1]) τ).isNone = true ∧
    ((run knot (start ![[true], [false]] ![5, 7]) [0, 1]).thread τ).todo ≠ [] := by decide

/-- After a panic every use panics: nobody gets a value. -/
private def broken : Program Bool Nat Nat where
  deps i := if i then [false] else []
  init _ _ _ := none

example : ∀ τ : Fin 2, ((run broken (start ![[true], [false]] ![5, 7]) [0, 0, 0, 1]).thread τ).dead = true ∧
    ((run broken (start ![[true], [false]] ![5, 7]) [0, 0, 0, 1]).thread τ).seen = [] := by decide

end ZkHash

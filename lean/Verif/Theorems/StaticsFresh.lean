import Verif.Theorems.Statics

set_option autoImplicit false

/-!
# Lazily initialized statics: random elements are used once, and a panic is final (C70)
-/

namespace ZkHash

namespace Statics

/-- The field from whose elements the initializer of a static draws. -/
def field : Name → Option Nat
  | .gmimc k => some Instances.gmimc[k].modulus
  | .neptune k => some Instances.neptune[k].modulus
  | _ => none

/-- The generator `g` after `a` draws in every field. -/
def after (g : Gen) (a : Nat) : Gen := fun p j => g p (a + j)

/-- `v` is what the constructor of `i` makes of the first `l` elements of `g`, all of which it draws. -/
def Drawn (dbg : Bool) (g : Gen) : Name → Value → Nat → Prop
  | .gmimc k, v, l => ∃ P, GmimcParams.new Instances.gmimc[k].t Instances.gmimc[k].d Instances.gmimc[k].rounds_f
      ((List.range l).map (g Instances.gmimc[k].modulus)) = some (P, []) ∧ v = .gmimc k P
  | .neptune k, v, l => ∃ P, NeptuneParams.new dbg Instances.neptune[k].t Instances.neptune[k].d
      Instances.neptune[k].rounds_f Instances.neptune[k].rounds_p
      ((List.range l).map (g Instances.neptune[k].modulus)) = some (P, []) ∧ v = .neptune k P
  | _, _, _ => True

theorem drawIn_some {α : Type} {p : Nat} {f : Fields.Draw (ZMod p) α} {g g' : Gen} {a : α}
    (h : drawIn p f g = some (a, g')) :
    ∃ l, f ((List.range l).map (g p)) = some (a, []) ∧ g' = Function.update g p fun j => g p (l + j) := by
  unfold drawIn at h
  obtain ⟨⟨a', r⟩, hd, he⟩ := Option.map_eq_some_iff.mp h
  obtain ⟨rfl, rfl⟩ := Prod.ext_iff.mp he
  obtain ⟨l, hl, hr⟩ := draw_some hd
  dsimp only at hl hr ⊢
  exact ⟨l, hl, by rw [hr]⟩

theorem crate_draws {dbg : Bool} {i : Name} {args : List Value} {g g' : Gen} {v : Value}
    (h : (crate dbg).init i args g = some (v, g')) :
    (field i = none ∧ g' = g) ∨
      ∃ p l, field i = some p ∧ g' = Function.update g p (fun j => g p (l + j)) ∧ Drawn dbg g i v l := by
  cases i with
  | poseidon2Diag k => cases h; exact Or.inl ⟨rfl, rfl⟩
  | poseidon2Internal k => cases h; exact Or.inl ⟨rfl, rfl⟩
  | poseidon2Rc k => cases h; exact Or.inl ⟨rfl, rfl⟩
  | poseidonMds k => cases h; exact Or.inl ⟨rfl, rfl⟩
  | poseidonRc k => cases h; exact Or.inl ⟨rfl, rfl⟩
  | poseidon2 k =>
    refine Or.inl ⟨rfl, ?_⟩
    unfold crate at h
    dsimp only at h
    split at h
    all_goals
      first
      | contradiction
      | (obtain ⟨P, -, he⟩ := Option.map_eq_some_iff.mp h; cases he; rfl)
      | cases h
  | poseidon k =>
    refine Or.inl ⟨rfl, ?_⟩
    unfold crate at h
    dsimp only at h
    split at h
    all_goals
      first
      | contradiction
      | (obtain ⟨P, -, he⟩ := Option.map_eq_some_iff.mp h; cases he; rfl)
      | cases h
  | gmimc k =>
    obtain ⟨⟨P, r⟩, hP, he⟩ := Option.map_eq_some_iff.mp h
    cases he
    obtain ⟨l, h1, h2⟩ := drawIn_some hP
    exact Or.inr ⟨_, l, rfl, h2, P, h1, rfl⟩
  | neptune k =>
    obtain ⟨⟨P, r⟩, hP, he⟩ := Option.map_eq_some_iff.mp h
    cases he
    obtain ⟨l, h1, h2⟩ := drawIn_some hP
    exact Or.inr ⟨_, l, rfl, h2, P, h1, rfl⟩

theorem drawn_congr {dbg : Bool} {g g' : Gen} {i : Name} {v : Value} {l p : Nat} (hp : field i = some p)
    (h : g p = g' p) (hd : Drawn dbg g i v l) : Drawn dbg g' i v l := by
  cases i with
  | gmimc k =>
    cases hp
    obtain ⟨P, h1, h2⟩ := hd
    exact ⟨P, by rw [← h]; exact h1, h2⟩
  | neptune k =>
    cases hp
    obtain ⟨P, h1, h2⟩ := hd
    exact ⟨P, by rw [← h]; exact h1, h2⟩
  | _ => cases hp

/-- `seg i` is the thread, the beginning and the number of the random elements that static `i` is made of; `off τ p` is
the number of elements of the field `p` that thread `τ` has drawn. -/
structure Fresh (dbg : Bool) {n : Nat} (gen : Fin n → Gen) (s : State n Name Value Gen) (seg : Name → Fin n × Nat × Nat)
    (off : Fin n → Nat → Nat) : Prop where
  gens : ∀ τ p, (s.thread τ).gen p = fun j => gen τ p (off τ p + j)
  drawn : ∀ i v p, s.cell i = .ready v → field i = some p → Drawn dbg (after (gen (seg i).1) (seg i).2.1) i v (seg i).2.2
  below : ∀ i v p, s.cell i = .ready v → field i = some p → (seg i).2.1 + (seg i).2.2 ≤ off (seg i).1 p
  apart : ∀ i j v w p, i ≠ j → s.cell i = .ready v → s.cell j = .ready w → field i = some p → field j = some p →
    (seg i).1 = (seg j).1 → (seg i).2.1 + (seg i).2.2 ≤ (seg j).2.1 ∨ (seg j).2.1 + (seg j).2.2 ≤ (seg i).2.1

section
variable {dbg : Bool} {n : Nat} {gen : Fin n → Gen} {s s' : State n Name Value Gen} {seg : Name → Fin n × Nat × Nat}
  {off : Fin n → Nat → Nat}

theorem Fresh.mono (hF : Fresh dbg gen s seg off) (hc : ∀ i v, s'.cell i = .ready v → s.cell i = .ready v)
    (hg : ∀ τ, (s'.thread τ).gen = (s.thread τ).gen) : Fresh dbg gen s' seg off where
  gens τ p := by rw [hg]; exact hF.gens τ p
  drawn i v p h := hF.drawn i v p (hc i v h)
  below i v p h := hF.below i v p (hc i v h)
  apart i j v w p hne h h' := hF.apart i j v w p hne (hc i v h) (hc j w h')

theorem gen_update {τ : Fin n} {T : Thread Name Value Gen} (hT : T.gen = (s.thread τ).gen) (σ : Fin n) :
    (Function.update s.thread τ T σ).gen = (s.thread σ).gen := by
  by_cases h : σ = τ
  · subst h; rw [Function.update_self, hT]
  · rw [Function.update_of_ne h]

theorem fresh_step {Val : Name → Value → Prop} {ok : Fin n → Gen → Prop} {todo : Fin n → List Name}
    (hI : Inv (crate dbg) Val ok todo s) (hF : Fresh dbg gen s seg off) {τ : Fin n}
    (h : step (crate dbg) s τ = some s') : ∃ seg' off', Fresh dbg gen s' seg' off' ∧ (∀ σ q, off σ q ≤ off' σ q) ∧
      ∀ i v p, s'.cell i = .ready v → field i = some p →
        (s.cell i = .ready v ∧ seg' i = seg i) ∨ off (seg' i).1 p ≤ (seg' i).2.1 := by
  have same : (∀ i v, s'.cell i = .ready v → s.cell i = .ready v) → (∀ τ, (s'.thread τ).gen = (s.thread τ).gen) →
      ∃ seg' off', Fresh dbg gen s' seg' off' ∧ (∀ σ q, off σ q ≤ off' σ q) ∧
        ∀ i v p, s'.cell i = .ready v → field i = some p →
          (s.cell i = .ready v ∧ seg' i = seg i) ∨ off (seg' i).1 p ≤ (seg' i).2.1 := fun hc hg =>
    ⟨seg, off, hF.mono hc hg, fun _ _ => le_rfl, fun i v _ hv _ => Or.inl ⟨hc i v hv, rfl⟩⟩
  rcases (kind_of_step h).2 with ⟨j, hj, -, rfl⟩ | ⟨j, rest, v, -, hj, ht, rfl⟩ | ⟨j, rest, f, below, v, hj, hst, hd, rfl⟩ |
    ⟨f, below, v, g, hst, hd, hi, rfl⟩ | ⟨-, rfl⟩
  · refine same (fun i v hv => ?_) (gen_update rfl)
    dsimp only at hv
    by_cases he : i = j
    · subst he; rw [Function.update_self] at hv; cases hv
    · rwa [Function.update_of_ne he] at hv
  · exact same (fun i v hv => hv) (gen_update rfl)
  · exact same (fun i v hv => hv) (gen_update rfl)
  · have hrun := hI.held τ f (by rw [hst]; exact List.mem_cons_self)
    rcases crate_draws hi with ⟨hnone, rfl⟩ | ⟨p, l, hp, hg, hdr⟩
    · refine ⟨seg, off, ⟨fun σ p => ?_, fun i w p hw hp => ?_, fun i w p hw hp => ?_,
        fun i j w w' p hne hw hw' hp hp' => ?_⟩, fun _ _ => le_rfl, fun i w p hw hp => Or.inl ⟨?_, rfl⟩⟩
      · dsimp only
        rw [gen_update (T := { s.thread τ with stack := below, gen := (s.thread τ).gen }) rfl]
        exact hF.gens σ p
      all_goals
        dsimp only at hw
        have hne1 : i ≠ f.static := fun he => by rw [he, hnone] at hp; cases hp
        rw [Function.update_of_ne hne1] at hw
      · exact hF.drawn i w p hw hp
      · exact hF.below i w p hw hp
      · dsimp only at hw'
        have hne2 : j ≠ f.static := fun he => by rw [he, hnone] at hp'; cases hp'
        rw [Function.update_of_ne hne2] at hw'
        exact hF.apart i j w w' p hne hw hw' hp hp'
      · exact hw
    · obtain ⟨seg', hseg'⟩ : ∃ seg', seg' = Function.update seg f.static (τ, off τ p, l) := ⟨_, rfl⟩
      obtain ⟨off', hoff'⟩ : ∃ off', off' = Function.update off τ (Function.update (off τ) p (off τ p + l)) := ⟨_, rfl⟩
      have hsegs : seg' f.static = (τ, off τ p, l) := by rw [hseg', Function.update_self]
      have hsegn : ∀ i, i ≠ f.static → seg' i = seg i := fun i hi => by rw [hseg', Function.update_of_ne hi]
      have hoffs : off' τ p = off τ p + l := by rw [hoff', Function.update_self, Function.update_self]
      have hoffn : ∀ σ q, ¬ (σ = τ ∧ q = p) → off' σ q = off σ q := by
        intro σ q hne
        rw [hoff']
        by_cases hσ : σ = τ
        · subst hσ
          rw [Function.update_self, Function.update_of_ne fun hq => hne ⟨rfl, hq⟩]
        · rw [Function.update_of_ne hσ]
      have hoffle : ∀ σ q, off σ q ≤ off' σ q := by
        intro σ q
        by_cases hc : σ = τ ∧ q = p
        · obtain ⟨rfl, rfl⟩ := hc; omega
        · rw [hoffn σ q hc]
      refine ⟨seg', off', ⟨fun σ q => ?_, fun i w q hw hq => ?_, fun i w q hw hq => ?_,
        fun i j w w' q hne hw hw' hq hq' hsame => ?_⟩, hoffle, fun i w q hw hq => ?_⟩
      · dsimp only
        by_cases hσ : σ = τ
        · subst hσ
          rw [Function.update_self]
          dsimp only
          rw [hg]
          by_cases hqp : q = p
          · subst hqp
            rw [Function.update_self, hoffs, hF.gens σ q]
            funext j
            rw [Nat.add_assoc]
          · rw [Function.update_of_ne hqp, hoffn σ q fun h => hqp h.2]
            exact hF.gens σ q
        · rw [Function.update_of_ne hσ, hoffn σ q fun h => hσ h.1]
          exact hF.gens σ q
      · dsimp only at hw
        by_cases hi' : i = f.static
        · subst hi'
          rw [Function.update_self] at hw
          cases hw
          rw [hsegs]
          obtain rfl : p = q := Option.some.inj (hp.symm.trans hq)
          refine drawn_congr hp ?_ hdr
          rw [hF.gens τ p]
          rfl
        · rw [Function.update_of_ne hi'] at hw
          rw [hsegn i hi']
          exact hF.drawn i w q hw hq
      · dsimp only at hw
        by_cases hi' : i = f.static
        · subst hi'
          obtain rfl : p = q := Option.some.inj (hp.symm.trans hq)
          rw [hsegs, hoffs]
        · rw [Function.update_of_ne hi'] at hw
          rw [hsegn i hi']
          exact (hF.below i w q hw hq).trans (hoffle _ _)
      · dsimp only at hw hw'
        by_cases hi' : i = f.static
        · subst hi'
          have hj' : j ≠ f.static := fun he => hne he.symm
          rw [Function.update_of_ne hj'] at hw'
          rw [hsegs, hsegn j hj'] at hsame ⊢
          obtain rfl : p = q := Option.some.inj (hp.symm.trans hq)
          have := hF.below j w' p hw' hq'
          rw [← hsame] at this
          exact Or.inr this
        · rw [Function.update_of_ne hi'] at hw
          by_cases hj' : j = f.static
          · subst hj'
            rw [hsegs, hsegn i hi'] at hsame ⊢
            obtain rfl : p = q := Option.some.inj (hp.symm.trans hq')
            have := hF.below i w p hw hq
            rw [hsame] at this
            exact Or.inl this
          · rw [Function.update_of_ne hj'] at hw'
            rw [hsegn i hi', hsegn j hj'] at hsame ⊢
            exact hF.apart i j w w' q hne hw hw' hq hq' hsame
      · dsimp only at hw
        by_cases hi' : i = f.static
        · subst hi'
          obtain rfl : p = q := Option.some.inj (hp.symm.trans hq)
          rw [hsegs]
          exact Or.inr le_rfl
        · rw [Function.update_of_ne hi'] at hw
          exact Or.inl ⟨hw, hsegn i hi'⟩
  · refine same (fun i v hv => ?_) (gen_update rfl)
    unfold panic at hv
    dsimp only at hv
    split at hv
    · cases hv
    · exact hv

end

theorem fresh_run {dbg : Bool} {n : Nat} (hn : 0 < n) {gen : Fin n → Gen} {todo : Fin n → List Name} (sched : List (Fin n)) :
    ∃ seg off, Fresh dbg gen (run (crate dbg) (start todo gen) sched) seg off := by
  have hT : Typed (crate dbg) (fun _ _ => True) (fun (_ : Fin n) _ => True) := fun _ _ _ _ _ _ _ _ _ => ⟨trivial, trivial⟩
  induction sched using List.reverseRecOn with
  | nil =>
    refine ⟨fun _ => (⟨0, hn⟩, 0, 0), fun _ _ => 0, ⟨fun τ p => ?_, fun i v p h => ?_, fun i v p h => ?_,
      fun i j v w p _ h => ?_⟩⟩
    · funext j
      rw [Nat.zero_add]
      rfl
    all_goals cases h
  | append_singleton sched τ ih =>
    obtain ⟨seg, off, hF⟩ := ih
    have e : run (crate dbg) (start todo gen) (sched ++ [τ]) =
        (step (crate dbg) (run (crate dbg) (start todo gen) sched) τ).getD (run (crate dbg) (start todo gen) sched) := by
      unfold run; rw [List.foldl_append]; rfl
    rw [e]
    cases h : step (crate dbg) (run (crate dbg) (start todo gen) sched) τ with
    | none => exact ⟨seg, off, hF⟩
    | some s' =>
      obtain ⟨seg', off', h', -⟩ :=
        fresh_step (inv_run hT (inv_start (P := crate dbg) (todo := todo) gen fun _ => trivial) sched) hF h
      exact ⟨seg', off', h'⟩

theorem poisoned_step {n : Nat} {ι V R : Type} [DecidableEq ι] {P : Program ι V R} {Val : ι → V → Prop}
    {ok : Fin n → R → Prop} {todo : Fin n → List ι} {s s' : State n ι V R} (hI : Inv P Val ok todo s) {τ : Fin n}
    (h : step P s τ = some s') {i : ι} (hv : s.cell i = .poisoned) : s'.cell i = .poisoned := by
  rcases (kind_of_step h).2 with ⟨j, hj, -, rfl⟩ | ⟨j, rest, v, -, hj, ht, rfl⟩ | ⟨j, rest, f, below, v, hj, hst, hd, rfl⟩ |
    ⟨f, below, v, g, hst, hd, hi, rfl⟩ | ⟨-, rfl⟩
  · dsimp only
    rw [Function.update_of_ne (fun he => by rw [he, hj] at hv; cases hv)]
    exact hv
  · exact hv
  · exact hv
  · dsimp only
    have := hI.held τ f (by rw [hst]; exact List.mem_cons_self)
    rw [Function.update_of_ne (fun he => by rw [he, this] at hv; cases hv)]
    exact hv
  · unfold panic
    dsimp only
    split
    · rfl
    · exact hv

end Statics

open Statics

/-- **C70** for the crate, randomness: the parameter sets of GMiMC and Neptune that the threads have got are made of
segments of the threads' random sequences (`seg i` is the thread, the first element and the number of elements), each is
what its constructor makes of exactly that segment, and no element of a sequence is in two segments. -/
theorem C70_crate_fresh (dbg : Bool) {n : Nat} (hn : 0 < n) (todo : Fin n → List Name) (gen : Fin n → Gen)
    (sched : List (Fin n)) :
    ∃ seg : Name → Fin n × Nat × Nat,
      (∀ τ i v p, (i, v) ∈ ((run (crate dbg) (start todo gen) sched).thread τ).seen → field i = some p →
        Drawn dbg (after (gen (seg i).1) (seg i).2.1) i v (seg i).2.2) ∧
      ∀ τ τ' i j v w p, (i, v) ∈ ((run (crate dbg) (start todo gen) sched).thread τ).seen →
        (j, w) ∈ ((run (crate dbg) (start todo gen) sched).thread τ').seen → i ≠ j → field i = some p →
        field j = some p → (seg i).1 = (seg j).1 →
          (seg i).2.1 + (seg i).2.2 ≤ (seg j).2.1 ∨ (seg j).2.1 + (seg j).2.2 ≤ (seg i).2.1 := by
  have hT : Typed (crate dbg) (fun _ _ => True) (fun (_ : Fin n) _ => True) := fun _ _ _ _ _ _ _ _ _ => ⟨trivial, trivial⟩
  have hI := inv_run hT (inv_start (P := crate dbg) (todo := todo) gen fun _ => trivial) sched
  obtain ⟨seg, off, hF⟩ := fresh_run (dbg := dbg) hn (gen := gen) (todo := todo) sched
  exact ⟨seg, fun τ i v p h hp => hF.drawn i v p (hI.seen τ i v h) hp, fun τ τ' i j v w p h h' hne hp hp' hs =>
    hF.apart i j v w p hne (hI.seen τ i v h) (hI.seen τ' j w h') hp hp' hs⟩

/-- **C70**, a panic is final: once the initializer of a static has panicked, the static stays unusable, no thread has got
or ever gets a value of it, and a thread that asks for it next panics when it is given the processor. -/
theorem C70_poisoned {n : Nat} {ι V R : Type} [DecidableEq ι] (P : Program ι V R) (todo : Fin n → List ι)
    (gen : Fin n → R) (sched later : List (Fin n)) (i : ι)
    (h : (run P (start todo gen) sched).cell i = .poisoned) :
    (run P (start todo gen) (sched ++ later)).cell i = .poisoned ∧
    (∀ τ v, (i, v) ∉ ((run P (start todo gen) (sched ++ later)).thread τ).seen) ∧
    ∀ τ rest, ((run P (start todo gen) (sched ++ later)).thread τ).dead = false →
      ((run P (start todo gen) (sched ++ later)).thread τ).stack = [] →
      ((run P (start todo gen) (sched ++ later)).thread τ).todo = i :: rest →
      ((run P (start todo gen) (sched ++ later ++ [τ])).thread τ).dead = true := by
  have hT : Typed P (fun _ _ => True) (fun (_ : Fin n) _ => True) := fun _ _ _ _ _ _ _ _ _ => ⟨trivial, trivial⟩
  have h0 := inv_start (P := P) (Val := fun _ _ => True) (ok := fun _ _ => True) (todo := todo) gen fun _ => trivial
  have hp : ∀ later : List (Fin n), (run P (start todo gen) (sched ++ later)).cell i = .poisoned := by
    intro later
    induction later using List.reverseRecOn with
    | nil => rw [List.append_nil]; exact h
    | append_singleton later τ ih =>
      have e : run P (start todo gen) (sched ++ (later ++ [τ])) =
          (step P (run P (start todo gen) (sched ++ later)) τ).getD (run P (start todo gen) (sched ++ later)) := by
        unfold run; rw [← List.append_assoc, List.foldl_append]; rfl
      rw [e]
      cases hs : step P (run P (start todo gen) (sched ++ later)) τ with
      | none => exact ih
      | some s' => exact poisoned_step (inv_run hT h0 (sched ++ later)) hs ih
  refine ⟨hp later, fun τ v hmem => ?_, fun τ rest hdead hst htodo => ?_⟩
  · have := (inv_run hT h0 (sched ++ later)).seen τ i v hmem
    rw [hp later] at this
    cases this
  · have e : run P (start todo gen) (sched ++ later ++ [τ]) =
        (step P (run P (start todo gen) (sched ++ later)) τ).getD (run P (start todo gen) (sched ++ later)) := by
      unfold run; rw [List.foldl_append]; rfl
    rw [e]
    unfold step
    rw [hdead, hst, htodo]
    simp only [deref, hp later, Bool.false_eq_true, if_false, Option.getD_some, Statics.panic, Function.update_self]

/-- The hypotheses are met: in some execution of one thread that uses the Goldilocks parameter sets of GMiMC of widths 8
and 12, whatever its generator delivers, it gets both; they are drawn from the same field. -/
example (dbg : Bool) (g : Gen) (hg : Plenty g) : ∃ sched : List (Fin 1), ∃ v w,
    (Name.gmimc ⟨0, by decide +kernel⟩, v) ∈ ((run (crate dbg) (start (fun _ => [.gmimc ⟨0, by decide +kernel⟩,
      .gmimc ⟨1, by decide +kernel⟩]) fun _ => g) sched).thread 0).seen ∧
    (Name.gmimc ⟨1, by decide +kernel⟩, w) ∈ ((run (crate dbg) (start (fun _ => [.gmimc ⟨0, by decide +kernel⟩,
      .gmimc ⟨1, by decide +kernel⟩]) fun _ => g) sched).thread 0).seen ∧
    field (.gmimc ⟨0, by decide +kernel⟩) = field (.gmimc ⟨1, by decide +kernel⟩) := by
  obtain ⟨⟨sched, hs⟩, h⟩ := C70_crate_outcome dbg (n := 1) (fun _ => [.gmimc ⟨0, by decide +kernel⟩,
    .gmimc ⟨1, by decide +kernel⟩]) (fun _ => g) fun _ => hg
  obtain ⟨value, h1, -⟩ := h sched hs
  have := h1 0
  refine ⟨sched, value (.gmimc ⟨0, by decide +kernel⟩), value (.gmimc ⟨1, by decide +kernel⟩), ?_, ?_, rfl⟩
  · rw [← List.mem_reverse, this]; exact List.mem_cons_self
  · rw [← List.mem_reverse, this]; exact List.mem_cons_of_mem _ List.mem_cons_self

/-- A program whose initializers panic: thread 0 runs into the panic inside of two initializers; both statics are poisoned. -/
private def failing : Program Bool Nat Nat where
  deps i := if i then [false] else []
  init _ _ _ := none

example : ∀ i, ((run failing (start ![[true], [false]] ![5, 7]) [0, 0, 0] : State 2 Bool Nat Nat).cell i matches .poisoned) =
    true := by decide

end ZkHash

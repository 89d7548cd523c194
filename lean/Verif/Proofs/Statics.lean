import Verif.Model.Statics
import Mathlib.Algebra.BigOperators.Fin
import Mathlib.Data.Fintype.BigOperators
import Mathlib.Data.List.Forall2

set_option autoImplicit false

/-!
# Invariants of lazily initialized statics
-/

namespace ZkHash.Statics

variable {n : Nat} {ι V R : Type} [DecidableEq ι]

/-- What holds in every state that can be reached: `Val i v` is what the values of static `i` satisfy, `ok τ r` what the
generators of thread `τ` satisfy. -/
structure Inv (P : Program ι V R) (Val : ι → V → Prop) (ok : Fin n → R → Prop) (todo : Fin n → List ι)
    (s : State n ι V R) : Prop where
  ready : ∀ i v, s.cell i = .ready v → Val i v
  seen : ∀ τ i v, (i, v) ∈ (s.thread τ).seen → s.cell i = .ready v
  args : ∀ τ, ∀ f ∈ (s.thread τ).stack, ∃ done, P.deps f.static = done ++ f.deps ∧
    List.Forall₂ (fun i v => s.cell i = .ready v) done f.args
  gen : ∀ τ, ok τ (s.thread τ).gen
  held : ∀ τ, ∀ f ∈ (s.thread τ).stack, s.cell f.static = .running τ
  holder : ∀ τ i, s.cell i = .running τ → ∃ f ∈ (s.thread τ).stack, f.static = i
  nodup : ∀ τ, ((s.thread τ).stack.map Frame.static).Nodup
  hist : ∀ τ, (s.thread τ).seen.reverse.map Prod.fst ++ (s.thread τ).todo = todo τ

variable {P : Program ι V R} {Val : ι → V → Prop} {ok : Fin n → R → Prop} {todo : Fin n → List ι} {s s' : State n ι V R}

theorem inv_start (gen : Fin n → R) (h : ∀ τ, ok τ (gen τ)) : Inv P Val ok todo (start todo gen) where
  ready i v h := by cases h
  seen τ i v h := by simp [start] at h
  args τ f h := by simp [start] at h
  gen := h
  held τ f h := by simp [start] at h
  holder τ i h := by cases h
  nodup τ := by simp [start]
  hist τ := by simp [start]

/-- The initializers of the program respect `Val` and `ok`. -/
def Typed (P : Program ι V R) (Val : ι → V → Prop) (ok : Fin n → R → Prop) : Prop :=
  ∀ τ i args r v r', ok τ r → List.Forall₂ Val (P.deps i) args → P.init i args r = some (v, r') → Val i v ∧ ok τ r'

/-- The static `j` begins to be initialized. -/
theorem inv_push (hI : Inv P Val ok todo s) (τ : Fin n) (j : ι) (hj : s.cell j = .empty) :
    Inv P Val ok todo
      { cell := Function.update s.cell j (.running τ)
        thread := Function.update s.thread τ { s.thread τ with stack := ⟨j, P.deps j, []⟩ :: (s.thread τ).stack } } := by
  have hcell : ∀ i, s.cell i ≠ .empty → Function.update s.cell j (.running τ) i = s.cell i := fun i hi =>
    Function.update_of_ne (fun he => hi (by rw [he]; exact hj)) _ _
  have hready : ∀ i v, s.cell i = .ready v → Function.update s.cell j (.running τ) i = .ready v := fun i v h => by
    rw [hcell i (by rw [h]; exact fun h => by cases h), h]
  have hrun : ∀ i σ, s.cell i = .running σ → Function.update s.cell j (.running τ) i = .running σ := fun i v h => by
    rw [hcell i (by rw [h]; exact fun h => by cases h), h]
  refine ⟨fun i v h => ?_, fun σ i v h => ?_, fun σ f hf => ?_, fun σ => ?_, fun σ f hf => ?_, fun σ i h => ?_,
    fun σ => ?_, fun σ => ?_⟩
  · dsimp only at h
    by_cases hi : i = j
    · subst hi; rw [Function.update_self] at h; cases h
    · rw [Function.update_of_ne hi] at h
      exact hI.ready i v h
  · dsimp only at h ⊢
    refine hready i v (hI.seen σ i v ?_)
    by_cases hσ : σ = τ
    · subst hσ; rwa [Function.update_self] at h
    · rwa [Function.update_of_ne hσ] at h
  · dsimp only at hf ⊢
    by_cases hσ : σ = τ
    · subst hσ
      rw [Function.update_self] at hf
      rcases List.mem_cons.mp hf with rfl | hf
      · exact ⟨[], rfl, List.Forall₂.nil⟩
      · obtain ⟨done, h1, h2⟩ := hI.args σ f hf
        exact ⟨done, h1, h2.imp fun i v h => hready i v h⟩
    · rw [Function.update_of_ne hσ] at hf
      obtain ⟨done, h1, h2⟩ := hI.args σ f hf
      exact ⟨done, h1, h2.imp fun i v h => hready i v h⟩
  · dsimp only
    by_cases hσ : σ = τ
    · subst hσ; rw [Function.update_self]; exact hI.gen σ
    · rw [Function.update_of_ne hσ]; exact hI.gen σ
  · dsimp only at hf ⊢
    by_cases hσ : σ = τ
    · subst hσ
      rw [Function.update_self] at hf
      rcases List.mem_cons.mp hf with rfl | hf
      · exact Function.update_self _ _ _
      · exact hrun _ _ (hI.held σ f hf)
    · rw [Function.update_of_ne hσ] at hf
      exact hrun _ _ (hI.held σ f hf)
  · dsimp only at h ⊢
    by_cases hi : i = j
    · subst hi
      rw [Function.update_self] at h
      cases h
      rw [Function.update_self]
      exact ⟨_, List.mem_cons_self, rfl⟩
    · rw [Function.update_of_ne hi] at h
      obtain ⟨f, hf, he⟩ := hI.holder σ i h
      refine ⟨f, ?_, he⟩
      by_cases hσ : σ = τ
      · subst hσ; rw [Function.update_self]; exact List.mem_cons_of_mem _ hf
      · rwa [Function.update_of_ne hσ]
  · dsimp only
    by_cases hσ : σ = τ
    · subst hσ
      rw [Function.update_self, List.map_cons, List.nodup_cons]
      refine ⟨fun hmem => ?_, hI.nodup σ⟩
      obtain ⟨f, hf, he⟩ := List.mem_map.mp hmem
      have := hI.held σ f hf
      rw [he] at this
      dsimp only at this
      rw [hj] at this
      cases this
    · rw [Function.update_of_ne hσ]; exact hI.nodup σ
  · dsimp only
    by_cases hσ : σ = τ
    · subst hσ; rw [Function.update_self]; exact hI.hist σ
    · rw [Function.update_of_ne hσ]; exact hI.hist σ

/-- A value goes to the program of a thread. -/
theorem inv_deliver (hI : Inv P Val ok todo s) (τ : Fin n) (j : ι) (rest : List ι) (v : V) (hj : s.cell j = .ready v)
    (ht : (s.thread τ).todo = j :: rest) :
    Inv P Val ok todo { s with thread := (Function.update s.thread τ
      { s.thread τ with todo := rest, seen := (j, v) :: (s.thread τ).seen }) } := by
  refine ⟨hI.ready, fun σ i w h => ?_, fun σ f hf => ?_, fun σ => ?_, fun σ f hf => ?_, fun σ i h => ?_,
    fun σ => ?_, fun σ => ?_⟩ <;> by_cases hσ : σ = τ
  · subst hσ
    dsimp only at h ⊢
    rw [Function.update_self] at h
    rcases List.mem_cons.mp h with h | h
    · cases h; exact hj
    · exact hI.seen σ i w h
  · dsimp only at h ⊢
    rw [Function.update_of_ne hσ] at h
    exact hI.seen σ i w h
  · subst hσ
    dsimp only at hf ⊢
    rw [Function.update_self] at hf
    exact hI.args σ f hf
  · dsimp only at hf ⊢
    rw [Function.update_of_ne hσ] at hf
    exact hI.args σ f hf
  · subst hσ; dsimp only; rw [Function.update_self]; exact hI.gen σ
  · dsimp only; rw [Function.update_of_ne hσ]; exact hI.gen σ
  · subst hσ; dsimp only at hf ⊢; rw [Function.update_self] at hf; exact hI.held σ f hf
  · dsimp only at hf ⊢; rw [Function.update_of_ne hσ] at hf; exact hI.held σ f hf
  · subst hσ; dsimp only; rw [Function.update_self]; exact hI.holder σ i h
  · dsimp only; rw [Function.update_of_ne hσ]; exact hI.holder σ i h
  · subst hσ; dsimp only; rw [Function.update_self]; exact hI.nodup σ
  · dsimp only; rw [Function.update_of_ne hσ]; exact hI.nodup σ
  · subst hσ
    dsimp only
    rw [Function.update_self]
    have := hI.hist σ
    rw [ht] at this
    simpa using this
  · dsimp only; rw [Function.update_of_ne hσ]; exact hI.hist σ

/-- A value goes to an initializer. -/
theorem inv_arg (hI : Inv P Val ok todo s) (τ : Fin n) (j : ι) (rest : List ι) (f : Frame ι V) (below : List (Frame ι V))
    (v : V) (hj : s.cell j = .ready v) (hst : (s.thread τ).stack = f :: below) (hd : f.deps = j :: rest) :
    Inv P Val ok todo { s with thread := (Function.update s.thread τ
      { s.thread τ with stack := ⟨f.static, rest, f.args ++ [v]⟩ :: below }) } := by
  refine ⟨hI.ready, fun σ i w h => ?_, fun σ g hg => ?_, fun σ => ?_, fun σ g hg => ?_, fun σ i h => ?_,
    fun σ => ?_, fun σ => ?_⟩ <;> by_cases hσ : σ = τ
  · subst hσ; dsimp only at h ⊢; rw [Function.update_self] at h; exact hI.seen σ i w h
  · dsimp only at h ⊢; rw [Function.update_of_ne hσ] at h; exact hI.seen σ i w h
  · subst hσ
    dsimp only at hg ⊢
    rw [Function.update_self] at hg
    rcases List.mem_cons.mp hg with rfl | hg
    · obtain ⟨done, h1, h2⟩ := hI.args σ f (by rw [hst]; exact List.mem_cons_self)
      refine ⟨done ++ [j], by rw [h1, hd]; simp, ?_⟩
      exact List.rel_append h2 (List.Forall₂.cons hj List.Forall₂.nil)
    · exact hI.args σ g (by rw [hst]; exact List.mem_cons_of_mem _ hg)
  · dsimp only at hg ⊢; rw [Function.update_of_ne hσ] at hg; exact hI.args σ g hg
  · subst hσ; dsimp only; rw [Function.update_self]; exact hI.gen σ
  · dsimp only; rw [Function.update_of_ne hσ]; exact hI.gen σ
  · subst hσ
    dsimp only at hg ⊢
    rw [Function.update_self] at hg
    rcases List.mem_cons.mp hg with rfl | hg
    · exact hI.held σ f (by rw [hst]; exact List.mem_cons_self)
    · exact hI.held σ g (by rw [hst]; exact List.mem_cons_of_mem _ hg)
  · dsimp only at hg ⊢; rw [Function.update_of_ne hσ] at hg; exact hI.held σ g hg
  · subst hσ
    dsimp only
    rw [Function.update_self]
    obtain ⟨g, hg, he⟩ := hI.holder σ i h
    rw [hst] at hg
    rcases List.mem_cons.mp hg with rfl | hg
    · exact ⟨_, List.mem_cons_self, he⟩
    · exact ⟨g, List.mem_cons_of_mem _ hg, he⟩
  · dsimp only; rw [Function.update_of_ne hσ]; exact hI.holder σ i h
  · subst hσ
    dsimp only
    rw [Function.update_self]
    have := hI.nodup σ
    rw [hst] at this
    simpa using this
  · dsimp only; rw [Function.update_of_ne hσ]; exact hI.nodup σ
  · subst hσ; dsimp only; rw [Function.update_self]; exact hI.hist σ
  · dsimp only; rw [Function.update_of_ne hσ]; exact hI.hist σ

/-- An initializer returns. -/
theorem inv_finish (hT : Typed P Val ok) (hI : Inv P Val ok todo s) (τ : Fin n) (f : Frame ι V)
    (below : List (Frame ι V)) (v : V) (gen : R) (hst : (s.thread τ).stack = f :: below) (hd : f.deps = [])
    (hi : P.init f.static f.args (s.thread τ).gen = some (v, gen)) :
    Inv P Val ok todo
      { cell := Function.update s.cell f.static (.ready v)
        thread := Function.update s.thread τ { s.thread τ with stack := below, gen := gen } } := by
  have hfm : f ∈ (s.thread τ).stack := by rw [hst]; exact List.mem_cons_self
  have hrun := hI.held τ f hfm
  obtain ⟨done, h1, h2⟩ := hI.args τ f hfm
  rw [hd, List.append_nil] at h1
  obtain ⟨hv, hg⟩ := hT τ f.static f.args _ v gen (hI.gen τ) (by rw [h1]; exact h2.imp fun i v h => hI.ready i v h) hi
  have hready : ∀ i w, s.cell i = .ready w → Function.update s.cell f.static (.ready v) i = .ready w := fun i w h => by
    rw [Function.update_of_ne (fun he => by rw [he, hrun] at h; cases h), h]
  have hnd := hI.nodup τ
  rw [hst, List.map_cons, List.nodup_cons] at hnd
  refine ⟨fun i w h => ?_, fun σ i w h => ?_, fun σ g hg' => ?_, fun σ => ?_, fun σ g hg' => ?_, fun σ i h => ?_,
    fun σ => ?_, fun σ => ?_⟩
  · dsimp only at h
    by_cases hif : i = f.static
    · subst hif; rw [Function.update_self] at h; cases h; exact hv
    · rw [Function.update_of_ne hif] at h; exact hI.ready i w h
  · dsimp only at h ⊢
    refine hready i w (hI.seen σ i w ?_)
    by_cases hσ : σ = τ
    · subst hσ; rwa [Function.update_self] at h
    · rwa [Function.update_of_ne hσ] at h
  · dsimp only at hg' ⊢
    have : g ∈ (s.thread σ).stack := by
      by_cases hσ : σ = τ
      · subst hσ; rw [Function.update_self] at hg'; rw [hst]; exact List.mem_cons_of_mem _ hg'
      · rwa [Function.update_of_ne hσ] at hg'
    obtain ⟨done, h1, h2⟩ := hI.args σ g this
    exact ⟨done, h1, h2.imp fun i v h => hready i v h⟩
  · dsimp only
    by_cases hσ : σ = τ
    · subst hσ; rw [Function.update_self]; exact hg
    · rw [Function.update_of_ne hσ]; exact hI.gen σ
  · dsimp only at hg' ⊢
    by_cases hσ : σ = τ
    · subst hσ
      rw [Function.update_self] at hg'
      rw [Function.update_of_ne (fun he => hnd.1 (by rw [← he]; exact List.mem_map_of_mem hg'))]
      exact hI.held σ g (by rw [hst]; exact List.mem_cons_of_mem _ hg')
    · rw [Function.update_of_ne hσ] at hg'
      have := hI.held σ g hg'
      rw [Function.update_of_ne (fun he => by
        rw [he, hrun] at this
        cases this
        exact hσ rfl)]
      exact this
  · dsimp only at h ⊢
    by_cases hif : i = f.static
    · subst hif; rw [Function.update_self] at h; cases h
    · rw [Function.update_of_ne hif] at h
      obtain ⟨g, hgm, he⟩ := hI.holder σ i h
      refine ⟨g, ?_, he⟩
      by_cases hσ : σ = τ
      · subst hσ
        rw [Function.update_self]
        rw [hst] at hgm
        rcases List.mem_cons.mp hgm with rfl | hgm
        · exact absurd he.symm hif
        · exact hgm
      · rwa [Function.update_of_ne hσ]
  · dsimp only
    by_cases hσ : σ = τ
    · subst hσ; rw [Function.update_self]; exact hnd.2
    · rw [Function.update_of_ne hσ]; exact hI.nodup σ
  · dsimp only
    by_cases hσ : σ = τ
    · subst hσ; rw [Function.update_self]; exact hI.hist σ
    · rw [Function.update_of_ne hσ]; exact hI.hist σ

/-- A panic. -/
theorem inv_panic (hI : Inv P Val ok todo s) (τ : Fin n) : Inv P Val ok todo (panic s τ) := by
  have hpois : ∀ i, (s.thread τ).stack.any (fun f => decide (f.static = i)) = true → s.cell i = .running τ := by
    intro i hi
    obtain ⟨f, hf, he⟩ := List.any_eq_true.mp hi
    rw [decide_eq_true_eq] at he
    rw [← he]
    exact hI.held τ f hf
  have hkeep : ∀ i, s.cell i ≠ .running τ → (panic s τ).cell i = s.cell i := by
    intro i hi
    unfold panic
    dsimp only
    rw [if_neg]
    exact fun h => hi (hpois i h)
  have hback : ∀ i c, (panic s τ).cell i = c → c ≠ .poisoned → s.cell i = c := by
    intro i c h hc
    unfold panic at h
    dsimp only at h
    split at h
    · exact absurd h.symm hc
    · exact h
  have hready : ∀ i w, s.cell i = .ready w → (panic s τ).cell i = .ready w := fun i w h => by
    rw [hkeep i (by rw [h]; exact fun h => by cases h), h]
  have hth : ∀ σ, σ ≠ τ → (panic s τ).thread σ = s.thread σ := fun σ hσ => Function.update_of_ne hσ _ _
  have hthτ : (panic s τ).thread τ = { s.thread τ with stack := [], dead := true } := Function.update_self _ _ _
  refine ⟨fun i w h => ?_, fun σ i w h => ?_, fun σ g hg' => ?_, fun σ => ?_, fun σ g hg' => ?_, fun σ i h => ?_,
    fun σ => ?_, fun σ => ?_⟩
  · exact hI.ready i w (hback i _ h (fun h => by cases h))
  · refine hready i w (hI.seen σ i w ?_)
    by_cases hσ : σ = τ
    · subst hσ; rwa [hthτ] at h
    · rwa [hth σ hσ] at h
  · have : g ∈ (s.thread σ).stack := by
      by_cases hσ : σ = τ
      · subst hσ; rw [hthτ] at hg'; simp at hg'
      · rwa [hth σ hσ] at hg'
    obtain ⟨done, h1, h2⟩ := hI.args σ g this
    exact ⟨done, h1, h2.imp fun i v h => hready i v h⟩
  · by_cases hσ : σ = τ
    · subst hσ; rw [hthτ]; exact hI.gen σ
    · rw [hth σ hσ]; exact hI.gen σ
  · by_cases hσ : σ = τ
    · subst hσ; rw [hthτ] at hg'; simp at hg'
    · rw [hth σ hσ] at hg'
      have := hI.held σ g hg'
      rw [hkeep _ (by rw [this]; exact fun h => by cases h; exact hσ rfl)]
      exact this
  · have h' := hback i _ h (fun h => by cases h)
    obtain ⟨g, hgm, he⟩ := hI.holder σ i h'
    refine ⟨g, ?_, he⟩
    by_cases hσ : σ = τ
    · subst hσ
      exfalso
      have : (s.thread σ).stack.any (fun f => decide (f.static = i)) = true :=
        List.any_eq_true.mpr ⟨g, hgm, by simpa using he⟩
      unfold panic at h
      dsimp only at h
      rw [if_pos this] at h
      cases h
    · rwa [hth σ hσ]
  · by_cases hσ : σ = τ
    · subst hσ; rw [hthτ]; exact List.nodup_nil
    · rw [hth σ hσ]; exact hI.nodup σ
  · by_cases hσ : σ = τ
    · subst hσ; rw [hthτ]; exact hI.hist σ
    · rw [hth σ hσ]; exact hI.hist σ

/-- What a step can be. -/
inductive Kind (P : Program ι V R) (s s' : State n ι V R) (τ : Fin n) : Prop where
  | push (j : ι) (hj : s.cell j = .empty)
      (hw : ((s.thread τ).stack = [] ∧ ∃ rest, (s.thread τ).todo = j :: rest) ∨
        ∃ f below rest, (s.thread τ).stack = f :: below ∧ f.deps = j :: rest)
      (h : s' = { cell := Function.update s.cell j (.running τ)
                  thread := Function.update s.thread τ
                    { s.thread τ with stack := ⟨j, P.deps j, []⟩ :: (s.thread τ).stack } })
  | deliver (j : ι) (rest : List ι) (v : V) (hst : (s.thread τ).stack = []) (hj : s.cell j = .ready v)
      (ht : (s.thread τ).todo = j :: rest)
      (h : s' = { s with thread := (Function.update s.thread τ
        { s.thread τ with todo := rest, seen := (j, v) :: (s.thread τ).seen }) })
  | arg (j : ι) (rest : List ι) (f : Frame ι V) (below : List (Frame ι V)) (v : V) (hj : s.cell j = .ready v)
      (hst : (s.thread τ).stack = f :: below) (hd : f.deps = j :: rest)
      (h : s' = { s with thread := (Function.update s.thread τ
        { s.thread τ with stack := ⟨f.static, rest, f.args ++ [v]⟩ :: below }) })
  | finish (f : Frame ι V) (below : List (Frame ι V)) (v : V) (gen : R) (hst : (s.thread τ).stack = f :: below)
      (hd : f.deps = []) (hi : P.init f.static f.args (s.thread τ).gen = some (v, gen))
      (h : s' = { cell := Function.update s.cell f.static (.ready v)
                  thread := Function.update s.thread τ { s.thread τ with stack := below, gen := gen } })
  | panic (hw : (∃ f below, (s.thread τ).stack = f :: below ∧ f.deps = [] ∧
        P.init f.static f.args (s.thread τ).gen = none) ∨
      ∃ j, s.cell j = .poisoned ∧ (((s.thread τ).stack = [] ∧ ∃ rest, (s.thread τ).todo = j :: rest) ∨
        ∃ f below rest, (s.thread τ).stack = f :: below ∧ f.deps = j :: rest))
      (h : s' = panic s τ)

theorem kind_of_step {τ : Fin n} (h : step P s τ = some s') : (s.thread τ).dead = false ∧ Kind P s s' τ := by
  unfold step at h
  split at h
  · cases h
  rename_i hdead
  refine ⟨by simpa using hdead, ?_⟩
  split at h
  · rename_i hst
    split at h
    · cases h
    · rename_i j rest ht
      unfold deref at h
      split at h
      · rename_i hj
        exact .push j hj (Or.inl ⟨hst, rest, ht⟩) (Option.some.inj h).symm
      · cases h
      · rename_i v hj
        exact .deliver j rest v hst hj ht (Option.some.inj h).symm
      · rename_i hj
        exact .panic (Or.inr ⟨j, hj, Or.inl ⟨hst, rest, ht⟩⟩) (Option.some.inj h).symm
  · rename_i f below hst
    split at h
    · rename_i j rest hd
      unfold deref at h
      split at h
      · rename_i hj
        exact .push j hj (Or.inr ⟨f, below, rest, hst, hd⟩) (Option.some.inj h).symm
      · cases h
      · rename_i v hj
        exact .arg j rest f below v hj hst hd (Option.some.inj h).symm
      · rename_i hj
        exact .panic (Or.inr ⟨j, hj, Or.inr ⟨f, below, rest, hst, hd⟩⟩) (Option.some.inj h).symm
    · rename_i hd
      split at h
      · rename_i v gen hi
        exact .finish f below v gen hst hd hi (Option.some.inj h).symm
      · rename_i hi
        exact .panic (Or.inl ⟨f, below, hst, hd, hi⟩) (Option.some.inj h).symm

theorem inv_step (hT : Typed P Val ok) (hI : Inv P Val ok todo s) {τ : Fin n} (h : step P s τ = some s') :
    Inv P Val ok todo s' := by
  rcases (kind_of_step h).2 with ⟨j, hj, -, rfl⟩ | ⟨j, rest, v, -, hj, ht, rfl⟩ | ⟨j, rest, f, below, v, hj, hst, hd, rfl⟩ |
    ⟨f, below, v, gen, hst, hd, hi, rfl⟩ | ⟨-, rfl⟩
  · exact inv_push hI τ j hj
  · exact inv_deliver hI τ j rest v hj ht
  · exact inv_arg hI τ j rest f below v hj hst hd
  · exact inv_finish hT hI τ f below v gen hst hd hi
  · exact inv_panic hI τ

theorem inv_run (hT : Typed P Val ok) (hI : Inv P Val ok todo s) (sched : List (Fin n)) :
    Inv P Val ok todo (run P s sched) := by
  induction sched generalizing s with
  | nil => exact hI
  | cons τ sched ih =>
    show Inv P Val ok todo (run P ((step P s τ).getD s) sched)
    cases h : step P s τ with
    | none => exact ih hI
    | some s' => exact ih (inv_step hT hI h)

/-- A value stays. -/
theorem ready_step (hI : Inv P Val ok todo s) {τ : Fin n} (h : step P s τ = some s') {i : ι} {v : V}
    (hv : s.cell i = .ready v) : s'.cell i = .ready v := by
  rcases (kind_of_step h).2 with ⟨j, hj, -, rfl⟩ | ⟨j, rest, v, -, hj, ht, rfl⟩ | ⟨j, rest, f, below, v, hj, hst, hd, rfl⟩ |
    ⟨f, below, v, gen, hst, hd, hi, rfl⟩ | ⟨-, rfl⟩
  · dsimp only
    rw [Function.update_of_ne (fun he => by rw [he, hj] at hv; cases hv)]
    exact hv
  · exact hv
  · exact hv
  · dsimp only
    have := hI.held τ f (by rw [hst]; exact List.mem_cons_self)
    rw [Function.update_of_ne (fun he => by rw [he, this] at hv; cases hv)]
    exact hv
  · unfold panic
    dsimp only
    rw [if_neg]
    · exact hv
    · intro hp
      obtain ⟨f, hf, he⟩ := List.any_eq_true.mp hp
      rw [decide_eq_true_eq] at he
      have := hI.held τ f hf
      rw [he, hv] at this
      cases this

theorem ready_run (hT : Typed P Val ok) (hI : Inv P Val ok todo s) (sched : List (Fin n)) {i : ι} {v : V}
    (hv : s.cell i = .ready v) : (run P s sched).cell i = .ready v := by
  induction sched generalizing s with
  | nil => exact hv
  | cons τ sched ih =>
    show (run P ((step P s τ).getD s) sched).cell i = .ready v
    cases h : step P s τ with
    | none => exact ih hI hv
    | some s' => exact ih (inv_step hT hI h) (ready_step hI h hv)

/-! ## No thread waits for ever -/

/-- Every initializer returns, given values of the statics it dereferences. -/
def Total (P : Program ι V R) (Val : ι → V → Prop) (ok : Fin n → R → Prop) : Prop :=
  ∀ τ i args r, ok τ r → List.Forall₂ Val (P.deps i) args → ∃ v r', P.init i args r = some (v, r')

/-- Nothing has panicked. -/
def Fine (s : State n ι V R) : Prop := (∀ τ, (s.thread τ).dead = false) ∧ ∀ i, s.cell i ≠ .poisoned

theorem fine_step (hTot : Total P Val ok) (hI : Inv P Val ok todo s) (hF : Fine s) {τ : Fin n}
    (h : step P s τ = some s') : Fine s' := by
  have hth : ∀ (T : Thread ι V R), T.dead = false → ∀ σ, (Function.update s.thread τ T σ).dead = false := by
    intro T hT σ
    by_cases hσ : σ = τ
    · subst hσ; rw [Function.update_self]; exact hT
    · rw [Function.update_of_ne hσ]; exact hF.1 σ
  have hce : ∀ (c : Cell n V) (j : ι), c ≠ .poisoned → ∀ i, Function.update s.cell j c i ≠ .poisoned := by
    intro c j hc i
    by_cases hi : i = j
    · subst hi; rw [Function.update_self]; exact hc
    · rw [Function.update_of_ne hi]; exact hF.2 i
  rcases (kind_of_step h).2 with ⟨j, hj, -, rfl⟩ | ⟨j, rest, v, -, hj, ht, rfl⟩ | ⟨j, rest, f, below, v, hj, hst, hd, rfl⟩ |
    ⟨f, below, v, gen, hst, hd, hi, rfl⟩ | ⟨hw, rfl⟩
  · exact ⟨hth _ (hF.1 τ), hce _ j (fun h => by cases h)⟩
  · exact ⟨hth _ (hF.1 τ), hF.2⟩
  · exact ⟨hth _ (hF.1 τ), hF.2⟩
  · exact ⟨hth _ (hF.1 τ), hce _ _ (fun h => by cases h)⟩
  · exfalso
    rcases hw with ⟨f, below, hst, hd, hi⟩ | ⟨j, hj, -⟩
    · obtain ⟨done, h1, h2⟩ := hI.args τ f (by rw [hst]; exact List.mem_cons_self)
      rw [hd, List.append_nil] at h1
      obtain ⟨v, r', hv⟩ := hTot τ f.static f.args _ (hI.gen τ) (by rw [h1]; exact h2.imp fun i v h => hI.ready i v h)
      rw [hi] at hv
      cases hv
    · exact hF.2 j hj

theorem fine_run (hT : Typed P Val ok) (hTot : Total P Val ok) (hI : Inv P Val ok todo s) (hF : Fine s)
    (sched : List (Fin n)) : Fine (run P s sched) := by
  induction sched generalizing s with
  | nil => exact hF
  | cons τ sched ih =>
    show Fine (run P ((step P s τ).getD s) sched)
    cases h : step P s τ with
    | none => exact ih hI hF
    | some s' => exact ih (inv_step hT hI h) (fine_step hTot hI hF h)

/-- The initializers a thread is inside of were entered through one another. -/
def Nested (rank : ι → Nat) (s : State n ι V R) : Prop :=
  ∀ τ, (s.thread τ).stack.Pairwise fun f g => rank f.static < rank g.static

theorem nested_step {rank : ι → Nat} (hr : ∀ i, ∀ j ∈ P.deps i, rank j < rank i) (hI : Inv P Val ok todo s)
    (hN : Nested rank s) {τ : Fin n} (h : step P s τ = some s') : Nested rank s' := by
  have key : ∀ (T : Thread ι V R), (T.stack.Pairwise fun f g => rank f.static < rank g.static) →
      ∀ σ, (Function.update s.thread τ T σ).stack.Pairwise fun f g => rank f.static < rank g.static := by
    intro T hT σ
    by_cases hσ : σ = τ
    · subst hσ; rw [Function.update_self]; exact hT
    · rw [Function.update_of_ne hσ]; exact hN σ
  have hτ := hN τ
  rcases (kind_of_step h).2 with ⟨j, hj, hw, rfl⟩ | ⟨j, rest, v, -, hj, ht, rfl⟩ | ⟨j, rest, f, below, v, hj, hst, hd, rfl⟩ |
    ⟨f, below, v, gen, hst, hd, hi, rfl⟩ | ⟨hw, rfl⟩
  · refine key _ ?_
    dsimp only
    rcases hw with ⟨hst, -⟩ | ⟨f, below, rest, hst, hd⟩
    · rw [hst]; simp
    · obtain ⟨done, h1, -⟩ := hI.args τ f (by rw [hst]; exact List.mem_cons_self)
      have hjf : rank j < rank f.static := hr f.static j (by rw [h1, hd]; simp)
      rw [List.pairwise_cons]
      refine ⟨fun g hg => ?_, hτ⟩
      dsimp only
      rw [hst] at hg hτ
      rcases List.mem_cons.mp hg with rfl | hg
      · exact hjf
      · exact hjf.trans ((List.pairwise_cons.mp hτ).1 g hg)
  · exact key _ hτ
  · refine key _ ?_
    dsimp only
    rw [hst, List.pairwise_cons] at hτ
    rw [List.pairwise_cons]
    exact hτ
  · refine key _ ?_
    dsimp only
    rw [hst, List.pairwise_cons] at hτ
    exact hτ.2
  · exact key _ List.Pairwise.nil

theorem nested_run {rank : ι → Nat} (hr : ∀ i, ∀ j ∈ P.deps i, rank j < rank i) (hT : Typed P Val ok)
    (hI : Inv P Val ok todo s) (hN : Nested rank s) (sched : List (Fin n)) : Nested rank (run P s sched) := by
  induction sched generalizing s with
  | nil => exact hN
  | cons τ sched ih =>
    show Nested rank (run P ((step P s τ).getD s) sched)
    cases h : step P s τ with
    | none => exact ih hI hN
    | some s' => exact ih (inv_step hT hI h) (nested_step hr hI hN h)

/-- A thread that is inside an initializer and waits, waits for a thread that can move. -/
theorem inside_progress {rank : ι → Nat} (hr : ∀ i, ∀ j ∈ P.deps i, rank j < rank i) (hI : Inv P Val ok todo s)
    (hF : Fine s) (hN : Nested rank s) : ∀ (m : Nat) (τ : Fin n) (f : Frame ι V), f ∈ (s.thread τ).stack →
      rank f.static < m → ∃ σ s', step P s σ = some s'
  | 0, _, _, _, h => absurd h (Nat.not_lt_zero _)
  | m + 1, τ, f, hf, hm => by
    cases hs : step P s τ with
    | some s' => exact ⟨τ, s', hs⟩
    | none =>
      unfold step at hs
      rw [hF.1 τ, if_neg (by simp)] at hs
      cases hst : (s.thread τ).stack with
      | nil => rw [hst] at hf; simp at hf
      | cons g below =>
        rw [hst] at hs hf
        have htop : rank g.static ≤ rank f.static := by
          rcases List.mem_cons.mp hf with rfl | hf
          · exact le_refl _
          · have := hN τ
            rw [hst, List.pairwise_cons] at this
            exact (this.1 f hf).le
        dsimp only at hs
        split at hs
        · rename_i j rest hd
          unfold deref at hs
          split at hs
          · cases hs
          · rename_i σ hj
            obtain ⟨e, he, hes⟩ := hI.holder σ j hj
            obtain ⟨done, h1, -⟩ := hI.args τ g (by rw [hst]; exact List.mem_cons_self)
            have : rank j < rank g.static := hr g.static j (by rw [h1, hd]; simp)
            exact inside_progress hr hI hF hN m σ e he (by rw [hes]; omega)
          · cases hs
          · cases hs
        · split at hs <;> cases hs

theorem progress {rank : ι → Nat} (hr : ∀ i, ∀ j ∈ P.deps i, rank j < rank i) (hI : Inv P Val ok todo s)
    (hF : Fine s) (hN : Nested rank s) (τ : Fin n) (h : ¬((s.thread τ).stack = [] ∧ (s.thread τ).todo = [])) :
    ∃ σ s', step P s σ = some s' := by
  cases hst : (s.thread τ).stack with
  | cons f below => exact inside_progress hr hI hF hN _ τ f (by rw [hst]; exact List.mem_cons_self) (Nat.lt_succ_self _)
  | nil =>
    cases ht : (s.thread τ).todo with
    | nil => exact absurd ⟨hst, ht⟩ h
    | cons j rest =>
      cases hs : step P s τ with
      | some s' => exact ⟨τ, s', hs⟩
      | none =>
        unfold step at hs
        rw [hF.1 τ, if_neg (by simp), hst, ht] at hs
        dsimp only at hs
        unfold deref at hs
        split at hs
        · cases hs
        · rename_i σ hj
          obtain ⟨e, he, -⟩ := hI.holder σ j hj
          exact inside_progress hr hI hF hN _ σ e he (Nat.lt_succ_self _)
        · cases hs
        · cases hs

/-! ## The number of steps -/

/-- What is left to do in a cell. -/
def Cell.weight (c : Cell n V) (deps : List ι) : Nat :=
  match c with
  | .empty => deps.length + 2
  | .running _ => 1
  | .ready _ => 0
  | .poisoned => 0

/-- What is left to do in a thread. -/
def Thread.weight (T : Thread ι V R) : Nat :=
  if T.dead then 0 else T.todo.length + (T.stack.map fun f => f.deps.length).sum

variable [Fintype ι]

/-- What is left to do. -/
def weight (P : Program ι V R) (s : State n ι V R) : Nat :=
  (∑ i, (s.cell i).weight (P.deps i)) + ∑ τ, (s.thread τ).weight

theorem sum_update_lt {α : Type} [Fintype α] [DecidableEq α] {β : Type} (w : α → β → Nat) (f : α → β) (a : α) (b : β)
    {k l : Nat} (h : w a b + k = w a (f a) + l) :
    (∑ x, w x (Function.update f a b x)) + k = (∑ x, w x (f x)) + l := by
  rw [← Finset.add_sum_erase _ _ (Finset.mem_univ a), ← Finset.add_sum_erase _ (fun x => w x (f x)) (Finset.mem_univ a),
    Function.update_self]
  have : ∑ x ∈ Finset.univ.erase a, w x (Function.update f a b x) = ∑ x ∈ Finset.univ.erase a, w x (f x) :=
    Finset.sum_congr rfl fun x hx => by rw [Function.update_of_ne (Finset.ne_of_mem_erase hx)]
  rw [this]
  omega

theorem weight_step (hI : Inv P Val ok todo s) {τ : Fin n} (h : step P s τ = some s') :
    weight P s' < weight P s := by
  have hcell := fun (j : ι) (c : Cell n V) {k l : Nat} (h : c.weight (P.deps j) + k = (s.cell j).weight (P.deps j) + l) =>
    sum_update_lt (fun i (c : Cell n V) => c.weight (P.deps i)) s.cell j c h
  have hthr := fun (T : Thread ι V R) {k l : Nat} (h : T.weight + k = (s.thread τ).weight + l) =>
    sum_update_lt (fun _ (T : Thread ι V R) => T.weight) s.thread τ T h
  obtain ⟨hdead, hk⟩ := kind_of_step h
  rcases hk with ⟨j, hj, hw, rfl⟩ | ⟨j, rest, v, hst, hj, ht, rfl⟩ | ⟨j, rest, f, below, v, hj, hst, hd, rfl⟩ |
    ⟨f, below, v, gen, hst, hd, hi, rfl⟩ | ⟨hw, rfl⟩
  · have h1 := hcell j (.running τ) (k := (P.deps j).length + 1) (l := 0) (by rw [hj]; simp [Cell.weight]; omega)
    have h2 := hthr { s.thread τ with stack := ⟨j, P.deps j, []⟩ :: (s.thread τ).stack } (k := 0)
      (l := (P.deps j).length) (by simp [Thread.weight, hdead]; omega)
    unfold weight
    dsimp only at h2 ⊢
    omega
  · have h2 := hthr { s.thread τ with todo := rest, seen := (j, v) :: (s.thread τ).seen } (k := 1) (l := 0)
      (by simp [Thread.weight, hdead, ht]; omega)
    unfold weight
    dsimp only at h2 ⊢
    omega
  · have h2 := hthr { s.thread τ with stack := ⟨f.static, rest, f.args ++ [v]⟩ :: below } (k := 1) (l := 0)
      (by simp [Thread.weight, hdead, hst, hd]; omega)
    unfold weight
    dsimp only at h2 ⊢
    omega
  · have hrun := hI.held τ f (by rw [hst]; exact List.mem_cons_self)
    have h1 := hcell f.static (.ready v) (k := 1) (l := 0) (by rw [hrun]; simp [Cell.weight])
    have h2 := hthr { s.thread τ with stack := below, gen := gen } (k := 0) (l := 0)
      (by simp [Thread.weight, hdead, hst, hd])
    unfold weight
    dsimp only at h2 ⊢
    omega
  · have hle : ∀ i, ((panic s τ).cell i).weight (P.deps i) ≤ (s.cell i).weight (P.deps i) := by
      intro i
      unfold panic
      dsimp only
      split
      · simp [Cell.weight]
      · exact le_refl _
    have h2 := hthr { s.thread τ with stack := [], dead := true } (k := (s.thread τ).weight) (l := 0)
      (by simp [Thread.weight])
    have h2' : (∑ σ, ((panic s τ).thread σ).weight) + (s.thread τ).weight = (∑ σ, (s.thread σ).weight) := h2
    rcases hw with ⟨f, below, hst, hd, -⟩ | ⟨j, hj, hw⟩
    · have hrun := hI.held τ f (by rw [hst]; exact List.mem_cons_self)
      have h1 : ∑ i, ((panic s τ).cell i).weight (P.deps i) < ∑ i, (s.cell i).weight (P.deps i) := by
        refine Finset.sum_lt_sum (fun i _ => hle i) ⟨f.static, Finset.mem_univ _, ?_⟩
        rw [hrun]
        unfold panic
        dsimp only
        rw [if_pos (by rw [hst]; simp)]
        simp [Cell.weight]
      unfold weight
      omega
    · have h1 : ∑ i, ((panic s τ).cell i).weight (P.deps i) ≤ ∑ i, (s.cell i).weight (P.deps i) :=
        Finset.sum_le_sum fun i _ => hle i
      have h3 : 0 < (s.thread τ).weight := by
        rcases hw with ⟨hst, rest, ht⟩ | ⟨f, below, rest, hst, hd⟩
        · simp [Thread.weight, hdead, ht]
        · simp [Thread.weight, hdead, hst, hd]
      unfold weight
      omega

/-- The moves of an execution: every thread that is chosen moves. -/
def moves (P : Program ι V R) (s : State n ι V R) (sched : List (Fin n)) : Option (State n ι V R) :=
  sched.foldlM (fun s τ => step P s τ) s

theorem moves_bound (hT : Typed P Val ok) (hI : Inv P Val ok todo s) (sched : List (Fin n))
    (h : moves P s sched = some s') : sched.length + weight P s' ≤ weight P s := by
  induction sched generalizing s with
  | nil => cases h; simp
  | cons τ sched ih =>
    unfold moves at h
    rw [List.foldlM_cons] at h
    obtain ⟨s1, h1, h2⟩ := Option.bind_eq_some_iff.mp h
    have := ih (inv_step hT hI h1) h2
    have := weight_step hI h1
    rw [List.length_cons]
    omega

omit [Fintype ι] in
theorem run_eq_of_moves {sched : List (Fin n)} (h : moves P s sched = some s') : run P s sched = s' := by
  induction sched generalizing s with
  | nil => cases h; rfl
  | cons τ sched ih =>
    unfold moves at h
    rw [List.foldlM_cons] at h
    obtain ⟨s1, h1, h2⟩ := Option.bind_eq_some_iff.mp h
    show run P ((step P s τ).getD s) sched = s'
    rw [h1]
    exact ih h2

/-- Some execution goes on until no thread can move. -/
theorem exists_moves (hT : Typed P Val ok) (hI : Inv P Val ok todo s) : ∃ sched s', moves P s sched = some s' ∧
    ∀ τ, step P s' τ = none := by
  obtain ⟨w, hw⟩ : ∃ w, w = weight P s := ⟨_, rfl⟩
  induction w using Nat.strong_induction_on generalizing s with
  | _ w ih =>
    by_cases hs : ∀ τ, step P s τ = none
    · exact ⟨[], s, rfl, hs⟩
    · push Not at hs
      obtain ⟨τ, hτ⟩ := hs
      obtain ⟨s1, h1⟩ := Option.ne_none_iff_exists'.mp hτ
      obtain ⟨sched, s', h2, h3⟩ := ih _ (hw ▸ weight_step hI h1) (inv_step hT hI h1) rfl
      refine ⟨τ :: sched, s', ?_, h3⟩
      unfold moves
      rw [List.foldlM_cons]
      exact Option.bind_eq_some_iff.mpr ⟨s1, h1, h2⟩

omit [DecidableEq ι] in
theorem weight_start (todo : Fin n → List ι) (gen : Fin n → R) :
    weight P (start todo gen : State n ι V R) = (∑ i, ((P.deps i).length + 2)) + ∑ τ, (todo τ).length := by
  simp [weight, start, Cell.weight, Thread.weight]

end ZkHash.Statics

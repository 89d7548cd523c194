import Verif.Model.Net
import Verif.Theorems.Client
import Verif.Theorems.StaticsFresh

set_option autoImplicit false

/-!
# Programs whose threads communicate and draw random numbers: proofs for C98
-/

namespace ZkHash.Statics

section
variable {n : Nat} {ι V R : Type} [DecidableEq ι] {P : Program ι V R} {Val : ι → V → Prop} {ok : Fin n → R → Prop}
  {todo : Fin n → List ι} {s s' : State n ι V R}

/-- The program of a thread sets what it wants next, and draws. -/
theorem inv_set (hI : Inv P Val ok todo s) (τ : Fin n) (l : List ι) (g : R) (hg : ok τ g) :
    Inv P Val ok (Function.update todo τ ((s.thread τ).seen.reverse.map Prod.fst ++ l))
      { s with thread := (Function.update s.thread τ { s.thread τ with todo := l, gen := g }) } := by
  refine ⟨hI.ready, fun σ i w h => ?_, fun σ f hf => ?_, fun σ => ?_, fun σ f hf => ?_, fun σ i h => ?_,
    fun σ => ?_, fun σ => ?_⟩ <;> by_cases hσ : σ = τ
  · subst hσ; dsimp only at h ⊢; rw [Function.update_self] at h; exact hI.seen σ i w h
  · dsimp only at h ⊢; rw [Function.update_of_ne hσ] at h; exact hI.seen σ i w h
  · subst hσ; dsimp only at hf ⊢; rw [Function.update_self] at hf; exact hI.args σ f hf
  · dsimp only at hf ⊢; rw [Function.update_of_ne hσ] at hf; exact hI.args σ f hf
  · subst hσ; dsimp only; rw [Function.update_self]; exact hg
  · dsimp only; rw [Function.update_of_ne hσ]; exact hI.gen σ
  · subst hσ; dsimp only at hf ⊢; rw [Function.update_self] at hf; exact hI.held σ f hf
  · dsimp only at hf ⊢; rw [Function.update_of_ne hσ] at hf; exact hI.held σ f hf
  · subst hσ; dsimp only; rw [Function.update_self]; exact hI.holder σ i h
  · dsimp only; rw [Function.update_of_ne hσ]; exact hI.holder σ i h
  · subst hσ; dsimp only; rw [Function.update_self]; exact hI.nodup σ
  · dsimp only; rw [Function.update_of_ne hσ]; exact hI.nodup σ
  · subst hσ; dsimp only; rw [Function.update_self, Function.update_self]
  · dsimp only; rw [Function.update_of_ne hσ, Function.update_of_ne hσ]; exact hI.hist σ

/-- A step of one thread leaves the others alone. -/
theorem thread_step {τ σ : Fin n} (h : step P s τ = some s') (hne : σ ≠ τ) : s'.thread σ = s.thread σ := by
  rcases (kind_of_step h).2 with ⟨j, hj, -, rfl⟩ | ⟨j, rest, v, -, hj, ht, rfl⟩ | ⟨j, rest, f, below, v, hj, hst, hd, rfl⟩ |
    ⟨f, below, v, gen, hst, hd, hi, rfl⟩ | ⟨-, rfl⟩ <;> exact Function.update_of_ne hne _ _

/-- Whether a thread can move depends on the cells and on this thread. -/
theorem step_none_congr {σ : Fin n} (hc : s'.cell = s.cell) (ht : s'.thread σ = s.thread σ) (h : step P s' σ = none) :
    step P s σ = none := by
  unfold step at h ⊢
  rw [ht] at h
  split at h
  · rw [if_pos ‹_›]
  · rw [if_neg ‹_›]
    cases hst : (s.thread σ).stack with
    | nil =>
      rw [hst] at h
      dsimp only at h ⊢
      cases htd : (s.thread σ).todo with
      | nil => rfl
      | cons j rest =>
        rw [htd] at h
        dsimp only at h ⊢
        unfold deref at h ⊢
        rw [hc] at h
        cases hj : s.cell j <;> rw [hj] at h <;> first | rfl | cases h
    | cons f below =>
      rw [hst] at h
      dsimp only at h ⊢
      cases hd : f.deps with
      | nil =>
        rw [hd] at h
        dsimp only at h
        split at h <;> cases h
      | cons j rest =>
        rw [hd] at h
        dsimp only at h ⊢
        unfold deref at h ⊢
        rw [hc] at h
        cases hj : s.cell j <;> rw [hj] at h <;> first | rfl | cases h

/-- A thread that is inside an initializer and waits, waits for a thread inside an initializer that can move. -/
theorem inside_mover {rank : ι → Nat} (hr : ∀ i, ∀ j ∈ P.deps i, rank j < rank i) (hI : Inv P Val ok todo s)
    (hF : Fine s) (hN : Nested rank s) : ∀ (m : Nat) (τ : Fin n) (f : Frame ι V), f ∈ (s.thread τ).stack →
      rank f.static < m → ∃ σ, (s.thread σ).stack ≠ [] ∧ step P s σ ≠ none
  | 0, _, _, _, h => absurd h (Nat.not_lt_zero _)
  | m + 1, τ, f, hf, hm => by
    cases hs : step P s τ with
    | some s' => exact ⟨τ, List.ne_nil_of_mem hf, by rw [hs]; exact Option.some_ne_none _⟩
    | none =>
      unfold step at hs
      rw [hF.1 τ, if_neg (by simp)] at hs
      cases hst : (s.thread τ).stack with
      | nil => rw [hst] at hf; simp at hf
      | cons g below =>
        rw [hst] at hs hf
        have htop : rank g.static ≤ rank f.static := by
          rcases List.mem_cons.mp hf with rfl | hf
          · exact le_refl _
          · have := hN τ
            rw [hst, List.pairwise_cons] at this
            exact (this.1 f hf).le
        dsimp only at hs
        split at hs
        · rename_i j rest hd
          unfold deref at hs
          split at hs
          · cases hs
          · rename_i σ hj
            obtain ⟨e, he, hes⟩ := hI.holder σ j hj
            obtain ⟨done, h1, -⟩ := hI.args τ g (by rw [hst]; exact List.mem_cons_self)
            have : rank j < rank g.static := hr g.static j (by rw [h1, hd]; simp)
            exact inside_mover hr hI hF hN m σ e he (by rw [hes]; omega)
          · cases hs
          · cases hs
        · split at hs <;> cases hs

/-- A thread that waits, waits for a thread inside an initializer that can move. -/
theorem mover {rank : ι → Nat} (hr : ∀ i, ∀ j ∈ P.deps i, rank j < rank i) (hI : Inv P Val ok todo s)
    (hF : Fine s) (hN : Nested rank s) (τ : Fin n) (h : (s.thread τ).todo ≠ []) :
    ∃ σ, (σ = τ ∨ (s.thread σ).stack ≠ []) ∧ step P s σ ≠ none := by
  cases hst : (s.thread τ).stack with
  | cons f below =>
    obtain ⟨σ, h1, h2⟩ := inside_mover hr hI hF hN _ τ f (by rw [hst]; exact List.mem_cons_self) (Nat.lt_succ_self _)
    exact ⟨σ, Or.inr h1, h2⟩
  | nil =>
    cases ht : (s.thread τ).todo with
    | nil => exact absurd ht h
    | cons j rest =>
      cases hs : step P s τ with
      | some s' => exact ⟨τ, Or.inl rfl, by rw [hs]; exact Option.some_ne_none _⟩
      | none =>
        unfold step at hs
        rw [hF.1 τ, if_neg (by simp), hst, ht] at hs
        dsimp only at hs
        unfold deref at hs
        split at hs
        · cases hs
        · rename_i σ hj
          obtain ⟨e, he, -⟩ := hI.holder σ j hj
          obtain ⟨σ, h1, h2⟩ := inside_mover hr hI hF hN _ σ e he (Nat.lt_succ_self _)
          exact ⟨σ, Or.inr h1, h2⟩
        · cases hs
        · cases hs

variable [Fintype ι]

/-- What is left to do in the initializers. -/
def initWeight (P : Program ι V R) (s : State n ι V R) : Nat :=
  (∑ i, (s.cell i).weight (P.deps i)) + ∑ τ, ((s.thread τ).stack.map fun f => f.deps.length).sum

omit [DecidableEq ι] in
theorem initWeight_congr (hc : s'.cell = s.cell) (hst : ∀ τ, (s'.thread τ).stack = (s.thread τ).stack) :
    initWeight P s' = initWeight P s := by
  unfold initWeight
  rw [hc]
  simp only [hst]

/-- A step in an initializer makes this less; the only other steps deliver a value. -/
theorem initWeight_step (hI : Inv P Val ok todo s) (hF : Fine s') {τ : Fin n} (h : step P s τ = some s') :
    initWeight P s' < initWeight P s ∨
      ((s.thread τ).stack = [] ∧ s'.cell = s.cell ∧ (∀ σ, (s'.thread σ).stack = (s.thread σ).stack) ∧
        ∃ j rest, (s.thread τ).todo = j :: rest ∧ (s'.thread τ).todo = rest) := by
  have hcell := fun (j : ι) (c : Cell n V) {k l : Nat} (h : c.weight (P.deps j) + k = (s.cell j).weight (P.deps j) + l) =>
    sum_update_lt (fun i (c : Cell n V) => c.weight (P.deps i)) s.cell j c h
  have hthr := fun (T : Thread ι V R) {k l : Nat} (h : (T.stack.map fun f => f.deps.length).sum + k =
      ((s.thread τ).stack.map fun f => f.deps.length).sum + l) =>
    sum_update_lt (fun _ (T : Thread ι V R) => (T.stack.map fun f => f.deps.length).sum) s.thread τ T h
  rcases (kind_of_step h).2 with ⟨j, hj, hw, rfl⟩ | ⟨j, rest, v, hst, hj, ht, rfl⟩ |
    ⟨j, rest, f, below, v, hj, hst, hd, rfl⟩ | ⟨f, below, v, gen, hst, hd, hi, rfl⟩ | ⟨hw, rfl⟩
  · left
    have h1 := hcell j (.running τ) (k := (P.deps j).length + 1) (l := 0) (by rw [hj]; simp [Cell.weight]; omega)
    have h2 := hthr { s.thread τ with stack := ⟨j, P.deps j, []⟩ :: (s.thread τ).stack } (k := 0)
      (l := (P.deps j).length) (by simp; omega)
    unfold initWeight
    dsimp only at h2 ⊢
    omega
  · right
    refine ⟨hst, rfl, fun σ => ?_, j, rest, ht, ?_⟩
    · by_cases hσ : σ = τ
      · subst hσ; dsimp only; rw [Function.update_self]
      · dsimp only; rw [Function.update_of_ne hσ]
    · dsimp only; rw [Function.update_self]
  · left
    have h2 := hthr { s.thread τ with stack := ⟨f.static, rest, f.args ++ [v]⟩ :: below } (k := 1) (l := 0)
      (by simp [hst, hd]; omega)
    unfold initWeight
    dsimp only at h2 ⊢
    omega
  · left
    have hrun := hI.held τ f (by rw [hst]; exact List.mem_cons_self)
    have h1 := hcell f.static (.ready v) (k := 1) (l := 0) (by rw [hrun]; simp [Cell.weight])
    have h2 := hthr { s.thread τ with stack := below, gen := gen } (k := 0) (l := 0) (by simp [hst, hd])
    unfold initWeight
    dsimp only at h2 ⊢
    omega
  · exfalso
    have := hF.1 τ
    rw [show ((panic s τ).thread τ) = { s.thread τ with stack := [], dead := true } from Function.update_self _ _ _] at this
    cases this

end

end ZkHash.Statics

namespace ZkHash.Client

open Statics

variable {n : Nat} {dbg : Bool} {prog : Fin n → Talk n} {gen : Fin n → Gen} {w w' : Net n} {τ : Fin n}

/-- What holds of the statics and the log in every process. -/
structure NetOk (dbg : Bool) (gen : Fin n → Gen) (w : Net n) : Prop where
  inv : ∃ todo, Inv (crate dbg) (Holds dbg gen) (Later gen) todo w.base
  idle : ∀ τ, w.asked τ = none → (w.base.thread τ).stack = [] ∧ (w.base.thread τ).todo = []
  busy : ∀ τ c, w.asked τ = some c → (w.base.thread τ).todo = [c.static]
  log : ∀ τ c r, (τ, Entry.called c r) ∈ w.log → ∃ v, w.base.cell c.static = .ready v ∧ r = c.exec dbg v

/-- What a step of a process can be. -/
inductive NetKind (dbg : Bool) (prog : Fin n → Talk n) (w w' : Net n) (τ : Fin n) : Prop where
  | inside (c : Call) (b : State n Name Value Gen) (ha : w.asked τ = some c) (hs : Statics.step (crate dbg) w.base τ = some b)
      (ht : (b.thread τ).todo = [c.static]) (h : w' = ⟨b, w.asked, w.log⟩)
  | result (c : Call) (v : Value) (b : State n Name Value Gen) (ha : w.asked τ = some c)
      (hs : Statics.step (crate dbg) w.base τ = some b) (hst : (b.thread τ).stack = []) (ht : (b.thread τ).todo = [])
      (hv : b.cell c.static = .ready v)
      (h : w' = ⟨b, Function.update w.asked τ none, w.log ++ [(τ, .called c (c.exec dbg v))]⟩)
  | ask (c : Call) (ha : w.asked τ = none) (hc : ¬ crashed w.log τ) (hp : prog τ w.log = .call c)
      (h : w' = ⟨want w.base τ c.static, Function.update w.asked τ (some c), w.log⟩)
  | draw (p : Nat) (ha : w.asked τ = none) (hc : ¬ crashed w.log τ) (hp : prog τ w.log = .draw p)
      (h : w' = ⟨drawOne w.base τ p, w.asked, w.log ++ [(τ, .drew p ((w.base.thread τ).gen p 0))]⟩)

theorem netKind_of_step (hO : NetOk dbg gen w) (h : w.step dbg prog τ = some w') : NetKind dbg prog w w' τ := by
  unfold Net.step at h
  cases ha : w.asked τ with
  | some c =>
    rw [ha] at h
    dsimp only at h
    obtain ⟨b, hs, hb⟩ := Option.map_eq_some_iff.mp h
    have htodo := hO.busy τ c ha
    have inside : (b.thread τ).todo = [c.static] → NetKind dbg prog w w' τ := fun ht =>
      .inside c b ha hs ht (by rw [ht] at hb; exact hb.symm)
    rcases (kind_of_step hs).2 with ⟨j, hj, -, rfl⟩ | ⟨j, rest, v, hst, hj, ht, rfl⟩ |
      ⟨j, rest, f, below, v, hj, hst, hd, rfl⟩ | ⟨f, below, v, gen, hst, hd, hi, rfl⟩ | ⟨-, rfl⟩
    · exact inside (by dsimp only; rw [Function.update_self]; exact htodo)
    · rw [htodo] at ht
      obtain ⟨rfl, rfl⟩ := List.cons.inj ht
      refine .result c v _ ha hs ?_ ?_ hj ?_
      · dsimp only; rw [Function.update_self]; exact hst
      · dsimp only; rw [Function.update_self]
      · dsimp only at hb
        rw [Function.update_self] at hb
        exact hb.symm
    · exact inside (by dsimp only; rw [Function.update_self]; exact htodo)
    · exact inside (by dsimp only; rw [Function.update_self]; exact htodo)
    · refine inside ?_
      rw [show (panic w.base τ).thread τ = { w.base.thread τ with stack := [], dead := true } from Function.update_self _ _ _]
      exact htodo
  | none =>
    rw [ha] at h
    dsimp only at h
    split at h
    · cases h
    rename_i hc
    cases hp : prog τ w.log with
    | rest => rw [hp] at h; cases h
    | call c => rw [hp] at h; exact .ask c ha hc hp (Option.some.inj h).symm
    | draw p => rw [hp] at h; exact .draw p ha hc hp (Option.some.inj h).symm

theorem netOk_start : NetOk dbg gen (Net.start gen) where
  inv := ⟨_, inv_start gen fun τ p => ⟨0, by simp⟩⟩
  idle τ _ := ⟨rfl, rfl⟩
  busy τ c h := by cases h
  log τ c r h := by cases h

theorem later_draw {g : Gen} (hg : Later gen τ g) (p : Nat) : Later gen τ (Function.update g p fun j => g p (1 + j)) := by
  intro q
  by_cases hq : q = p
  · subst hq
    obtain ⟨m, hm⟩ := hg q
    refine ⟨m + 1, ?_⟩
    rw [Function.update_self, hm]
    funext j
    rw [Nat.add_assoc]
  · rw [Function.update_of_ne hq]
    exact hg q

theorem netOk_step (hO : NetOk dbg gen w) (h : w.step dbg prog τ = some w') : NetOk dbg gen w' := by
  obtain ⟨todo, hI⟩ := hO.inv
  rcases netKind_of_step hO h with ⟨c, b, ha, hs, ht, rfl⟩ | ⟨c, v, b, ha, hs, hst, ht, hv, rfl⟩ | ⟨c, ha, hc, hp, rfl⟩ |
    ⟨p, ha, hc, hp, rfl⟩
  · refine ⟨⟨todo, inv_step (crate_typed dbg gen) hI hs⟩, fun σ hσ => ?_, fun σ c' hσ => ?_, fun σ c' r hm => ?_⟩
    · have hne : σ ≠ τ := fun he => by
        dsimp only at hσ
        rw [he, ha] at hσ
        cases hσ
      dsimp only
      rw [thread_step hs hne]
      exact hO.idle σ hσ
    · dsimp only at hσ ⊢
      by_cases he : σ = τ
      · subst he
        obtain rfl := Option.some.inj (ha.symm.trans hσ)
        exact ht
      · rw [thread_step hs he]
        exact hO.busy σ c' hσ
    · obtain ⟨v, h1, h2⟩ := hO.log σ c' r hm
      exact ⟨v, ready_step hI hs h1, h2⟩
  · refine ⟨⟨todo, inv_step (crate_typed dbg gen) hI hs⟩, fun σ hσ => ?_, fun σ c' hσ => ?_, fun σ c' r hm => ?_⟩
    · dsimp only at hσ ⊢
      by_cases he : σ = τ
      · subst he; exact ⟨hst, ht⟩
      · rw [Function.update_of_ne he] at hσ
        rw [thread_step hs he]
        exact hO.idle σ hσ
    · dsimp only at hσ ⊢
      by_cases he : σ = τ
      · subst he; rw [Function.update_self] at hσ; cases hσ
      · rw [Function.update_of_ne he] at hσ
        rw [thread_step hs he]
        exact hO.busy σ c' hσ
    · rcases List.mem_append.mp hm with hm | hm
      · obtain ⟨v, h1, h2⟩ := hO.log σ c' r hm
        exact ⟨v, ready_step hI hs h1, h2⟩
      · rw [List.mem_singleton] at hm
        cases hm
        exact ⟨v, hv, rfl⟩
  · refine ⟨⟨_, inv_set hI τ [c.static] (w.base.thread τ).gen (hI.gen τ)⟩, fun σ hσ => ?_, fun σ c' hσ => ?_, hO.log⟩
    · dsimp only at hσ ⊢
      unfold want
      dsimp only
      by_cases he : σ = τ
      · subst he; rw [Function.update_self] at hσ; cases hσ
      · rw [Function.update_of_ne he] at hσ ⊢
        exact hO.idle σ hσ
    · dsimp only at hσ ⊢
      unfold want
      dsimp only
      by_cases he : σ = τ
      · subst he
        rw [Function.update_self] at hσ ⊢
        cases hσ
        rfl
      · rw [Function.update_of_ne he] at hσ ⊢
        exact hO.busy σ c' hσ
  · refine ⟨⟨_, inv_set hI τ (w.base.thread τ).todo _ (later_draw (hI.gen τ) p)⟩, fun σ hσ => ?_, fun σ c' hσ => ?_,
      fun σ c' r hm => ?_⟩
    · dsimp only at hσ ⊢
      unfold drawOne
      dsimp only
      by_cases he : σ = τ
      · subst he; rw [Function.update_self]; exact hO.idle σ hσ
      · rw [Function.update_of_ne he]; exact hO.idle σ hσ
    · dsimp only at hσ ⊢
      unfold drawOne
      dsimp only
      by_cases he : σ = τ
      · subst he; rw [Function.update_self]; exact hO.busy σ c' hσ
      · rw [Function.update_of_ne he]; exact hO.busy σ c' hσ
    · rcases List.mem_append.mp hm with hm | hm
      · exact hO.log σ c' r hm
      · rw [List.mem_singleton] at hm
        cases hm

/-- What is kept by every step is kept by every run. -/
theorem run_of_step {Q : Net n → Prop}
    (hstep : ∀ w τ w', NetOk dbg gen w → Q w → w.step dbg prog τ = some w' → Q w') (sched : List (Fin n)) :
    ∀ {w : Net n}, NetOk dbg gen w → Q w →
      NetOk dbg gen (Net.runFrom dbg prog w sched) ∧ Q (Net.runFrom dbg prog w sched) := by
  induction sched with
  | nil => intro w hO hQ; exact ⟨hO, hQ⟩
  | cons τ sched ih =>
    intro w hO hQ
    show NetOk dbg gen (Net.runFrom dbg prog ((w.step dbg prog τ).getD w) sched) ∧
      Q (Net.runFrom dbg prog ((w.step dbg prog τ).getD w) sched)
    cases h : w.step dbg prog τ with
    | none => exact ih hO hQ
    | some w' => exact ih (netOk_step hO h) (hstep w τ w' hO hQ h)

theorem netOk_run (sched : List (Fin n)) (hO : NetOk dbg gen w) : NetOk dbg gen (Net.runFrom dbg prog w sched) :=
  (run_of_step (Q := fun _ => True) (fun _ _ _ _ _ _ => trivial) sched hO trivial).1

theorem netOk_net (sched : List (Fin n)) : NetOk dbg gen (net dbg prog gen sched) := netOk_run sched netOk_start

/-! ## The log -/

/-- The thread `τ` had not panicked, and its program asked for what it did: a draw on the whole log so far, a call on the log
at some time since the thread's previous action. -/
def Meant (prog : Fin n → Talk n) (before : Log n) (τ : Fin n) : Entry → Prop
  | .called c _ => ∃ l m, before = l ++ m ∧ prog τ l = .call c ∧ ¬ crashed l τ ∧ ∀ e ∈ m, e.1 ≠ τ
  | .drew p _ => prog τ before = .draw p ∧ ¬ crashed before τ

structure LogOk (prog : Fin n → Talk n) (w : Net n) : Prop where
  past : ∀ before τ e after, w.log = before ++ (τ, e) :: after → Meant prog before τ e
  asked : ∀ τ c r, w.asked τ = some c → Meant prog w.log τ (.called c r)

theorem append_cons_eq {α : Type} {l before after : List α} {x y : α} (h : l ++ [x] = before ++ y :: after) :
    (∃ after', l = before ++ y :: after') ∨ (l = before ∧ x = y) := by
  rcases List.eq_nil_or_concat after with rfl | ⟨after', z, rfl⟩
  · right
    exact ⟨(List.append_inj' h rfl).1, by simpa using (List.append_inj' h rfl).2⟩
  · left
    rw [List.concat_eq_append, ← List.cons_append, ← List.append_assoc] at h
    exact ⟨after', (List.append_inj' h rfl).1⟩

theorem logOk_step (hO : NetOk dbg gen w) (hL : LogOk prog w) (h : w.step dbg prog τ = some w') : LogOk prog w' := by
  have grow : ∀ (σ : Fin n) (e : Fin n × Entry) c r, e.1 ≠ σ → Meant prog w.log σ (.called c r) →
      Meant prog (w.log ++ [e]) σ (.called c r) := by
    rintro σ e c r hne ⟨l, m, h1, h2, h3, h4⟩
    refine ⟨l, m ++ [e], by rw [h1, List.append_assoc], h2, h3, fun e' he' => ?_⟩
    rcases List.mem_append.mp he' with he' | he'
    · exact h4 e' he'
    · rw [List.mem_singleton] at he'
      rw [he']
      exact hne
  rcases netKind_of_step hO h with ⟨c, b, ha, hs, ht, rfl⟩ | ⟨c, v, b, ha, hs, hst, ht, hv, rfl⟩ | ⟨c, ha, hc, hp, rfl⟩ |
    ⟨p, ha, hc, hp, rfl⟩
  · exact ⟨hL.past, hL.asked⟩
  · refine ⟨fun before σ e after hl => ?_, fun σ c' r hσ => ?_⟩
    · rcases append_cons_eq hl with ⟨after', hl'⟩ | ⟨hl', he⟩
      · exact hL.past before σ e after' hl'
      · cases he
        rw [← hl']
        exact hL.asked τ c _ ha
    · dsimp only at hσ ⊢
      by_cases he : σ = τ
      · subst he; rw [Function.update_self] at hσ; cases hσ
      · rw [Function.update_of_ne he] at hσ
        exact grow σ _ c' r (fun h => he h.symm) (hL.asked σ c' r hσ)
  · refine ⟨hL.past, fun σ c' r hσ => ?_⟩
    dsimp only at hσ ⊢
    by_cases he : σ = τ
    · subst he
      rw [Function.update_self] at hσ
      cases hσ
      exact ⟨w.log, [], (List.append_nil _).symm, hp, hc, fun e he => by cases he⟩
    · rw [Function.update_of_ne he] at hσ
      exact hL.asked σ c' r hσ
  · refine ⟨fun before σ e after hl => ?_, fun σ c' r hσ => ?_⟩
    · rcases append_cons_eq hl with ⟨after', hl'⟩ | ⟨hl', he⟩
      · exact hL.past before σ e after' hl'
      · cases he
        rw [← hl']
        exact ⟨hp, hc⟩
    · have he : σ ≠ τ := fun he => by
        dsimp only at hσ
        rw [he, ha] at hσ
        cases hσ
      exact grow σ _ c' r (fun h => he h.symm) (hL.asked σ c' r hσ)

theorem logOk_net (sched : List (Fin n)) : LogOk prog (net dbg prog gen sched) :=
  (run_of_step (fun _ _ _ hO hL h => logOk_step hO hL h) sched netOk_start
    ⟨fun before σ e after h => by simp [Net.start] at h, fun σ c r h => by cases h⟩).2

theorem log_step (h : w.step dbg prog τ = some w') : w.log <+: w'.log := by
  unfold Net.step at h
  cases ha : w.asked τ with
  | some c =>
    rw [ha] at h
    obtain ⟨b, -, rfl⟩ := Option.map_eq_some_iff.mp h
    split
    · exact List.prefix_append _ _
    · exact List.prefix_refl _
  | none =>
    rw [ha] at h
    dsimp only at h
    split at h
    · cases h
    cases hp : prog τ w.log with
    | rest => rw [hp] at h; cases h
    | call c => rw [hp] at h; cases h; exact List.prefix_refl _
    | draw p => rw [hp] at h; cases h; exact List.prefix_append _ _

theorem log_run (sched : List (Fin n)) : ∀ w : Net n, w.log <+: (Net.runFrom dbg prog w sched).log := by
  induction sched with
  | nil => intro w; exact List.prefix_refl _
  | cons τ sched ih =>
    intro w
    show w.log <+: (Net.runFrom dbg prog ((w.step dbg prog τ).getD w) sched).log
    cases h : w.step dbg prog τ with
    | none => exact ih w
    | some w' => exact (log_step h).trans (ih w')

/-! ## No thread waits for long -/

/-- Nothing has panicked in an initializer. -/
def Lively (w : Net n) : Prop := Fine w.base ∧ Nested rank w.base

theorem lively_step (hgen : ∀ τ, Plenty (gen τ)) (hO : NetOk dbg gen w) (hL : Lively w)
    (h : w.step dbg prog τ = some w') : Lively w' := by
  obtain ⟨todo, hI⟩ := hO.inv
  have key : ∀ T : Thread Name Value Gen, T.dead = (w.base.thread τ).dead → T.stack = (w.base.thread τ).stack →
      Fine { w.base with thread := Function.update w.base.thread τ T } ∧
      Nested rank { w.base with thread := Function.update w.base.thread τ T } := by
    intro T h1 h2
    refine ⟨⟨fun σ => ?_, hL.1.2⟩, fun σ => ?_⟩ <;> dsimp only <;> by_cases he : σ = τ
    · subst he; rw [Function.update_self, h1]; exact hL.1.1 σ
    · rw [Function.update_of_ne he]; exact hL.1.1 σ
    · subst he; rw [Function.update_self, h2]; exact hL.2 σ
    · rw [Function.update_of_ne he]; exact hL.2 σ
  rcases netKind_of_step hO h with ⟨c, b, ha, hs, ht, rfl⟩ | ⟨c, v, b, ha, hs, hst, ht, hv, rfl⟩ | ⟨c, ha, hc, hp, rfl⟩ |
    ⟨p, ha, hc, hp, rfl⟩
  · exact ⟨fine_step (crate_total dbg gen hgen) hI hL.1 hs, nested_step (crate_rank dbg) hI hL.2 hs⟩
  · exact ⟨fine_step (crate_total dbg gen hgen) hI hL.1 hs, nested_step (crate_rank dbg) hI hL.2 hs⟩
  · exact key _ rfl rfl
  · exact key _ rfl rfl

/-- Every step leaves the cells and the stacks alone or makes less of what is left to do in the initializers. -/
theorem initWeight_net (hgen : ∀ τ, Plenty (gen τ)) (hO : NetOk dbg gen w) (hL : Lively w)
    (h : w.step dbg prog τ = some w') :
    initWeight (crate dbg) w'.base < initWeight (crate dbg) w.base ∨
      (w'.base.cell = w.base.cell ∧ (∀ σ, (w'.base.thread σ).stack = (w.base.thread σ).stack) ∧
        (w.asked τ = none ∨ ∃ c r, w.asked τ = some c ∧ w'.log = w.log ++ [(τ, .called c r)])) := by
  obtain ⟨todo, hI⟩ := hO.inv
  have hL' := lively_step hgen hO hL h
  have key : ∀ T : Thread Name Value Gen, T.stack = (w.base.thread τ).stack →
      ∀ σ, (Function.update w.base.thread τ T σ).stack = (w.base.thread σ).stack := by
    intro T h2 σ
    by_cases he : σ = τ
    · subst he; rw [Function.update_self, h2]
    · rw [Function.update_of_ne he]
  rcases netKind_of_step hO h with ⟨c, b, ha, hs, ht, rfl⟩ | ⟨c, v, b, ha, hs, hst, ht, hv, rfl⟩ | ⟨c, ha, hc, hp, rfl⟩ |
    ⟨p, ha, hc, hp, rfl⟩
  · rcases initWeight_step hI hL'.1 hs with h1 | ⟨-, -, -, j, rest, h3, h4⟩
    · exact Or.inl h1
    · exfalso
      rw [hO.busy τ c ha] at h3
      rw [ht] at h4
      have := congrArg List.length h3
      rw [← h4] at this
      simp at this
  · rcases initWeight_step hI hL'.1 hs with h1 | ⟨-, h2, h3, -⟩
    · exact Or.inl h1
    · exact Or.inr ⟨h2, h3, Or.inr ⟨c, _, ha, rfl⟩⟩
  · exact Or.inr ⟨rfl, key _ rfl, Or.inl ha⟩
  · exact Or.inr ⟨rfl, key _ rfl, Or.inl ha⟩

theorem initWeight_le (hgen : ∀ τ, Plenty (gen τ)) (hO : NetOk dbg gen w) (hL : Lively w)
    (h : w.step dbg prog τ = some w') : initWeight (crate dbg) w'.base ≤ initWeight (crate dbg) w.base := by
  rcases initWeight_net hgen hO hL h with h | ⟨h1, h2, -⟩
  · exact h.le
  · exact (initWeight_congr h1 h2).le

/-- The thread `τ` has got the result of the call `c`, after the first `L` entries of the log. -/
def Answered (L : Nat) (τ : Fin n) (c : Call) (w : Net n) : Prop := ∃ r, (τ, Entry.called c r) ∈ w.log.drop L

theorem Answered.mono {L : Nat} {c : Call} (h : Answered L τ c w) (hp : w.log <+: w'.log) : Answered L τ c w' := by
  obtain ⟨m, hm⟩ := hp
  obtain ⟨r, hr⟩ := h
  refine ⟨r, ?_⟩
  rw [← hm, List.drop_append]
  exact List.mem_append_left _ hr

theorem asked_or_answered {σ : Fin n} {c : Call} {L : Nat} (hLen : L ≤ w.log.length) (hO : NetOk dbg gen w)
    (ha : w.asked σ = some c) (h : w.step dbg prog τ = some w') : w'.asked σ = some c ∨ Answered L σ c w' := by
  rcases netKind_of_step hO h with ⟨c', b, ha', hs, ht, rfl⟩ | ⟨c', v, b, ha', hs, hst, ht, hv, rfl⟩ | ⟨c', ha', hc, hp, rfl⟩ |
    ⟨p, ha', hc, hp, rfl⟩
  · exact Or.inl ha
  · by_cases he : σ = τ
    · subst he
      obtain rfl := Option.some.inj (ha.symm.trans ha')
      refine Or.inr ⟨c.exec dbg v, ?_⟩
      dsimp only
      rw [List.drop_append_of_le_length hLen]
      simp
    · left
      dsimp only
      rw [Function.update_of_ne he]
      exact ha
  · left
    dsimp only
    rw [Function.update_of_ne fun he => by rw [he, ha'] at ha; cases ha]
    exact ha
  · exact Or.inl ha

/-- What the rest of a round keeps. -/
theorem round_keep {c : Call} {L W : Nat} (hgen : ∀ τ, Plenty (gen τ)) (r : List (Fin n)) :
    ∀ {w : Net n}, NetOk dbg gen w → Lively w → L ≤ w.log.length →
      (Answered L τ c w ∨ (w.asked τ = some c ∧ initWeight (crate dbg) w.base ≤ W)) →
      let w' := Net.runFrom dbg prog w r
      NetOk dbg gen w' ∧ Lively w' ∧ L ≤ w'.log.length ∧
        (Answered L τ c w' ∨ (w'.asked τ = some c ∧ initWeight (crate dbg) w'.base ≤ W)) := by
  induction r with
  | nil => intro w h1 h2 h3 h4; exact ⟨h1, h2, h3, h4⟩
  | cons σ r ih =>
    intro w h1 h2 h3 h4
    show let w' := Net.runFrom dbg prog ((w.step dbg prog σ).getD w) r
      NetOk dbg gen w' ∧ Lively w' ∧ L ≤ w'.log.length ∧
        (Answered L τ c w' ∨ (w'.asked τ = some c ∧ initWeight (crate dbg) w'.base ≤ W))
    cases h : w.step dbg prog σ with
    | none => exact ih h1 h2 h3 h4
    | some w' =>
      refine ih (netOk_step h1 h) (lively_step hgen h1 h2 h) (h3.trans (log_step h).length_le) ?_
      rcases h4 with h4 | ⟨h4, h5⟩
      · exact Or.inl (h4.mono (log_step h))
      · rcases asked_or_answered h3 h1 h4 h with h6 | h6
        · exact Or.inr ⟨h6, (initWeight_le hgen h1 h2 h).trans h5⟩
        · exact Or.inl h6

/-- A round in which a thread that can move on the way to the result of `τ` has a turn. -/
theorem round_move {c : Call} {L : Nat} (hgen : ∀ τ, Plenty (gen τ)) (σ : Fin n) (r : List (Fin n)) (hσ : σ ∈ r) :
    ∀ {w : Net n}, NetOk dbg gen w → Lively w → L ≤ w.log.length → w.asked τ = some c → w.asked σ ≠ none →
      (σ = τ ∨ (w.base.thread σ).stack ≠ []) → Statics.step (crate dbg) w.base σ ≠ none →
      let w' := Net.runFrom dbg prog w r
      NetOk dbg gen w' ∧ Lively w' ∧ L ≤ w'.log.length ∧
        (Answered L τ c w' ∨ (w'.asked τ = some c ∧ initWeight (crate dbg) w'.base < initWeight (crate dbg) w.base)) := by
  induction r with
  | nil => cases hσ
  | cons ρ r ih =>
    intro w h1 h2 h3 h4 h5 h6 h7
    show let w' := Net.runFrom dbg prog ((w.step dbg prog ρ).getD w) r
      NetOk dbg gen w' ∧ Lively w' ∧ L ≤ w'.log.length ∧
        (Answered L τ c w' ∨ (w'.asked τ = some c ∧ initWeight (crate dbg) w'.base < initWeight (crate dbg) w.base))
    obtain ⟨cσ, hcσ⟩ := Option.ne_none_iff_exists'.mp h5
    have hmove : w.step dbg prog σ ≠ none := by
      unfold Net.step
      rw [hcσ]
      obtain ⟨b, hb⟩ := Option.ne_none_iff_exists'.mp h7
      rw [hb]
      exact Option.some_ne_none _
    cases h : w.step dbg prog ρ with
    | none =>
      have hne : σ ≠ ρ := fun he => by rw [he, h] at hmove; exact hmove rfl
      exact ih ((List.mem_cons.mp hσ).resolve_left hne) h1 h2 h3 h4 h5 h6 h7
    | some w' =>
      have h1' := netOk_step h1 h
      have h2' := lively_step hgen h1 h2 h
      have h3' := h3.trans (log_step h).length_le
      have finish : (Answered L τ c w' ∨ initWeight (crate dbg) w'.base < initWeight (crate dbg) w.base) →
          let w'' := Net.runFrom dbg prog w' r
          NetOk dbg gen w'' ∧ Lively w'' ∧ L ≤ w''.log.length ∧
            (Answered L τ c w'' ∨ (w''.asked τ = some c ∧
              initWeight (crate dbg) w''.base < initWeight (crate dbg) w.base)) := by
        intro hd
        have hd' : Answered L τ c w' ∨ (w'.asked τ = some c ∧
            initWeight (crate dbg) w'.base ≤ initWeight (crate dbg) w.base - 1) := by
          rcases hd with hd | hd
          · exact Or.inl hd
          · exact (asked_or_answered h3 h1 h4 h).symm.imp_right fun ha => ⟨ha, by omega⟩
        have hpos : Answered L τ c w' ∨ 0 < initWeight (crate dbg) w.base := hd.imp_right fun h => by omega
        obtain ⟨k1, k2, k3, k4⟩ := round_keep (prog := prog) hgen r h1' h2' h3' hd'
        refine ⟨k1, k2, k3, ?_⟩
        rcases hpos with hpos | hpos
        · exact Or.inl (hpos.mono (log_run r w'))
        · exact k4.imp_right fun ⟨ha, hw⟩ => ⟨ha, by omega⟩
      show let w'' := Net.runFrom dbg prog w' r
        NetOk dbg gen w'' ∧ Lively w'' ∧ L ≤ w''.log.length ∧
          (Answered L τ c w'' ∨ (w''.asked τ = some c ∧
            initWeight (crate dbg) w''.base < initWeight (crate dbg) w.base))
      rcases initWeight_net hgen h1 h2 h with hlt | ⟨hc, hst, hρ⟩
      · exact finish (Or.inr hlt)
      by_cases he : ρ = σ
      · subst he
        rcases hρ with hρ | ⟨c', r', hρ, hlog⟩
        · exact absurd hρ h5
        obtain ⟨todo, hI⟩ := h1.inv
        -- the step delivered a value, so the thread was not inside an initializer
        have hτ : ρ = τ := by
          rcases h6 with h6 | h6
          · exact h6
          · exfalso
            rcases netKind_of_step h1 h with ⟨c', b, ha', hs, ht, rfl⟩ | ⟨c', v, b, ha', hs, hst', ht, hv, rfl⟩ |
              ⟨c', ha', hc, hp, rfl⟩ | ⟨p, ha', hc, hp, rfl⟩
            · have := congrArg List.length hlog
              simp at this
            · exact h6 ((hst ρ).symm.trans hst')
            · exact h5 ha'
            · exact h5 ha'
        subst hτ
        obtain rfl := Option.some.inj (h4.symm.trans hρ)
        refine finish (Or.inl ⟨r', ?_⟩)
        rw [hlog, List.drop_append_of_le_length h3]
        simp
      · have hσ' : σ ∈ r := (List.mem_cons.mp hσ).resolve_left fun h => he h.symm
        have hth : w'.base.thread σ = w.base.thread σ ∧ w'.asked σ = w.asked σ := by
          have hne : σ ≠ ρ := fun h => he h.symm
          rcases netKind_of_step h1 h with ⟨c', b, ha', hs, ht, rfl⟩ | ⟨c', v, b, ha', hs, hst', ht, hv, rfl⟩ |
            ⟨c', ha', hc, hp, rfl⟩ | ⟨p, ha', hc, hp, rfl⟩
          · exact ⟨thread_step hs hne, rfl⟩
          · exact ⟨thread_step hs hne, Function.update_of_ne hne _ _⟩
          · exact ⟨Function.update_of_ne hne _ _, Function.update_of_ne hne _ _⟩
          · exact ⟨Function.update_of_ne hne _ _, rfl⟩
        rcases asked_or_answered h3 h1 h4 h with h4' | h4'
        · have := ih hσ' h1' h2' h3' h4' (by rw [hth.2]; exact h5) (by rw [hth.1]; exact h6)
            fun hn => h7 (step_none_congr hc hth.1 hn)
          rw [initWeight_congr hc hst] at this
          exact this
        · exact finish (Or.inl h4')

/-- A call returns, or panics, within as many rounds as the initializers take steps. -/
theorem answered_in_time {c : Call} {L : Nat} (hgen : ∀ τ, Plenty (gen τ)) (rounds : List (List (Fin n)))
    (hr : ∀ r ∈ rounds, ∀ τ, τ ∈ r) :
    ∀ {w : Net n}, NetOk dbg gen w → Lively w → L ≤ w.log.length → w.asked τ = some c →
      initWeight (crate dbg) w.base < rounds.length → Answered L τ c (Net.runFrom dbg prog w rounds.flatten) := by
  induction rounds with
  | nil => intro w _ _ _ _ h; exact absurd h (Nat.not_lt_zero _)
  | cons r rounds ih =>
    intro w h1 h2 h3 h4 h5
    have e : Net.runFrom dbg prog w (r :: rounds).flatten =
        Net.runFrom dbg prog (Net.runFrom dbg prog w r) rounds.flatten := by
      unfold Net.runFrom
      rw [List.flatten_cons, List.foldl_append]
    rw [e]
    obtain ⟨todo, hI⟩ := h1.inv
    obtain ⟨σ, hσ, hmv⟩ := mover (crate_rank dbg) hI h2.1 h2.2 τ (by rw [h1.busy τ c h4]; exact List.cons_ne_nil _ _)
    have hask : w.asked σ ≠ none := by
      rcases hσ with rfl | hσ
      · rw [h4]; exact Option.some_ne_none _
      · exact fun hn => hσ (h1.idle σ hn).1
    obtain ⟨k1, k2, k3, k4⟩ := round_move (prog := prog) (L := L) hgen σ r (hr r List.mem_cons_self σ) h1 h2 h3 h4 hask hσ hmv
    rcases k4 with k4 | ⟨k4, k5⟩
    · exact k4.mono (log_run _ _)
    · refine ih (fun r' h => hr r' (List.mem_cons_of_mem _ h)) k1 k2 k3 k4 ?_
      rw [List.length_cons] at h5
      omega

theorem lively_net (hgen : ∀ τ, Plenty (gen τ)) (sched : List (Fin n)) :
    Lively (net dbg prog gen sched) ∧ initWeight (crate dbg) (net dbg prog gen sched).base ≤
      ∑ i, (((crate dbg).deps i).length + 2) := by
  refine (run_of_step (Q := fun w => Lively w ∧ initWeight (crate dbg) w.base ≤ ∑ i, (((crate dbg).deps i).length + 2))
    (fun w τ w' hO hQ h => ⟨lively_step hgen hO hQ.1 h, (initWeight_le hgen hO hQ.1 h).trans hQ.2⟩) sched
    (netOk_start (gen := gen)) ⟨⟨⟨fun _ => rfl, fun _ h => by cases h⟩, fun _ => List.Pairwise.nil⟩, ?_⟩).2
  simp [initWeight, Net.start, Statics.start, Cell.weight]

/-! ## Random elements -/

/-- Besides `Fresh`: `pos k` is the place of the element that the `k`-th entry of the log drew. -/
structure NetFresh (dbg : Bool) (gen : Fin n → Gen) (w : Net n) (seg : Name → Fin n × Nat × Nat)
    (off : Fin n → Nat → Nat) (pos : Nat → Nat) : Prop where
  fresh : Fresh dbg gen w.base seg off
  value : ∀ (k : Nat) τ p x, w.log[k]? = some (τ, .drew p x) → x = gen τ p (pos k)
  below : ∀ (k : Nat) τ p x, w.log[k]? = some (τ, .drew p x) → pos k < off τ p
  order : ∀ (j k : Nat) τ p x y, j < k → w.log[j]? = some (τ, .drew p x) → w.log[k]? = some (τ, .drew p y) → pos j < pos k
  apart : ∀ (k : Nat) τ p x i v, w.log[k]? = some (τ, .drew p x) → w.base.cell i = .ready v → field i = some p →
    (seg i).1 = τ → pos k < (seg i).2.1 ∨ (seg i).2.1 + (seg i).2.2 ≤ pos k

theorem getElem?_snoc_drew {l : Log n} {c : Call} {r : Option (List Nat)} {σ : Fin n} {k : Nat} {p : Nat} {x : ZMod p}
    (h : (l ++ [(σ, Entry.called c r)])[k]? = some (τ, .drew p x)) : l[k]? = some (τ, .drew p x) := by
  rcases Nat.lt_or_ge k l.length with hk | hk
  · rwa [List.getElem?_append_left hk] at h
  · rw [List.getElem?_append_right hk] at h
    rcases Nat.eq_zero_or_pos (k - l.length) with h0 | h0
    · rw [h0] at h
      cases h
    · rw [List.getElem?_eq_none (by rw [List.length_singleton]; exact h0)] at h
      cases h

theorem netFresh_mono {seg seg' : Name → Fin n × Nat × Nat} {off off' : Fin n → Nat → Nat} {pos : Nat → Nat}
    (hN : NetFresh dbg gen w seg off pos) (hF : Fresh dbg gen w'.base seg' off') (hoff : ∀ σ q, off σ q ≤ off' σ q)
    (hnew : ∀ i v p, w'.base.cell i = .ready v → field i = some p →
      (w.base.cell i = .ready v ∧ seg' i = seg i) ∨ off (seg' i).1 p ≤ (seg' i).2.1)
    (hlog : ∀ (k : Nat) τ p x, w'.log[k]? = some (τ, Entry.drew p x) → w.log[k]? = some (τ, .drew p x)) :
    NetFresh dbg gen w' seg' off' pos where
  fresh := hF
  value k τ p x h := hN.value k τ p x (hlog k τ p x h)
  below k τ p x h := (hN.below k τ p x (hlog k τ p x h)).trans_le (hoff τ p)
  order j k τ p x y hjk h h' := hN.order j k τ p x y hjk (hlog j τ p x h) (hlog k τ p y h')
  apart k τ p x i v h hv hp hs := by
    rcases hnew i v p hv hp with ⟨h1, h2⟩ | h1
    · rw [h2] at hs ⊢
      exact hN.apart k τ p x i v (hlog k τ p x h) h1 hp hs
    · rw [hs] at h1
      exact Or.inl ((hN.below k τ p x (hlog k τ p x h)).trans_le h1)

theorem netFresh_step (hO : NetOk dbg gen w) (hN : ∃ seg off pos, NetFresh dbg gen w seg off pos)
    (h : w.step dbg prog τ = some w') : ∃ seg off pos, NetFresh dbg gen w' seg off pos := by
  obtain ⟨todo, hI⟩ := hO.inv
  obtain ⟨seg, off, pos, hN⟩ := hN
  rcases netKind_of_step hO h with ⟨c, b, ha, hs, ht, rfl⟩ | ⟨c, v, b, ha, hs, hst, ht, hv, rfl⟩ | ⟨c, ha, hc, hp, rfl⟩ |
    ⟨p, ha, hc, hp, rfl⟩
  · obtain ⟨seg', off', h1, h2, h3⟩ := fresh_step hI hN.fresh hs
    exact ⟨seg', off', pos, netFresh_mono hN h1 h2 h3 fun _ _ _ _ h => h⟩
  · obtain ⟨seg', off', h1, h2, h3⟩ := fresh_step hI hN.fresh hs
    exact ⟨seg', off', pos, netFresh_mono hN h1 h2 h3 fun _ _ _ _ h => getElem?_snoc_drew h⟩
  · refine ⟨seg, off, pos, netFresh_mono hN (hN.fresh.mono (fun _ _ h => h) (gen_update rfl)) (fun _ _ => le_rfl)
      (fun i v _ h _ => Or.inl ⟨h, rfl⟩) fun _ _ _ _ h => h⟩
  · obtain ⟨off', hoff'⟩ : ∃ off', off' = Function.update off τ (Function.update (off τ) p (off τ p + 1)) := ⟨_, rfl⟩
    obtain ⟨pos', hpos'⟩ : ∃ pos', pos' = Function.update pos w.log.length (off τ p) := ⟨_, rfl⟩
    have hoffs : off' τ p = off τ p + 1 := by rw [hoff', Function.update_self, Function.update_self]
    have hoffn : ∀ σ q, ¬ (σ = τ ∧ q = p) → off' σ q = off σ q := by
      intro σ q hne
      rw [hoff']
      by_cases hσ : σ = τ
      · subst hσ
        rw [Function.update_self, Function.update_of_ne fun hq => hne ⟨rfl, hq⟩]
      · rw [Function.update_of_ne hσ]
    have hoffle : ∀ σ q, off σ q ≤ off' σ q := by
      intro σ q
      by_cases hc : σ = τ ∧ q = p
      · obtain ⟨rfl, rfl⟩ := hc; omega
      · rw [hoffn σ q hc]
    have hget : ∀ (k : Nat) σ q (x : ZMod q),
        (w.log ++ [(τ, Entry.drew p ((w.base.thread τ).gen p 0))])[k]? = some (σ, .drew q x) →
        (w.log[k]? = some (σ, .drew q x) ∧ k < w.log.length ∧ pos' k = pos k) ∨
        (k = w.log.length ∧ pos' k = off τ p ∧
          (σ, Entry.drew q x) = (τ, Entry.drew p ((w.base.thread τ).gen p 0))) := by
      intro k σ q x h
      rcases Nat.lt_or_ge k w.log.length with hk | hk
      · rw [List.getElem?_append_left hk] at h
        exact Or.inl ⟨h, hk, by rw [hpos', Function.update_of_ne hk.ne]⟩
      · rw [List.getElem?_append_right hk] at h
        rcases Nat.eq_zero_or_pos (k - w.log.length) with h0 | h0
        · rw [h0] at h
          obtain rfl : k = w.log.length := by omega
          exact Or.inr ⟨rfl, by rw [hpos', Function.update_self], (Option.some.inj h).symm⟩
        · rw [List.getElem?_eq_none (by rw [List.length_singleton]; exact h0)] at h
          cases h
    have hg := hN.fresh.gens τ p
    refine ⟨seg, off', pos', ⟨⟨fun σ q => ?_, hN.fresh.drawn, fun i v q hv hq => (hN.fresh.below i v q hv hq).trans (hoffle _ _),
      hN.fresh.apart⟩, fun k σ q x h => ?_, fun k σ q x h => ?_, fun j k σ q x y hjk h h' => ?_,
      fun k σ q x i v h hv hq hs => ?_⟩⟩
    · unfold drawOne
      dsimp only
      by_cases hσ : σ = τ
      · subst hσ
        rw [Function.update_self]
        dsimp only
        by_cases hqp : q = p
        · subst hqp
          rw [Function.update_self, hoffs, hg]
          funext j
          rw [Nat.add_assoc]
        · rw [Function.update_of_ne hqp, hoffn σ q fun h => hqp h.2]
          exact hN.fresh.gens σ q
      · rw [Function.update_of_ne hσ, hoffn σ q fun h => hσ h.1]
        exact hN.fresh.gens σ q
    · rcases hget k σ q x h with ⟨h1, -, h2⟩ | ⟨-, h2, h1⟩
      · rw [h2]; exact hN.value k σ q x h1
      · cases h1
        rw [h2, hg]
        rfl
    · rcases hget k σ q x h with ⟨h1, -, h2⟩ | ⟨-, h2, h1⟩
      · rw [h2]; exact (hN.below k σ q x h1).trans_le (hoffle _ _)
      · cases h1
        rw [h2, hoffs]
        exact Nat.lt_succ_self _
    · rcases hget k σ q y h' with ⟨h1, hk, h2⟩ | ⟨hk, h2, h1⟩
      · rcases hget j σ q x h with ⟨h3, -, h4⟩ | ⟨hj, -, -⟩
        · rw [h2, h4]; exact hN.order j k σ q x y hjk h3 h1
        · omega
      · rcases hget j σ q x h with ⟨h3, -, h4⟩ | ⟨hj, -, -⟩
        · cases h1
          rw [h2, h4]
          exact hN.below j τ p x h3
        · omega
    · rcases hget k σ q x h with ⟨h1, -, h2⟩ | ⟨-, h2, h1⟩
      · rw [h2]; exact hN.apart k σ q x i v h1 hv hq hs
      · cases h1
        rw [h2]
        have := hN.fresh.below i v p hv hq
        rw [hs] at this
        exact Or.inr this

theorem netFresh_net (hn : 0 < n) (sched : List (Fin n)) :
    ∃ seg off pos, NetFresh dbg gen (net dbg prog gen sched) seg off pos := by
  refine (run_of_step (Q := fun w => ∃ seg off pos, NetFresh dbg gen w seg off pos)
    (fun w τ w' hO hQ h => netFresh_step hO hQ h) sched (netOk_start (gen := gen))
    ⟨fun _ => (⟨0, hn⟩, 0, 0), fun _ _ => 0, fun _ => 0, ⟨⟨fun τ p => ?_, fun i v p h => ?_, fun i v p h => ?_,
      fun i j v w p _ h => ?_⟩, fun k τ p x h => ?_, fun k τ p x h => ?_, fun j k τ p x y _ h => ?_,
      fun k τ p x i v h => ?_⟩⟩).2
  · funext j
    rw [Nat.zero_add]
    rfl
  all_goals cases h

end ZkHash.Client

import Verif.Model.World
import Verif.Theorems.Client

set_option autoImplicit false

/-!
# Programs that react to results, and the lists of calls they make
-/

namespace ZkHash.Client

open Statics

section
variable {n : Nat} {ι V R : Type} [DecidableEq ι] {P : Program ι V R} {s b : State n ι V R} {τ : Fin n}

/-- The same process with other things to do. -/
def reTodo (s : State n ι V R) (f : Fin n → List ι) : State n ι V R :=
  { s with thread := fun τ => { s.thread τ with todo := f τ } }

theorem reTodo_update (s : State n ι V R) (f : Fin n → List ι) (τ : Fin n) (T : Thread ι V R) (c : ι → Cell n V) :
    reTodo ⟨c, Function.update s.thread τ T⟩ f =
      ⟨c, Function.update (reTodo s f).thread τ { T with todo := f τ }⟩ := by
  unfold reTodo
  simp only [State.mk.injEq, true_and]
  funext σ
  by_cases h : σ = τ
  · subst h; simp
  · simp [Function.update_of_ne h]

theorem step_inside (f : Fin n → List ι) (h : (s.thread τ).stack ≠ []) :
    step P (reTodo s f) τ = (step P s τ).map fun b => reTodo b f := by
  unfold step
  show (if (s.thread τ).dead then none else match (s.thread τ).stack with | [] => _ | f :: below => _) = _
  cases hd : (s.thread τ).dead with
  | true => simp
  | false =>
    cases hs : (s.thread τ).stack with
    | nil => exact absurd hs h
    | cons fr below =>
      simp only [Bool.false_eq_true, if_false]
      cases fr.deps with
      | nil =>
        dsimp only
        show (match P.init fr.static fr.args (s.thread τ).gen with | some (v, gen) => _ | none => _) = _
        cases P.init fr.static fr.args (s.thread τ).gen with
        | none =>
          simp only [Option.map_some]
          unfold Statics.panic
          rw [reTodo_update]
          rfl
        | some r =>
          simp only [Option.map_some]
          rw [reTodo_update]
          rfl
      | cons j rest =>
        dsimp only
        unfold deref
        show (match s.cell j with | .empty => _ | .running _ => _ | .ready v => _ | .poisoned => _) = _
        cases s.cell j with
        | empty =>
          simp only [Option.map_some]
          rw [reTodo_update]
          rfl
        | running _ => rfl
        | ready v =>
          simp only [Option.map_some]
          rw [reTodo_update]
          rfl
        | poisoned =>
          simp only [Option.map_some]
          unfold Statics.panic
          rw [reTodo_update]
          rfl

theorem step_idle (f : Fin n → List ι) (h : (s.thread τ).stack = []) (hf : f τ = []) : step P (reTodo s f) τ = none := by
  unfold step
  have h1 : ((reTodo s f).thread τ).stack = [] := h
  have h2 : ((reTodo s f).thread τ).todo = [] := hf
  rw [h1, h2]
  simp

theorem seen_inside (h : (s.thread τ).stack ≠ []) (hb : step P s τ = some b) (σ : Fin n) :
    (b.thread σ).seen = (s.thread σ).seen := by
  have key : ∀ (T : Thread ι V R) (c : ι → Cell n V), T.seen = (s.thread τ).seen →
      b = ⟨c, Function.update s.thread τ T⟩ → (b.thread σ).seen = (s.thread σ).seen := by
    rintro T c hT rfl
    by_cases hσ : σ = τ
    · subst hσ; simpa using hT
    · simp [Function.update_of_ne hσ]
  unfold step at hb
  cases hd : (s.thread τ).dead with
  | true => simp [hd] at hb
  | false =>
    cases hs : (s.thread τ).stack with
    | nil => exact absurd hs h
    | cons fr below =>
      rw [hd, hs] at hb
      simp only [Bool.false_eq_true, if_false] at hb
      cases hdep : fr.deps with
      | nil =>
        rw [hdep] at hb
        dsimp only at hb
        cases hi : P.init fr.static fr.args (s.thread τ).gen with
        | none => rw [hi] at hb; refine key _ _ ?_ (Option.some.inj hb).symm; rfl
        | some r => rw [hi] at hb; refine key _ _ ?_ (Option.some.inj hb).symm; rfl
      | cons j rest =>
        rw [hdep] at hb
        dsimp only at hb
        unfold deref at hb
        cases hc : s.cell j with
        | empty => rw [hc] at hb; refine key _ _ ?_ (Option.some.inj hb).symm; rfl
        | running _ => rw [hc] at hb; cases hb
        | ready v => rw [hc] at hb; refine key _ _ ?_ (Option.some.inj hb).symm; rfl
        | poisoned => rw [hc] at hb; refine key _ _ ?_ (Option.some.inj hb).symm; rfl

/-- The dereference of `j` by a thread that is not inside an initializer: it gets the value, or it has to go on later. -/
theorem step_ask (f : Fin n → List ι) {j : ι} {rest : List ι} (h : (s.thread τ).stack = []) (hf : f τ = j :: rest) :
    match step P (reTodo s (Function.update (fun σ => (s.thread σ).todo) τ [j])) τ with
    | none => step P (reTodo s f) τ = none
    | some b => (∃ v, (b.thread τ).todo = [] ∧ (b.thread τ).seen = (j, v) :: (s.thread τ).seen ∧
          (∀ σ, σ ≠ τ → (b.thread σ).seen = (s.thread σ).seen) ∧
          step P (reTodo s f) τ = some (reTodo b (Function.update f τ rest))) ∨
        ((b.thread τ).todo = [j] ∧ (∀ σ, (b.thread σ).seen = (s.thread σ).seen) ∧
          step P (reTodo s f) τ = some (reTodo b f)) := by
  have e1 : ∀ g : Fin n → List ι, ((reTodo s g).thread τ).stack = [] := fun g => h
  have e2 : ((reTodo s (Function.update (fun σ => (s.thread σ).todo) τ [j])).thread τ).todo = [j] := by
    simp [reTodo]
  have e3 : ((reTodo s f).thread τ).todo = j :: rest := hf
  unfold step
  rw [e1, e1, e2, e3]
  cases hd : (s.thread τ).dead with
  | true => simp [reTodo, hd]
  | false =>
    have e4 : ∀ g : Fin n → List ι, ((reTodo s g).thread τ).dead = false := fun g => hd
    rw [e4, e4]
    simp only [Bool.false_eq_true, if_false]
    unfold deref
    have e5 : ∀ g : Fin n → List ι, (reTodo s g).cell j = s.cell j := fun g => rfl
    rw [e5, e5]
    cases s.cell j with
    | empty =>
      dsimp only
      refine Or.inr ⟨by simp [reTodo], fun σ => ?_, ?_⟩
      · by_cases hσ : σ = τ
        · subst hσ; simp [reTodo]
        · simp [Function.update_of_ne hσ, reTodo]
      · rw [reTodo_update]
        congr 2
    | running _ => rfl
    | ready v =>
      dsimp only
      refine Or.inl ⟨v, by simp, by simp [reTodo], fun σ hσ => by simp [Function.update_of_ne hσ, reTodo], ?_⟩
      rw [reTodo_update]
      congr 2
      funext σ
      by_cases hσ : σ = τ
      · subst hσ; simp [reTodo]
      · simp [Function.update_of_ne hσ, reTodo]
    | poisoned =>
      dsimp only
      refine Or.inr ⟨by simp [Statics.panic, reTodo], fun σ => ?_, ?_⟩
      · by_cases hσ : σ = τ
        · subst hσ; simp [Statics.panic, reTodo]
        · simp [Function.update_of_ne hσ, Statics.panic, reTodo]
      · unfold Statics.panic
        rw [reTodo_update]
        congr 2

end

variable {n : Nat} {dbg : Bool} {prog : Fin n → Prog} {gen : Fin n → Gen}

theorem want_eq (s : State n Name Value Gen) (τ : Fin n) (i : Name) :
    want s τ i = reTodo s (Function.update (fun σ => (s.thread σ).todo) τ [i]) := by
  unfold want reTodo
  simp only [State.mk.injEq, true_and]
  funext σ
  by_cases h : σ = τ
  · subst h; simp
  · simp [Function.update_of_ne h]

theorem zip_snoc {α β γ : Type} (f : α → β → γ) {A : List α} (c : α) (B : List α) {l : List β} (x : β)
    (h : A.length = l.length) : List.zipWith f (A ++ c :: B) (l ++ [x]) = List.zipWith f (A ++ c :: B) l ++ [f c x] := by
  have h0 : List.zipWith f (A ++ c :: B) l = List.zipWith f A l := by
    conv_lhs => rw [← List.append_nil l]
    rw [List.zipWith_append h]
    simp
  rw [List.zipWith_append h, h0]
  simp

/-- The world `w`, and a state of the process in which the threads run the lists `L` of calls. -/
structure Rel (dbg : Bool) (L : Fin n → List Call) (w : World n) (s : State n Name Value Gen) : Prop where
  state : s = reTodo w.base fun τ => ((L τ).drop (w.past τ).length).map Call.static
  len : ∀ τ, (w.past τ).length = (w.base.thread τ).seen.length
  le : ∀ τ, (w.past τ).length ≤ (L τ).length
  results : ∀ τ, (w.past τ).map Prod.snd =
    List.zipWith (fun c (iv : Name × Value) => c.exec dbg iv.2) (L τ) (w.base.thread τ).seen.reverse

theorem Rel.step {L : Fin n → List Call} {w : World n} {s : State n Name Value Gen} (h : Rel dbg L w s) (τ : Fin n)
    (hL : (L τ)[(w.past τ).length]? = next (prog τ) (w.past τ)) :
    match w.step dbg prog τ with
    | none => Statics.step (crate dbg) s τ = none
    | some w' => ∃ s', Statics.step (crate dbg) s τ = some s' ∧ Rel dbg L w' s' := by
  obtain ⟨rfl, hlen, hle, hres⟩ := h
  unfold World.step
  cases hs : (w.base.thread τ).stack with
  | cons fr below =>
    have hne : (w.base.thread τ).stack ≠ [] := by rw [hs]; exact List.cons_ne_nil _ _
    dsimp only
    rw [step_inside _ hne]
    cases hb : Statics.step (crate dbg) w.base τ with
    | none => rfl
    | some b =>
      have hseen := seen_inside hne hb
      exact ⟨_, rfl, rfl, fun σ => by rw [hseen]; exact hlen σ, hle, fun σ => by rw [hseen]; exact hres σ⟩
  | nil =>
    dsimp only
    rw [← hL]
    cases hc : (L τ)[(w.past τ).length]? with
    | none =>
      refine step_idle _ hs ?_
      rw [List.drop_eq_nil_iff.mpr (List.getElem?_eq_none_iff.mp hc)]
      rfl
    | some c =>
      dsimp only
      have hlt : (w.past τ).length < (L τ).length := (List.getElem?_eq_some_iff.mp hc).1
      have hget : (L τ)[(w.past τ).length] = c := (List.getElem?_eq_some_iff.mp hc).2
      have hdrop : (L τ).drop (w.past τ).length = c :: (L τ).drop ((w.past τ).length + 1) := by
        rw [List.drop_eq_getElem_cons hlt, hget]
      have key := step_ask (P := crate dbg) (fun τ => ((L τ).drop (w.past τ).length).map Call.static) (j := c.static)
        (rest := ((L τ).drop ((w.past τ).length + 1)).map Call.static) hs (by rw [hdrop]; rfl)
      rw [← want_eq] at key
      cases hb : Statics.step (crate dbg) (want w.base τ c.static) τ with
      | none => rw [hb] at key; exact key
      | some b =>
        rw [hb] at key
        simp only [Option.map_some]
        rcases key with ⟨v, h1, h2, h3, h4⟩ | ⟨h1, h2, h4⟩
        · rw [h1, h2]
          dsimp only
          refine ⟨_, h4, ?_, fun σ => ?_, fun σ => ?_, fun σ => ?_⟩
          · congr 1
            funext σ
            by_cases hσ : σ = τ
            · subst hσ; simp
            · simp [Function.update_of_ne hσ]
          · by_cases hσ : σ = τ
            · subst hσ
              rw [h2]
              simp [hlen]
            · simp only [Function.update_of_ne hσ]
              rw [h3 σ hσ]
              exact hlen σ
          · by_cases hσ : σ = τ
            · subst hσ
              simp only [Function.update_self, List.length_append, List.length_singleton]
              omega
            · simp only [Function.update_of_ne hσ]
              exact hle σ
          · by_cases hσ : σ = τ
            · subst hσ
              rw [h2]
              have hsplit : L σ = (L σ).take (w.past σ).length ++ c :: (L σ).drop ((w.past σ).length + 1) := by
                rw [← hdrop, List.take_append_drop]
              have hl : ((L σ).take (w.past σ).length).length = ((w.base.thread σ).seen.reverse).length := by
                rw [List.length_take, List.length_reverse, ← hlen, Nat.min_eq_left hlt.le]
              have hz := zip_snoc (fun c (iv : Name × Value) => c.exec dbg iv.2) c ((L σ).drop ((w.past σ).length + 1))
                (c.static, v) hl
              rw [← hsplit] at hz
              simp only [Function.update_self, List.map_append, List.map_cons, List.map_nil, List.reverse_cons]
              rw [hz, hres]
            · simp only [Function.update_of_ne hσ]
              rw [h3 σ hσ]
              exact hres σ
        · rw [h1]
          dsimp only
          exact ⟨_, h4, rfl, fun σ => by rw [h2]; exact hlen σ, hle, fun σ => by rw [h2]; exact hres σ⟩

/-- Every call of the past is the one the program asked for. -/
def Asked (p : Prog) (past : List Event) : Prop :=
  ∀ l e l', past = l ++ e :: l' → next p l = some e.1

theorem Asked.snoc {p : Prog} {past : List Event} {e : Event} (h : Asked p past) (he : next p past = some e.1) :
    Asked p (past ++ [e]) := by
  intro l x l' heq
  rcases List.eq_nil_or_concat l' with rfl | ⟨m, y, rfl⟩
  · obtain ⟨h1, h2⟩ := List.append_inj' heq rfl
    obtain rfl := List.head_eq_of_cons_eq h2
    rw [← h1]
    exact he
  · rw [List.concat_eq_append, ← List.cons_append, ← List.append_assoc] at heq
    exact h l x m (List.append_inj' heq rfl).1

/-- A step of the world keeps the pasts or adds the call asked for to one of them. -/
theorem World.step_past {w w' : World n} {τ : Fin n} (h : w.step dbg prog τ = some w') :
    w'.past = w.past ∨ ∃ c r, next (prog τ) (w.past τ) = some c ∧ w'.past = Function.update w.past τ (w.past τ ++ [(c, r)]) := by
  unfold World.step at h
  cases hs : (w.base.thread τ).stack with
  | cons fr below =>
    rw [hs] at h
    obtain ⟨b, -, rfl⟩ := Option.map_eq_some_iff.mp h
    exact Or.inl rfl
  | nil =>
    rw [hs] at h
    dsimp only at h
    cases hc : next (prog τ) (w.past τ) with
    | none => rw [hc] at h; cases h
    | some c =>
      rw [hc] at h
      obtain ⟨b, -, rfl⟩ := Option.map_eq_some_iff.mp h
      dsimp only
      split
      · exact Or.inr ⟨c, _, rfl, rfl⟩
      · exact Or.inl rfl

theorem asked_step {w w' : World n} {τ : Fin n} (h : w.step dbg prog τ = some w')
    (hw : ∀ σ, Asked (prog σ) (w.past σ)) (σ : Fin n) : Asked (prog σ) (w'.past σ) := by
  rcases World.step_past h with e | ⟨c, r, hc, e⟩
  · rw [e]; exact hw σ
  · rw [e]
    by_cases hσ : σ = τ
    · subst hσ
      rw [Function.update_self]
      exact (hw σ).snoc hc
    · rw [Function.update_of_ne hσ]
      exact hw σ

theorem prefix_step {w w' : World n} {τ : Fin n} (h : w.step dbg prog τ = some w') (σ : Fin n) :
    w.past σ <+: w'.past σ := by
  rcases World.step_past h with e | ⟨c, r, hc, e⟩
  · rw [e]
  · rw [e]
    by_cases hσ : σ = τ
    · subst hσ
      rw [Function.update_self]
      exact List.prefix_append _ _
    · rw [Function.update_of_ne hσ]

/-- From any world on. -/
noncomputable def runFrom (dbg : Bool) (prog : Fin n → Prog) (w : World n) (sched : List (Fin n)) : World n :=
  sched.foldl (fun w τ => (w.step dbg prog τ).getD w) w

theorem asked_runFrom : ∀ (sched : List (Fin n)) {w : World n}, (∀ σ, Asked (prog σ) (w.past σ)) → ∀ σ,
    Asked (prog σ) ((runFrom dbg prog w sched).past σ)
  | [], _, h => h
  | τ :: sched, w, h => by
    show ∀ σ, Asked (prog σ) ((runFrom dbg prog ((w.step dbg prog τ).getD w) sched).past σ)
    cases hs : w.step dbg prog τ with
    | none => exact asked_runFrom sched h
    | some w' => exact asked_runFrom sched (asked_step hs h)

theorem prefix_runFrom : ∀ (sched : List (Fin n)) {w : World n} (σ : Fin n),
    w.past σ <+: (runFrom dbg prog w sched).past σ
  | [], _, _ => List.prefix_refl _
  | τ :: sched, w, σ => by
    show w.past σ <+: (runFrom dbg prog ((w.step dbg prog τ).getD w) sched).past σ
    cases hs : w.step dbg prog τ with
    | none => exact prefix_runFrom sched σ
    | some w' => exact (prefix_step hs σ).trans (prefix_runFrom sched σ)

theorem asked_nil (p : Prog) : Asked p [] := fun l e l' h => by cases l <;> cases h

theorem asked_world (sched : List (Fin n)) (σ : Fin n) : Asked (prog σ) ((world dbg prog gen sched).past σ) :=
  asked_runFrom sched (fun _ => asked_nil _) σ

/-- The calls a program has made, and the one it is about to make. -/
def listed (prog : Fin n → Prog) (w : World n) (τ : Fin n) : List Call :=
  (w.past τ).map Prod.fst ++ (next (prog τ) (w.past τ)).toList

/-- At any earlier time the next call is the one in the list. -/
theorem listed_next {p : Prog} {past full : List Event} (hp : past <+: full) (ha : Asked p full) :
    (full.map Prod.fst ++ (next p full).toList)[past.length]? = next p past := by
  obtain ⟨l, rfl⟩ := hp
  cases l with
  | nil =>
    rw [List.append_nil, List.getElem?_append_right (by simp)]
    simp only [List.length_map, Nat.sub_self]
    cases next p past <;> rfl
  | cons e l =>
    rw [ha past e l rfl, List.getElem?_append_left (by simp)]
    simp

theorem Rel.runFrom {L : Fin n → List Call} : ∀ (sched : List (Fin n)) {w : World n} {s : State n Name Value Gen},
    Rel dbg L w s → (∀ σ, Asked (prog σ) (w.past σ)) → L = listed prog (Client.runFrom dbg prog w sched) →
    Rel dbg L (Client.runFrom dbg prog w sched) (run (crate dbg) s sched)
  | [], _, _, h, _, _ => h
  | τ :: sched, w, s, h, ha, hL => by
    have hnext : (L τ)[(w.past τ).length]? = next (prog τ) (w.past τ) := by
      rw [hL]
      exact listed_next (prefix_runFrom (τ :: sched) τ) (asked_runFrom (τ :: sched) ha τ)
    have hst := h.step τ hnext
    have e1 : Client.runFrom dbg prog w (τ :: sched) = Client.runFrom dbg prog ((w.step dbg prog τ).getD w) sched := rfl
    have e2 : run (crate dbg) s (τ :: sched) = run (crate dbg) ((Statics.step (crate dbg) s τ).getD s) sched := rfl
    rw [e1] at hL ⊢
    rw [e2]
    cases hs : w.step dbg prog τ with
    | none =>
      rw [hs] at hst hL
      dsimp only at hst
      rw [hst]
      exact Rel.runFrom sched h ha hL
    | some w' =>
      rw [hs] at hst hL
      obtain ⟨s', h1, h2⟩ := hst
      rw [h1]
      exact Rel.runFrom sched h2 (asked_step hs ha) hL

theorem rel_start (L : Fin n → List Call) : Rel dbg L (World.start gen) (start (fun τ => (L τ).map Call.static) gen) where
  state := rfl
  len _ := rfl
  le _ := Nat.zero_le _
  results _ := by simp [World.start, start]

/-- The world and the process in which the threads run the lists of calls they make. -/
theorem rel_world (sched : List (Fin n)) : Rel dbg (listed prog (world dbg prog gen sched)) (world dbg prog gen sched)
    (process dbg (listed prog (world dbg prog gen sched)) gen sched) :=
  Rel.runFrom sched (rel_start _) (fun _ => asked_nil _) rfl

theorem outputs_world (sched : List (Fin n)) (τ : Fin n) :
    outputs dbg (listed prog (world dbg prog gen sched)) (process dbg (listed prog (world dbg prog gen sched)) gen sched) τ =
      ((world dbg prog gen sched).past τ).map Prod.snd := by
  have h := rel_world (dbg := dbg) (prog := prog) (gen := gen) sched
  unfold outputs
  rw [h.state, h.results]
  rfl

/-! ### Schedules in which every turn is used -/

/-- The moves of an execution: every thread that is chosen moves. -/
noncomputable def World.moves (dbg : Bool) (prog : Fin n → Prog) (w : World n) (sched : List (Fin n)) : Option (World n) :=
  sched.foldlM (fun w τ => w.step dbg prog τ) w

theorem World.moves_cons {w w' : World n} {τ : Fin n} {sched : List (Fin n)} (h : w.moves dbg prog (τ :: sched) = some w') :
    ∃ w1, w.step dbg prog τ = some w1 ∧ w1.moves dbg prog sched = some w' := by
  unfold World.moves at h
  rw [List.foldlM_cons] at h
  obtain ⟨w1, h1, h2⟩ := Option.bind_eq_some_iff.mp h
  exact ⟨w1, h1, h2⟩

theorem World.moves_append {w w1 w2 : World n} : ∀ {a b : List (Fin n)}, w.moves dbg prog a = some w1 →
    w1.moves dbg prog b = some w2 → w.moves dbg prog (a ++ b) = some w2 := by
  intro a b h1 h2
  unfold World.moves at *
  rw [List.foldlM_append, h1]
  exact h2

theorem runFrom_of_moves : ∀ {sched : List (Fin n)} {w w' : World n}, w.moves dbg prog sched = some w' →
    Client.runFrom dbg prog w sched = w'
  | [], _, _, h => Option.some.inj h
  | τ :: sched, w, w', h => by
    obtain ⟨w1, h1, h2⟩ := World.moves_cons h
    show Client.runFrom dbg prog ((w.step dbg prog τ).getD w) sched = w'
    rw [h1]
    exact runFrom_of_moves h2

theorem Rel.moves {L : Fin n → List Call} : ∀ (sched : List (Fin n)) {w w' : World n} {s : State n Name Value Gen},
    Rel dbg L w s → (∀ σ, Asked (prog σ) (w.past σ)) → w.moves dbg prog sched = some w' → L = listed prog w' →
    ∃ s', Statics.moves (crate dbg) s sched = some s'
  | [], _, _, s, _, _, _, _ => ⟨s, rfl⟩
  | τ :: sched, w, w', s, h, ha, hm, hL => by
    have hnext : (L τ)[(w.past τ).length]? = next (prog τ) (w.past τ) := by
      rw [hL, ← runFrom_of_moves hm]
      exact listed_next (prefix_runFrom (τ :: sched) τ) (asked_runFrom (τ :: sched) ha τ)
    have hst := h.step τ hnext
    obtain ⟨w1, h1, h2⟩ := World.moves_cons hm
    rw [h1] at hst
    obtain ⟨s1, h3, h4⟩ := hst
    obtain ⟨s', h5⟩ := Rel.moves sched h4 (asked_step h1 ha) h2 hL
    refine ⟨s', ?_⟩
    unfold Statics.moves at h5 ⊢
    rw [List.foldlM_cons, h3]
    exact h5

theorem world_moves_bound {sched : List (Fin n)} {w' : World n} (h : (World.start gen).moves dbg prog sched = some w') :
    sched.length ≤ (∑ i, (((crate dbg).deps i).length + 2)) + ∑ τ, (listed prog w' τ).length := by
  obtain ⟨s', hs⟩ := Rel.moves sched (rel_start (listed prog w')) (fun _ => asked_nil _) h rfl
  have := C70_bound (crate dbg) _ gen sched s' hs
  simpa using this

/-- The turns that are used. -/
theorem exists_used (w : World n) (sched : List (Fin n)) :
    ∃ used, w.moves dbg prog used = some (Client.runFrom dbg prog w sched) ∧
      ((∃ τ ∈ sched, w.step dbg prog τ ≠ none) → used ≠ []) := by
  induction sched generalizing w with
  | nil => exact ⟨[], rfl, fun ⟨_, h, _⟩ => by cases h⟩
  | cons τ sched ih =>
    have e : Client.runFrom dbg prog w (τ :: sched) = Client.runFrom dbg prog ((w.step dbg prog τ).getD w) sched := rfl
    cases hs : w.step dbg prog τ with
    | none =>
      obtain ⟨used, h1, h2⟩ := ih w
      rw [e, hs]
      refine ⟨used, h1, fun ⟨σ, hσ, hne⟩ => h2 ⟨σ, ?_, hne⟩⟩
      rcases List.mem_cons.mp hσ with rfl | hσ
      · exact absurd hs hne
      · exact hσ
    | some w1 =>
      obtain ⟨used, h1, -⟩ := ih w1
      rw [e, hs]
      refine ⟨τ :: used, ?_, fun _ => List.cons_ne_nil _ _⟩
      unfold World.moves at h1 ⊢
      rw [List.foldlM_cons, hs]
      exact h1

theorem runFrom_stuck {w : World n} (h : ∀ τ, w.step dbg prog τ = none) : ∀ sched, Client.runFrom dbg prog w sched = w
  | [] => rfl
  | τ :: sched => by
    show Client.runFrom dbg prog ((w.step dbg prog τ).getD w) sched = w
    rw [h τ]
    exact runFrom_stuck h sched

/-- A schedule of rounds in which every thread has a turn: in every round somebody moves, or it is all over. -/
theorem rounds_used (rounds : List (List (Fin n))) (hr : ∀ r ∈ rounds, ∀ τ, τ ∈ r) (w : World n) :
    (∀ τ, (Client.runFrom dbg prog w rounds.flatten).step dbg prog τ = none) ∨
      ∃ used, w.moves dbg prog used = some (Client.runFrom dbg prog w rounds.flatten) ∧ rounds.length ≤ used.length := by
  induction rounds generalizing w with
  | nil => exact Or.inr ⟨[], rfl, le_rfl⟩
  | cons r rounds ih =>
    have e : Client.runFrom dbg prog w (r :: rounds).flatten =
        Client.runFrom dbg prog (Client.runFrom dbg prog w r) rounds.flatten := by
      unfold Client.runFrom
      rw [List.flatten_cons, List.foldl_append]
    by_cases hst : ∀ τ, w.step dbg prog τ = none
    · left
      rw [runFrom_stuck hst]
      exact hst
    · obtain ⟨τ, hτ⟩ := not_forall.mp hst
      obtain ⟨used, h1, h2⟩ := exists_used (dbg := dbg) (prog := prog) w r
      have h3 := h2 ⟨τ, hr r List.mem_cons_self τ, hτ⟩
      rw [e]
      rcases ih (fun r' h => hr r' (List.mem_cons_of_mem _ h)) (Client.runFrom dbg prog w r) with h | ⟨used', h4, h5⟩
      · exact Or.inl h
      · refine Or.inr ⟨used ++ used', World.moves_append h1 h4, ?_⟩
        have := List.length_pos_of_ne_nil h3
        rw [List.length_cons, List.length_append]
        omega

end ZkHash.Client

import Verif.Proofs.World

set_option autoImplicit false

/-!
# Programs that decide what to call next from the results they have got: C84
-/

namespace ZkHash

open Statics Client Fields

section
variable {n : Nat} {dbg : Bool} {prog : Fin n → Prog} {gen : Fin n → Gen} {sched : List (Fin n)} {τ : Fin n}

theorem Client.Asked.getElem? {p : Prog} {past : List Event} (h : Asked p past) {j : Nat} {e : Event}
    (he : past[j]? = some e) : next p (past.take j) = some e.1 := by
  obtain ⟨hj, rfl⟩ := List.getElem?_eq_some_iff.mp he
  refine h _ _ (past.drop (j + 1)) ?_
  rw [← List.drop_eq_getElem_cons hj, List.take_append_drop]

theorem Client.next_some {p : Prog} {past : List Event} {c : Call} (h : next p past = some c) :
    (∀ e ∈ past, ∃ r, e.2 = some r) ∧ p (past.filterMap Prod.snd) = some c := by
  unfold next at h
  split at h
  · cases h
  · rename_i hn
    refine ⟨fun e he => ?_, h⟩
    rw [List.any_eq_true] at hn
    obtain ⟨c, r⟩ := e
    cases r with
    | none => exact absurd ⟨_, he, rfl⟩ hn
    | some r => exact ⟨r, rfl⟩

theorem Client.next_ne_none {p : Prog} {past : List Event} (h1 : ∀ e ∈ past, e.2 ≠ none)
    (h2 : p (past.filterMap Prod.snd) ≠ none) : next p past ≠ none := by
  unfold next
  rw [if_neg]
  · exact h2
  · rw [List.any_eq_true]
    rintro ⟨e, he, hn⟩
    exact h1 e he (Option.isNone_iff_eq_none.mp hn)

/-- A past event in the process that runs the list. -/
theorem Client.event_output {j : Nat} {e : Event} (he : ((world dbg prog gen sched).past τ)[j]? = some e) :
    (listed prog (world dbg prog gen sched) τ)[j]? = some e.1 ∧
    (outputs dbg (listed prog (world dbg prog gen sched)) (process dbg (listed prog (world dbg prog gen sched)) gen sched) τ)[j]? =
      some e.2 := by
  constructor
  · unfold listed
    rw [List.getElem?_append_left (by simpa using (List.getElem?_eq_some_iff.mp he).1), List.getElem?_map, he]
    rfl
  · rw [outputs_world, List.getElem?_map, he]
    rfl

end

/-- **C84**, the calls of a thread: they are the ones its program asks for, given the results before; no call follows one that
panicked; and a call (on less than `2 ^ 63` elements) panicked if and only if it was not a legal one. -/
theorem C84_calls (dbg : Bool) {n : Nat} (prog : Fin n → Prog) (gen : Fin n → Gen) (sched : List (Fin n)) (τ : Fin n)
    (before : List Event) (e : Event) (after : List Event)
    (h : (world dbg prog gen sched).past τ = before ++ e :: after) :
    prog τ (before.filterMap Prod.snd) = some e.1 ∧ (∀ b ∈ before, ∃ r, b.2 = some r) ∧
    (e.1.input.length ≤ 2 ^ 63 → ((∃ r, e.2 = some r) ↔ e.1.Fits)) := by
  have ha := asked_world (dbg := dbg) (prog := prog) (gen := gen) sched τ before e after h
  obtain ⟨h1, h2⟩ := next_some ha
  refine ⟨h2, h1, fun hlen => ?_⟩
  have he : ((world dbg prog gen sched).past τ)[before.length]? = some e := by rw [h]; simp
  obtain ⟨hc, ho⟩ := event_output he
  obtain ⟨c, v, h3, -, hv, hr⟩ := output_call ho
  obtain rfl := Option.some.inj (hc.symm.trans h3)
  rw [hr]
  exact C82_returns_iff dbg gen e.1 v hv hlen

/-- **C84**, no deadlock: whatever the programs do - some threads may have panicked in an illegal call -, as long as there is a
thread that has not panicked and whose program asks for another call, some thread can move. -/
theorem C84_progress (dbg : Bool) {n : Nat} (prog : Fin n → Prog) (gen : Fin n → Gen) (hgen : ∀ τ, Plenty (gen τ))
    (sched : List (Fin n)) (τ : Fin n) (hok : ∀ e ∈ (world dbg prog gen sched).past τ, e.2 ≠ none)
    (hmore : prog τ (((world dbg prog gen sched).past τ).filterMap Prod.snd) ≠ none) :
    ∃ σ w', (world dbg prog gen sched).step dbg prog σ = some w' := by
  have hτ := next_ne_none hok hmore
  have hR := rel_world (dbg := dbg) (prog := prog) (gen := gen) sched
  have hP := (C70_crate_progress dbg (fun τ => (listed prog (world dbg prog gen sched) τ).map Call.static) gen hgen sched).2 τ
  have htodo : ((process dbg (listed prog (world dbg prog gen sched)) gen sched).thread τ).todo ≠ [] := by
    rw [hR.state]
    show ((listed prog (world dbg prog gen sched) τ).drop _).map Call.static ≠ []
    unfold listed
    rw [List.drop_append_of_le_length (by simp), List.drop_of_length_le (by simp)]
    cases hn : next (prog τ) ((world dbg prog gen sched).past τ) with
    | none => exact absurd hn hτ
    | some c => simp
  obtain ⟨σ, s', hs⟩ := hP htodo
  have hst := hR.step (prog := prog) σ (listed_next (List.prefix_refl _) (asked_world sched σ))
  cases hw : (world dbg prog gen sched).step dbg prog σ with
  | some w' => exact ⟨σ, w', hw⟩
  | none =>
    rw [hw] at hst
    unfold process at hst
    rw [hs] at hst
    cases hst

theorem Client.listed_length {n : Nat} {prog : Fin n → Prog} {w : World n} {τ : Fin n} {N : Nat}
    (hN : ∀ l, N ≤ l.length → prog τ l = none) (ha : Asked (prog τ) (w.past τ)) : (listed prog w τ).length ≤ N := by
  have key : ∀ past : List Event, next (prog τ) past ≠ none → past.length + 1 ≤ N := by
    intro past h
    obtain ⟨c, hc⟩ := Option.ne_none_iff_exists'.mp h
    obtain ⟨h1, h2⟩ := next_some hc
    by_contra hlt
    have hl : (past.filterMap Prod.snd).length = past.length := by
      have : ∀ l : List Event, (∀ e ∈ l, ∃ r, e.2 = some r) → (l.filterMap Prod.snd).length = l.length := by
        intro l
        induction l with
        | nil => intro _; rfl
        | cons e l ih =>
          intro h
          obtain ⟨r, hr⟩ := h e List.mem_cons_self
          rw [List.filterMap_cons_some hr, List.length_cons, List.length_cons,
            ih fun e' he' => h e' (List.mem_cons_of_mem _ he')]
      exact this past h1
    rw [hN _ (by omega)] at h2
    cases h2
  unfold listed
  rw [List.length_append, List.length_map]
  cases hn : next (prog τ) (w.past τ) with
  | some c =>
    have := key (w.past τ) (by rw [hn]; exact Option.some_ne_none c)
    simpa using this
  | none =>
    rcases List.eq_nil_or_concat (w.past τ) with h | ⟨l, e, h⟩
    · rw [h]; simp
    · have := key l (by rw [ha l e [] (by rw [h, List.concat_eq_append])]; exact Option.some_ne_none _)
      rw [h]
      simpa using this

/-- **C84**, completion: if thread `τ` makes at most `N τ` calls whatever it is told, then after any schedule that gives every
thread a turn in each of more rounds than all initializers (the sum over the statics) and all calls take steps, every
thread has panicked in a call or its program, given the results of all its calls, asks for no more. -/
theorem C84_completes (dbg : Bool) {n : Nat} (prog : Fin n → Prog) (gen : Fin n → Gen) (hgen : ∀ τ, Plenty (gen τ))
    (N : Fin n → Nat) (hN : ∀ τ l, N τ ≤ l.length → prog τ l = none) (rounds : List (List (Fin n)))
    (hturn : ∀ r ∈ rounds, ∀ τ, τ ∈ r)
    (hmany : (∑ i, (((crate dbg).deps i).length + 2)) + ∑ τ, N τ < rounds.length) (τ : Fin n) :
    (∃ e ∈ (world dbg prog gen rounds.flatten).past τ, e.2 = none) ∨
      prog τ (((world dbg prog gen rounds.flatten).past τ).filterMap Prod.snd) = none := by
  rcases rounds_used (dbg := dbg) (prog := prog) rounds hturn (World.start gen) with h | ⟨used, h1, h2⟩
  · by_contra hne
    rw [not_or, not_exists] at hne
    obtain ⟨σ, w', hs⟩ := C84_progress dbg prog gen hgen rounds.flatten τ (fun e he h => hne.1 e ⟨he, h⟩) hne.2
    exact absurd hs (by rw [show (world dbg prog gen rounds.flatten).step dbg prog σ = none from h σ]; exact fun h => by cases h)
  · exfalso
    have hb := world_moves_bound h1
    have : ∑ τ, (listed prog (Client.runFrom dbg prog (World.start gen) rounds.flatten) τ).length ≤ ∑ τ, N τ :=
      Finset.sum_le_sum fun σ _ => listed_length (hN σ) (asked_runFrom _ (fun _ => asked_nil _) σ)
    omega

/-- **C84**, calls agree within a process: the same call (or the optimized and the plain version of it), in whichever threads
and at whichever times, gives the same result. -/
theorem C84_agree (dbg : Bool) {n : Nat} (prog : Fin n → Prog) (gen : Fin n → Gen) (sched later : List (Fin n))
    (τ τ' : Fin n) (c c' : Call) (a b : List Nat) (h : (c, some a) ∈ (world dbg prog gen sched).past τ)
    (h' : (c', some b) ∈ (world dbg prog gen (sched ++ later)).past τ') (hsame : c.Same c') : a = b := by
  have hp : (world dbg prog gen sched).past τ <+: (world dbg prog gen (sched ++ later)).past τ := by
    have e : world dbg prog gen (sched ++ later) = runFrom dbg prog (world dbg prog gen sched) later := by
      unfold world runFrom; rw [List.foldl_append]
    rw [e]
    exact prefix_runFrom later τ
  obtain ⟨j, hj⟩ := List.getElem?_of_mem (hp.subset h)
  obtain ⟨j', hj'⟩ := List.getElem?_of_mem h'
  obtain ⟨h1, h2⟩ := event_output hj
  obtain ⟨h3, h4⟩ := event_output hj'
  exact C82_agree dbg _ gen (sched ++ later) [] τ τ' j j' c c' h1 h3 hsame a b h2 (by rw [List.append_nil]; exact h4)

/-- **C84**, what the calls return: in one process there is one map for every parameter set, and every result is the one that
this map gives. -/
theorem C84_values (dbg : Bool) {n : Nat} (prog : Fin n → Prog) (gen : Fin n → Gen) (sched : List (Fin n)) (i : Name) :
    ∃ π : List (ZMod (modulus i)) → List (ZMod (modulus i)), (∀ x, x.length = width i → (π x).length = width i) ∧
      ∀ τ c r, (c, some r) ∈ (world dbg prog gen sched).past τ → c.static = i → c.input.length ≤ 2 ^ 63 →
        returns (width i) π c.op (elems (modulus i) c.input) r := by
  obtain ⟨π, h1, h2⟩ := C82_values dbg (listed prog (world dbg prog gen sched)) gen sched i
  refine ⟨π, h1, fun τ c r h hs hlen => ?_⟩
  obtain ⟨j, hj⟩ := List.getElem?_of_mem h
  obtain ⟨h3, h4⟩ := event_output hj
  exact h2 τ j c r h3 hs hlen h4

/-- **C84**, the map of a shipped Poseidon2 parameter set is the Poseidon2 of the published constants. -/
theorem C84_values_poseidon2 (dbg : Bool) {n : Nat} (prog : Fin n → Prog) (gen : Fin n → Gen) (sched : List (Fin n))
    (k : Fin Instances.poseidon2.length) :
    let S := Instances.poseidon2[k]
    ∃ π : List (ZMod S.modulus) → List (ZMod S.modulus),
      (∀ x : Fin S.t → ZMod S.modulus, π (List.ofFn x) = List.ofFn (Spec.poseidon2 (Spec.externalMatrix S.t)
        (Spec.internalMatrix S.t (Spec.vec S.diagF)) S.d (S.rounds_f / 2) S.rounds_p (Spec.tab S.rcF) x)) ∧
      ∀ τ c r, (c, some r) ∈ (world dbg prog gen sched).past τ → c.static = .poseidon2 k → c.input.length ≤ 2 ^ 63 →
        returns S.t π c.op (elems S.modulus c.input) r := by
  intro S
  obtain ⟨π, h1, h2⟩ := C82_values_poseidon2 dbg (listed prog (world dbg prog gen sched)) gen sched k
  refine ⟨π, h1, fun τ c r h hs hlen => ?_⟩
  obtain ⟨j, hj⟩ := List.getElem?_of_mem h
  obtain ⟨h3, h4⟩ := event_output hj
  exact h2 τ j c r h3 hs hlen h4

/-- **C84**, the map of a shipped Poseidon parameter set is the Poseidon of the published constants. -/
theorem C84_values_poseidon (dbg : Bool) {n : Nat} (prog : Fin n → Prog) (gen : Fin n → Gen) (sched : List (Fin n))
    (k : Fin Instances.poseidon.length) :
    let S := Instances.poseidon[k]
    ∃ π : List (ZMod S.modulus) → List (ZMod S.modulus),
      (∀ x : Fin S.t → ZMod S.modulus, π (List.ofFn x) = List.ofFn (Spec.poseidon S.mdsMatrix S.d (S.rounds_f / 2)
        S.rounds_p (Spec.tab S.rcF) x)) ∧
      ∀ τ c r, (c, some r) ∈ (world dbg prog gen sched).past τ → c.static = .poseidon k → c.input.length ≤ 2 ^ 63 →
        returns S.t π c.op (elems S.modulus c.input) r := by
  intro S
  obtain ⟨π, h1, h2⟩ := C82_values_poseidon dbg (listed prog (world dbg prog gen sched)) gen sched k
  refine ⟨π, h1, fun τ c r h hs hlen => ?_⟩
  obtain ⟨j, hj⟩ := List.getElem?_of_mem h
  obtain ⟨h3, h4⟩ := event_output hj
  exact h2 τ j c r h3 hs hlen h4

/-- **C84**, determinism: a program that uses Poseidon and Poseidon2 only behaves the same in every process, in every build
profile, beside whatever other threads, and under every schedule - the calls it has made and their results are a beginning of
one and the same sequence. -/
theorem C84_deterministic (dbg dbg' : Bool) {n n' : Nat} (prog : Fin n → Prog) (prog' : Fin n' → Prog)
    (gen : Fin n → Gen) (gen' : Fin n' → Gen) (sched : List (Fin n)) (sched' : List (Fin n')) (τ : Fin n) (τ' : Fin n')
    (hprog : prog τ = prog' τ')
    (huse : ∀ l c, prog τ l = some c → ((∃ k, c.static = .poseidon k) ∨ ∃ k, c.static = .poseidon2 k) ∧
      c.input.length ≤ 2 ^ 63) :
    (world dbg prog gen sched).past τ <+: (world dbg' prog' gen' sched').past τ' ∨
    (world dbg' prog' gen' sched').past τ' <+: (world dbg prog gen sched).past τ := by
  have hpt : ∀ (j : Nat) e e', ((world dbg prog gen sched).past τ)[j]? = some e →
      ((world dbg' prog' gen' sched').past τ')[j]? = some e' → e = e' := by
    intro j
    induction j using Nat.strong_induction_on with
    | _ j ih =>
      intro e e' he he'
      have hj := (List.getElem?_eq_some_iff.mp he).1
      have hj' := (List.getElem?_eq_some_iff.mp he').1
      have htake : ((world dbg prog gen sched).past τ).take j = ((world dbg' prog' gen' sched').past τ').take j := by
        apply List.ext_getElem?
        intro i
        rw [List.getElem?_take, List.getElem?_take]
        split
        · rename_i hi
          have h1 := List.getElem?_eq_getElem (lt_trans hi hj)
          have h2 := List.getElem?_eq_getElem (lt_trans hi hj')
          rw [h1, h2, ih i hi _ _ h1 h2]
        · rfl
      have ha := (asked_world (dbg := dbg) (prog := prog) (gen := gen) sched τ).getElem? he
      have ha' := (asked_world (dbg := dbg') (prog := prog') (gen := gen') sched' τ').getElem? he'
      rw [← htake, ← hprog, ha] at ha'
      have hc : e.1 = e'.1 := Option.some.inj ha'
      obtain ⟨hi, hlen⟩ := huse _ _ (next_some ha).2
      obtain ⟨h1, h2⟩ := event_output he
      obtain ⟨h3, h4⟩ := event_output he'
      have hf : (∃ r, e.2 = some r) ↔ e.1.Fits := by
        obtain ⟨c, v, g1, -, hv, hr⟩ := output_call h2
        obtain rfl := Option.some.inj (h1.symm.trans g1)
        rw [hr]
        exact C82_returns_iff dbg gen e.1 v hv hlen
      have hf' : (∃ r, e'.2 = some r) ↔ e'.1.Fits := by
        obtain ⟨c, v, g1, -, hv, hr⟩ := output_call h4
        obtain rfl := Option.some.inj (h3.symm.trans g1)
        rw [hr]
        exact C82_returns_iff dbg' gen' e'.1 v hv (hc ▸ hlen)
      refine Prod.ext hc ?_
      by_cases hfit : e.1.Fits
      · obtain ⟨a, ha⟩ := hf.mpr hfit
        obtain ⟨b, hb⟩ := hf'.mpr (hc ▸ hfit)
        rw [ha] at h2 ⊢
        rw [hb] at h4 ⊢
        exact congrArg some (C82_reproducible dbg dbg' _ _ gen gen' sched sched' τ τ' j j e.1 e'.1 h1 h3
          ⟨congrArg _ hc, Or.inl (congrArg _ hc), by rw [hc]⟩ hlen hi a b h2 h4)
      · have g1 : e.2 = none := Option.not_isSome_iff_eq_none.mp fun h => hfit (hf.mp (Option.isSome_iff_exists.mp h))
        have g2 : e'.2 = none := Option.not_isSome_iff_eq_none.mp fun h =>
          hfit (hc ▸ hf'.mp (Option.isSome_iff_exists.mp h))
        rw [g1, g2]
  have half : ∀ l l' : List Event, l.length ≤ l'.length → (∀ (j : Nat) e e', l[j]? = some e → l'[j]? = some e' → e = e') →
      l <+: l' := by
    intro l l' hle h
    rw [List.prefix_iff_eq_take]
    apply List.ext_getElem?
    intro i
    rw [List.getElem?_take]
    split
    · rename_i hi
      have h1 := List.getElem?_eq_getElem hi
      have h2 := List.getElem?_eq_getElem (lt_of_lt_of_le hi hle)
      rw [h1, h2, h i _ _ h1 h2]
    · exact List.getElem?_eq_none (by omega)
  rcases le_total ((world dbg prog gen sched).past τ).length ((world dbg' prog' gen' sched').past τ').length with h | h
  · exact Or.inl (half _ _ h hpt)
  · exact Or.inr (half _ _ h fun j e e' h1 h2 => (hpt j e' e h2 h1).symm)

/-! ### Concrete cases -/

/-- One thread applies `POSEIDON2_BN256_PARAMS` three times, each time to the last result; the other one calls a permutation of
width three with two elements, and would then call it with three. -/
private def reacting : Fin 2 → Prog :=
  ![fun l => if l.length < 3 then some ⟨.poseidon2 ⟨10, by decide⟩, .permutation, l.getLast?.getD [1, 2, 3]⟩ else none,
    fun l => if l.length < 2 then some ⟨.poseidon2 ⟨10, by decide⟩, .permutation, List.replicate (2 + l.length) 7⟩ else none]

private theorem ones_plenty' : Plenty fun _ _ => 1 := by
  intro f hf m
  have : Fact f.1.Prime := ⟨declared_prime (List.mem_map_of_mem hf)⟩
  exact ⟨m, le_refl m, one_ne_zero⟩

/-- The first thread makes its three calls, each on the result of the one before; the second one stops after the first call. -/
example (dbg : Bool) : ∃ sched, ∃ a b c : List Nat,
    (world dbg reacting (fun _ _ _ => 1) sched).past 0 =
      [(⟨.poseidon2 ⟨10, by decide⟩, .permutation, [1, 2, 3]⟩, some a), (⟨.poseidon2 ⟨10, by decide⟩, .permutation, a⟩, some b),
        (⟨.poseidon2 ⟨10, by decide⟩, .permutation, b⟩, some c)] ∧
    (world dbg reacting (fun _ _ _ => 1) sched).past 1 = [(⟨.poseidon2 ⟨10, by decide⟩, .permutation, [7, 7]⟩, none)] := by
  obtain ⟨K, hK⟩ : ∃ K, K = (∑ i, (((crate dbg).deps i).length + 2)) + ∑ τ : Fin 2, (fun _ => 3) τ := ⟨_, rfl⟩
  have hfin := C84_completes dbg reacting (fun _ _ _ => 1) (fun _ => ones_plenty') (fun _ => 3) (by
      intro τ l hl
      fin_cases τ
      · exact if_neg (by omega)
      · exact if_neg (by omega)) (List.replicate (K + 1) [0, 1]) (by
      intro r hr τ
      rw [List.eq_of_mem_replicate hr]
      fin_cases τ <;> simp) (by rw [List.length_replicate, ← hK]; omega)
  refine ⟨(List.replicate (K + 1) [0, 1]).flatten, ?_⟩
  generalize (List.replicate (K + 1) ([0, 1] : List (Fin 2))).flatten = sched at hfin ⊢
  have hcalls := C84_calls dbg reacting (fun _ _ _ => 1) sched
  have hw : width (.poseidon2 ⟨10, by decide⟩) = 3 := by decide +kernel
  obtain ⟨π, hπ, hval⟩ := C84_values dbg reacting (fun _ _ _ => 1) sched (.poseidon2 ⟨10, by decide⟩)
  have hlen : ∀ x r, (⟨.poseidon2 ⟨10, by decide⟩, .permutation, x⟩, some r) ∈ (world dbg reacting (fun _ _ _ => 1) sched).past 0 →
      x.length = 3 → r.length = 3 := by
    intro x r h hx
    have h1 := hval 0 _ r h rfl (by show x.length ≤ _; rw [hx]; decide)
    have h2 : r = ints (π (elems _ x)) := h1
    rw [h2]
    unfold ints
    rw [List.length_map, hπ _ (by rw [length_elems, hw]; exact hx), hw]
  have hnext : ∀ (before rest : List Event) (results : List (List Nat)),
      (world dbg reacting (fun _ _ _ => 1) sched).past 0 = before ++ rest →
      before.map Prod.snd = results.map some → results.length < 3 → (results.getLast?.getD [1, 2, 3]).length = 3 →
      ∃ a rest', rest = (⟨.poseidon2 ⟨10, by decide⟩, .permutation, results.getLast?.getD [1, 2, 3]⟩, some a) :: rest' ∧
        a.length = 3 := by
    intro before rest results hp hb hl h3
    have hfm : before.filterMap Prod.snd = results := by
      have : before.filterMap Prod.snd = (before.map Prod.snd).filterMap id := by rw [List.filterMap_map]; rfl
      rw [this, hb, List.filterMap_map]
      simp
    have hask : reacting 0 results =
        some ⟨.poseidon2 ⟨10, by decide⟩, .permutation, results.getLast?.getD [1, 2, 3]⟩ := if_pos hl
    cases rest with
    | nil =>
      have h := hfin 0
      rw [hp, List.append_nil] at h
      rw [hfm, hask] at h
      rcases h with ⟨e, he, hn⟩ | h
      · have hm := List.mem_map_of_mem (f := Prod.snd) he
        rw [hb] at hm
        obtain ⟨r, -, hr⟩ := List.mem_map.mp hm
        rw [← hr] at hn
        cases hn
      · cases h
    | cons e rest =>
      obtain ⟨g1, -, g3⟩ := hcalls 0 before e rest hp
      rw [hfm, hask] at g1
      obtain ⟨c, r⟩ := e
      obtain rfl := Option.some.inj g1
      obtain ⟨a, ha⟩ := (g3 (by show (results.getLast?.getD [1, 2, 3]).length ≤ _; rw [h3]; decide)).mpr
        ⟨trivial, by show (results.getLast?.getD [1, 2, 3]).length = _; rw [h3, hw]⟩
      obtain rfl : r = some a := ha
      exact ⟨a, rest, rfl, hlen _ a (by rw [hp]; simp) h3⟩
  obtain ⟨a, r1, h1, la⟩ := hnext [] _ [] rfl rfl (by decide) rfl
  obtain ⟨b, r2, rfl, lb⟩ := hnext [_] _ [a] h1 rfl (by simp) la
  obtain ⟨c, r3, rfl, -⟩ := hnext [_, _] _ [a, b] h1 rfl (by simp) lb
  refine ⟨a, b, c, ?_, ?_⟩
  · cases r3 with
    | nil => exact h1
    | cons e r4 => exact absurd (hcalls 0 [_, _, _] e r4 h1).1 (by simp [reacting])
  · cases hp : (world dbg reacting (fun _ _ _ => 1) sched).past 1 with
    | nil =>
      have h := hfin 1
      rw [hp] at h
      exact absurd h (by simp [reacting])
    | cons e rest =>
      obtain ⟨g1, -, g3⟩ := hcalls 1 [] e rest hp
      have g1 : some _ = some e.1 := g1
      obtain ⟨c, r⟩ := e
      obtain rfl := Option.some.inj g1
      have hr : r = none := Option.not_isSome_iff_eq_none.mp fun h => absurd
        ((g3 (by show 2 ≤ _; decide)).mp (Option.isSome_iff_exists.mp h)).2 (by
          show ¬ (2 : Nat) = width _
          rw [hw]
          decide)
      obtain rfl := hr
      cases rest with
      | nil => rfl
      | cons e' rest' =>
        obtain ⟨-, g2, -⟩ := hcalls 1 [_] e' rest' hp
        obtain ⟨r, hr⟩ := g2 _ List.mem_cons_self
        cases hr

end ZkHash

import Verif.Proofs.Net

set_option autoImplicit false

/-!
# Programs whose threads communicate and draw random numbers: C98
-/

namespace ZkHash

open Statics Client Fields

/-- **C98**, what happens is what the programs ask for: no thread does anything after a call of it has panicked; a thread that
draws, had been told by its program to draw in that field, given all that had happened in the process before; a thread
that gets the result of a call, had been told to make that call, given all that had happened at some time since its own previous
action; and a call (on at most `2 ^ 63` elements) panics if and only if it is not a legal one. -/
theorem C98_calls (dbg : Bool) {n : Nat} (prog : Fin n → Talk n) (gen : Fin n → Gen) (sched : List (Fin n))
    (before after : Log n) (τ : Fin n) (e : Entry) (h : (net dbg prog gen sched).log = before ++ (τ, e) :: after) :
    (∀ c, (τ, Entry.called c none) ∉ before) ∧
    (∀ p x, e = .drew p x → prog τ before = .draw p) ∧
    ∀ c r, e = .called c r →
      (∃ l m, before = l ++ m ∧ prog τ l = .call c ∧ ∀ e' ∈ m, e'.1 ≠ τ) ∧
      (c.input.length ≤ 2 ^ 63 → ((∃ y, r = some y) ↔ c.Fits)) := by
  have hM := (logOk_net (dbg := dbg) (prog := prog) (gen := gen) sched).past before τ e after h
  have hO := netOk_net (dbg := dbg) (prog := prog) (gen := gen) sched
  cases e with
  | drew p x =>
    refine ⟨fun c hc => hM.2 ⟨c, hc⟩, fun q y he => ?_, fun c r he => by cases he⟩
    cases he
    exact hM.1
  | called c r =>
    obtain ⟨l, m, h1, h2, h3, h4⟩ := hM
    refine ⟨fun c' hc' => ?_, fun p x he => (by cases he), fun c' r' he => ?_⟩
    · rw [h1] at hc'
      rcases List.mem_append.mp hc' with hc' | hc'
      · exact h3 ⟨c', hc'⟩
      · exact h4 _ hc' rfl
    · cases he
      refine ⟨⟨l, m, h1, h2, h4⟩, fun hlen => ?_⟩
      obtain ⟨todo, hI⟩ := hO.inv
      obtain ⟨v, hv, rfl⟩ := hO.log τ c r (by rw [h]; simp)
      exact C82_returns_iff dbg gen c v (hI.ready _ _ hv) hlen

/-- **C98**, what has happened stays. -/
theorem C98_history (dbg : Bool) {n : Nat} (prog : Fin n → Talk n) (gen : Fin n → Gen) (sched later : List (Fin n)) :
    (net dbg prog gen sched).log <+: (net dbg prog gen (sched ++ later)).log := by
  have e : net dbg prog gen (sched ++ later) = Net.runFrom dbg prog (net dbg prog gen sched) later := by
    unfold net Net.runFrom; rw [List.foldl_append]
  rw [e]
  exact log_run later _

/-- **C98**, nothing waits for long: a thread that is in no call, has not panicked and whose program has something to do can do
it at its next turn; and a call that a thread is in has its result - or its panic - after any schedule that gives every
thread a turn in each of more rounds than all initializers (the sum over the statics) take steps, whatever the other threads do
meanwhile, how many of them there are, and even if some of them panic. -/
theorem C98_in_time (dbg : Bool) {n : Nat} (prog : Fin n → Talk n) (gen : Fin n → Gen) (hgen : ∀ τ, Plenty (gen τ))
    (sched : List (Fin n)) (τ : Fin n) :
    ((net dbg prog gen sched).asked τ = none → (∀ c, (τ, Entry.called c none) ∉ (net dbg prog gen sched).log) →
      prog τ (net dbg prog gen sched).log ≠ .rest → ∃ w', (net dbg prog gen sched).step dbg prog τ = some w') ∧
    ∀ c, (net dbg prog gen sched).asked τ = some c → ∀ rounds : List (List (Fin n)), (∀ r ∈ rounds, ∀ σ, σ ∈ r) →
      ∑ i, (((crate dbg).deps i).length + 2) < rounds.length →
      ∃ new r, (net dbg prog gen (sched ++ rounds.flatten)).log = (net dbg prog gen sched).log ++ new ∧
        (τ, Entry.called c r) ∈ new := by
  refine ⟨fun ha hc hp => ?_, fun c ha rounds hr hmany => ?_⟩
  · unfold Net.step
    rw [ha]
    dsimp only
    rw [if_neg (fun ⟨c, h⟩ => hc c h)]
    cases hq : prog τ (net dbg prog gen sched).log with
    | rest => exact absurd hq hp
    | call c => exact ⟨_, rfl⟩
    | draw p => exact ⟨_, rfl⟩
  · have hO := netOk_net (dbg := dbg) (prog := prog) (gen := gen) sched
    obtain ⟨hL, hW⟩ := lively_net (dbg := dbg) (prog := prog) hgen sched
    obtain ⟨new, hnew⟩ := C98_history dbg prog gen sched rounds.flatten
    have e : net dbg prog gen (sched ++ rounds.flatten) =
        Net.runFrom dbg prog (net dbg prog gen sched) rounds.flatten := by
      unfold net Net.runFrom; rw [List.foldl_append]
    obtain ⟨r, h⟩ := answered_in_time (prog := prog) hgen rounds hr hO hL le_rfl ha (hW.trans_lt hmany)
    rw [← e, ← hnew, List.drop_left] at h
    exact ⟨new, r, hnew.symm, h⟩

/-- **C98**, calls agree within a process: the same call (or the optimized and the plain version of it), in whichever threads
and at whichever times, gives the same result. -/
theorem C98_agree (dbg : Bool) {n : Nat} (prog : Fin n → Talk n) (gen : Fin n → Gen) (sched : List (Fin n))
    (τ τ' : Fin n) (c c' : Call) (a b : List Nat) (h : (τ, Entry.called c (some a)) ∈ (net dbg prog gen sched).log)
    (h' : (τ', Entry.called c' (some b)) ∈ (net dbg prog gen sched).log) (hsame : c.Same c') : a = b := by
  have hO := netOk_net (dbg := dbg) (prog := prog) (gen := gen) sched
  obtain ⟨todo, hI⟩ := hO.inv
  obtain ⟨v, hv, hr⟩ := hO.log τ c _ h
  obtain ⟨v', hv', hr'⟩ := hO.log τ' c' _ h'
  obtain ⟨hs, ho, hx⟩ := hsame
  rw [← hs, hv] at hv'
  cases hv'
  have hH := hI.ready _ _ hv
  by_cases hi : IsParams c.static
  · obtain ⟨A, hA, -, -, -, he⟩ := api_of_holds hi hH
    rw [he c rfl] at hr
    rw [he c' hs.symm, ← hx] at hr'
    exact hA.same dbg ho _ hr.symm hr'.symm
  · obtain ⟨i, op, l⟩ := c
    exfalso
    cases i with
    | poseidon2 k => exact hi trivial
    | poseidon k => exact hi trivial
    | gmimc k => exact hi trivial
    | neptune k => exact hi trivial
    | _ => cases hH; cases hr

/-- **C98**, Poseidon and Poseidon2 agree across processes: whatever two processes do - other programs, threads, schedules,
random elements, even another build profile -, the same call gives the same result in both. -/
theorem C98_reproducible (dbg dbg' : Bool) {n n' : Nat} (prog : Fin n → Talk n) (prog' : Fin n' → Talk n')
    (gen : Fin n → Gen) (gen' : Fin n' → Gen) (sched : List (Fin n)) (sched' : List (Fin n')) (τ : Fin n) (τ' : Fin n')
    (c c' : Call) (a b : List Nat) (h : (τ, Entry.called c (some a)) ∈ (net dbg prog gen sched).log)
    (h' : (τ', Entry.called c' (some b)) ∈ (net dbg' prog' gen' sched').log) (hsame : c.Same c')
    (hlen : c.input.length ≤ 2 ^ 63) (hi : (∃ k, c.static = .poseidon k) ∨ ∃ k, c.static = .poseidon2 k) : a = b := by
  have hO := netOk_net (dbg := dbg) (prog := prog) (gen := gen) sched
  have hO' := netOk_net (dbg := dbg') (prog := prog') (gen := gen') sched'
  obtain ⟨todo, hI⟩ := hO.inv
  obtain ⟨todo', hI'⟩ := hO'.inv
  obtain ⟨v, hv, hr⟩ := hO.log τ c _ h
  obtain ⟨v', hv', hr'⟩ := hO'.log τ' c' _ h'
  obtain ⟨hs, ho, hx⟩ := hsame
  rw [← hs] at hv'
  replace hv := hI.ready _ _ hv
  replace hv' := hI'.ready _ _ hv'
  clear h h'
  have key : ∀ {p : Nat} {A A' : Api p}, A.Good → A'.Good → A.t = A'.t → A.zeros = A'.zeros →
      A.plain.isSome = A'.plain.isSome → (∀ x, x.length = A.t → A.perm x = A'.perm x) →
      elems p c.input = elems p c'.input → c.exec dbg v = A.exec dbg c.op (elems p c.input) →
      c'.exec dbg' v' = A'.exec dbg' c'.op (elems p c'.input) → a = b := by
    intro p A A' g g' h1 h2 h3 h4 hx e e'
    rw [e] at hr
    rw [e', ← hx, ← g.exec_congr g' h1 h2 h3 h4 dbg dbg' c'.op _ (by rw [length_elems]; exact hlen)] at hr'
    exact g.same dbg ho _ hr.symm hr'.symm
  obtain ⟨i, op, l⟩ := c
  obtain ⟨i', op', l'⟩ := c'
  obtain rfl : i = i' := hs
  rcases hi with ⟨k, rfl⟩ | ⟨k, rfl⟩
  · obtain ⟨P, hP, rfl⟩ := hv
    obtain ⟨P', hP', rfl⟩ := hv'
    refine key (poseidon_api k hP) (poseidon_api k hP') rfl rfl rfl (fun x hx => ?_) hx (by cases op <;> rfl)
      (by cases op' <;> rfl)
    obtain ⟨Q, hQ, e⟩ := C17_shipped_eq_spec _ (poseidon_mem k) dbg
    obtain ⟨Q', hQ', e'⟩ := C17_shipped_eq_spec _ (poseidon_mem k) dbg'
    obtain rfl : Q = P := Option.some.inj (hQ.symm.trans hP)
    obtain rfl : Q' = P' := Option.some.inj (hQ'.symm.trans hP')
    obtain ⟨y, rfl⟩ := eq_ofFn x hx
    exact (e y).trans (e' y).symm
  · obtain ⟨P, hP, rfl⟩ := hv
    obtain ⟨P', hP', rfl⟩ := hv'
    refine key (poseidon2_api k hP) (poseidon2_api k hP') rfl rfl rfl (fun x hx => ?_) hx (by cases op <;> rfl)
      (by cases op' <;> rfl)
    obtain ⟨Q, hQ, e⟩ := C08_shipped_eq_spec (dbg := dbg) _ (poseidon2_mem k)
    obtain ⟨Q', hQ', e'⟩ := C08_shipped_eq_spec (dbg := dbg') _ (poseidon2_mem k)
    obtain rfl : Q = P := Option.some.inj (hQ.symm.trans hP)
    obtain rfl : Q' = P' := Option.some.inj (hQ'.symm.trans hP')
    obtain ⟨y, rfl⟩ := eq_ofFn x hx
    exact (e y).trans (e' y).symm

/-- **C98**, what the calls return: in one process there is one map for every parameter set, and every result is the one that
this map gives. -/
theorem C98_values (dbg : Bool) {n : Nat} (prog : Fin n → Talk n) (gen : Fin n → Gen) (sched : List (Fin n)) (i : Name) :
    ∃ π : List (ZMod (modulus i)) → List (ZMod (modulus i)), (∀ x, x.length = width i → (π x).length = width i) ∧
      ∀ τ c r, (τ, Entry.called c (some r)) ∈ (net dbg prog gen sched).log → c.static = i → c.input.length ≤ 2 ^ 63 →
        returns (width i) π c.op (elems (modulus i) c.input) r := by
  have hO := netOk_net (dbg := dbg) (prog := prog) (gen := gen) sched
  obtain ⟨todo, hI⟩ := hO.inv
  by_cases hex : ∃ v, (net dbg prog gen sched).base.cell i = .ready v
  · obtain ⟨v₀, hv₀⟩ := hex
    by_cases hi : IsParams i
    · obtain ⟨A, hA, ht, -, -, he⟩ := api_of_holds hi (hI.ready _ _ hv₀)
      refine ⟨fun x => (A.perm x).getD [], fun x hx => ?_, fun τ c r hm hs hlen => ?_⟩
      · obtain ⟨y, hy, hl⟩ := hA.total x (hx.trans ht.symm)
        show ((A.perm x).getD []).length = _
        rw [hy]
        exact hl.trans ht
      · obtain ⟨v, hv, hr⟩ := hO.log τ c _ hm
        rw [hs, hv₀] at hv
        cases hv
        rw [he c hs] at hr
        rw [← ht]
        refine hA.exec_returns _ (fun x hx => ?_) dbg c.op _ (by rw [length_elems]; exact hlen) hr.symm
        obtain ⟨y, hy, -⟩ := hA.total x hx
        exact hy.trans (congrArg (fun o => some (Option.getD o [])) hy).symm
    · refine ⟨id, fun _ hx => hx, fun τ c r hm hs hlen => ?_⟩
      obtain ⟨v, hv, hr⟩ := hO.log τ c _ hm
      exact absurd ((C82_returns_iff dbg gen c v (hI.ready _ _ hv) hlen).mp ⟨r, hr.symm⟩).1 (hs ▸ hi)
  · refine ⟨id, fun _ hx => hx, fun τ c r hm hs hlen => ?_⟩
    obtain ⟨v, hv, -⟩ := hO.log τ c _ hm
    exact absurd ⟨v, hs ▸ hv⟩ hex

/-- **C98**, the map of a shipped Poseidon2 parameter set is the Poseidon2 of the published constants. -/
theorem C98_values_poseidon2 (dbg : Bool) {n : Nat} (prog : Fin n → Talk n) (gen : Fin n → Gen) (sched : List (Fin n))
    (k : Fin Instances.poseidon2.length) :
    let S := Instances.poseidon2[k]
    ∃ π : List (ZMod S.modulus) → List (ZMod S.modulus),
      (∀ x : Fin S.t → ZMod S.modulus, π (List.ofFn x) = List.ofFn (Spec.poseidon2 (Spec.externalMatrix S.t)
        (Spec.internalMatrix S.t (Spec.vec S.diagF)) S.d (S.rounds_f / 2) S.rounds_p (Spec.tab S.rcF) x)) ∧
      ∀ τ c r, (τ, Entry.called c (some r)) ∈ (net dbg prog gen sched).log → c.static = .poseidon2 k →
        c.input.length ≤ 2 ^ 63 → returns S.t π c.op (elems S.modulus c.input) r := by
  intro S
  have hO := netOk_net (dbg := dbg) (prog := prog) (gen := gen) sched
  obtain ⟨todo, hI⟩ := hO.inv
  obtain ⟨P, hP, e⟩ := C08_shipped_eq_spec (dbg := dbg) _ (poseidon2_mem k)
  refine ⟨fun x => (Poseidon2.permutation dbg P x).getD [], fun x => ?_, fun τ c r hm hs hlen => ?_⟩
  · exact congrArg (fun o => Option.getD o []) (e x)
  · obtain ⟨v, hv, hr⟩ := hO.log τ c _ hm
    have hH := hI.ready _ _ hv
    rw [hs] at hH
    obtain ⟨P', hP', rfl⟩ := hH
    obtain rfl : P = P' := Option.some.inj (hP.symm.trans hP')
    have hA := poseidon2_api k hP
    refine hA.exec_returns _ (fun x hx => ?_) dbg c.op _ (by rw [length_elems]; exact hlen)
      (Eq.trans (by obtain ⟨i, op, l⟩ := c; cases op <;> rfl) hr.symm)
    obtain ⟨y, hy, -⟩ := hA.total x hx
    exact hy.trans (congrArg (fun o => some (Option.getD o [])) hy).symm

/-- **C98**, the map of a shipped Poseidon parameter set is the Poseidon of the published constants. -/
theorem C98_values_poseidon (dbg : Bool) {n : Nat} (prog : Fin n → Talk n) (gen : Fin n → Gen) (sched : List (Fin n))
    (k : Fin Instances.poseidon.length) :
    let S := Instances.poseidon[k]
    ∃ π : List (ZMod S.modulus) → List (ZMod S.modulus),
      (∀ x : Fin S.t → ZMod S.modulus, π (List.ofFn x) = List.ofFn (Spec.poseidon S.mdsMatrix S.d (S.rounds_f / 2)
        S.rounds_p (Spec.tab S.rcF) x)) ∧
      ∀ τ c r, (τ, Entry.called c (some r)) ∈ (net dbg prog gen sched).log → c.static = .poseidon k →
        c.input.length ≤ 2 ^ 63 → returns S.t π c.op (elems S.modulus c.input) r := by
  intro S
  have hO := netOk_net (dbg := dbg) (prog := prog) (gen := gen) sched
  obtain ⟨todo, hI⟩ := hO.inv
  obtain ⟨P, hP, e⟩ := C17_shipped_eq_spec _ (poseidon_mem k) dbg
  refine ⟨fun x => (Poseidon.permutation dbg P x).getD [], fun x => ?_, fun τ c r hm hs hlen => ?_⟩
  · exact congrArg (fun o => Option.getD o []) (e x)
  · obtain ⟨v, hv, hr⟩ := hO.log τ c _ hm
    have hH := hI.ready _ _ hv
    rw [hs] at hH
    obtain ⟨P', hP', rfl⟩ := hH
    obtain rfl : P = P' := Option.some.inj (hP.symm.trans hP')
    have hA := poseidon_api k hP
    refine hA.exec_returns _ (fun x hx => ?_) dbg c.op _ (by rw [length_elems]; exact hlen)
      (Eq.trans (by obtain ⟨i, op, l⟩ := c; cases op <;> rfl) hr.symm)
    obtain ⟨y, hy, -⟩ := hA.total x hx
    exact hy.trans (congrArg (fun o => some (Option.getD o [])) hy).symm

/-- **C98**, random elements are used once: every element that a program draws is an element of the random sequence of its
thread for that field, a later one at every draw; the GMiMC and Neptune parameter sets on which calls were made are made of
segments of the sequences (`seg i` is the thread, the first element and the number of elements), each what its constructor makes of
exactly that segment, and no two of them overlap; and no element that a program has drawn - as a secret, say - is in a segment
that a public parameter set is made of. -/
theorem C98_fresh (dbg : Bool) {n : Nat} (hn : 0 < n) (prog : Fin n → Talk n) (gen : Fin n → Gen) (sched : List (Fin n)) :
    ∃ (seg : Name → Fin n × Nat × Nat) (pos : Nat → Nat),
      let log := (net dbg prog gen sched).log
      (∀ (k : Nat) τ p x, log[k]? = some (τ, .drew p x) → x = gen τ p (pos k)) ∧
      (∀ (j k : Nat) τ p x y, j < k → log[j]? = some (τ, .drew p x) → log[k]? = some (τ, .drew p y) → pos j < pos k) ∧
      (∀ τ c r p, (τ, Entry.called c r) ∈ log → field c.static = some p →
        ∃ v, r = c.exec dbg v ∧ Drawn dbg (after (gen (seg c.static).1) (seg c.static).2.1) c.static v (seg c.static).2.2) ∧
      (∀ τ τ' c c' r r' p, (τ, Entry.called c r) ∈ log → (τ', Entry.called c' r') ∈ log → c.static ≠ c'.static →
        field c.static = some p → field c'.static = some p → (seg c.static).1 = (seg c'.static).1 →
          (seg c.static).2.1 + (seg c.static).2.2 ≤ (seg c'.static).2.1 ∨
          (seg c'.static).2.1 + (seg c'.static).2.2 ≤ (seg c.static).2.1) ∧
      ∀ (k : Nat) τ p x σ c r, log[k]? = some (τ, .drew p x) → (σ, Entry.called c r) ∈ log → field c.static = some p →
        (seg c.static).1 = τ → pos k < (seg c.static).2.1 ∨ (seg c.static).2.1 + (seg c.static).2.2 ≤ pos k := by
  have hO := netOk_net (dbg := dbg) (prog := prog) (gen := gen) sched
  obtain ⟨seg, off, pos, hF⟩ := netFresh_net (dbg := dbg) (prog := prog) (gen := gen) hn sched
  refine ⟨seg, pos, hF.value, hF.order, fun τ c r p h hp => ?_, fun τ τ' c c' r r' p h h' hne hp hp' hs => ?_,
    fun k τ p x σ c r h h' hp hs => ?_⟩
  · obtain ⟨v, hv, hr⟩ := hO.log τ c r h
    exact ⟨v, hr, hF.fresh.drawn _ v p hv hp⟩
  · obtain ⟨v, hv, -⟩ := hO.log τ c r h
    obtain ⟨v', hv', -⟩ := hO.log τ' c' r' h'
    exact hF.fresh.apart _ _ v v' p hne hv hv' hp hp' hs
  · obtain ⟨v, hv, -⟩ := hO.log σ c r h'
    exact hF.apart k τ p x _ v h hv hp hs

/-! ### Concrete cases -/

/-- The first thread draws an element of the BLS12-381 scalar field and then uses `GMIMC_BLS_3_PARAMS`; the second one waits for the
result and calls the permutation on it. -/
private def talking : Fin 2 → Talk 2 :=
  ![fun log => match log with
      | [] => .draw Instances.gmimc[7].modulus
      | [_] => .call ⟨.gmimc ⟨7, by decide⟩, .permutation, [1, 2, 3]⟩
      | _ => .rest,
    fun log => match log with
      | [_, (_, .called _ (some r))] => .call ⟨.gmimc ⟨7, by decide⟩, .permutation, r⟩
      | _ => .rest]

private theorem ones_plenty'' : Plenty fun _ _ => 1 := by
  intro f hf m
  have : Fact f.1.Prime := ⟨declared_prime (List.mem_map_of_mem hf)⟩
  exact ⟨m, le_refl m, one_ne_zero⟩

private theorem talking_draws (dbg : Bool) :
    (net dbg talking (fun _ _ _ => 1) [1, 0]).log = [(0, .drew Instances.gmimc[7].modulus 1)] := by
  simp [net, Net.runFrom, Net.step, Net.start, talking, crashed, drawOne, Statics.start]

private theorem talking_asks (dbg : Bool) :
    (net dbg talking (fun _ _ _ => 1) [1, 0, 0]).asked 0 = some ⟨.gmimc ⟨7, by decide⟩, .permutation, [1, 2, 3]⟩ ∧
    (net dbg talking (fun _ _ _ => 1) [1, 0, 0]).log = [(0, .drew Instances.gmimc[7].modulus 1)] := by
  simp [net, Net.runFrom, Net.step, Net.start, talking, crashed, drawOne, Statics.start]

/-- The second thread does nothing first; the first one draws, asks for its call, and gets the result. -/
example (dbg : Bool) : ∃ sched new r, (net dbg talking (fun _ _ _ => 1) sched).log =
      (0, .drew Instances.gmimc[7].modulus 1) :: new ∧
    (0, Entry.called ⟨.gmimc ⟨7, by decide⟩, .permutation, [1, 2, 3]⟩ (some r)) ∈ new := by
  obtain ⟨K, hK⟩ : ∃ K, K = ∑ i, (((crate dbg).deps i).length + 2) := ⟨_, rfl⟩
  obtain ⟨h1, h2⟩ := talking_asks dbg
  obtain ⟨new, r, hn, hr⟩ := (C98_in_time dbg talking (fun _ _ _ => 1) (fun _ => ones_plenty'') [1, 0, 0] 0).2 _ h1
    (List.replicate (K + 1) [0, 1]) (by
      intro r hr σ
      rw [List.eq_of_mem_replicate hr]
      fin_cases σ <;> simp) (by rw [List.length_replicate, ← hK]; omega)
  rw [h2] at hn
  obtain ⟨a, b, rfl⟩ := List.append_of_mem hr
  obtain ⟨-, -, h3⟩ := C98_calls dbg talking (fun _ _ _ => 1) _ ([_] ++ a) b 0 _ (by rw [hn, List.append_assoc])
  obtain ⟨y, rfl⟩ := ((h3 _ r rfl).2 (by decide)).mpr ⟨trivial, by decide +kernel⟩
  exact ⟨_, _, y, hn, hr⟩

/-- The field of `GMIMC_BLS_3_PARAMS` is the one the first thread draws from. -/
example : field (.gmimc ⟨7, by decide⟩) = some Instances.gmimc[7].modulus := rfl

end ZkHash

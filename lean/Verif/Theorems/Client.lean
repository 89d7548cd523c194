import Verif.Proofs.Client
import Verif.Model.Benches

set_option autoImplicit false

/-!
# Programs that use the shipped parameter sets from any number of threads: C82
-/

namespace ZkHash

open Statics Client Fields

/-- **C82**, which calls panic: for every value that a shipped parameter set can hold - whatever was drawn -, a call on it
returns exactly if it is legal. (Trees of more than `2^63` leaves are left out.) -/
theorem C82_returns_iff (dbg : Bool) {n : Nat} (gen : Fin n → Gen) (c : Call) (v : Value)
    (hv : Holds dbg gen c.static v) (hlen : c.input.length ≤ 2 ^ 63) :
    (∃ r, c.exec dbg v = some r) ↔ c.Fits := by
  rw [← Option.isSome_iff_exists]
  by_cases hi : IsParams c.static
  · obtain ⟨A, hA, ht, hz, hpl, he⟩ := api_of_holds hi hv
    rw [he c rfl, hA.exec_isSome_iff dbg _ _ (by rw [length_elems]; exact hlen)]
    unfold Call.Fits
    rw [length_elems, ht, hz, hpl]
    have hnil : elems (modulus c.static) c.input = [] ↔ c.input = [] := by unfold elems; exact List.map_eq_nil_iff
    obtain ⟨i, op, l⟩ := c
    cases op <;> simp_all
  · refine iff_of_false (fun h => ?_) fun h => hi h.1
    obtain ⟨i, op, l⟩ := c
    cases i with
    | poseidon2 k => exact hi trivial
    | poseidon k => exact hi trivial
    | gmimc k => exact hi trivial
    | neptune k => exact hi trivial
    | _ => cases hv; cases h

section
variable {dbg : Bool} {n : Nat} {prog : Fin n → List Call} {gen : Fin n → Gen} {sched : List (Fin n)} {τ : Fin n}

theorem Client.seen_call {j : Nat} {c : Call} {iv : Name × Value} (hc : (prog τ)[j]? = some c)
    (hs : (((process dbg prog gen sched).thread τ).seen.reverse)[j]? = some iv) : iv.1 = c.static := by
  have h := C70_order (crate dbg) (fun τ => (prog τ).map Call.static) gen sched τ
  have h1 : (((process dbg prog gen sched).thread τ).seen.reverse.map Prod.fst ++
      ((process dbg prog gen sched).thread τ).todo)[j]? = some iv.1 := by
    have hj := (List.getElem?_eq_some_iff.mp hs).1
    rw [List.getElem?_append_left (by simpa using hj), List.getElem?_map, hs]
    rfl
  unfold process at h1
  rw [h, List.getElem?_map, hc] at h1
  exact (Option.some.inj h1).symm

theorem Client.output_call {j : Nat} {r : Option (List Nat)}
    (h : (outputs dbg prog (process dbg prog gen sched) τ)[j]? = some r) :
    ∃ c v, (prog τ)[j]? = some c ∧ (c.static, v) ∈ ((process dbg prog gen sched).thread τ).seen ∧
      Holds dbg gen c.static v ∧ r = c.exec dbg v := by
  unfold outputs at h
  rw [List.getElem?_zipWith] at h
  cases hc : (prog τ)[j]? with
  | none => rw [hc] at h; cases h
  | some c =>
    cases hs : (((process dbg prog gen sched).thread τ).seen.reverse)[j]? with
    | none => rw [hc, hs] at h; cases h
    | some iv =>
      rw [hc, hs] at h
      have e := seen_call hc hs
      have hm : (c.static, iv.2) ∈ ((process dbg prog gen sched).thread τ).seen := by
        rw [← e]
        exact List.mem_reverse.mp (List.mem_of_getElem? hs)
      exact ⟨c, iv.2, rfl, hm, C70_crate_values dbg _ gen sched τ _ _ hm, (Option.some.inj h).symm⟩

theorem Client.length_outputs : (outputs dbg prog (process dbg prog gen sched) τ).length +
    ((process dbg prog gen sched).thread τ).todo.length = (prog τ).length := by
  have h := congrArg List.length (C70_order (crate dbg) (fun τ => (prog τ).map Call.static) gen sched τ)
  simp only [List.length_append, List.length_map, List.length_reverse] at h
  unfold outputs process
  rw [List.length_zipWith, List.length_reverse]
  omega

end

/-- **C82**, no panic and no deadlock: if all calls of all threads are legal and the generators do not run dry, then under
every schedule no thread panics, every call made so far has returned, and as long as a thread has calls to make, some
thread can move; and all calls of all threads do get made. -/
theorem C82_all_calls_return (dbg : Bool) {n : Nat} (prog : Fin n → List Call) (gen : Fin n → Gen)
    (hgen : ∀ τ, Plenty (gen τ)) (hfit : ∀ τ, ∀ c ∈ prog τ, c.Fits ∧ c.input.length ≤ 2 ^ 63) :
    (∀ sched τ, ((process dbg prog gen sched).thread τ).dead = false ∧
      none ∉ outputs dbg prog (process dbg prog gen sched) τ) ∧
    (∀ sched τ, (outputs dbg prog (process dbg prog gen sched) τ).length < (prog τ).length →
      ∃ σ s', step (crate dbg) (process dbg prog gen sched) σ = some s') ∧
    ∃ sched, ∀ τ, (outputs dbg prog (process dbg prog gen sched) τ).length = (prog τ).length := by
  refine ⟨fun sched τ => ⟨(C70_crate_progress dbg _ gen hgen sched).1 τ, fun h => ?_⟩, fun sched τ h => ?_, ?_⟩
  · obtain ⟨j, hj⟩ := List.getElem?_of_mem h
    obtain ⟨c, v, hc, -, hv, hr⟩ := output_call hj
    obtain ⟨h1, h2⟩ := hfit τ c (List.mem_of_getElem? hc)
    obtain ⟨r, h3⟩ := (C82_returns_iff dbg gen c v hv h2).mpr h1
    rw [h3] at hr
    cases hr
  · have hl := length_outputs (dbg := dbg) (prog := prog) (gen := gen) (sched := sched) (τ := τ)
    exact (C70_crate_progress dbg (fun τ => (prog τ).map Call.static) gen hgen sched).2 τ fun h0 => by
      unfold process at hl h
      rw [h0] at hl
      simp only [List.length_nil] at hl
      omega
  · obtain ⟨⟨sched, hstuck⟩, -⟩ := C70_crate_outcome dbg (fun τ => (prog τ).map Call.static) gen hgen
    refine ⟨sched, fun τ => ?_⟩
    have hl := length_outputs (dbg := dbg) (prog := prog) (gen := gen) (sched := sched) (τ := τ)
    by_cases h0 : ((process dbg prog gen sched).thread τ).todo = []
    · rw [h0] at hl
      exact hl
    · obtain ⟨σ, s', hs⟩ := (C70_crate_progress dbg (fun τ => (prog τ).map Call.static) gen hgen sched).2 τ h0
      rw [hstuck σ] at hs
      cases hs

/-- **C82**, calls agree within a process: the same call (or the optimized and the plain version of it), in whichever
threads and at whichever times, gives the same result. -/
theorem C82_agree (dbg : Bool) {n : Nat} (prog : Fin n → List Call) (gen : Fin n → Gen) (sched later : List (Fin n))
    (τ τ' : Fin n) (j j' : Nat) (c c' : Call) (hc : (prog τ)[j]? = some c) (hc' : (prog τ')[j']? = some c')
    (hsame : c.Same c') (a b : List Nat)
    (ha : (outputs dbg prog (process dbg prog gen sched) τ)[j]? = some (some a))
    (hb : (outputs dbg prog (process dbg prog gen (sched ++ later)) τ')[j']? = some (some b)) : a = b := by
  obtain ⟨c1, v, h1, hm, hv, hr⟩ := output_call ha
  obtain ⟨c2, v', h2, hm', -, hr'⟩ := output_call hb
  rw [hc] at h1
  rw [hc'] at h2
  obtain rfl := Option.some.inj h1
  obtain rfl := Option.some.inj h2
  obtain ⟨hs, ho, hx⟩ := hsame
  rw [← hs] at hm'
  obtain rfl : v = v' := C70_agree (crate dbg) _ gen sched later τ τ' c.static v v' hm hm'
  by_cases hi : IsParams c.static
  · obtain ⟨A, hA, -, -, -, he⟩ := api_of_holds hi hv
    rw [he c rfl] at hr
    rw [he c' hs.symm, ← hx] at hr'
    exact hA.same dbg ho _ hr.symm hr'.symm
  · obtain ⟨i, op, l⟩ := c
    exfalso
    cases i with
    | poseidon2 k => exact hi trivial
    | poseidon k => exact hi trivial
    | gmimc k => exact hi trivial
    | neptune k => exact hi trivial
    | _ => cases hv; cases hr

/-- **C82**, Poseidon and Poseidon2 agree across processes: whatever else two processes do - other threads, schedules,
random numbers, even another build profile -, the same call gives the same result in both. -/
theorem C82_reproducible (dbg dbg' : Bool) {n n' : Nat} (prog : Fin n → List Call) (prog' : Fin n' → List Call)
    (gen : Fin n → Gen) (gen' : Fin n' → Gen) (sched : List (Fin n)) (sched' : List (Fin n')) (τ : Fin n) (τ' : Fin n')
    (j j' : Nat) (c c' : Call) (hc : (prog τ)[j]? = some c) (hc' : (prog' τ')[j']? = some c') (hsame : c.Same c')
    (hlen : c.input.length ≤ 2 ^ 63)
    (hi : (∃ k, c.static = .poseidon k) ∨ ∃ k, c.static = .poseidon2 k) (a b : List Nat)
    (ha : (outputs dbg prog (process dbg prog gen sched) τ)[j]? = some (some a))
    (hb : (outputs dbg' prog' (process dbg' prog' gen' sched') τ')[j']? = some (some b)) : a = b := by
  obtain ⟨c1, v, h1, -, hv, hr⟩ := output_call ha
  obtain ⟨c2, v', h2, -, hv', hr'⟩ := output_call hb
  rw [hc] at h1
  rw [hc'] at h2
  obtain rfl := Option.some.inj h1
  obtain rfl := Option.some.inj h2
  obtain ⟨hs, ho, hx⟩ := hsame
  rw [← hs] at hv'
  have key : ∀ {p : Nat} {A A' : Api p}, A.Good → A'.Good → A.t = A'.t → A.zeros = A'.zeros →
      A.plain.isSome = A'.plain.isSome → (∀ x, x.length = A.t → A.perm x = A'.perm x) →
      elems p c.input = elems p c'.input → c.exec dbg v = A.exec dbg c.op (elems p c.input) →
      c'.exec dbg' v' = A'.exec dbg' c'.op (elems p c'.input) → a = b := by
    intro p A A' g g' h1 h2 h3 h4 hx e e'
    rw [e] at hr
    rw [e', ← hx, ← g.exec_congr g' h1 h2 h3 h4 dbg dbg' c'.op _ (by rw [length_elems]; exact hlen)] at hr'
    exact g.same dbg ho _ hr.symm hr'.symm
  obtain ⟨i, op, l⟩ := c
  obtain ⟨i', op', l'⟩ := c'
  obtain rfl : i = i' := hs
  rcases hi with ⟨k, rfl⟩ | ⟨k, rfl⟩
  · obtain ⟨P, hP, rfl⟩ := hv
    obtain ⟨P', hP', rfl⟩ := hv'
    refine key (poseidon_api k hP) (poseidon_api k hP') rfl rfl rfl (fun x hx => ?_) hx (by cases op <;> rfl)
      (by cases op' <;> rfl)
    obtain ⟨Q, hQ, e⟩ := C17_shipped_eq_spec _ (poseidon_mem k) dbg
    obtain ⟨Q', hQ', e'⟩ := C17_shipped_eq_spec _ (poseidon_mem k) dbg'
    obtain rfl : Q = P := Option.some.inj (hQ.symm.trans hP)
    obtain rfl : Q' = P' := Option.some.inj (hQ'.symm.trans hP')
    obtain ⟨y, rfl⟩ := eq_ofFn x hx
    exact (e y).trans (e' y).symm
  · obtain ⟨P, hP, rfl⟩ := hv
    obtain ⟨P', hP', rfl⟩ := hv'
    refine key (poseidon2_api k hP) (poseidon2_api k hP') rfl rfl rfl (fun x hx => ?_) hx (by cases op <;> rfl)
      (by cases op' <;> rfl)
    obtain ⟨Q, hQ, e⟩ := C08_shipped_eq_spec (dbg := dbg) _ (poseidon2_mem k)
    obtain ⟨Q', hQ', e'⟩ := C08_shipped_eq_spec (dbg := dbg') _ (poseidon2_mem k)
    obtain rfl : Q = P := Option.some.inj (hQ.symm.trans hP)
    obtain rfl : Q' = P' := Option.some.inj (hQ'.symm.trans hP')
    obtain ⟨y, rfl⟩ := eq_ofFn x hx
    exact (e y).trans (e' y).symm

/-- **C82**, what the calls return: in every process, at every time, there is for each parameter set one map of states
such that every call that any thread has made on it returned what that map gives. -/
theorem C82_values (dbg : Bool) {n : Nat} (prog : Fin n → List Call) (gen : Fin n → Gen) (sched : List (Fin n))
    (i : Name) :
    ∃ π : List (ZMod (modulus i)) → List (ZMod (modulus i)), (∀ x, x.length = width i → (π x).length = width i) ∧
      ∀ τ (j : Nat) c r, (prog τ)[j]? = some c → c.static = i → c.input.length ≤ 2 ^ 63 →
        (outputs dbg prog (process dbg prog gen sched) τ)[j]? = some (some r) →
        returns (width i) π c.op (elems (modulus i) c.input) r := by
  by_cases hex : ∃ τ v, (i, v) ∈ ((process dbg prog gen sched).thread τ).seen
  · obtain ⟨τ₀, v₀, hm₀⟩ := hex
    have hv₀ := C70_crate_values dbg _ gen sched τ₀ _ _ hm₀
    by_cases hi : IsParams i
    · obtain ⟨A, hA, ht, -, -, he⟩ := api_of_holds hi hv₀
      refine ⟨fun x => (A.perm x).getD [], fun x hx => ?_, fun τ j c r hc hs hlen hr => ?_⟩
      · obtain ⟨y, hy, hl⟩ := hA.total x (hx.trans ht.symm)
        show ((A.perm x).getD []).length = _
        rw [hy]
        exact hl.trans ht
      · obtain ⟨c1, v, h1, hm, -, hr⟩ := output_call hr
        rw [hc] at h1
        obtain rfl := Option.some.inj h1
        rw [hs] at hm
        obtain rfl : v₀ = v := by
          refine C70_agree (crate dbg) _ gen sched [] τ₀ τ i v₀ v hm₀ ?_
          rw [List.append_nil]
          exact hm
        rw [he c hs] at hr
        rw [← ht]
        refine hA.exec_returns _ (fun x hx => ?_) dbg c.op _ (by rw [length_elems]; exact hlen) hr.symm
        obtain ⟨y, hy, -⟩ := hA.total x hx
        exact hy.trans (congrArg (fun o => some (Option.getD o [])) hy).symm
    · refine ⟨id, fun _ hx => hx, fun τ j c r hc hs hlen hr => ?_⟩
      obtain ⟨c1, v, h1, hm, hv, hr⟩ := output_call hr
      rw [hc] at h1
      obtain rfl := Option.some.inj h1
      exact absurd ((C82_returns_iff dbg gen c v hv hlen).mp ⟨r, hr.symm⟩).1 (hs ▸ hi)
  · refine ⟨id, fun _ hx => hx, fun τ j c r hc hs hlen hr => ?_⟩
    obtain ⟨c1, v, h1, hm, hv, -⟩ := output_call hr
    rw [hc] at h1
    obtain rfl := Option.some.inj h1
    exact absurd ⟨τ, v, hs ▸ hm⟩ hex

/-- **C82**, the map of a shipped Poseidon2 parameter set is the Poseidon2 of the published constants. -/
theorem C82_values_poseidon2 (dbg : Bool) {n : Nat} (prog : Fin n → List Call) (gen : Fin n → Gen) (sched : List (Fin n))
    (k : Fin Instances.poseidon2.length) :
    let S := Instances.poseidon2[k]
    ∃ π : List (ZMod S.modulus) → List (ZMod S.modulus),
      (∀ x : Fin S.t → ZMod S.modulus, π (List.ofFn x) = List.ofFn (Spec.poseidon2 (Spec.externalMatrix S.t)
        (Spec.internalMatrix S.t (Spec.vec S.diagF)) S.d (S.rounds_f / 2) S.rounds_p (Spec.tab S.rcF) x)) ∧
      ∀ τ (j : Nat) c r, (prog τ)[j]? = some c → c.static = .poseidon2 k → c.input.length ≤ 2 ^ 63 →
        (outputs dbg prog (process dbg prog gen sched) τ)[j]? = some (some r) →
        returns S.t π c.op (elems S.modulus c.input) r := by
  intro S
  obtain ⟨P, hP, e⟩ := C08_shipped_eq_spec (dbg := dbg) _ (poseidon2_mem k)
  refine ⟨fun x => (Poseidon2.permutation dbg P x).getD [], fun x => ?_, fun τ j c r hc hs hlen hr => ?_⟩
  · exact congrArg (fun o => Option.getD o []) (e x)
  · obtain ⟨c1, v, h1, -, hv, hr⟩ := output_call hr
    rw [hc] at h1
    obtain rfl := Option.some.inj h1
    rw [hs] at hv
    obtain ⟨P', hP', rfl⟩ := hv
    obtain rfl : P = P' := Option.some.inj (hP.symm.trans hP')
    have hA := poseidon2_api k hP
    refine hA.exec_returns _ (fun x hx => ?_) dbg c.op _ (by rw [length_elems]; exact hlen)
      (Eq.trans (by obtain ⟨i, op, l⟩ := c; cases op <;> rfl) hr.symm)
    obtain ⟨y, hy, -⟩ := hA.total x hx
    exact hy.trans (congrArg (fun o => some (Option.getD o [])) hy).symm

/-- **C82**, the map of a shipped Poseidon parameter set is the Poseidon of the published constants. -/
theorem C82_values_poseidon (dbg : Bool) {n : Nat} (prog : Fin n → List Call) (gen : Fin n → Gen) (sched : List (Fin n))
    (k : Fin Instances.poseidon.length) :
    let S := Instances.poseidon[k]
    ∃ π : List (ZMod S.modulus) → List (ZMod S.modulus),
      (∀ x : Fin S.t → ZMod S.modulus, π (List.ofFn x) = List.ofFn (Spec.poseidon S.mdsMatrix S.d (S.rounds_f / 2)
        S.rounds_p (Spec.tab S.rcF) x)) ∧
      ∀ τ (j : Nat) c r, (prog τ)[j]? = some c → c.static = .poseidon k → c.input.length ≤ 2 ^ 63 →
        (outputs dbg prog (process dbg prog gen sched) τ)[j]? = some (some r) →
        returns S.t π c.op (elems S.modulus c.input) r := by
  intro S
  obtain ⟨P, hP, e⟩ := C17_shipped_eq_spec _ (poseidon_mem k) dbg
  refine ⟨fun x => (Poseidon.permutation dbg P x).getD [], fun x => ?_, fun τ j c r hc hs hlen hr => ?_⟩
  · exact congrArg (fun o => Option.getD o []) (e x)
  · obtain ⟨c1, v, h1, -, hv, hr⟩ := output_call hr
    rw [hc] at h1
    obtain rfl := Option.some.inj h1
    rw [hs] at hv
    obtain ⟨P', hP', rfl⟩ := hv
    obtain rfl : P = P' := Option.some.inj (hP.symm.trans hP')
    have hA := poseidon_api k hP
    refine hA.exec_returns _ (fun x hx => ?_) dbg c.op _ (by rw [length_elems]; exact hlen)
      (Eq.trans (by obtain ⟨i, op, l⟩ := c; cases op <;> rfl) hr.symm)
    obtain ⟨y, hy, -⟩ := hA.total x hx
    exact hy.trans (congrArg (fun o => some (Option.getD o [])) hy).symm

/-! ### The benchmark programs of the repository -/

section
open Benches

instance : DecidablePred IsParams := fun i => match i with
  | .poseidon2 _ | .poseidon _ | .gmimc _ | .neptune _ => .isTrue trivial
  | .poseidon2Diag _ | .poseidon2Internal _ | .poseidon2Rc _ | .poseidonMds _ | .poseidonRc _ => .isFalse id
instance : DecidablePred HasNotOpt := fun i => match i with
  | .poseidon _ | .gmimc _ => .isTrue trivial
  | .poseidon2 _ | .neptune _ => .isFalse id
  | .poseidon2Diag _ | .poseidon2Internal _ | .poseidon2Rc _ | .poseidonMds _ | .poseidonRc _ => .isFalse id

theorem Benches.checked : ∀ bs ∈ all, ∀ b ∈ bs, ∀ i ∈ b.statics, IsParams i ∧ width i ≤ 2 ^ 63 ∧
    (b.logSetSize = none ∧ (b.op = .permutation ∨ b.op = .permutationNotOpt ∧ HasNotOpt i) ∨
      (∃ l ≤ 63, b.logSetSize = some l) ∧ b.op = .accumulate ∧ width i = treeWidth i) := by
  have key : (all.all fun bs => bs.all fun b => b.statics.all fun i => decide (IsParams i ∧ width i ≤ 2 ^ 63 ∧
    (b.logSetSize = none ∧ (b.op = .permutation ∨ b.op = .permutationNotOpt ∧ HasNotOpt i) ∨
      b.logSetSize = some 20 ∧ b.op = .accumulate ∧ width i = treeWidth i))) = true := by decide +kernel
  intro bs hbs b hb i hi
  obtain ⟨h1, hw, h2⟩ := of_decide_eq_true
    (List.all_eq_true.mp (List.all_eq_true.mp (List.all_eq_true.mp key bs hbs) b hb) i hi)
  exact ⟨h1, hw, h2.imp id fun ⟨h, h'⟩ => ⟨⟨20, by omega, h⟩, h'⟩⟩

theorem Benches.fits {bs : List Bench} (hbs : bs ∈ all) {b : Bench} (hb : b ∈ bs) (iters : Name → Nat) (c : Call)
    (hc : c ∈ b.program iters) : c.Fits ∧ c.input.length ≤ 2 ^ 63 := by
  unfold Bench.program at hc
  rcases List.mem_append.mp hc with hc | hc
  · obtain ⟨i, hi, rfl⟩ := List.mem_map.mp hc
    exact ⟨⟨(checked bs hbs b hb i hi).1, trivial⟩, by simp⟩
  · obtain ⟨i, hi, hc⟩ := List.mem_flatMap.mp hc
    obtain rfl := List.eq_of_mem_replicate hc
    obtain ⟨h1, hle, ⟨h2, h3⟩ | ⟨⟨l, hl, h2⟩, h3, h4⟩⟩ := checked bs hbs b hb i hi
    · unfold Bench.call Call.Fits
      rw [h2]
      rcases h3 with h3 | ⟨h3, h4⟩
      · simp only [h3, List.length_range]
        exact ⟨⟨h1, trivial⟩, hle⟩
      · simp only [h3, List.length_range]
        exact ⟨⟨h1, h4, trivial⟩, hle⟩
    · have hle : 1 <<< l ≤ 2 ^ 63 := by
        rw [Nat.one_shiftLeft]
        exact Nat.pow_le_pow_right (by omega) hl
      unfold Bench.call Call.Fits
      rw [h2]
      simp only [h3, List.length_range]
      refine ⟨⟨h1, h4, ?_⟩, hle⟩
      rw [Ne, List.range_eq_nil, Nat.one_shiftLeft]
      exact (Nat.two_pow_pos l).ne'

/-- **C82**, the benchmark programs: each of them, whatever numbers of iterations Criterion chooses, runs through all its
calls without a panic, and all measured calls of one method on one parameter set - or of the plain and the optimized
version - give the same result. -/
theorem C82_benches (dbg : Bool) (bs : List Bench) (hbs : bs ∈ Benches.all) (iters : Bench → Name → Nat) (gen : Gen)
    (hgen : Plenty gen) :
    let prog : Fin 1 → List Call := fun _ => bs.flatMap fun b => b.program (iters b)
    let s := fun steps => process dbg prog (fun _ => gen) (List.replicate steps 0)
    (∀ steps, ((s steps).thread 0).dead = false ∧ none ∉ outputs dbg prog (s steps) 0) ∧
    (∃ steps, (outputs dbg prog (s steps) 0).length = (prog 0).length) ∧
    ∀ steps more, ∀ b ∈ bs, ∀ b' ∈ bs, ∀ i, SameOp b.op b'.op → b.logSetSize = b'.logSetSize →
      ∀ (j j' : Nat) (r r' : List Nat), (prog 0)[j]? = some (b.call i) → (prog 0)[j']? = some (b'.call i) →
        (outputs dbg prog (s steps) 0)[j]? = some (some r) →
        (outputs dbg prog (s (steps + more)) 0)[j']? = some (some r') → r = r' := by
  intro prog s
  have hfit : ∀ τ, ∀ c ∈ prog τ, c.Fits ∧ c.input.length ≤ 2 ^ 63 := fun τ c hc => by
    obtain ⟨b, hb, hc⟩ := List.mem_flatMap.mp hc
    exact Benches.fits hbs hb (iters b) c hc
  obtain ⟨h1, -, sched, h3⟩ := C82_all_calls_return dbg prog (fun _ => gen) (fun _ => hgen) hfit
  refine ⟨fun steps => h1 _ 0, ⟨sched.length, ?_⟩, fun steps more b hb b' hb' i ho hl j j' r r' hj hj' hr hr' => ?_⟩
  · rw [show s sched.length = process dbg prog (fun _ => gen) sched from
      congrArg _ (List.eq_replicate_iff.mpr ⟨rfl, fun x _ => Subsingleton.elim _ _⟩).symm]
    exact h3 0
  · refine C82_agree dbg prog (fun _ => gen) (List.replicate steps 0) (List.replicate more 0) 0 0 j j' _ _ hj hj' ?_ r r' hr ?_
    · unfold Bench.call
      rw [hl]
      cases b'.logSetSize <;> exact ⟨rfl, ho, rfl⟩
    · rw [List.replicate_append_replicate]
      exact hr'

end

/-! ### Concrete cases -/

/-- Two threads with `GMIMC_BLS_3_PARAMS`, `POSEIDON2_BN256_PARAMS` and `NEPTUNE_BLS_4_PARAMS`: the optimized and the plain
permutation, and trees of three leaves. -/
private def clients : Fin 2 → List Call :=
  ![[⟨.gmimc ⟨7, by decide⟩, .permutation, [1, 2, 3]⟩, ⟨.poseidon2 ⟨10, by decide⟩, .accumulate, [4, 5, 6]⟩],
    [⟨.gmimc ⟨7, by decide⟩, .new, []⟩, ⟨.gmimc ⟨7, by decide⟩, .permutationNotOpt, [1, 2, 3]⟩,
      ⟨.neptune ⟨1, by decide⟩, .accumulate, [7, 8, 9]⟩]]

private theorem clients_fit : ∀ τ, ∀ c ∈ clients τ, c.Fits ∧ c.input.length ≤ 2 ^ 63 := by
  have key : ∀ c ∈ clients 0 ++ clients 1, c.Fits ∧ c.input.length ≤ 2 ^ 63 := by
    intro c hc
    simp only [clients, Matrix.cons_val_zero, Matrix.cons_val_one, List.cons_append, List.nil_append, List.mem_cons,
      List.not_mem_nil, or_false] at hc
    rcases hc with rfl | rfl | rfl | rfl | rfl
    · exact ⟨⟨trivial, by decide +kernel⟩, by decide⟩
    · exact ⟨⟨trivial, by decide +kernel, by decide⟩, by decide⟩
    · exact ⟨⟨trivial, trivial⟩, by decide⟩
    · exact ⟨⟨trivial, trivial, by decide +kernel⟩, by decide⟩
    · exact ⟨⟨trivial, by decide +kernel, by decide⟩, by decide⟩
  intro τ c hc
  refine key c (List.mem_append.mpr ?_)
  fin_cases τ
  · exact Or.inl hc
  · exact Or.inr hc

private theorem ones_plenty : Plenty fun _ _ => 1 := by
  intro f hf m
  have : Fact f.1.Prime := ⟨declared_prime (List.mem_map_of_mem hf)⟩
  exact ⟨m, le_refl m, one_ne_zero⟩

/-- All five calls return, and the optimized permutation of the first thread agrees with the plain one of the second. -/
example (dbg : Bool) : ∃ sched, ∃ a b : List Nat,
    (outputs dbg clients (process dbg clients (fun _ _ _ => 1) sched) 0).length = 2 ∧
    (outputs dbg clients (process dbg clients (fun _ _ _ => 1) sched) 1).length = 3 ∧
    (outputs dbg clients (process dbg clients (fun _ _ _ => 1) sched) 0)[0]? = some (some a) ∧
    (outputs dbg clients (process dbg clients (fun _ _ _ => 1) sched) 1)[1]? = some (some b) ∧ a = b := by
  obtain ⟨h1, -, sched, h3⟩ := C82_all_calls_return dbg clients (fun _ _ _ => 1) (fun _ => ones_plenty) clients_fit
  have hget : ∀ (τ : Fin 2) (j : Nat), j < (clients τ).length → ∃ a,
      (outputs dbg clients (process dbg clients (fun _ _ _ => 1) sched) τ)[j]? = some (some a) := fun τ j hj => by
    rw [← h3 τ] at hj
    cases ho : (outputs dbg clients (process dbg clients (fun _ _ _ => 1) sched) τ)[j]? with
    | none => exact absurd (List.getElem?_eq_none_iff.mp ho) (by omega)
    | some r =>
      cases r with
      | none => exact absurd (List.mem_of_getElem? ho) (h1 sched τ).2
      | some a => exact ⟨a, rfl⟩
  obtain ⟨a, ha⟩ := hget 0 0 (by decide)
  obtain ⟨b, hb⟩ := hget 1 1 (by decide)
  refine ⟨sched, a, b, h3 0, h3 1, ha, hb, C82_agree dbg clients _ sched [] 0 1 0 1 _ _ rfl rfl ?_ a b ha
    (by rw [List.append_nil]; exact hb)⟩
  exact ⟨rfl, Or.inr (Or.inl ⟨rfl, rfl⟩), rfl⟩

/-- A call that does not fit: two elements for a permutation of width three. -/
example : ¬ (Call.mk (.poseidon2 ⟨10, by decide⟩) .permutation [1, 2]).Fits := fun h =>
  absurd h.2 (by decide +kernel)

/-- With three iterations each, `benches/mt_bn256.rs` makes twelve calls, nine of them on trees of `2 ^ 20` leaves. -/
example : (Benches.mt_bn256.flatMap fun b => b.program fun _ => 3).length = 12 ∧
    ∀ b ∈ Benches.mt_bn256, ∀ i, (b.call i).op = .accumulate ∧ (b.call i).input.length = 2 ^ 20 := by
  refine ⟨rfl, fun b hb i => ?_⟩
  have h : b.logSetSize = some 20 ∧ b.op = .accumulate := by
    simp only [Benches.mt_bn256, List.mem_cons, List.not_mem_nil, or_false] at hb
    rcases hb with rfl | rfl | rfl <;> exact ⟨rfl, rfl⟩
  unfold Benches.Bench.call
  rw [h.1]
  exact ⟨h.2, by rw [List.length_range, Nat.one_shiftLeft]⟩

end ZkHash

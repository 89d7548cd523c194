import Verif.Spec.Client
import Verif.Theorems.Statics

set_option autoImplicit false

/-!
# Calls on the shipped parameter sets: proofs for C82
-/

namespace ZkHash.Client

open Statics Merkle Spec

theorem length_elems (p : Nat) (l : List Nat) : (elems p l).length = l.length := List.length_map _

theorem two_of_length {α : Type*} {l : List α} (h : 2 ≤ l.length) : ∃ a b rest, l = a :: b :: rest := by
  match l, h with
  | a :: b :: rest, _ => exact ⟨a, b, rest, rfl⟩

/-- What the calls of one parameter set depend on: a permutation, its plain version and the compression. -/
structure Api (p : Nat) where
  t : Nat
  zeros : Nat
  perm : List (ZMod p) → Option (List (ZMod p))
  plain : Option (List (ZMod p) → Option (List (ZMod p)))
  compress : List (ZMod p) → Option (ZMod p)

def Api.exec {p : Nat} (A : Api p) (dbg : Bool) (op : Op) (x : List (ZMod p)) : Option (List Nat) :=
  match op with
  | .new => some []
  | .permutation => (A.perm x).map ints
  | .permutationNotOpt => (A.plain.bind fun f => f x).map ints
  | .compress => (A.compress x).map fun y => ints [y]
  | .accumulate => (accumulate dbg A.compress x).map fun y => ints [y]

/-- A permutation that returns exactly on the states of its width, whose compression is its first word on two elements
and zeros. -/
structure Api.Good {p : Nat} (A : Api p) : Prop where
  total : ∀ x, x.length = A.t → ∃ y, A.perm x = some y ∧ y.length = A.t
  wrong : ∀ x, x.length ≠ A.t → A.perm x = none
  plain_eq : ∀ f, A.plain = some f → ∀ x, f x = A.perm x
  short : ∀ x, x.length < 2 → A.compress x = none
  comp : ∀ a b rest, A.compress (a :: b :: rest) = (A.perm (a :: b :: List.replicate A.zeros 0)).bind List.head?

variable {p n : Nat}

theorem Api.Good.compress_some {A : Api p} (h : A.Good) (ht : A.t = A.zeros + 2) (a b : ZMod p) (rest : List (ZMod p)) :
    ∃ y, A.compress (a :: b :: rest) = some y := by
  obtain ⟨y, hy, hl⟩ := h.total (a :: b :: List.replicate A.zeros 0) (by simp [ht])
  rw [h.comp, hy, Option.bind_some]
  cases y with
  | nil => rw [ht] at hl; simp at hl
  | cons z y => exact ⟨z, rfl⟩

theorem Api.Good.compress_none {A : Api p} (h : A.Good) (ht : A.t ≠ A.zeros + 2) (x : List (ZMod p)) :
    A.compress x = none := by
  by_cases h2 : 2 ≤ x.length
  · obtain ⟨a, b, rest, rfl⟩ := two_of_length h2
    rw [h.comp, h.wrong _ (by simp; omega), Option.bind_none]
  · exact h.short x (by omega)

theorem Api.Good.exec_isSome_iff {A : Api p} (h : A.Good) (dbg : Bool) (op : Op) (x : List (ZMod p))
    (hlen : x.length ≤ 2 ^ 63) :
    (A.exec dbg op x).isSome ↔ match (generalizing := false) op with
      | .new => True
      | .permutation => x.length = A.t
      | .permutationNotOpt => A.plain.isSome ∧ x.length = A.t
      | .compress => A.t = A.zeros + 2 ∧ 2 ≤ x.length
      | .accumulate => A.t = A.zeros + 2 ∧ x ≠ [] := by
  have hperm : (A.perm x).isSome ↔ x.length = A.t := by
    by_cases hx : x.length = A.t
    · obtain ⟨y, hy, -⟩ := h.total x hx
      simp [hy, hx]
    · simp [h.wrong x hx, hx]
  cases op with
  | new => simp [Api.exec]
  | permutation => simpa only [Api.exec, Option.isSome_map] using hperm
  | permutationNotOpt =>
    simp only [Api.exec, Option.isSome_map]
    cases hp : A.plain with
    | none => simp
    | some f => simpa [h.plain_eq f hp x] using hperm
  | compress =>
    simp only [Api.exec, Option.isSome_map]
    by_cases ht : A.t = A.zeros + 2
    · by_cases h2 : 2 ≤ x.length
      · obtain ⟨a, b, rest, rfl⟩ := two_of_length h2
        obtain ⟨y, hy⟩ := h.compress_some ht a b rest
        simp [hy, ht]
      · rw [h.short x (by omega)]
        simp; omega
    · simp [h.compress_none ht, ht]
  | accumulate =>
    simp only [Api.exec, Option.isSome_map]
    by_cases hne : x = []
    · subst hne
      have : accumulate dbg A.compress [] = none := by unfold accumulate; rw [paddedNodes_nil]; rfl
      simp [this]
    · by_cases ht : A.t = A.zeros + 2
      · have := C35_nonempty dbg A.compress (fun a b => by
          obtain ⟨y, hy⟩ := h.compress_some ht a b []; rw [hy]; rfl) x hne hlen
        simp [this, ht, hne]
      · rw [accumulate_eq dbg A.compress hne hlen, tree_eq_treeLv,
          treeLv_none _ _ 0 (depth_pos _) (fun a b => h.compress_none ht _)]
        simp [ht]

theorem Api.Good.same {A : Api p} (h : A.Good) (dbg : Bool) {op op' : Op} (ho : SameOp op op') (x : List (ZMod p))
    {a b : List Nat} (ha : A.exec dbg op x = some a) (hb : A.exec dbg op' x = some b) : a = b := by
  have hp : ∀ {u v : List Nat}, A.exec dbg .permutation x = some u → A.exec dbg .permutationNotOpt x = some v → u = v := by
    intro u v hu hv
    simp only [Api.exec] at hu hv
    cases hq : A.plain with
    | none => rw [hq] at hv; cases hv
    | some f =>
      rw [hq, Option.bind_some, h.plain_eq f hq, hu] at hv
      exact Option.some.inj hv
  rcases ho with rfl | ⟨rfl, rfl⟩ | ⟨rfl, rfl⟩
  · rw [ha] at hb
    exact Option.some.inj hb
  · exact hp ha hb
  · exact (hp hb ha).symm

theorem Api.Good.exec_congr {A A' : Api p} (h : A.Good) (h' : A'.Good) (ht : A.t = A'.t) (hz : A.zeros = A'.zeros)
    (hpl : A.plain.isSome = A'.plain.isSome) (he : ∀ x, x.length = A.t → A.perm x = A'.perm x) (dbg dbg' : Bool) (op : Op)
    (x : List (ZMod p)) (hlen : x.length ≤ 2 ^ 63) : A.exec dbg op x = A'.exec dbg' op x := by
  have hp : A.perm = A'.perm := by
    funext x
    by_cases hx : x.length = A.t
    · exact he x hx
    · rw [h.wrong x hx, h'.wrong x (by rwa [← ht])]
  have hc : A.compress = A'.compress := by
    funext x
    by_cases h2 : 2 ≤ x.length
    · obtain ⟨a, b, rest, rfl⟩ := two_of_length h2
      rw [h.comp, h'.comp, hp, hz]
    · rw [h.short x (by omega), h'.short x (by omega)]
  cases op with
  | new => rfl
  | permutation => simp only [Api.exec, hp]
  | permutationNotOpt =>
    simp only [Api.exec]
    cases hq : A.plain with
    | none =>
      cases hq' : A'.plain with
      | none => rfl
      | some f => rw [hq, hq'] at hpl; cases hpl
    | some f =>
      cases hq' : A'.plain with
      | none => rw [hq, hq'] at hpl; cases hpl
      | some f' => rw [Option.bind_some, Option.bind_some, h.plain_eq f hq, h'.plain_eq f' hq', hp]
  | compress => simp only [Api.exec, hc]
  | accumulate =>
    simp only [Api.exec, hc]
    by_cases hne : x = []
    · subst hne
      rw [(C35_empty (σ := Unit) dbg A'.compress (fun _ => A'.compress) ⟨(), fun _ _ => (), fun _ => (0, ())⟩ ()).1,
        (C35_empty (σ := Unit) dbg' A'.compress (fun _ => A'.compress) ⟨(), fun _ _ => (), fun _ => (0, ())⟩ ()).1]
    · rw [accumulate_eq dbg A'.compress hne hlen, accumulate_eq dbg' A'.compress hne hlen]

/-- The values that the calls return, in terms of the permutation. -/
theorem Api.Good.exec_returns {A : Api p} (h : A.Good) (π : List (ZMod p) → List (ZMod p))
    (hπ : ∀ x, x.length = A.t → A.perm x = some (π x)) (dbg : Bool) (op : Op) (x : List (ZMod p))
    (hlen : x.length ≤ 2 ^ 63) {r : List Nat} (hr : A.exec dbg op x = some r) : returns A.t π op x r := by
  have hsome : (A.exec dbg op x).isSome := by rw [hr]; rfl
  have hfit := (h.exec_isSome_iff dbg op x hlen).mp hsome
  have hpair : A.t = A.zeros + 2 → ∀ a b rest, A.compress (a :: b :: rest) = pairOf A.t π a b := fun ht a b rest => by
    rw [h.comp, hπ _ (by simp [ht]), Option.bind_some, pairOf, ht, Nat.add_sub_cancel]
  cases op with
  | new => exact (Option.some.inj hr).symm
  | permutation =>
    simp only [Api.exec] at hr
    rw [hπ x hfit] at hr
    exact (Option.some.inj hr).symm
  | permutationNotOpt =>
    simp only [Api.exec] at hr
    cases hq : A.plain with
    | none => rw [hq] at hr; cases hr
    | some f =>
      rw [hq, Option.bind_some, h.plain_eq f hq, hπ x hfit.2] at hr
      exact (Option.some.inj hr).symm
  | compress =>
    obtain ⟨a, b, rest, rfl⟩ := two_of_length hfit.2
    simp only [Api.exec] at hr
    obtain ⟨y, hy, rfl⟩ := Option.map_eq_some_iff.mp hr
    exact ⟨a, b, rest, y, rfl, (hpair hfit.1 a b rest).symm.trans hy, rfl⟩
  | accumulate =>
    simp only [Api.exec] at hr
    obtain ⟨y, hy, rfl⟩ := Option.map_eq_some_iff.mp hr
    rw [accumulate_eq dbg A.compress hfit.2 hlen, show (fun a b => A.compress [a, b]) = pairOf A.t π from
      funext fun a => funext fun b => hpair hfit.1 a b []] at hy
    exact ⟨hfit.2, y, hy, rfl⟩

/-- From a permutation that returns on the states of one width and panics on all states but those of its own. -/
theorem wrong_of {t t' : Nat} {f : List (ZMod p) → Option (List (ZMod p))}
    (htot : ∀ x, x.length = t → ∃ y, f x = some y ∧ y.length = t) (hw : ∀ x, x.length ≠ t' → f x = none) :
    ∀ x, x.length ≠ t → f x = none := by
  have : t = t' := by
    by_contra hne
    obtain ⟨y, hy, -⟩ := htot (List.replicate t 0) (by simp)
    rw [hw _ (by simpa using hne)] at hy
    cases hy
  rwa [this]

/-! ### The four hashes -/

theorem poseidon2_api {dbg : Bool} (k : Fin Instances.poseidon2.length)
    {P : Poseidon2Params (ZMod Instances.poseidon2[k].modulus)} (hP : Instances.poseidon2[k].params dbg = some P) :
    Api.Good ⟨Instances.poseidon2[k].t, 1, Poseidon2.permutation dbg P, none, Poseidon2.compress dbg P⟩ := by
  obtain ⟨P', hP', hp, -⟩ := C08_shipped_bijective (dbg := dbg) _ (poseidon2_mem k)
  obtain rfl : P' = P := by rw [hP] at hP'; exact (Option.some.inj hP').symm
  have htot : ∀ x, x.length = Instances.poseidon2[k].t → ∃ y, Poseidon2.permutation dbg P' x = some y ∧
      y.length = Instances.poseidon2[k].t := fun x hx => by
    obtain ⟨y, h1, h2⟩ := hp x hx
    exact ⟨y, h2, h1⟩
  refine ⟨htot, wrong_of htot fun x hx => C04_permutation_guards P' x (Or.inl hx), fun f hf => (by cases hf),
    fun x hx => C42_poseidon2_panics P' x (Or.inl hx), fun a b rest => ?_⟩
  cases hq : Poseidon2.permutation dbg P' [a, b, 0] with
  | none =>
    show _ = Option.bind (Poseidon2.permutation dbg P' [a, b, 0]) _
    rw [hq]
    exact (C42_poseidon2 P' a b rest).2 hq
  | some out =>
    obtain ⟨y, h1, h2⟩ := (C42_poseidon2 P' a b rest).1 out hq
    show _ = Option.bind (Poseidon2.permutation dbg P' [a, b, 0]) _
    rw [hq, Option.bind_some, h1]
    exact h2

theorem poseidon_api {dbg : Bool} (k : Fin Instances.poseidon.length)
    {P : PoseidonParams (ZMod Instances.poseidon[k].modulus)} (hP : Instances.poseidon[k].params dbg = some P) :
    Api.Good ⟨Instances.poseidon[k].t, 1, Poseidon.permutation dbg P, some (Poseidon.permutationNotOpt dbg P),
      Poseidon.compress dbg P⟩ := by
  obtain ⟨P', hP', he, hp, -⟩ := C17_shipped _ (poseidon_mem k) dbg
  obtain rfl : P' = P := by rw [hP] at hP'; exact (Option.some.inj hP').symm
  have htot : ∀ x, x.length = Instances.poseidon[k].t → ∃ y, Poseidon.permutation dbg P' x = some y ∧
      y.length = Instances.poseidon[k].t := fun x hx => by
    obtain ⟨y, h1, h2⟩ := hp x hx
    exact ⟨y, h2, h1⟩
  exact ⟨htot, wrong_of htot fun x hx => (C16_wrong_length dbg P' x hx).1,
    fun f hf x => by rw [← Option.some.inj hf]; exact (he x).symm,
    fun x hx => C42_poseidon_panics dbg P' x (Or.inl hx), fun a b rest => C42_poseidon dbg P' a b rest⟩

instance (k : Fin Instances.gmimc.length) : Fact Instances.gmimc[k].modulus.Prime :=
  ⟨(gmimc_good _ (gmimc_mem k)).1⟩

theorem gmimc_api (dbg : Bool) (k : Fin Instances.gmimc.length) (s : List (ZMod Instances.gmimc[k].modulus))
    (hs : s.length = Instances.gmimc[k].rounds_f) {P : GmimcParams (ZMod Instances.gmimc[k].modulus)}
    (hP : P = ⟨Instances.gmimc[k].t, Instances.gmimc[k].d, Instances.gmimc[k].rounds_f, s⟩) :
    Api.Good ⟨Instances.gmimc[k].t, 1, Gmimc.permutation dbg P, some (Gmimc.permutationNotOpt dbg P),
      Gmimc.compress dbg P⟩ := by
  obtain ⟨P', hP', he, hp, -⟩ := C55_gmimc _ (gmimc_mem k) dbg s hs.ge
  rw [List.drop_of_length_le hs.le] at hP'
  obtain rfl : P' = P := by rw [hP]; exact (gmimc_new_eq hP').1
  have htot : ∀ x, x.length = Instances.gmimc[k].t → ∃ y, Gmimc.permutation dbg P' x = some y ∧
      y.length = Instances.gmimc[k].t := fun x hx => by
    obtain ⟨y, h1, h2⟩ := hp x hx
    exact ⟨y, h2, h1⟩
  exact ⟨htot, wrong_of htot fun x hx => (C21_wrong_length dbg P' x hx).1,
    fun f hf x => by rw [← Option.some.inj hf]; exact (he x).symm,
    fun x hx => C42_gmimc_panics dbg P' x (Or.inl hx), fun a b rest => C42_gmimc dbg P' a b rest⟩

theorem neptune_api {dbg : Bool} (k : Fin Instances.neptune.length) {s r : List (ZMod Instances.neptune[k].modulus)}
    {P : NeptuneParams (ZMod Instances.neptune[k].modulus)}
    (hP : NeptuneParams.new dbg Instances.neptune[k].t Instances.neptune[k].d Instances.neptune[k].rounds_f
      Instances.neptune[k].rounds_p s = some (P, r)) :
    Api.Good ⟨Instances.neptune[k].t, 2, Neptune.permutation dbg P, none, Neptune.compress dbg P⟩ := by
  have htot : ∀ x, x.length = Instances.neptune[k].t → ∃ y, Neptune.permutation dbg P x = some y ∧
      y.length = Instances.neptune[k].t := fun x hx => C55_neptune _ (neptune_mem k) hP x hx
  exact ⟨htot, wrong_of htot fun x hx => C25_wrong_length P x hx, fun f hf => (by cases hf),
    fun x hx => C42_neptune_panics P x (Or.inl hx), fun a b rest => C42_neptune P a b rest⟩

/-- A parameter set as the calls see it. -/
theorem api_of_holds {dbg : Bool} {gen : Fin n → Gen} {i : Name} {v : Value} (hi : IsParams i) (hv : Holds dbg gen i v) :
    ∃ A : Api (modulus i), A.Good ∧ A.t = width i ∧ A.zeros + 2 = treeWidth i ∧ (A.plain.isSome ↔ HasNotOpt i) ∧
      ∀ c : Call, c.static = i → c.exec dbg v = A.exec dbg c.op (elems (modulus i) c.input) := by
  cases i with
  | poseidon2 k =>
    obtain ⟨P, hP, rfl⟩ := hv
    refine ⟨_, poseidon2_api k hP, rfl, rfl, ⟨fun h => (by cases h), False.elim⟩, fun c _ => ?_⟩
    obtain ⟨_, op, _⟩ := c
    cases op <;> rfl
  | poseidon k =>
    obtain ⟨P, hP, rfl⟩ := hv
    refine ⟨_, poseidon_api k hP, rfl, rfl, ⟨fun _ => trivial, fun _ => rfl⟩, fun c _ => ?_⟩
    obtain ⟨_, op, _⟩ := c
    cases op <;> rfl
  | gmimc k =>
    obtain ⟨τ, m, rfl⟩ := hv
    refine ⟨_, gmimc_api dbg k ((List.range Instances.gmimc[k].rounds_f).map fun i => gen τ Instances.gmimc[k].modulus (m + i))
      (by simp) rfl, rfl, rfl, ⟨fun _ => trivial, fun _ => rfl⟩, fun c _ => ?_⟩
    obtain ⟨_, op, _⟩ := c
    cases op <;> rfl
  | neptune k =>
    obtain ⟨τ, m, l, P, hP, rfl⟩ := hv
    refine ⟨_, neptune_api k hP, rfl, rfl, ⟨fun h => (by cases h), False.elim⟩, fun c _ => ?_⟩
    obtain ⟨_, op, _⟩ := c
    cases op <;> rfl
  | _ => exact hi.elim

end ZkHash.Client

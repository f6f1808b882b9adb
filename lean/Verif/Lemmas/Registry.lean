import Verif.Lemmas.Lookup
import Verif.Spec.Registry
/-!
# Invariants of reachable unit systems
-/

namespace Verif
open Spec (Collides IsName IsAlias Query)

theorem mem_nameKeys {n : Option Name} {k : Str} :
    k ∈ nameKeys n ↔ ∃ m, n = some m ∧ (k = m.singular ∨ (m.plural = some k ∧ k ≠ [])) := by
  cases n with
  | none => simp [nameKeys]
  | some m =>
    obtain ⟨sg, pl⟩ := m
    cases pl with
    | none => simp [nameKeys, truthy]
    | some p =>
      cases p with
      | nil =>
        simp only [nameKeys, truthy, List.mem_singleton]
        constructor
        · intro h; exact ⟨_, rfl, Or.inl h⟩
        · rintro ⟨m, hm, h⟩
          cases hm
          rcases h with h | ⟨h, h'⟩
          · exact h
          · cases h; exact absurd rfl h'
      | cons c p =>
        simp only [nameKeys, truthy, List.mem_cons, List.not_mem_nil, or_false]
        constructor
        · rintro (h | h)
          · exact ⟨_, rfl, Or.inl h⟩
          · exact ⟨_, rfl, Or.inr ⟨by rw [h], by rw [h]; simp⟩⟩
        · rintro ⟨m, hm, h⟩
          cases hm
          rcases h with h | ⟨h, h'⟩
          · exact Or.inl h
          · cases h; exact Or.inr rfl

theorem mem_nameKeys_iff {ref : UnitReference} {k : Str} : k ∈ nameKeys ref.name ↔ IsName ref k :=
  mem_nameKeys

theorem mem_aliasKeys_iff {ref : UnitReference} {k : Str} :
    k ∈ aliasKeys ref.aliasNames ↔ IsAlias ref k := by
  unfold aliasKeys IsAlias
  rw [List.mem_flatMap]
  constructor
  · rintro ⟨n, hn, h⟩
    obtain ⟨m, hm, h⟩ := mem_nameKeys.1 h
    cases hm
    exact ⟨_, hn, h⟩
  · rintro ⟨n, hn, h⟩
    exact ⟨n, hn, mem_nameKeys.2 ⟨n, rfl, h⟩⟩

theorem collision_eq_none {s : System} {ref : UnitReference} :
    s.collision ref = none ↔ ¬ Collides s ref := by
  unfold System.collision Collides
  constructor
  · intro h
    cases h1 : (nameKeys ref.name).find? (fun k => Dict.has k s.names) with
    | some k => rw [h1] at h; simp at h
    | none =>
      rw [h1] at h
      simp only at h
      rw [List.find?_eq_none] at h h1
      rintro (⟨n, hn, h2⟩ | ⟨y, hy, h2⟩)
      · rcases h2 with h2 | ⟨p, hp, hp', h2⟩
        · exact h1 _ (mem_nameKeys.2 ⟨n, hn, Or.inl rfl⟩) h2
        · exact h1 p (mem_nameKeys.2 ⟨n, hn, Or.inr ⟨hp, hp'⟩⟩) h2
      · exact h y hy h2
  · intro h
    have h1 : (nameKeys ref.name).find? (fun k => Dict.has k s.names) = none := by
      rw [List.find?_eq_none]
      intro k hk hh
      obtain ⟨m, hm, hk'⟩ := mem_nameKeys.1 hk
      apply h; left
      refine ⟨m, hm, ?_⟩
      rcases hk' with rfl | ⟨a, b⟩
      · exact Or.inl hh
      · exact Or.inr ⟨k, a, b, hh⟩
    rw [h1]
    simp only
    rw [List.find?_eq_none]
    intro k hk hh
    exact h (Or.inr ⟨k, hk, hh⟩)

theorem addUnit_ok {s : System} {e : Entry} {rep : Bool} {s' : System}
    (h : s.addUnit e rep = (.ok (), s')) :
    ∃ ref, s.namesOf e = .ok ref ∧ s' = s.register ref e ∧ (rep = false → ¬ Collides s ref) := by
  unfold System.addUnit at h
  cases hn : s.namesOf e with
  | error err => rw [hn] at h; simp at h
  | ok ref =>
    rw [hn] at h
    simp only at h
    cases rep with
    | true => simp at h; exact ⟨ref, rfl, h.symm, by simp⟩
    | false =>
      simp only [Bool.false_eq_true, if_false] at h
      cases hc : s.collision ref with
      | some k => rw [hc] at h; simp at h
      | none =>
        rw [hc] at h
        simp at h
        exact ⟨ref, rfl, h.symm, fun _ => collision_eq_none.1 hc⟩

/-! ## The invariant -/

/-- All spellings of `ref` are registered (to something). -/
structure Covered (s : System) (ref : UnitReference) : Prop where
  names : ∀ k ∈ nameKeys ref.name, (Dict.get k s.names).isSome
  symbols : ∀ k ∈ ref.symbols, (Dict.get k s.symbols).isSome
  aliasNames : ∀ k ∈ aliasKeys ref.aliasNames, (Dict.get k s.aliasNames).isSome
  aliasSymbols : ∀ k ∈ ref.aliasSymbols, (Dict.get k s.aliasSymbols).isSome

/-- Every table entry that is a lazily defined unit exists and has all its spellings registered;
a resolved unit carries the names of the lazily defined unit. -/
structure SysOk (s : System) : Prop where
  heapOk : ∀ (id : Nat) (o : LazyObj) (r : Ref), s.heap[id]? = some o → o.resolved = some r →
    ∃ d refs, r = .unit (some o.names) d refs
  names : ∀ k id, Dict.get k s.names = some (.lazy id) → ∃ o : LazyObj, s.heap[id]? = some o ∧ Covered s o.names
  symbols : ∀ k id, Dict.get k s.symbols = some (.lazy id) → ∃ o : LazyObj, s.heap[id]? = some o ∧ Covered s o.names
  aliasNames : ∀ k id, Dict.get k s.aliasNames = some (.lazy id) →
    ∃ o : LazyObj, s.heap[id]? = some o ∧ Covered s o.names
  aliasSymbols : ∀ k id, Dict.get k s.aliasSymbols = some (.lazy id) →
    ∃ o : LazyObj, s.heap[id]? = some o ∧ Covered s o.names

theorem SysOk.empty : SysOk System.empty := by
  constructor <;> simp [System.empty, Dict.get]

theorem Covered.register {s : System} {ref ref' : UnitReference} {e : Entry} (h : Covered s ref) :
    Covered (s.register ref' e) ref := by
  constructor
  · intro k hk
    show (Dict.get k (setAll _ _ _)).isSome
    rw [get_setAll]; split
    · rfl
    · exact h.names k hk
  · intro k hk
    show (Dict.get k (setAll _ _ _)).isSome
    rw [get_setAll]; split
    · rfl
    · exact h.symbols k hk
  · intro k hk
    show (Dict.get k (setAll _ _ _)).isSome
    rw [get_setAll]; split
    · rfl
    · exact h.aliasNames k hk
  · intro k hk
    show (Dict.get k (setAll _ _ _)).isSome
    rw [get_setAll]; split
    · rfl
    · exact h.aliasSymbols k hk

theorem Covered.self {s : System} {ref : UnitReference} {e : Entry} :
    Covered (s.register ref e) ref := by
  constructor <;> intro k hk <;> show (Dict.get k (setAll _ _ _)).isSome <;>
    rw [get_setAll, if_pos hk] <;> rfl

theorem SysOk.register {s : System} (h : SysOk s) {ref : UnitReference} {e : Entry}
    (he : ∀ id, e = .lazy id → ∃ o : LazyObj, s.heap[id]? = some o ∧ o.names = ref) :
    SysOk (s.register ref e) := by
  have key : ∀ (keys : List Str) (d : Dict Str Entry),
      (∀ k id, Dict.get k d = some (.lazy id) → ∃ o : LazyObj, s.heap[id]? = some o ∧ Covered s o.names) →
      ∀ k id, Dict.get k (setAll keys e d) = some (.lazy id) →
        ∃ o : LazyObj, s.heap[id]? = some o ∧ Covered (s.register ref e) o.names := by
    intro keys d hd k id hk
    rw [get_setAll] at hk
    split at hk
    · obtain ⟨o, ho, rfl⟩ := he id (by simpa using hk)
      exact ⟨o, ho, Covered.self⟩
    · obtain ⟨o, ho, hc⟩ := hd k id hk
      exact ⟨o, ho, hc.register⟩
  exact ⟨h.heapOk, key _ _ h.names, key _ _ h.symbols, key _ _ h.aliasNames, key _ _ h.aliasSymbols⟩

theorem SysOk.setResolved {s : System} (h : SysOk s) {id : Nat} {r : Ref} {o : LazyObj}
    (ho : s.heap[id]? = some o) (hr : ∃ d refs, r = .unit (some o.names) d refs) :
    SysOk (s.setResolved id r) := by
  have hh : ∀ i, (s.setResolved id r).heap[i]? =
      if id = i then (s.heap[i]?).map (fun o => { o with resolved := some r }) else s.heap[i]? := by
    intro i
    show (s.heap.modify id _)[i]? = _
    rw [List.getElem?_modify]
    by_cases hi : id = i
    · subst hi; simp
    · simp [hi]
  have key : ∀ i : Nat, (∃ o : LazyObj, s.heap[i]? = some o ∧ Covered s o.names) →
      ∃ o : LazyObj, (s.setResolved id r).heap[i]? = some o ∧ Covered (s.setResolved id r) o.names := by
    rintro i ⟨o', ho', hc⟩
    rw [hh, ho']
    by_cases hi : id = i
    · simp only [hi, if_true, Option.map_some]
      exact ⟨_, rfl, ⟨hc.names, hc.symbols, hc.aliasNames, hc.aliasSymbols⟩⟩
    · simp only [hi, if_false]
      exact ⟨_, rfl, ⟨hc.names, hc.symbols, hc.aliasNames, hc.aliasSymbols⟩⟩
  refine ⟨?_, fun k i hk => key i (h.names k i hk), fun k i hk => key i (h.symbols k i hk),
    fun k i hk => key i (h.aliasNames k i hk), fun k i hk => key i (h.aliasSymbols k i hk)⟩
  intro i o' r' ho' hr'
  rw [hh] at ho'
  by_cases hi : id = i
  · subst hi
    rw [ho] at ho'
    simp at ho'
    subst ho'
    simp at hr'
    subst hr'
    exact hr
  · simp only [hi, if_false] at ho'
    exact h.heapOk i o' r' ho' hr'

theorem SysOk.addPrefix {s : System} (h : SysOk s) (p : Prefix) : SysOk (s.addPrefix p) := by
  have key : ∀ ref, Covered s ref → Covered (s.addPrefix p) ref := fun ref hc =>
    ⟨hc.names, hc.symbols, hc.aliasNames, hc.aliasSymbols⟩
  exact ⟨h.heapOk,
    fun k i hk => let ⟨o, a, b⟩ := h.names k i hk; ⟨o, a, key _ b⟩,
    fun k i hk => let ⟨o, a, b⟩ := h.symbols k i hk; ⟨o, a, key _ b⟩,
    fun k i hk => let ⟨o, a, b⟩ := h.aliasNames k i hk; ⟨o, a, key _ b⟩,
    fun k i hk => let ⟨o, a, b⟩ := h.aliasSymbols k i hk; ⟨o, a, key _ b⟩⟩

theorem SysOk.alloc {s : System} (h : SysOk s) (d : Str) (n : UnitReference) :
    SysOk (s.alloc d n).2 := by
  have key : ∀ i : Nat, (∃ o : LazyObj, s.heap[i]? = some o ∧ Covered s o.names) →
      ∃ o : LazyObj, (s.alloc d n).2.heap[i]? = some o ∧ Covered (s.alloc d n).2 o.names := by
    rintro i ⟨o, ho, hc⟩
    refine ⟨o, ?_, ⟨hc.names, hc.symbols, hc.aliasNames, hc.aliasSymbols⟩⟩
    show (s.heap ++ [_])[i]? = some o
    have hlt : i < s.heap.length := by
      rw [List.getElem?_eq_some_iff] at ho; exact ho.1
    rw [List.getElem?_append_left hlt, ho]
  refine ⟨?_, fun k i hk => key i (h.names k i hk), fun k i hk => key i (h.symbols k i hk),
    fun k i hk => key i (h.aliasNames k i hk), fun k i hk => key i (h.aliasSymbols k i hk)⟩
  intro i o r ho hr
  change (s.heap ++ [_])[i]? = some o at ho
  rw [List.getElem?_append] at ho
  split at ho
  · exact h.heapOk i o r ho hr
  · rw [List.getElem?_singleton] at ho
    split at ho
    · cases ho; cases hr
    · cases ho

/-- `s'` differs from `s` only by resolved units: the same spellings are registered and the prefixes
are the same. -/
structure SameDom (s s' : System) : Prop where
  pn : s'.prefixNames = s.prefixNames
  ps : s'.prefixSymbols = s.prefixSymbols
  names : ∀ k, (Dict.get k s'.names).isSome = (Dict.get k s.names).isSome
  symbols : ∀ k, (Dict.get k s'.symbols).isSome = (Dict.get k s.symbols).isSome
  aliasNames : ∀ k, (Dict.get k s'.aliasNames).isSome = (Dict.get k s.aliasNames).isSome
  aliasSymbols : ∀ k, (Dict.get k s'.aliasSymbols).isSome = (Dict.get k s.aliasSymbols).isSome

theorem SameDom.refl (s : System) : SameDom s s := ⟨rfl, rfl, fun _ => rfl, fun _ => rfl, fun _ => rfl, fun _ => rfl⟩

theorem SameDom.trans {a b c : System} (h : SameDom a b) (h' : SameDom b c) : SameDom a c :=
  ⟨h'.pn.trans h.pn, h'.ps.trans h.ps, fun k => (h'.names k).trans (h.names k),
    fun k => (h'.symbols k).trans (h.symbols k), fun k => (h'.aliasNames k).trans (h.aliasNames k),
    fun k => (h'.aliasSymbols k).trans (h.aliasSymbols k)⟩

theorem isSome_nameEntry (s : System) (n : Str) :
    (s.nameEntry n).isSome = ((Dict.get n s.names).isSome || (Dict.get n s.aliasNames).isSome) := by
  unfold System.nameEntry; cases Dict.get n s.names <;> simp

theorem isSome_symbolEntry (s : System) (n : Str) :
    (s.symbolEntry n).isSome = ((Dict.get n s.symbols).isSome || (Dict.get n s.aliasSymbols).isSome) := by
  unfold System.symbolEntry; cases Dict.get n s.symbols <;> simp

theorem SameDom.nameEntry {s s' : System} (h : SameDom s s') (n : Str) :
    (s'.nameEntry n).isSome = (s.nameEntry n).isSome := by
  rw [isSome_nameEntry, isSome_nameEntry, h.names, h.aliasNames]

theorem SameDom.symbolEntry {s s' : System} (h : SameDom s s') (n : Str) :
    (s'.symbolEntry n).isSome = (s.symbolEntry n).isSome := by
  rw [isSome_symbolEntry, isSome_symbolEntry, h.symbols, h.aliasSymbols]

theorem SameDom.direct {s s' : System} (h : SameDom s s') (n : Str) :
    (Spec.direct s' n).isSome = (Spec.direct s n).isSome := by
  rw [Spec.direct_eq, Spec.direct_eq]
  have a := h.nameEntry n
  have b := h.symbolEntry n
  cases ha : s.nameEntry n <;> cases ha' : s'.nameEntry n <;> rw [ha, ha'] at a <;> simp_all

theorem Covered.sameDom {s : System} {ref : UnitReference} (h : Covered s ref) (e : Entry) :
    SameDom s (s.register ref e) := by
  have key : ∀ (keys : List Str) (d : Dict Str Entry), (∀ k ∈ keys, (Dict.get k d).isSome) →
      ∀ k, (Dict.get k (setAll keys e d)).isSome = (Dict.get k d).isSome := by
    intro keys d hd k
    rw [get_setAll]
    split
    · rename_i hk; rw [hd k hk]; rfl
    · rfl
  exact ⟨rfl, rfl, key _ _ h.names, key _ _ h.symbols, key _ _ h.aliasNames, key _ _ h.aliasSymbols⟩

/-! ## Lookups preserve the invariant -/

/-- What a query may do to the state. -/
def Evolves (s s' : System) : Prop := SysOk s' ∧ SameDom s s' ∧ s'.heap.length = s.heap.length ∧
  ∀ (i : Nat) (o : LazyObj), s.heap[i]? = some o → ∃ o' : LazyObj, s'.heap[i]? = some o' ∧ o'.names = o.names ∧ o'.defn = o.defn

theorem Evolves.refl {s : System} (h : SysOk s) : Evolves s s :=
  ⟨h, SameDom.refl s, rfl, fun _ o ho => ⟨o, ho, rfl, rfl⟩⟩

theorem Evolves.trans {a b c : System} (h : Evolves a b) (h' : Evolves b c) : Evolves a c := by
  refine ⟨h'.1, h.2.1.trans h'.2.1, h'.2.2.1.trans h.2.2.1, ?_⟩
  intro i o ho
  obtain ⟨o1, h1, h2, h3⟩ := h.2.2.2 i o ho
  obtain ⟨o2, h4, h5, h6⟩ := h'.2.2.2 i o1 h1
  exact ⟨o2, h4, h5.trans h2, h6.trans h3⟩

/-- a stateful computation that only resolves units -/
def Safe {α} (m : SysM α) : Prop := ∀ s, SysOk s → Evolves s (m s).2

theorem safe_lookupAll {look : Str → SysM Ref} (hl : ∀ n, Safe (look n)) (ns : List Str) :
    Safe (lookupAll look ns) := by
  induction ns with
  | nil => intro s hs; exact Evolves.refl hs
  | cons n ns ih =>
    intro s hs
    have h1 := hl n s hs
    simp only [lookupAll]
    generalize look n s = q at h1 ⊢
    obtain ⟨r, s1⟩ := q
    cases r with
    | error e => exact h1
    | ok r =>
      simp only
      have h2 := ih s1 h1.1
      generalize lookupAll look ns s1 = q at h2 ⊢
      obtain ⟨r2, s2⟩ := q
      cases r2 <;> exact h1.trans h2

theorem mkUnit_ok {names : Option UnitReference} {expr : Node} {refs : List (Str × Ref)} {r : Ref}
    (h : mkUnit names expr refs = .ok r) : r = .unit names expr refs := by
  unfold mkUnit at h
  cases hn : normalisedNode refs expr with
  | error e => rw [hn] at h; cases h
  | ok x => rw [hn] at h; cases h; rfl

theorem safe_resolve (env : Env) {look : Str → SysM Ref} (hl : ∀ n, Safe (look n)) (id : Nat)
    {s : System} (hs : SysOk s) :
    Evolves s (resolve env look id s).2 ∧
    ∀ r, (resolve env look id s).1 = .ok r →
      ∃ o d refs, (resolve env look id s).2.heap[id]? = some o ∧ r = .unit (some o.names) d refs := by
  unfold resolve
  cases ho : s.heap[id]? with
  | none => exact ⟨Evolves.refl hs, by simp⟩
  | some o =>
    simp only
    cases hr : o.resolved with
    | some r =>
      refine ⟨Evolves.refl hs, ?_⟩
      intro r' h'
      simp only [Except.ok.injEq] at h'
      subst h'
      obtain ⟨d, refs, h⟩ := hs.heapOk id o r ho hr
      exact ⟨o, d, refs, ho, h⟩
    | none =>
      simp only
      cases env.parse o.defn with
      | error e => exact ⟨Evolves.refl hs, by simp⟩
      | ok expr =>
        simp only
        have h1 := safe_lookupAll hl (env.order expr.identifiers) s hs
        generalize lookupAll look (env.order expr.identifiers) s = q at h1 ⊢
        obtain ⟨r2, s1⟩ := q
        cases r2 with
        | error e => exact ⟨h1, by simp⟩
        | ok refs =>
          simp only
          cases hm : mkUnit (some o.names) expr refs with
          | error e => exact ⟨h1, by simp⟩
          | ok r =>
            simp only
            obtain ⟨o1, ho1, hn1, hd1⟩ := h1.2.2.2 id o ho
            have hr1 := mkUnit_ok hm
            have hev : Evolves s1 (s1.setResolved id r) := by
              refine ⟨h1.1.setResolved ho1 ⟨expr, refs, by rw [hn1]; exact hr1⟩, ?_, ?_, ?_⟩
              · exact ⟨rfl, rfl, fun _ => rfl, fun _ => rfl, fun _ => rfl, fun _ => rfl⟩
              · simp [System.setResolved]
              · intro i o2 ho2
                show ∃ o', (s1.heap.modify id _)[i]? = some o' ∧ _
                rw [List.getElem?_modify, ho2]
                exact ⟨_, rfl, by dsimp; split <;> simp⟩
            refine ⟨h1.trans hev, ?_⟩
            intro r' h'
            simp only [Except.ok.injEq] at h'
            subst h'
            refine ⟨{ o1 with resolved := some r }, expr, refs, ?_, ?_⟩
            · show (s1.heap.modify id _)[id]? = _
              rw [List.getElem?_modify, ho1]; simp
            · rw [hr1]; simp [hn1]

/-- After resolving a lazily defined unit that is in a table, re-registering it succeeds. -/
theorem fetch_lazy (env : Env) {look : Str → SysM Ref} (hl : ∀ n, Safe (look n)) {id : Nat}
    {s : System} (hs : SysOk s) (hc : ∃ o : LazyObj, s.heap[id]? = some o ∧ Covered s o.names) :
    Evolves s (fetch env look (some (.lazy id)) s).2 ∧
    (fetch env look (some (.lazy id)) s).1 =
      (match (resolve env look id s).1 with | .ok r => .ok (some r) | .error e => .error e) := by
  have h := safe_resolve env hl id hs
  simp only [fetch]
  generalize resolve env look id s = q at h ⊢
  obtain ⟨r, s1⟩ := q
  cases r with
  | error e => exact ⟨h.1, rfl⟩
  | ok r =>
    simp only
    obtain ⟨o, d, refs, ho, hr⟩ := h.2 r rfl
    simp only at ho
    subst hr
    obtain ⟨o0, ho0, hc0⟩ := hc
    obtain ⟨o', ho', hn', _⟩ := h.1.2.2.2 id o0 ho0
    simp only at ho'
    rw [ho] at ho'; cases ho'
    have hcov : Covered s1 o.names := by
      rw [hn']
      have hd := h.1.2.1
      exact ⟨fun k hk => (hd.names k).trans (hc0.names k hk), fun k hk => (hd.symbols k).trans (hc0.symbols k hk),
        fun k hk => (hd.aliasNames k).trans (hc0.aliasNames k hk),
        fun k hk => (hd.aliasSymbols k).trans (hc0.aliasSymbols k hk)⟩
    have hadd : s1.addUnit (.unit (.unit (some o.names) d refs)) true
        = (.ok (), s1.register o.names (.unit (.unit (some o.names) d refs))) := rfl
    rw [hadd]
    refine ⟨h.1.trans ⟨h.1.1.register (by intro i hi; cases hi), hcov.sameDom _, rfl, ?_⟩, rfl⟩
    intro i o2 ho2
    exact ⟨o2, ho2, rfl, rfl⟩

theorem SysOk.nameEntry {s : System} (hs : SysOk s) {n : Str} {id : Nat}
    (h : s.nameEntry n = some (.lazy id)) : ∃ o : LazyObj, s.heap[id]? = some o ∧ Covered s o.names := by
  unfold System.nameEntry at h
  cases h1 : Dict.get n s.names with
  | some e => rw [h1] at h; simp at h; subst h; exact hs.names n id h1
  | none => rw [h1] at h; simp at h; exact hs.aliasNames n id h

theorem SysOk.symbolEntry {s : System} (hs : SysOk s) {n : Str} {id : Nat}
    (h : s.symbolEntry n = some (.lazy id)) : ∃ o : LazyObj, s.heap[id]? = some o ∧ Covered s o.names := by
  unfold System.symbolEntry at h
  cases h1 : Dict.get n s.symbols with
  | some e => rw [h1] at h; simp at h; subst h; exact hs.symbols n id h1
  | none => rw [h1] at h; simp at h; exact hs.aliasSymbols n id h

theorem SysOk.direct {s : System} (hs : SysOk s) {n : Str} {id : Nat}
    (h : Spec.direct s n = some (.lazy id)) : ∃ o : LazyObj, s.heap[id]? = some o ∧ Covered s o.names := by
  rw [Spec.direct_eq] at h
  cases h1 : s.nameEntry n with
  | some e => rw [h1] at h; simp at h; subst h; exact hs.nameEntry h1
  | none => rw [h1] at h; simp at h; exact hs.symbolEntry h

/-- A registered spelling is never reported as absent, and the lookup does what `fetch` does. -/
theorem byNameOrSymbol_eq (env : Env) (look : Str → SysM Ref) (n : Str) (s : System) :
    byNameOrSymbol env look n s = fetch env look (Spec.direct s n) s := by
  rw [Spec.direct_eq]
  simp only [byNameOrSymbol]
  cases h1 : s.nameEntry n with
  | none => simp [fetch]
  | some e =>
    simp only [Option.some_or]
    have hne := fun S' => fetch_some_ne_none (env := env) (look := look) (en := e) (S := s) (S' := S')
    generalize fetch env look (some e) s = q at hne ⊢
    obtain ⟨r, s1⟩ := q
    cases r with
    | error e => rfl
    | ok o =>
      cases o with
      | none => exact absurd rfl (hne s1)
      | some r => rfl

theorem safe_byNameOrSymbol (env : Env) {look : Str → SysM Ref} (hl : ∀ n, Safe (look n)) (n : Str) :
    Safe (byNameOrSymbol env look n) := by
  intro s hs
  rw [byNameOrSymbol_eq]
  cases hd : Spec.direct s n with
  | none => exact Evolves.refl hs
  | some e =>
    cases e with
    | unit r => exact Evolves.refl hs
    | lazy id => exact (fetch_lazy env hl hs (hs.direct hd)).1

theorem safe_prefixLoop (env : Env) {look : Str → SysM Ref} (hl : ∀ n, Safe (look n)) (n : Str)
    (ps : List (Str × Prefix)) : Safe (prefixLoop env look n ps) := by
  induction ps with
  | nil => intro s hs; exact Evolves.refl hs
  | cons q ps ih =>
    obtain ⟨p, pre⟩ := q
    intro s hs
    simp only [prefixLoop]
    cases dropPrefix p n with
    | none => exact ih s hs
    | some rest =>
      simp only
      have h1 := safe_byNameOrSymbol env hl rest s hs
      generalize byNameOrSymbol env look rest s = q at h1 ⊢
      obtain ⟨r, s1⟩ := q
      cases r with
      | error e => exact h1
      | ok o =>
        cases o with
        | none => exact h1.trans (ih s1 h1.1)
        | some u =>
          simp only
          cases prefixed p pre rest u <;> exact h1

theorem safe_lookupStep (env : Env) {look : Str → SysM Ref} (hl : ∀ n, Safe (look n)) (n : Str) :
    Safe (lookupStep env look n) := by
  intro s hs
  simp only [lookupStep]
  have h1 := safe_byNameOrSymbol env hl n s hs
  generalize byNameOrSymbol env look n s = q at h1 ⊢
  obtain ⟨r, s1⟩ := q
  cases r with
  | error e => exact h1
  | ok o =>
    cases o with
    | some r => exact h1
    | none =>
      simp only
      have h2 := safe_prefixLoop env hl n s1.prefixNames s1 h1.1
      generalize prefixLoop env look n s1.prefixNames s1 = q at h2 ⊢
      obtain ⟨r, s2⟩ := q
      cases r with
      | error e => exact h1.trans h2
      | ok o =>
        cases o with
        | some r => exact h1.trans h2
        | none =>
          simp only
          have h3 := safe_prefixLoop env hl n s2.prefixSymbols s2 h2.1
          generalize prefixLoop env look n s2.prefixSymbols s2 = q at h3 ⊢
          obtain ⟨r, s3⟩ := q
          cases r with
          | error e => exact (h1.trans h2).trans h3
          | ok o => cases o <;> exact (h1.trans h2).trans h3

theorem safe_lookup (env : Env) (f : Nat) (n : Str) : Safe (unitByNameOrSymbol env f n) := by
  induction f generalizing n with
  | zero => intro s hs; exact Evolves.refl hs
  | succ f ih => exact safe_lookupStep env ih n

theorem safe_unit (env : Env) (f : Nat) (t : Str) : Safe (System.unit env f t) := by
  intro s hs
  simp only [System.unit]
  cases env.parse t with
  | error e => exact Evolves.refl hs
  | ok expr =>
    simp only
    have h1 := safe_lookupAll (safe_lookup env f) (env.order expr.identifiers) s hs
    generalize lookupAll (unitByNameOrSymbol env f) (env.order expr.identifiers) s = q at h1 ⊢
    obtain ⟨r, s1⟩ := q
    cases r <;> exact h1

theorem safe_query (env : Env) (q : Query) {s : System} (hs : SysOk s) : Evolves s (q.effect env s) := by
  cases q with
  | lookup f n => exact safe_lookup env f n s hs
  | unit f t => exact safe_unit env f t s hs

theorem SysOk.addUnit {s : System} (hs : SysOk s) (e : Entry) (rep : Bool) : SysOk (s.addUnit e rep).2 := by
  cases h : s.addUnit e rep with
  | mk r s' =>
    cases r with
    | error err =>
      have : s' = s := by
        unfold System.addUnit at h
        cases hn : s.namesOf e with
        | error err => rw [hn] at h; simp at h; exact h.2.symm
        | ok ref =>
          rw [hn] at h
          simp only at h
          split at h
          · simp at h; exact h.2.symm
          · simp at h
      rw [this]; exact hs
    | ok u =>
      obtain ⟨ref, hn, rfl, _⟩ := addUnit_ok h
      refine hs.register ?_
      rintro id rfl
      simp only [System.namesOf] at hn
      cases ho : s.heap[id]? with
      | none => rw [ho] at hn; cases hn
      | some o => rw [ho] at hn; cases hn; exact ⟨o, rfl, rfl⟩

/-- Every reachable unit system satisfies the invariant. -/
theorem Spec.Reachable.sysOk {env : Env} {s : System} (h : Spec.Reachable env s) : SysOk s := by
  induction h with
  | empty => exact SysOk.empty
  | addPrefix p _ ih => exact ih.addPrefix p
  | newLazy d n _ ih => exact ih.alloc d n
  | addUnit e rep _ _ ih => exact ih.addUnit e rep
  | query q _ ih => exact (safe_query env q ih).1

end Verif

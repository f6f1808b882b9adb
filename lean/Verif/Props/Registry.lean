import Verif.Lemmas.Errors
import Verif.Props.Demo
/-!
# C01–C04: registering units and looking them up
-/

namespace Verif
open Spec

/-! ## C01 -/

/-- **C01.** `add_unit(u)` without `replace` fails exactly when `u` collides with a registered name or
symbol, always with a `ValueError`, and then the system is exactly what it was; otherwise it
succeeds. -/
theorem C01_add_unit_rejects_exactly_collisions (s : System) (e : Entry) (ref : UnitReference)
    (hn : s.namesOf e = .ok ref) :
    ((∃ err, (s.addUnit e false).1 = .error err) ↔ Collides s ref) ∧
    (∀ err, (s.addUnit e false).1 = .error err →
      err.cls = .ValueError ∧ (s.addUnit e false).2 = s) ∧
    (¬ Collides s ref → (s.addUnit e false).1 = .ok ()) := by
  unfold System.addUnit
  rw [hn]
  simp only [Bool.false_eq_true, if_false]
  cases hc : s.collision ref with
  | none =>
    have := collision_eq_none.1 hc
    exact ⟨⟨(by rintro ⟨e, h⟩; cases h), fun h => absurd h this⟩, (by intro err h; cases h), fun _ => rfl⟩
  | some k =>
    have : Collides s ref := by
      apply Classical.byContradiction
      intro h
      rw [collision_eq_none.2 h] at hc; cases hc
    refine ⟨⟨fun _ => this, fun _ => ⟨_, rfl⟩⟩, ?_, fun h => absurd this h⟩
    intro err h
    cases h
    exact ⟨rfl, rfl⟩

/-- **C01**, second half: with `replace=True` nothing is ever rejected. -/
theorem C01_replace_always_succeeds (s : System) (e : Entry) (ref : UnitReference)
    (hn : s.namesOf e = .ok ref) : (s.addUnit e true).1 = .ok () := by
  unfold System.addUnit
  rw [hn]
  rfl

/-- Non-vacuity: adding a unit whose symbol `m` is taken is rejected although its name is free. -/
example : Collides Demo.sys (Demo.named c!"mile" c!"miles" [c!"m"]) ∧
    (Demo.sys.addUnit (.unit (.unit (some (Demo.named c!"mile" c!"miles" [c!"m"])) (.ident c!"x") [])) false).1
      = .error (.alreadyRegistered c!"m") := by
  refine ⟨Or.inr ⟨c!"m", by simp [Demo.named], by decide +kernel⟩, by decide +kernel⟩

/-- Non-vacuity: a unit that does not collide. -/
example : ¬ Collides Demo.sys (Demo.named c!"mile" c!"miles" [c!"mi"]) :=
  collision_eq_none.1 (by decide +kernel)

/-! ## C02 -/

/-- The object found under each spelling right after a successful `add_unit`. -/
theorem C02_entry_after_add {s s' : System} {e : Entry} {rep : Bool} {ref : UnitReference}
    (hn : s.namesOf e = .ok ref) (h : s.addUnit e rep = (.ok (), s')) (k : Str) :
    (IsName ref k → direct s' k = some e) ∧
    (IsAlias ref k → Dict.get k s'.names = none → direct s' k = some e) ∧
    (k ∈ ref.symbols → Dict.get k s'.names = none → Dict.get k s'.aliasNames = none →
      direct s' k = some e) ∧
    (k ∈ ref.aliasSymbols → Dict.get k s'.names = none → Dict.get k s'.aliasNames = none →
      Dict.get k s'.symbols = none → direct s' k = some e) := by
  obtain ⟨ref', hn', rfl, -⟩ := addUnit_ok h
  rw [hn] at hn'; cases hn'
  refine ⟨?_, ?_, ?_, ?_⟩
  · intro hk
    have h1 : Dict.get k (s.register ref e).names = some e := by
      show Dict.get k (setAll _ _ _) = _
      rw [get_setAll, if_pos (mem_nameKeys_iff.2 hk)]
    simp [direct, h1]
  · intro hk h0
    have h1 : Dict.get k (s.register ref e).aliasNames = some e := by
      show Dict.get k (setAll _ _ _) = _
      rw [get_setAll, if_pos (mem_aliasKeys_iff.2 hk)]
    simp [direct, h0, h1]
  · intro hk h0 h0'
    have h1 : Dict.get k (s.register ref e).symbols = some e := by
      show Dict.get k (setAll _ _ _) = _
      rw [get_setAll, if_pos hk]
    simp [direct, h0, h0', h1]
  · intro hk h0 h0' h0''
    have h1 : Dict.get k (s.register ref e).aliasSymbols = some e := by
      show Dict.get k (setAll _ _ _) = _
      rw [get_setAll, if_pos hk]
    simp [direct, h0, h0', h0'', h1]

/-- What looking up the spelling of a registered object returns: a resolved unit itself, or whatever
resolving the lazily defined unit gives. -/
theorem lookup_of_direct {env : Env} {s : System} (hok : SysOk s) {n : Str} {e : Entry}
    (hd : direct s n = some e) (f : Nat) :
    (∀ r, e = .unit r → unitByNameOrSymbol env (f + 1) n s = (.ok r, s)) ∧
    (∀ id, e = .lazy id → (unitByNameOrSymbol env (f + 1) n s).1 =
      (Verif.resolve env (unitByNameOrSymbol env f) id s).1) := by
  constructor
  · rintro r rfl
    show lookupStep _ _ _ _ = _
    rw [lookupStep_eq, hd]; rfl
  · rintro id rfl
    show (lookupStep _ _ _ _).1 = _
    rw [lookupStep_eq, hd]
    have := (fetch_lazy env (safe_lookup env f) hok (hok.direct hd)).2
    simp only
    generalize fetch env (unitByNameOrSymbol env f) (some (.lazy id)) s = q at this ⊢
    obtain ⟨r, s1⟩ := q
    generalize (Verif.resolve env (unitByNameOrSymbol env f) id s).1 = rr at this ⊢
    simp only at this
    subst this
    cases rr <;> rfl

/-- **C02.** After a successful `add_unit(u)` in any reachable system, looking up the singular name or
the plural of `u` gives `u`; so does a symbol that is not also a name or name alias, an alias name
that is not also a name, and an alias symbol that is no other kind of spelling.  For a unit object the
lookup returns that very unit and changes nothing; for a lazily defined unit it returns the result of
resolving that unit. -/
theorem C02_registered_unit_is_found {env : Env} {s s' : System} (hr : Reachable env s)
    {e : Entry} {rep : Bool} {ref : UnitReference}
    (hn : s.namesOf e = .ok ref) (h : s.addUnit e rep = (.ok (), s')) (k : Str)
    (hk : IsName ref k ∨
      (IsAlias ref k ∧ Dict.get k s'.names = none) ∨
      (k ∈ ref.symbols ∧ Dict.get k s'.names = none ∧ Dict.get k s'.aliasNames = none) ∨
      (k ∈ ref.aliasSymbols ∧ Dict.get k s'.names = none ∧ Dict.get k s'.aliasNames = none ∧
        Dict.get k s'.symbols = none)) (limit : Nat) :
    (∀ r, e = .unit r → unitByNameOrSymbol env (limit + 1) k s' = (.ok r, s')) ∧
    (∀ id, e = .lazy id → (unitByNameOrSymbol env (limit + 1) k s').1 =
      (Verif.resolve env (unitByNameOrSymbol env limit) id s').1) := by
  have hok : SysOk s' := by
    have := hr.sysOk.addUnit e rep
    rw [h] at this; exact this
  obtain ⟨h1, h2, h3, h4⟩ := C02_entry_after_add hn h k
  refine lookup_of_direct hok ?_ limit
  rcases hk with hk | ⟨hk, a⟩ | ⟨hk, a, b⟩ | ⟨hk, a, b, c⟩
  · exact h1 hk
  · exact h2 hk a
  · exact h3 hk a b
  · exact h4 hk a b c

/-- Non-vacuity: `celsius` added to a reachable system, then found by its symbol. -/
example : (unitByNameOrSymbol Demo.env 3 c!"degC" Demo.sys).1.map Ref.str = .ok c!"(K @ 273.15)" := by
  decide +kernel

/-! ## C03 -/

/-- **C03.** Adding a unit without `replace` never changes the object registered under an existing
primary name (and that object is what a lookup of the name finds), nor the object registered under an
existing symbol; the symbol is still found unless the new unit claims the same spelling as a *name* or
*alias name*. -/
theorem C03_add_preserves_existing {s s' : System} {e : Entry} {ref : UnitReference}
    (hn : s.namesOf e = .ok ref) (h : s.addUnit e false = (.ok (), s')) (k : Str) (e0 : Entry) :
    (Dict.get k s.names = some e0 → Dict.get k s'.names = some e0 ∧ direct s' k = some e0) ∧
    (Dict.get k s.symbols = some e0 → Dict.get k s'.symbols = some e0) ∧
    (Dict.get k s.symbols = some e0 → ¬ IsName ref k → ¬ IsAlias ref k → direct s' k = direct s k) := by
  obtain ⟨ref', hn', rfl, hc⟩ := addUnit_ok h
  rw [hn] at hn'; cases hn'
  have hc := hc rfl
  have names : ∀ e0, Dict.get k s.names = some e0 → Dict.get k (s.register ref e).names = some e0 := by
    intro e0 h0
    show Dict.get k (setAll _ _ _) = _
    rw [get_setAll, if_neg, h0]
    intro hk
    obtain ⟨n, hn, hk⟩ := mem_nameKeys.1 hk
    apply hc
    refine Or.inl ⟨n, hn, ?_⟩
    have : Dict.has k s.names = true := by simp [Dict.has, h0]
    rcases hk with rfl | ⟨hp, hne⟩
    · exact Or.inl this
    · exact Or.inr ⟨k, hp, hne, this⟩
  have syms : ∀ e0, Dict.get k s.symbols = some e0 → Dict.get k (s.register ref e).symbols = some e0 := by
    intro e0 h0
    show Dict.get k (setAll _ _ _) = _
    rw [get_setAll, if_neg, h0]
    intro hk
    exact hc (Or.inr ⟨k, hk, by simp [Dict.has, h0]⟩)
  refine ⟨?_, syms e0, ?_⟩
  · intro h0
    have := names e0 h0
    exact ⟨this, by simp [direct, this]⟩
  · intro h0 hnn hna
    have h1 : Dict.get k (s.register ref e).names = Dict.get k s.names := by
      show Dict.get k (setAll _ _ _) = _
      rw [get_setAll, if_neg (fun hk => hnn (mem_nameKeys_iff.1 hk))]
    have h2 : Dict.get k (s.register ref e).aliasNames = Dict.get k s.aliasNames := by
      show Dict.get k (setAll _ _ _) = _
      rw [get_setAll, if_neg (fun hk => hna (mem_aliasKeys_iff.1 hk))]
    have h3 := syms e0 h0
    unfold direct
    rw [h1, h2, h3, h0]
    cases Dict.get k s.names <;> cases Dict.get k s.aliasNames <;> rfl

/-- a successful add after which the symbol `m` no longer means the metre: a unit *named* `m` -/
def Demo.shadow : Ref := .unit (some (Demo.named c!"m" c!"ms" [])) (.ident c!"s") [(c!"s", .basis Demo.second)]

/-- **C03** at the level of lookups: in any reachable system a successful `add_unit` without `replace`
leaves a lookup of an existing primary name as it was: the unit registered under it is returned as it
is, a lazily defined one is resolved.  The same holds for an existing symbol that is neither a name nor
an alias, unless the new unit claims it as one. -/
theorem C03_lookup_finds_existing {env : Env} {s s' : System} (hr : Reachable env s) {e : Entry}
    {ref : UnitReference} (hn : s.namesOf e = .ok ref) (h : s.addUnit e false = (.ok (), s'))
    (k : Str) (e0 : Entry)
    (hk : Dict.get k s.names = some e0 ∨
      (Dict.get k s.names = none ∧ Dict.get k s.aliasNames = none ∧ Dict.get k s.symbols = some e0 ∧
        ¬ IsName ref k ∧ ¬ IsAlias ref k)) (limit : Nat) :
    (∀ r, e0 = .unit r → unitByNameOrSymbol env (limit + 1) k s = (.ok r, s) ∧
      unitByNameOrSymbol env (limit + 1) k s' = (.ok r, s')) ∧
    (∀ id, e0 = .lazy id →
      (unitByNameOrSymbol env (limit + 1) k s).1 =
        (Verif.resolve env (unitByNameOrSymbol env limit) id s).1 ∧
      (unitByNameOrSymbol env (limit + 1) k s').1 =
        (Verif.resolve env (unitByNameOrSymbol env limit) id s').1) := by
  have hok : SysOk s' := by
    have := hr.sysOk.addUnit e false
    rw [h] at this; exact this
  obtain ⟨h1, h2, h3⟩ := C03_add_preserves_existing hn h k e0
  have d0 : direct s k = some e0 := by
    rcases hk with a | ⟨a, b, c, _, _⟩
    · simp [direct, a]
    · simp [direct, a, b, c]
  have d1 : direct s' k = some e0 := by
    rcases hk with a | ⟨a, b, c, hnn, hna⟩
    · exact (h1 a).2
    · rw [h3 c hnn hna, d0]
  have q0 := lookup_of_direct (env := env) hr.sysOk d0 limit
  have q1 := lookup_of_direct (env := env) hok d1 limit
  exact ⟨fun r hr => ⟨q0.1 r hr, q1.1 r hr⟩, fun id hi => ⟨q0.2 id hi, q1.2 id hi⟩⟩

/-- Non-vacuity: `metre` and `hour` are registered, and a further unit can be added. -/
example : Dict.get c!"metre" Demo.sys.names = some (.unit (.basis Demo.metre)) ∧
    Dict.get c!"hour" Demo.sys.names = some (.lazy 1) ∧
    (Demo.sys.addUnit (.unit Demo.shadow) false).1 = .ok () := by decide +kernel

/-- **C03**, refutation of the stronger claim: a successful `add_unit` without `replace` can change
what an existing symbol means (a new unit *named* like the symbol shadows it)… -/
theorem C03_symbol_shadowed_by_name_refuted :
    ¬ ∀ (env : Env) (s s' : System) (e : Entry) (k : Str) (e0 : Entry), Reachable env s →
        s.addUnit e false = (.ok (), s') → Dict.get k s.symbols = some e0 → direct s k = some e0 →
        direct s' k = some e0 := by
  intro h
  have h1 := h Demo.env Demo.sys (Demo.sys.addUnit (.unit Demo.shadow) false).2 (.unit Demo.shadow) c!"m"
    (.unit (.basis Demo.metre)) Demo.sys_reachable (by decide +kernel) (by decide +kernel) (by decide +kernel)
  exact absurd h1 (by decide +kernel)

/-- a unit with the alias `meter`, which is already an alias of metre -/
def Demo.thief : Ref := .unit (some ⟨some ⟨c!"thief", none⟩, [], [⟨c!"meter", none⟩], []⟩) (.ident c!"s") [(c!"s", .basis Demo.second)]

/-- …and it can silently re-point an existing alias. -/
theorem C03_alias_repointed_refuted :
    ¬ ∀ (env : Env) (s s' : System) (e : Entry) (k : Str) (e0 : Entry), Reachable env s →
        s.addUnit e false = (.ok (), s') → direct s k = some e0 → Dict.get k s.aliasNames = some e0 →
        direct s' k = some e0 := by
  intro h
  have h1 := h Demo.env Demo.sys (Demo.sys.addUnit (.unit Demo.thief) false).2 (.unit Demo.thief) c!"meter"
    (.unit (.basis Demo.metre)) Demo.sys_reachable (by decide +kernel) (by decide +kernel) (by decide +kernel)
  exact absurd h1 (by decide +kernel)

/-! ## C04 -/

/-- **C04.** Lookup precedence, in any reachable system and whatever the recursion limit:

1. a spelling registered directly (name, else name alias, else symbol, else symbol alias) gives that
   object, resolved if lazily defined;
2. otherwise the first prefix (names before symbols, in registration order) that starts the spelling
   and whose remainder is registered directly gives `prefix * unit`;
3. `UnresolvableUnitException` for that spelling is raised exactly when neither reading exists. -/
theorem C04_lookup_precedence {env : Env} (hp : env.ParserOk) {s : System} (hr : Reachable env s)
    (limit : Nat) (n : Str) :
    (∀ r, direct s n = some (.unit r) → unitByNameOrSymbol env (limit + 1) n s = (.ok r, s)) ∧
    (∀ id, direct s n = some (.lazy id) →
      (unitByNameOrSymbol env (limit + 1) n s).1 =
        (Verif.resolve env (unitByNameOrSymbol env limit) id s).1) ∧
    (direct s n = none → ∀ p pre rest u,
      FirstSplit s n (s.prefixNames ++ s.prefixSymbols) p pre rest (.unit u) →
      unitByNameOrSymbol env (limit + 1) n s = (prefixed p pre rest u, s)) ∧
    (direct s n = none → ∀ p pre rest id,
      FirstSplit s n (s.prefixNames ++ s.prefixSymbols) p pre rest (.lazy id) →
      (unitByNameOrSymbol env (limit + 1) n s).1 =
        (Verif.resolve env (unitByNameOrSymbol env limit) id s).1.bind (prefixed p pre rest)) ∧
    ((unitByNameOrSymbol env (limit + 1) n s).1 = .error (.unresolvable n) ↔
      (direct s n = none ∧ NoSplit s n (s.prefixNames ++ s.prefixSymbols))) ∧
    ((direct s n = none ∧ NoSplit s n (s.prefixNames ++ s.prefixSymbols)) →
      (unitByNameOrSymbol env (limit + 1) n s).2 = s) := by
  have hok := hr.sysOk
  refine ⟨fun r hd => (lookup_of_direct hok hd limit).1 r rfl,
    fun id hd => (lookup_of_direct hok hd limit).2 id rfl, ?_, ?_, ⟨?_, ?_⟩, ?_⟩
  · intro hd p pre rest u hf
    show lookupStep _ _ _ _ = _
    rw [lookupStep_eq, hd, FirstSplit_unique hf]
    rfl
  · intro hd p pre rest id hf
    show (lookupStep _ _ _ _).1 = _
    rw [lookupStep_eq, hd, FirstSplit_unique hf]
    have := (fetch_lazy env (safe_lookup env limit) hok (hok.direct hf.2.1)).2
    simp only
    generalize fetch env (unitByNameOrSymbol env limit) (some (.lazy id)) s = q at this ⊢
    obtain ⟨r, s1⟩ := q
    generalize (Verif.resolve env (unitByNameOrSymbol env limit) id s).1 = rr at this ⊢
    simp only at this
    subst this
    cases rr <;> rfl
  · exact honest_lookup hp (limit + 1) n s hok n
  · rintro ⟨hd, hs⟩
    show (lookupStep _ _ _ _).1 = _
    rw [lookupStep_eq, hd, firstSplit_none.2 hs]
  · rintro ⟨hd, hs⟩
    show (lookupStep _ _ _ _).2 = _
    rw [lookupStep_eq, hd, firstSplit_none.2 hs]

/-- the modelled parser raises only `SyntaxError` -/
theorem parse_error_is_syntaxError : ∀ t e, parse t = .error e → e = .syntaxError := by
  intro t e h
  unfold parse parseTokens at h
  split at h
  · cases h
  · split at h
    · cases h
    · cases h; rfl

/-- …in every environment built on it -/
theorem parserOk (order : List Str → List Str) : Env.ParserOk ⟨parse, order⟩ := by
  intro t e h
  simp only at h
  exact parse_error_is_syntaxError t e h

/-- **C04** with the modelled parser: failure is exactly the absence of a reading. -/
theorem C04_unresolvable_iff (order : List Str → List Str) {s : System}
    (hr : Reachable ⟨parse, order⟩ s) (limit : Nat) (n : Str) :
    (unitByNameOrSymbol ⟨parse, order⟩ (limit + 1) n s).1 = .error (.unresolvable n) ↔
      (direct s n = none ∧ NoSplit s n (s.prefixNames ++ s.prefixSymbols)) :=
  (C04_lookup_precedence (parserOk order) hr limit n).2.2.2.2.1

/-! Non-vacuity: all three kinds of reading occur. -/
example : direct Demo.sys c!"hours" = some (.lazy 1) := by decide +kernel
theorem Demo.khours_split : FirstSplit Demo.sys c!"khours" (Demo.sys.prefixNames ++ Demo.sys.prefixSymbols)
    c!"k" Demo.kilo c!"hours" (.lazy 1) :=
  firstSplit_some (show firstSplit Demo.sys c!"khours" (Demo.sys.prefixNames ++ Demo.sys.prefixSymbols)
    = some (c!"k", Demo.kilo, c!"hours", .lazy 1) by decide +kernel)
example : (unitByNameOrSymbol Demo.env 5 c!"khours" Demo.sys).1.map Ref.str = .ok c!"k·hours" := by
  decide +kernel
example : (unitByNameOrSymbol Demo.env 5 c!"furlong" Demo.sys).1.map Ref.str
    = .error (.unresolvable c!"furlong") := by
  decide +kernel

end Verif

import Verif.Lemmas.Build
import Verif.Props.Lookup
/-!
# C65: a system may be used while it is being built
-/

namespace Verif
open Spec (Pristine ConflictFree AllFresh live registry Step Query FreshUnit FreshPrefix Unread Spelling)

/-- **C65.** Registrations and queries interleaved in any way, each registration giving new readings only to
spellings that had none: every lookup and every `unit(text)` answers what reading the registry so far as a
fixed table gives — the queries made in between, successful or not, leave no trace. -/
theorem C65_queries_leave_no_trace (env : Env) (s : System) (hp : Pristine s) (hc : ConflictFree s)
    (ts : List Step) (ht : AllFresh ts s) (limit : Nat) :
    (∀ n, (∀ depth, depth ≤ limit → Spec.lookup env (registry ts s) depth n ≠ .error .recursionError →
        (unitByNameOrSymbol env limit n (live env ts s)).1 = Spec.lookup env (registry ts s) depth n) ∧
      ((unitByNameOrSymbol env limit n (live env ts s)).1 ≠ .error .recursionError →
        ∃ depth, (unitByNameOrSymbol env limit n (live env ts s)).1 = Spec.lookup env (registry ts s) depth n)) ∧
    (∀ t, (∀ depth, depth ≤ limit → Spec.unit env (registry ts s) depth t ≠ .error .recursionError →
        (System.unit env limit t (live env ts s)).1 = Spec.unit env (registry ts s) depth t) ∧
      ((System.unit env limit t (live env ts s)).1 ≠ .error .recursionError →
        ∃ depth, (System.unit env limit t (live env ts s)).1 = Spec.unit env (registry ts s) depth t)) := by
  obtain ⟨hI, hc', _⟩ := (Inv.init env hp).steps ts hc ht
  constructor
  · intro n
    obtain ⟨_, ⟨F, hF⟩, hf⟩ := sim_lookup hc' limit n _ hI
    refine ⟨fun depth hd hne => ?_, fun hne => ?_⟩
    · rcases Le.trans (Spec.lookup_mono env _ hd n) hf with h | h
      · exact absurd h hne
      · exact h.symm
    · rcases hF with h | h
      · exact absurd h hne
      · exact ⟨F, h⟩
  · intro t
    obtain ⟨_, ⟨F, hF⟩, hf⟩ := sim_unit hc' limit t _ hI
    refine ⟨fun depth hd hne => ?_, fun hne => ?_⟩
    · rcases Le.trans (spec_unit_mono env _ t hd) hf with h | h
      · exact absurd h hne
      · exact h.symm
    · rcases hF with h | h
      · exact absurd h hne
      · exact ⟨F, h⟩

/-- **C65.** What a spelling means once it can be looked up, it means for ever: after any further fresh
registrations and any queries the same lookup gives the same unit (unless it hits the recursion limit). -/
theorem C65_lookup_meaning_kept (env : Env) (s : System) (hp : Pristine s) (hc : ConflictFree s)
    (ts us : List Step) (ht : AllFresh (ts ++ us) s) (limit limit' : Nat) (n : Str) (r : Ref)
    (hr : (unitByNameOrSymbol env limit n (live env ts s)).1 = .ok r)
    (hr' : (unitByNameOrSymbol env limit' n (live env (ts ++ us) s)).1 ≠ .error .recursionError) :
    (unitByNameOrSymbol env limit' n (live env (ts ++ us) s)).1 = .ok r := by
  obtain ⟨ht1, ht2⟩ := (allFresh_append ts us s).1 ht
  obtain ⟨hI, hc', _⟩ := (Inv.init env hp).steps ts hc ht1
  obtain ⟨hI2, hc2, hx⟩ := hI.steps us hc' ht2
  have e1 : live env (ts ++ us) s = live env us (live env ts s) := List.foldl_append
  rw [e1] at hr' ⊢
  obtain ⟨_, ⟨F, hF⟩, _⟩ := sim_lookup hc' limit n _ hI
  obtain ⟨_, hG, _⟩ := sim_lookup hc2 limit' n _ hI2
  rw [hr] at hF
  have h2 := hx.lookup F hF.ok
  exact agree (fun _ _ h => Spec.lookup_mono env _ h n) hG ⟨F, Or.inr h2.symm⟩ hr' (by simp)

/-- **C65** for whole expressions. -/
theorem C65_unit_meaning_kept (env : Env) (s : System) (hp : Pristine s) (hc : ConflictFree s)
    (ts us : List Step) (ht : AllFresh (ts ++ us) s) (limit limit' : Nat) (t : Str) (u : UObj)
    (hr : (System.unit env limit t (live env ts s)).1 = .ok u)
    (hr' : (System.unit env limit' t (live env (ts ++ us) s)).1 ≠ .error .recursionError) :
    (System.unit env limit' t (live env (ts ++ us) s)).1 = .ok u := by
  obtain ⟨ht1, ht2⟩ := (allFresh_append ts us s).1 ht
  obtain ⟨hI, hc', _⟩ := (Inv.init env hp).steps ts hc ht1
  obtain ⟨hI2, hc2, hx⟩ := hI.steps us hc' ht2
  have e1 : live env (ts ++ us) s = live env us (live env ts s) := List.foldl_append
  rw [e1] at hr' ⊢
  obtain ⟨_, ⟨F, hF⟩, _⟩ := sim_unit hc' limit t _ hI
  obtain ⟨_, hG, _⟩ := sim_unit hc2 limit' t _ hI2
  rw [hr] at hF
  have h2 := hx.unit F hF.ok
  exact agree (spec_unit_mono env _ t) hG ⟨F, Or.inr h2.symm⟩ hr' (by simp)

/-- **C65.** Fresh registrations are never refused, and each is effective: afterwards every spelling of the
unit is registered. -/
theorem C65_fresh_units_accepted (s : System) (e : Entry) (ref : UnitReference) (hn : s.namesOf e = .ok ref)
    (hf : FreshUnit s ref) :
    (s.addUnit e false).1 = .ok () ∧ ∀ k, Spelling ref k → Spec.direct (s.addUnit e false).2 k = some e := by
  have c0 : s.collision ref = none := collision_fresh fun k hk => (hf k hk).1.1
  have e0 : s.addUnit e false = (.ok (), s.register ref e) := by
    unfold System.addUnit; simp only [hn, c0]; rfl
  rw [e0]
  refine ⟨rfl, fun k hk => ?_⟩
  obtain ⟨h1, h2, h3, h4⟩ := direct_none (hf k hk).1.1
  unfold Spec.direct
  simp only [System.register, get_setAll, h1, h2, h3, h4]
  by_cases a1 : k ∈ nameKeys ref.name
  · simp [a1]
  by_cases a2 : k ∈ aliasKeys ref.aliasNames
  · simp [a1, a2]
  by_cases a3 : k ∈ ref.symbols
  · simp [a1, a2, a3]
  · have a4 : k ∈ ref.aliasSymbols := by
      rcases hk with hk | hk | hk | hk
      · exact absurd (mem_nameKeys_iff.2 hk) a1
      · exact absurd (mem_aliasKeys_iff.2 hk) a2
      · exact absurd hk a3
      · exact hk
    simp [a1, a2, a3, a4]

/-! ## Without freshness -/

/-- a unit called `klick`, lazily defined as `5 km` -/
def Demo.klick : System := Demo.addLazy c!"5 km" (Demo.named c!"klick" c!"klicks" []) Demo.sys

/-- a unit with the symbol `km`, which until then was read as kilo-metre -/
def Demo.kmUnit : Ref :=
  .unit (some ⟨some ⟨c!"kelvinminute", none⟩, [c!"km"], [], []⟩) (.ident c!"s") [(c!"s", .basis Demo.second)]

/-- **C65** (refuted without freshness). A definition is read when the unit is first looked up: a harmless
query decides what a unit means after a later registration — no name collides, nothing is replaced. -/
theorem C65_late_registration_refuted :
    ¬ ∀ (s : System) (q : Query) (u : Ref) (n : Str) (limit : Nat), Pristine s → ConflictFree s →
        (s.addUnit (.unit u) false).1 = .ok () →
        ((unitByNameOrSymbol Demo.env limit n (live Demo.env [.query q, .addUnit u] s)).1.map Ref.dims)
          = (unitByNameOrSymbol Demo.env limit n (live Demo.env [.addUnit u] s)).1.map Ref.dims := by
  intro h
  have hp : Pristine Demo.klick := by
    have : (Demo.klick.heap.all fun o => o.resolved.isNone) = true := by decide +kernel
    intro o ho
    have := List.all_eq_true.1 this o ho
    simpa using this
  have h1 := h Demo.klick (.lookup 9 c!"klick") Demo.kmUnit c!"klick" 9 hp (conflictFree_of_bool (by decide +kernel))
    (by decide +kernel)
  have e1 : ((unitByNameOrSymbol Demo.env 9 c!"klick"
      (live Demo.env [.query (.lookup 9 c!"klick"), .addUnit Demo.kmUnit] Demo.klick)).1.map Ref.dims)
      = .ok (.ok [(Demo.metre, 1)]) := by decide +kernel
  have e2 : ((unitByNameOrSymbol Demo.env 9 c!"klick" (live Demo.env [.addUnit Demo.kmUnit] Demo.klick)).1.map Ref.dims)
      = .ok (.ok [(Demo.second, 1)]) := by decide +kernel
  rw [e1, e2] at h1
  exact absurd h1 (by decide +kernel)

/-! ## A tidy history -/

/-- decidable form of `Unread` -/
def unreadB (s : System) (k : Str) : Bool :=
  (Spec.direct s k).isNone && (Spec.firstSplit s k (Spec.prefixes s)).isNone

theorem unread_of_bool {s : System} {k : Str} (h : unreadB s k = true) : Unread s k := by
  unfold unreadB at h
  rw [Bool.and_eq_true, Option.isNone_iff_eq_none, Option.isNone_iff_eq_none] at h
  exact ⟨h.1, firstSplit_none.1 h.2⟩

/-- decidable form of `FreshUnit` -/
def freshUnitB (s : System) (ref : UnitReference) : Bool :=
  (nameKeys ref.name ++ aliasKeys ref.aliasNames ++ ref.symbols ++ ref.aliasSymbols).all fun k =>
    unreadB s k && (Spec.prefixes s).all fun q => (Spec.direct s (q.1 ++ k)).isSome || unreadB s (q.1 ++ k)

theorem freshUnit_of_bool {s : System} {ref : UnitReference} (h : freshUnitB s ref = true) : FreshUnit s ref := by
  intro k hk
  have hm : k ∈ nameKeys ref.name ++ aliasKeys ref.aliasNames ++ ref.symbols ++ ref.aliasSymbols := by
    simp only [List.mem_append]
    rcases hk with hk | hk | hk | hk
    · exact Or.inl (Or.inl (Or.inl (mem_nameKeys_iff.2 hk)))
    · exact Or.inl (Or.inl (Or.inr (mem_aliasKeys_iff.2 hk)))
    · exact Or.inl (Or.inr hk)
    · exact Or.inr hk
  have := List.all_eq_true.1 h k hm
  rw [Bool.and_eq_true, List.all_eq_true] at this
  refine ⟨unread_of_bool this.1, fun q hq hd => ?_⟩
  have := this.2 q hq
  rw [hd] at this
  exact unread_of_bool (by simpa using this)

/-- queries, a definition, more queries, a definition that uses it, and a unit object: all fresh -/
def Demo.life : List Step :=
  [.query (.unit 9 c!"km/h"), .define c!"24 h" (Demo.named c!"day" c!"days" [c!"d"]),
   .query (.lookup 9 c!"furlong"), .query (.lookup 9 c!"kd"),
   .define c!"7 d" (Demo.named c!"week" c!"weeks" []),
   .addUnit (.unit (some (Demo.named c!"jiffy" c!"jiffies" [])) (.ident c!"s") [(c!"s", .basis Demo.second)])]

example : AllFresh Demo.life Demo.sys := by
  refine ⟨trivial, freshUnit_of_bool (by decide +kernel), trivial, trivial, freshUnit_of_bool (by decide +kernel), ?_, trivial⟩
  intro ref href
  cases href
  exact freshUnit_of_bool (by decide +kernel)

example : (unitByNameOrSymbol Demo.env 9 c!"week" (live Demo.env Demo.life Demo.sys)).1.map Ref.str = .ok c!"7·d" := by
  decide +kernel

/-- a fresh prefix -/
example : FreshPrefix (System.empty.addPrefix Demo.kilo |> Demo.addBasis Demo.metre) ⟨c!"mega", c!"1e6", [c!"M"]⟩ := by
  have hd : ∀ rest, Spec.direct (System.empty.addPrefix Demo.kilo |> Demo.addBasis Demo.metre) rest ≠ none →
      rest ∈ [c!"metre", c!"metres", c!"meter", c!"meters", c!"m"] := by
    intro rest hr
    refine Classical.byContradiction fun hn => hr ?_
    simp only [List.mem_cons, List.not_mem_nil, or_false, not_or] at hn
    obtain ⟨h1, h2, h3, h4, h5⟩ := hn
    have e : (System.empty.addPrefix Demo.kilo |> Demo.addBasis Demo.metre)
      = System.register (System.empty.addPrefix Demo.kilo) Demo.metreRef (.unit (.basis Demo.metre)) := rfl
    rw [e, direct_register]
    · rfl
    · rintro (hk | hk | hk | hk)
      · have := mem_nameKeys_iff.2 hk
        have e : nameKeys Demo.metreRef.name = [c!"metre", c!"metres"] := rfl
        rw [e] at this
        simp at this
        rcases this with h | h
        · exact h1 h
        · exact h2 h
      · have := mem_aliasKeys_iff.2 hk
        have e : aliasKeys Demo.metreRef.aliasNames = [c!"meter", c!"meters"] := rfl
        rw [e] at this
        simp at this
        rcases this with h | h
        · exact h3 h
        · exact h4 h
      · have e : Demo.metreRef.symbols = [c!"m"] := rfl
        rw [e] at hk
        simp at hk
        exact h5 hk
      · cases hk
  intro k hk
  have hk' : k ∈ [c!"mega", c!"M"] := by
    rcases hk with rfl | hk
    · simp
    · simp at hk; simp [hk]
  have ok : ([c!"mega", c!"M"].all fun k =>
      (Dict.get k (System.empty.addPrefix Demo.kilo |> Demo.addBasis Demo.metre).prefixNames).isNone &&
      (Dict.get k (System.empty.addPrefix Demo.kilo |> Demo.addBasis Demo.metre).prefixSymbols).isNone &&
      [c!"metre", c!"metres", c!"meter", c!"meters", c!"m"].all fun rest =>
        unreadB (System.empty.addPrefix Demo.kilo |> Demo.addBasis Demo.metre) (k ++ rest)) = true := by decide +kernel
  have := List.all_eq_true.1 ok k hk'
  rw [Bool.and_eq_true, Bool.and_eq_true, Option.isNone_iff_eq_none, Option.isNone_iff_eq_none] at this
  exact ⟨this.1.1, this.1.2, fun rest hr _ => unread_of_bool (List.all_eq_true.1 this.2 rest (hd rest hr))⟩

end Verif

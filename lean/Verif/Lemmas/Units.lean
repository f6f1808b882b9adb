import Verif.Spec.Units
import Verif.Lemmas.Order
import Verif.Lemmas.Dims
/-!
# Normalisation, and an invariant carried by every history
-/

namespace Verif

/-- Normalisation never changes an expression. -/
theorem normalise_id (refs : List (Str × Ref)) (n : Node) : ∀ {r : Option Node}, normalise refs n = .ok r → r.getD n = n := by
  have bin : ∀ (mk : Node → Node → Node) (l r : Node),
      (∀ {q}, normalise refs l = .ok q → q.getD l = l) → (∀ {q}, normalise refs r = .ok q → q.getD r = r) →
      ∀ {q}, (do let nl ← normalise refs l; let nr ← normalise refs r; .ok (rebuild mk l r nl nr) : Py _) = .ok q →
      q.getD (mk l r) = mk l r := by
    intro mk l r hl hr q h
    cases h1 : normalise refs l with
    | error e => rw [h1] at h; cases h
    | ok nl =>
      rw [h1] at h
      cases h2 : normalise refs r with
      | error e => simp only [bind, Except.bind, h2] at h; cases h
      | ok nr =>
        simp only [bind, Except.bind, h2] at h
        cases h
        have a := hl h1
        have b := hr h2
        cases nl <;> cases nr <;> simp_all [rebuild]
  induction n with
  | number v r => intro r h; cases h; rfl
  | ident n => intro r h; cases h; rfl
  | unhandled r => intro r h; cases h
  | mul l r hl hr => intro q h; exact bin .mul l r hl hr h
  | div l r hl hr => intro q h; exact bin .div l r hl hr h
  | raise l r hl hr => intro q h; exact bin .raise l r hl hr h
  | log fn t ht =>
    intro q h
    rw [normalise] at h
    cases h1 : normalise refs t with
    | error e => rw [h1] at h; cases h
    | ok nt =>
      rw [h1] at h; cases h
      have := ht h1
      cases nt <;> simp_all
  | shift u f hu hf =>
    intro q h
    rw [normalise] at h
    cases h1 : normalise refs u with
    | error e => rw [h1] at h; cases h
    | ok nu =>
      simp only [bind, Except.bind, h1] at h
      rw [hu h1] at h
      cases h2 : defnDims refs u with
      | error e => rw [h2] at h; cases h
      | ok d =>
        simp only [h2] at h
        split at h
        · cases h
        · cases f <;> simp at h
          subst h; rfl

theorem isTime_unit {names : Option UnitReference} {e : Node} {refs : List (Str × Ref)} {b : Bool} :
    (Ref.unit names e refs).isTimeUnit = .ok b ↔ ∃ d, defnDims refs e = .ok d ∧ Dims.isTime d = b := by
  simp only [Ref.isTimeUnit, dims_unit]
  cases defnDims refs e with
  | error x =>
    constructor
    · intro h; cases h
    · rintro ⟨d, h, _⟩; cases h
  | ok d =>
    constructor
    · intro h; cases h; exact ⟨d, rfl, rfl⟩
    · rintro ⟨d', h, rfl⟩; cases h; rfl

/-- recursive form of admissibility -/
def Adm (refs : List (Str × Ref)) : Node → Prop
  | .number _ _ | .ident _ => True
  | .unhandled _ => False
  | .mul l r | .div l r | .raise l r => Adm refs l ∧ Adm refs r
  | .log _ t => Adm refs t
  | .shift u f => Adm refs u ∧ (∃ v raw, f = .number v raw) ∧ (Ref.unit none u refs).isTimeUnit = .ok false

theorem adm_iff {refs : List (Str × Ref)} {e : Node} : Adm refs e ↔ Admissible refs e := by
  constructor
  · intro h
    induction e with
    | number v r => exact ⟨(fun u f h => nomatch h), (fun r h => nomatch h)⟩
    | ident n => exact ⟨(fun u f h => nomatch h), (fun r h => nomatch h)⟩
    | unhandled r => exact absurd h id
    | mul l r hl hr =>
      obtain ⟨a1, a2⟩ := hl h.1
      obtain ⟨b1, b2⟩ := hr h.2
      constructor
      · intro u f ho; cases ho with
        | mulL ho => exact a1 u f ho
        | mulR ho => exact b1 u f ho
      · intro raw ho; cases ho with
        | mulL ho => exact a2 raw ho
        | mulR ho => exact b2 raw ho
    | div l r hl hr =>
      obtain ⟨a1, a2⟩ := hl h.1
      obtain ⟨b1, b2⟩ := hr h.2
      constructor
      · intro u f ho; cases ho with
        | divL ho => exact a1 u f ho
        | divR ho => exact b1 u f ho
      · intro raw ho; cases ho with
        | divL ho => exact a2 raw ho
        | divR ho => exact b2 raw ho
    | raise l r hl hr =>
      obtain ⟨a1, a2⟩ := hl h.1
      obtain ⟨b1, b2⟩ := hr h.2
      constructor
      · intro u f ho; cases ho with
        | raiseL ho => exact a1 u f ho
        | raiseR ho => exact b1 u f ho
      · intro raw ho; cases ho with
        | raiseL ho => exact a2 raw ho
        | raiseR ho => exact b2 raw ho
    | log fn t ht =>
      obtain ⟨a1, a2⟩ := ht h
      constructor
      · intro u f ho; cases ho with
        | log ho => exact a1 u f ho
      · intro raw ho; cases ho with
        | log ho => exact a2 raw ho
    | shift u f hu hf =>
      obtain ⟨h1, ⟨v, raw, rfl⟩, h3⟩ := h
      obtain ⟨a1, a2⟩ := hu h1
      constructor
      · intro u' f' ho
        cases ho with
        | here => exact ⟨⟨v, raw, rfl⟩, h3⟩
        | shiftU ho => exact a1 _ _ ho
        | shiftF ho => cases ho
      · intro raw ho
        cases ho with
        | shiftU ho => exact a2 _ ho
        | shiftF ho => cases ho
  · rintro ⟨h1, h2⟩
    induction e with
    | number v r => trivial
    | ident n => trivial
    | unhandled r => exact absurd .here (h2 r)
    | mul l r hl hr =>
      exact ⟨hl (fun u f h => h1 u f (.mulL h)) (fun r h => h2 r (.mulL h)),
        hr (fun u f h => h1 u f (.mulR h)) (fun r h => h2 r (.mulR h))⟩
    | div l r hl hr =>
      exact ⟨hl (fun u f h => h1 u f (.divL h)) (fun r h => h2 r (.divL h)),
        hr (fun u f h => h1 u f (.divR h)) (fun r h => h2 r (.divR h))⟩
    | raise l r hl hr =>
      exact ⟨hl (fun u f h => h1 u f (.raiseL h)) (fun r h => h2 r (.raiseL h)),
        hr (fun u f h => h1 u f (.raiseR h)) (fun r h => h2 r (.raiseR h))⟩
    | log fn t ht => exact ht (fun u f h => h1 u f (.log h)) (fun r h => h2 r (.log h))
    | shift u f hu hf =>
      obtain ⟨a, b⟩ := h1 u f .here
      exact ⟨hu (fun u f h => h1 u f (.shiftU h)) (fun r h => h2 r (.shiftU h)), a, b⟩

theorem normalise_ok_iff (refs : List (Str × Ref)) (n : Node) : (∃ r, normalise refs n = .ok r) ↔ Adm refs n := by
  have bin : ∀ (mk : Node → Node → Node) (l r : Node),
      ((∃ q, normalise refs l = .ok q) ↔ Adm refs l) → ((∃ q, normalise refs r = .ok q) ↔ Adm refs r) →
      ((∃ q, (do let nl ← normalise refs l; let nr ← normalise refs r; .ok (rebuild mk l r nl nr) : Py _) = .ok q) ↔
        Adm refs l ∧ Adm refs r) := by
    intro mk l r hl hr
    rw [← hl, ← hr]
    constructor
    · rintro ⟨q, h⟩
      cases h1 : normalise refs l with
      | error e => rw [h1] at h; cases h
      | ok nl =>
        rw [h1] at h
        cases h2 : normalise refs r with
        | error e => simp only [bind, Except.bind, h2] at h; cases h
        | ok nr => exact ⟨⟨_, rfl⟩, ⟨_, rfl⟩⟩
    · rintro ⟨⟨a, h1⟩, ⟨b, h2⟩⟩
      rw [h1, h2]; exact ⟨_, rfl⟩
  induction n with
  | number v r => exact ⟨fun _ => trivial, fun _ => ⟨_, rfl⟩⟩
  | ident n => exact ⟨fun _ => trivial, fun _ => ⟨_, rfl⟩⟩
  | unhandled r =>
    constructor
    · rintro ⟨q, h⟩; cases h
    · intro h; exact absurd h id
  | mul l r hl hr => exact bin .mul l r hl hr
  | div l r hl hr => exact bin .div l r hl hr
  | raise l r hl hr => exact bin .raise l r hl hr
  | log fn t ht =>
    rw [normalise]
    change _ ↔ Adm refs t
    refine Iff.trans ?_ ht
    constructor
    · rintro ⟨q, h⟩
      cases h1 : normalise refs t with
      | error e => rw [h1] at h; cases h
      | ok nl => exact ⟨_, rfl⟩
    · rintro ⟨q, h⟩; rw [h]; exact ⟨_, rfl⟩
  | shift u f hu hf =>
    rw [normalise]
    change _ ↔ Adm refs u ∧ _
    refine Iff.trans ?_ (and_congr_left' hu)
    rw [isTime_unit]
    constructor
    · rintro ⟨q, h⟩
      cases h1 : normalise refs u with
      | error e => rw [h1] at h; cases h
      | ok nu =>
        simp only [bind, Except.bind, h1] at h
        rw [normalise_id refs u h1] at h
        cases h2 : defnDims refs u with
        | error e => rw [h2] at h; cases h
        | ok d =>
          simp only [h2] at h
          split at h
          · cases h
          · rename_i ht
            refine ⟨⟨_, rfl⟩, ?_, d, rfl, by simpa using ht⟩
            cases f <;> simp at h
            exact ⟨_, _, rfl⟩
    · rintro ⟨⟨nu, h1⟩, ⟨v, raw, rfl⟩, d, h2, h3⟩
      simp only [bind, Except.bind, h1]
      rw [normalise_id refs u h1]
      simp only [h2, h3, Bool.false_eq_true, if_false]
      exact ⟨_, rfl⟩

theorem mkUnit_iff {names : Option UnitReference} {e : Node} {refs : List (Str × Ref)} {r : Ref} :
    mkUnit names e refs = .ok r ↔ r = .unit names e refs ∧ Admissible refs e := by
  rw [← adm_iff, ← normalise_ok_iff]
  unfold mkUnit normalisedNode
  cases h : normalise refs e with
  | error x =>
    constructor
    · intro h; cases h
    · rintro ⟨_, q, h⟩; cases h
  | ok q =>
    constructor
    · intro h; cases h; exact ⟨rfl, _, rfl⟩
    · rintro ⟨rfl, _⟩; rfl

/-! ## An invariant of histories -/

/-- every unit object in the system satisfies `P` -/
structure SysAll (P : Ref → Prop) (s : System) : Prop where
  names : ∀ k r, Dict.get k s.names = some (.unit r) → P r
  symbols : ∀ k r, Dict.get k s.symbols = some (.unit r) → P r
  aliasNames : ∀ k r, Dict.get k s.aliasNames = some (.unit r) → P r
  aliasSymbols : ∀ k r, Dict.get k s.aliasSymbols = some (.unit r) → P r
  heap : ∀ (id : Nat) o r, s.heap[id]? = some o → o.resolved = some r → P r

variable {P : Ref → Prop} {env : Env}

/-- the computation keeps the invariant and returns only values satisfying `Q` -/
def Keeps (P : Ref → Prop) {α} (Q : α → Prop) (m : SysM α) : Prop :=
  ∀ s, SysAll P s → SysAll P (m s).2 ∧ ∀ a, (m s).1 = .ok a → Q a

/-- what is needed of `P`: units built from units satisfying it satisfy it -/
structure Hereditary (P : Ref → Prop) : Prop where
  pre : ∀ p, P (.pre p)
  unit : ∀ names e refs, (∀ n ∈ e.identifiers, n ∈ Dict.keys refs) → Admissible refs e →
    (∀ q ∈ refs, P q.2) → P (.unit names e refs)

/-- the oracle enumerates exactly the set -/
def Env.OrderOk (env : Env) : Prop := ∀ l x, x ∈ env.order l ↔ x ∈ l

theorem keeps_lookupAll {look : Str → SysM Ref} (hl : ∀ n, Keeps P P (look n)) (ns : List Str) :
    Keeps P (fun rs => Dict.keys rs = ns ∧ ∀ q ∈ rs, P q.2) (lookupAll look ns) := by
  induction ns with
  | nil =>
    intro s hs
    refine ⟨hs, ?_⟩
    intro a h; cases h; exact ⟨rfl, by simp⟩
  | cons n ns ih =>
    intro s hs
    have h1 := hl n s hs
    rw [lookupAll]
    cases hr : look n s with
    | mk res s1 =>
      rw [hr] at h1
      cases res with
      | error e => exact ⟨h1.1, fun a h => by cases h⟩
      | ok r =>
        have h2 := ih s1 h1.1
        simp only
        cases hr2 : lookupAll look ns s1 with
        | mk res2 s2 =>
          rw [hr2] at h2
          cases res2 with
          | error e => exact ⟨h2.1, fun a h => by cases h⟩
          | ok rs =>
            refine ⟨h2.1, fun a h => ?_⟩
            cases h
            obtain ⟨k1, k2⟩ := h2.2 rs rfl
            refine ⟨by simp [Dict.keys] at k1 ⊢; exact k1, ?_⟩
            intro q hq
            rcases List.mem_cons.1 hq with rfl | hq
            · exact h1.2 r rfl
            · exact k2 q hq

theorem sysAll_setResolved {s : System} (hs : SysAll P s) (id : Nat) {r : Ref} (hr : P r) :
    SysAll P (s.setResolved id r) := by
  refine ⟨hs.names, hs.symbols, hs.aliasNames, hs.aliasSymbols, ?_⟩
  intro i o r' h1 h2
  unfold System.setResolved at h1
  simp only [List.getElem?_modify] at h1
  cases ho : s.heap[i]? with
  | none => rw [ho] at h1; simp at h1
  | some o' =>
    rw [ho] at h1
    simp only [Option.map_eq_map, Option.map_some, Option.some.injEq] at h1
    by_cases hid : id = i
    · rw [if_pos hid] at h1; subst h1
      simp at h2; subst h2; exact hr
    · rw [if_neg hid] at h1
      subst h1
      exact hs.heap i _ r' ho h2

theorem sysAll_register {s : System} (hs : SysAll P s) (ref : UnitReference) {e : Entry}
    (he : ∀ r, e = .unit r → P r) : SysAll P (s.register ref e) := by
  have key : ∀ (keys : List Str) (d : Dict Str Entry), (∀ k r, Dict.get k d = some (.unit r) → P r) →
      ∀ k r, Dict.get k (setAll keys e d) = some (.unit r) → P r := by
    intro keys d hd k r h
    rw [get_setAll] at h
    split at h
    · cases h; exact he r rfl
    · exact hd k r h
  exact ⟨key _ _ hs.names, key _ _ hs.symbols, key _ _ hs.aliasNames, key _ _ hs.aliasSymbols, hs.heap⟩

theorem sysAll_addUnit {s : System} (hs : SysAll P s) {e : Entry} (he : ∀ r, e = .unit r → P r) (rep : Bool) :
    SysAll P (s.addUnit e rep).2 := by
  unfold System.addUnit
  cases s.namesOf e with
  | error x => exact hs
  | ok ref =>
    simp only
    split
    · exact hs
    · exact sysAll_register hs ref he

theorem keeps_resolve (hP : Hereditary P) (hord : env.OrderOk) {look : Str → SysM Ref} (hl : ∀ n, Keeps P P (look n))
    (id : Nat) : Keeps P P (resolve env look id) := by
  intro s hs
  unfold resolve
  cases ho : s.heap[id]? with
  | none => exact ⟨hs, fun a h => by cases h⟩
  | some o =>
    simp only
    cases hr : o.resolved with
    | some r =>
      refine ⟨hs, fun a h => ?_⟩
      cases h
      exact hs.heap id o _ ho hr
    | none =>
      simp only
      cases hp : env.parse o.defn with
      | error e => exact ⟨hs, fun a h => by cases h⟩
      | ok expr =>
        have h1 := keeps_lookupAll hl (env.order expr.identifiers) s hs
        simp only
        cases hla : lookupAll look (env.order expr.identifiers) s with
        | mk res s1 =>
          rw [hla] at h1
          cases res with
          | error e => exact ⟨h1.1, fun a h => by cases h⟩
          | ok refs =>
            simp only
            cases hm : mkUnit (some o.names) expr refs with
            | error e => exact ⟨h1.1, fun a h => by cases h⟩
            | ok r =>
              obtain ⟨k1, k2⟩ := h1.2 refs rfl
              obtain ⟨rfl, hadm⟩ := mkUnit_iff.1 hm
              have hPr : P (.unit (some o.names) expr refs) := by
                refine hP.unit _ _ _ ?_ hadm ?_
                · intro n hn; rw [k1]; exact (hord _ _).2 hn
                · exact k2
              exact ⟨sysAll_setResolved h1.1 id hPr, fun a h => by cases h; exact hPr⟩

theorem keeps_fetch (hP : Hereditary P) (hord : env.OrderOk) {look : Str → SysM Ref} (hl : ∀ n, Keeps P P (look n))
    (s : System) (hs : SysAll P s) (e : Option Entry) (he : ∀ r, e = some (.unit r) → P r) :
    SysAll P (fetch env look e s).2 ∧ ∀ a, (fetch env look e s).1 = .ok a → ∀ r, a = some r → P r := by
  unfold fetch
  cases e with
  | none => exact ⟨hs, fun a h => by cases h; intro r h; cases h⟩
  | some e =>
    cases e with
    | unit r => exact ⟨hs, fun a h => by cases h; intro r h; cases h; exact he _ rfl⟩
    | lazy id =>
      simp only
      have h1 := keeps_resolve hP hord hl id s hs
      cases hr : resolve env look id s with
      | mk res s1 =>
        rw [hr] at h1
        cases res with
        | error e => exact ⟨h1.1, fun a h => by cases h⟩
        | ok r =>
          have hPr := h1.2 r rfl
          simp only
          have h2 := sysAll_addUnit h1.1 (e := .unit r) (fun r' h => by cases h; exact hPr) true
          cases hadd : s1.addUnit (.unit r) true with
          | mk res s2 =>
            rw [hadd] at h2
            cases res with
            | error e => exact ⟨h2, fun a h => by cases h⟩
            | ok u => exact ⟨h2, fun a h => by cases h; intro r' h; cases h; exact hPr⟩

theorem entry_all {s : System} (hs : SysAll P s) (n : Str) :
    (∀ r, s.nameEntry n = some (.unit r) → P r) ∧ (∀ r, s.symbolEntry n = some (.unit r) → P r) := by
  have key : ∀ (a b : Dict Str Entry), (∀ k r, Dict.get k a = some (.unit r) → P r) →
      (∀ k r, Dict.get k b = some (.unit r) → P r) →
      ∀ r, (Dict.get n a).or (Dict.get n b) = some (.unit r) → P r := by
    intro a b ha hb r h
    cases hg : Dict.get n a with
    | some x => rw [hg] at h; cases h; exact ha n r hg
    | none => rw [hg] at h; exact hb n r h
  exact ⟨key _ _ hs.names hs.aliasNames, key _ _ hs.symbols hs.aliasSymbols⟩

theorem keeps_byNameOrSymbol (hP : Hereditary P) (hord : env.OrderOk) {look : Str → SysM Ref}
    (hl : ∀ n, Keeps P P (look n)) (n : Str) :
    Keeps P (fun o => ∀ r, o = some r → P r) (byNameOrSymbol env look n) := by
  intro s hs
  unfold byNameOrSymbol
  have h1 := keeps_fetch hP hord hl s hs (s.nameEntry n) (entry_all hs n).1
  cases hf : fetch env look (s.nameEntry n) s with
  | mk res s1 =>
    rw [hf] at h1
    cases res with
    | error e => exact ⟨h1.1, fun a h => by cases h⟩
    | ok o =>
      cases o with
      | some r => exact ⟨h1.1, fun a h => by cases h; exact h1.2 _ rfl⟩
      | none => exact keeps_fetch hP hord hl s1 h1.1 (s1.symbolEntry n) (entry_all h1.1 n).2

theorem prefixed_keeps (hP : Hereditary P) {p : Str} {pre : Prefix} {rest : Str} {u r : Ref} (hu : P u)
    (h : prefixed p pre rest u = .ok r) : P r := by
  unfold prefixed at h
  obtain ⟨rfl, hadm⟩ := mkUnit_iff.1 h
  refine hP.unit _ _ _ ?_ hadm ?_
  · intro n hn
    simp only [Node.identifiers, mem_setUnion, List.mem_singleton, List.not_mem_nil, false_or] at hn
    rw [← Dict.get_isSome_iff, Dict.get_set, Dict.get_set]
    rcases hn with rfl | rfl
    · simp; split <;> simp
    · simp
  · intro q hq
    simp only [Dict.set] at hq
    split at hq
    · simp only [List.mem_singleton] at hq; subst hq; exact hu
    · simp only [List.mem_cons, List.not_mem_nil, or_false] at hq
      rcases hq with rfl | rfl
      · exact hP.pre pre
      · exact hu

theorem keeps_prefixLoop (hP : Hereditary P) (hord : env.OrderOk) {look : Str → SysM Ref}
    (hl : ∀ n, Keeps P P (look n)) (n : Str) (l : List (Str × Prefix)) :
    Keeps P (fun o => ∀ r, o = some r → P r) (prefixLoop env look n l) := by
  induction l with
  | nil => intro s hs; exact ⟨hs, fun a h => by cases h; intro r h; cases h⟩
  | cons q l ih =>
    obtain ⟨p, pre⟩ := q
    intro s hs
    rw [prefixLoop]
    cases dropPrefix p n with
    | none => exact ih s hs
    | some rest =>
      simp only
      have h1 := keeps_byNameOrSymbol hP hord hl rest s hs
      cases hb : byNameOrSymbol env look rest s with
      | mk res s1 =>
        rw [hb] at h1
        cases res with
        | error e => exact ⟨h1.1, fun a h => by cases h⟩
        | ok o =>
          cases o with
          | none => exact ih s1 h1.1
          | some u =>
            simp only
            cases hp : prefixed p pre rest u with
            | error e => exact ⟨h1.1, fun a h => by cases h⟩
            | ok r =>
              exact ⟨h1.1, fun a h => by cases h; intro r' h; cases h; exact prefixed_keeps hP (h1.2 _ rfl u rfl) hp⟩

theorem keeps_lookupStep (hP : Hereditary P) (hord : env.OrderOk) {look : Str → SysM Ref}
    (hl : ∀ n, Keeps P P (look n)) (n : Str) : Keeps P P (lookupStep env look n) := by
  intro s hs
  unfold lookupStep
  have h1 := keeps_byNameOrSymbol hP hord hl n s hs
  cases hb : byNameOrSymbol env look n s with
  | mk res s1 =>
    rw [hb] at h1
    cases res with
    | error e => exact ⟨h1.1, fun a h => by cases h⟩
    | ok o =>
      cases o with
      | some r => exact ⟨h1.1, fun a h => by cases h; exact h1.2 _ rfl _ rfl⟩
      | none =>
        simp only
        have h2 := keeps_prefixLoop hP hord hl n s1.prefixNames s1 h1.1
        cases hp : prefixLoop env look n s1.prefixNames s1 with
        | mk res s2 =>
          rw [hp] at h2
          cases res with
          | error e => exact ⟨h2.1, fun a h => by cases h⟩
          | ok o =>
            cases o with
            | some r => exact ⟨h2.1, fun a h => by cases h; exact h2.2 _ rfl _ rfl⟩
            | none =>
              simp only
              have h3 := keeps_prefixLoop hP hord hl n s2.prefixSymbols s2 h2.1
              cases hp' : prefixLoop env look n s2.prefixSymbols s2 with
              | mk res s3 =>
                rw [hp'] at h3
                cases res with
                | error e => exact ⟨h3.1, fun a h => by cases h⟩
                | ok o =>
                  cases o with
                  | some r => exact ⟨h3.1, fun a h => by cases h; exact h3.2 _ rfl _ rfl⟩
                  | none => exact ⟨h3.1, fun a h => by cases h⟩

theorem keeps_lookup (hP : Hereditary P) (hord : env.OrderOk) (f : Nat) (n : Str) :
    Keeps P P (unitByNameOrSymbol env f n) := by
  induction f generalizing n with
  | zero => intro s hs; exact ⟨hs, fun a h => by cases h⟩
  | succ f ih => exact keeps_lookupStep hP hord ih n

/-- what `unit(text)` returns -/
def ObjAll (P : Ref → Prop) : UObj → Prop
  | .unit r => P r
  | .date u _ => P u

theorem unitFromExpr_all (hP : Hereditary P) {e : Node} {refs : List (Str × Ref)} {o : UObj}
    (hid : ∀ n ∈ e.identifiers, n ∈ Dict.keys refs) (hrefs : ∀ q ∈ refs, P q.2)
    (h : unitFromExpr e refs = .ok o) : ObjAll P o := by
  have plain : ∀ e' r, (∀ n ∈ e'.identifiers, n ∈ Dict.keys refs) → mkUnit none e' refs = .ok r → P r := by
    intro e' r hid' hm
    obtain ⟨rfl, hadm⟩ := mkUnit_iff.1 hm
    exact hP.unit _ _ _ hid' hadm hrefs
  have other : (do let r ← mkUnit none e refs; .ok (UObj.unit r) : Py UObj) = .ok o → ObjAll P o := by
    intro h
    cases hm : mkUnit none e refs with
    | error x => rw [hm] at h; cases h
    | ok r => rw [hm] at h; cases h; exact plain e r hid hm
  cases e with
  | shift u f =>
    simp only [unitFromExpr] at h
    cases hm : mkUnit none u refs with
    | error x => rw [hm] at h; cases h
    | ok su =>
      simp only [bind, Except.bind, hm] at h
      cases ht : su.isTimeUnit with
      | error x => rw [ht] at h; cases h
      | ok b =>
        rw [ht] at h
        have hsu : P su := plain u su (fun n hn => hid n (by
          simp only [Node.identifiers, mem_setUnion]; exact Or.inl (Or.inr hn))) hm
        cases b with
        | false => exact other h
        | true =>
          simp only [if_true] at h
          have hdate : ∀ raw, mkDate su raw = .ok o → ObjAll P o := by
            intro raw hd
            unfold mkDate at hd
            simp only [bind, Except.bind, ht, if_true] at hd
            cases hd; exact hsu
          cases f with
          | number v raw => exact hdate raw h
          | unhandled raw => exact hdate _ h
          | _ => cases h
  | _ => exact other h

theorem keeps_unit (hP : Hereditary P) (hord : env.OrderOk) (f : Nat) (t : Str) :
    Keeps P (ObjAll P) (System.unit env f t) := by
  intro s hs
  unfold System.unit
  cases env.parse t with
  | error e => exact ⟨hs, fun a h => by cases h⟩
  | ok expr =>
    simp only
    have h1 := keeps_lookupAll (fun n => keeps_lookup hP hord f n) (env.order expr.identifiers) s hs
    cases hla : lookupAll (unitByNameOrSymbol env f) (env.order expr.identifiers) s with
    | mk res s1 =>
      rw [hla] at h1
      cases res with
      | error e => exact ⟨h1.1, fun a h => by cases h⟩
      | ok refs =>
        obtain ⟨k1, k2⟩ := h1.2 refs rfl
        refine ⟨h1.1, fun a h => unitFromExpr_all hP ?_ ?_ h⟩
        · intro n hn; rw [k1]; exact (hord _ _).2 hn
        · exact k2

theorem builtFrom_all (hP : Hereditary P) (hord : env.OrderOk) {s : System} (h : Spec.BuiltFrom P env s) : SysAll P s := by
  induction h with
  | empty => exact ⟨(fun k r h => nomatch h), (fun k r h => nomatch h), (fun k r h => nomatch h), (fun k r h => nomatch h),
      (fun id o r h => by simp [System.empty] at h)⟩
  | addPrefix p _ ih => exact ⟨ih.names, ih.symbols, ih.aliasNames, ih.aliasSymbols, ih.heap⟩
  | newLazy d ref _ ih =>
    refine ⟨ih.names, ih.symbols, ih.aliasNames, ih.aliasSymbols, ?_⟩
    intro id o r h1 h2
    unfold System.alloc at h1
    simp only [List.getElem?_append] at h1
    split at h1
    · exact ih.heap id o r h1 h2
    · have := List.mem_of_getElem? h1
      simp at this; subst this; cases h2
  | addUnit r rep hr _ ih => exact sysAll_addUnit ih (fun r' h => by cases h; exact hr) rep
  | addLazy id rep _ _ ih => exact sysAll_addUnit ih (fun r' h => by cases h) rep
  | query q _ ih =>
    cases q with
    | lookup f n => exact (keeps_lookup hP hord f n _ ih).1
    | unit f t => exact (keeps_unit hP hord f t _ ih).1

theorem wellBuilt_hereditary : Hereditary WellBuilt :=
  ⟨.pre, fun names e refs h1 h2 h3 => .unit names e refs h1 h2 fun _ _ h => h3 _ (Dict.get_mem h)⟩

end Verif

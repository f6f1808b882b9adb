import Verif.Spec.Lookup
import Verif.Lemmas.Dict
/-! The mutable lookup refines the pure lookup over the initial registry. -/
namespace Verif

/-- `a` is `b`, or gave up because of the recursion limit. -/
def Le {α} (a b : Py α) : Prop := a = .error .recursionError ∨ a = b

theorem Le.refl {α} (a : Py α) : Le a a := Or.inr rfl
theorem Le.trans {α} {a b c : Py α} (h1 : Le a b) (h2 : Le b c) : Le a c := by
  rcases h1 with h1 | h1
  · exact Or.inl h1
  · subst h1; exact h2
theorem Le.bot {α} (b : Py α) : Le (.error .recursionError) b := Or.inl rfl

theorem Le.bind {α β} {a b : Py α} {f g : α → Py β} (h : Le a b) (hf : ∀ x, Le (f x) (g x)) :
    Le (a >>= f) (b >>= g) := by
  rcases h with h | h
  · subst h; exact Or.inl rfl
  · subst h
    cases a with
    | error e => exact Or.inr rfl
    | ok x => exact hf x

theorem Le.ok {α} {x : α} {b : Py α} (h : Le (.ok x) b) : b = .ok x := by
  rcases h with h | h
  · cases h
  · exact h.symm

theorem Le.err {α} {e : PyErr} (he : e ≠ .recursionError) {b : Py α} (h : Le (.error e) b) :
    b = .error e := by
  rcases h with h | h
  · cases h; exact absurd rfl he
  · exact h.symm

theorem Le.mapM {α β} {f g : α → Py β} (h : ∀ x, Le (f x) (g x)) (l : List α) :
    Le (l.mapM f) (l.mapM g) := by
  induction l with
  | nil => exact Le.refl _
  | cons x l ih =>
    simp only [List.mapM_cons]
    exact Le.bind (h x) fun y => Le.bind ih fun ys => Le.refl _

namespace Spec

theorem resolve_mono (env : Env) (s : System) {f g : Str → Py Ref} (h : ∀ n, Le (f n) (g n)) (id : Nat) :
    Le (resolve env s f id) (resolve env s g id) := by
  unfold resolve
  cases s.heap[id]? with
  | none => exact Le.refl _
  | some o =>
    refine Le.bind (Le.refl _) fun expr => ?_
    refine Le.bind (Le.mapM (fun n => ?_) _) fun refs => Le.refl _
    exact Le.bind (h n) fun r => Le.refl _

theorem entry_mono (env : Env) (s : System) {f g : Str → Py Ref} (h : ∀ n, Le (f n) (g n)) (e : Entry) :
    Le (entry env s f e) (entry env s g e) := by
  cases e with
  | unit r => exact Le.refl _
  | lazy id => exact resolve_mono env s h id

theorem step_mono (env : Env) (s : System) {f g : Str → Py Ref} (h : ∀ n, Le (f n) (g n)) (n : Str) :
    Le (step env s f n) (step env s g n) := by
  unfold step
  cases direct s n with
  | some e => exact entry_mono env s h e
  | none =>
    cases firstSplit s n (s.prefixNames ++ s.prefixSymbols) with
    | none => exact Le.refl _
    | some q =>
      obtain ⟨p, pre, rest, e⟩ := q
      exact Le.bind (entry_mono env s h e) fun u => Le.refl _

theorem lookup_mono_succ (env : Env) (s : System) (d : Nat) :
    ∀ n, Le (lookup env s d n) (lookup env s (d + 1) n) := by
  induction d with
  | zero => intro n; exact Le.bot _
  | succ d ih => intro n; exact step_mono env s ih n

theorem lookup_mono (env : Env) (s : System) {d e : Nat} (h : d ≤ e) (n : Str) :
    Le (lookup env s d n) (lookup env s e n) := by
  induction h with
  | refl => exact Le.refl _
  | step _ ih => exact Le.trans ih (lookup_mono_succ env s _ n)

/-- The definite meaning of a lazily defined unit. -/
def Den (env : Env) (s : System) (id : Nat) (r : Ref) : Prop :=
  ∃ d, resolve env s (lookup env s d) id = .ok r

theorem Den.unique {env : Env} {s : System} {id : Nat} {r r' : Ref}
    (h : Den env s id r) (h' : Den env s id r') : r = r' := by
  obtain ⟨d, hd⟩ := h
  obtain ⟨d', hd'⟩ := h'
  have a := resolve_mono env s (fun n => lookup_mono env s (Nat.le_max_left d d') n) id
  have b := resolve_mono env s (fun n => lookup_mono env s (Nat.le_max_right d d') n) id
  rw [hd] at a; rw [hd'] at b
  have := a.ok.symm.trans b.ok
  cases this; rfl

theorem Den.names {env : Env} {s : System} {id : Nat} {r : Ref} (h : Den env s id r) :
    ∃ o d refs, s.heap[id]? = some o ∧ r = .unit (some o.names) d refs := by
  obtain ⟨d, hd⟩ := h
  unfold resolve at hd
  cases ho : s.heap[id]? with
  | none => rw [ho] at hd; cases hd
  | some o =>
    rw [ho] at hd
    simp only at hd
    cases hp : env.parse o.defn with
    | error e => rw [hp] at hd; cases hd
    | ok expr =>
      rw [hp] at hd
      simp only [bind, Except.bind] at hd
      split at hd
      · cases hd
      · rename_i refs _
        unfold mkUnit at hd
        simp only [bind, Except.bind] at hd
        split at hd
        · cases hd
        · cases hd; exact ⟨o, expr, _, rfl, rfl⟩

end Spec

open Spec (Den)

/-- relation between the entry of a table in the initial and in the current state -/
def EntRel (env : Env) (S0 : System) (a b : Option Entry) : Prop :=
  a = b ∨ ∃ id r, a = some (.lazy id) ∧ b = some (.unit r) ∧ Den env S0 id r

def HeapRel (env : Env) (S0 : System) (id : Nat) : Option LazyObj → Option LazyObj → Prop
  | none, none => True
  | some o0, some o => o.defn = o0.defn ∧ o.names = o0.names ∧
      ∀ r, o.resolved = some r → Den env S0 id r
  | _, _ => False

/-- `S` is the initial registry with some lazily defined units resolved to their meaning. -/
structure Inv (env : Env) (S0 S : System) : Prop where
  pn : S.prefixNames = S0.prefixNames
  ps : S.prefixSymbols = S0.prefixSymbols
  heap : ∀ id, HeapRel env S0 id S0.heap[id]? S.heap[id]?
  names : ∀ k, EntRel env S0 (Dict.get k S0.names) (Dict.get k S.names)
  symbols : ∀ k, EntRel env S0 (Dict.get k S0.symbols) (Dict.get k S.symbols)
  aliasNames : ∀ k, EntRel env S0 (Dict.get k S0.aliasNames) (Dict.get k S.aliasNames)
  aliasSymbols : ∀ k, EntRel env S0 (Dict.get k S0.aliasSymbols) (Dict.get k S.aliasSymbols)

theorem Inv.init (env : Env) {S0 : System} (hp : Spec.Pristine S0) : Inv env S0 S0 where
  pn := rfl
  ps := rfl
  heap := by
    intro id
    cases h : S0.heap[id]? with
    | none => trivial
    | some o =>
      refine ⟨rfl, rfl, ?_⟩
      intro r hr
      rw [hp o (List.mem_of_getElem? h)] at hr; cases hr
  names := fun _ => Or.inl rfl
  symbols := fun _ => Or.inl rfl
  aliasNames := fun _ => Or.inl rfl
  aliasSymbols := fun _ => Or.inl rfl

theorem EntRel.or {env : Env} {S0 : System} {a b a' b' : Option Entry}
    (h : EntRel env S0 a b) (h' : EntRel env S0 a' b') : EntRel env S0 (a.or a') (b.or b') := by
  rcases h with h | ⟨id, r, h1, h2, h3⟩
  · subst h
    cases a with
    | none => simpa using h'
    | some e => exact Or.inl rfl
  · subst h1; subst h2; exact Or.inr ⟨id, r, rfl, rfl, h3⟩

theorem Inv.nameEntry {env : Env} {S0 S : System} (h : Inv env S0 S) (n : Str) :
    EntRel env S0 (S0.nameEntry n) (S.nameEntry n) := (h.names n).or (h.aliasNames n)

theorem Inv.symbolEntry {env : Env} {S0 S : System} (h : Inv env S0 S) (n : Str) :
    EntRel env S0 (S0.symbolEntry n) (S.symbolEntry n) := (h.symbols n).or (h.aliasSymbols n)

theorem Spec.direct_eq (s : System) (n : Str) :
    Spec.direct s n = (s.nameEntry n).or (s.symbolEntry n) := by
  unfold Spec.direct System.nameEntry System.symbolEntry
  cases Dict.get n s.names <;> cases Dict.get n s.aliasNames <;> cases Dict.get n s.symbols <;>
    cases Dict.get n s.aliasSymbols <;> rfl

theorem get_setAll (keys : List Str) (e : Entry) (d : Dict Str Entry) (k : Str) :
    Dict.get k (setAll keys e d) = if k ∈ keys then some e else Dict.get k d := by
  induction keys generalizing d with
  | nil => simp [setAll]
  | cons k' ks ih =>
    show Dict.get k (setAll ks e (Dict.set k' e d)) = _
    rw [ih, Dict.get_set]
    by_cases h1 : k ∈ ks
    · simp [h1]
    · by_cases h2 : k = k'
      · simp [h2]
      · simp [h1, h2]

theorem EntRel.setAll {env : Env} {S0 : System} {d0 d : Dict Str Entry} {id : Nat} {r : Ref}
    {keys : List Str} (hd : ∀ k, EntRel env S0 (Dict.get k d0) (Dict.get k d))
    (hk : ∀ k ∈ keys, Dict.get k d0 = some (.lazy id)) (hr : Den env S0 id r) (k : Str) :
    EntRel env S0 (Dict.get k d0) (Dict.get k (setAll keys (.unit r) d)) := by
  rw [get_setAll]
  by_cases h : k ∈ keys
  · rw [if_pos h, hk k h]; exact Or.inr ⟨id, r, rfl, rfl, hr⟩
  · rw [if_neg h]; exact hd k

/-- re-registering a resolved unit keeps the invariant -/
theorem Inv.register {env : Env} {S0 S : System} (hc : Spec.ConflictFree S0) (h : Inv env S0 S)
    {id : Nat} {r : Ref} (hr : Den env S0 id r) :
    ∃ S', S.addUnit (.unit r) true = (.ok (), S') ∧ Inv env S0 S' := by
  obtain ⟨o, d, refs, ho, rfl⟩ := hr.names
  obtain ⟨c1, c2, c3, c4⟩ := hc id o ho
  refine ⟨_, rfl, ?_⟩
  exact {
    pn := h.pn
    ps := h.ps
    heap := h.heap
    names := EntRel.setAll h.names c1 hr
    symbols := EntRel.setAll h.symbols c2 hr
    aliasNames := EntRel.setAll h.aliasNames c3 hr
    aliasSymbols := EntRel.setAll h.aliasSymbols c4 hr }

theorem Inv.setResolved {env : Env} {S0 S : System} (h : Inv env S0 S)
    {id : Nat} {r : Ref} (hr : Den env S0 id r) : Inv env S0 (S.setResolved id r) where
  pn := h.pn
  ps := h.ps
  heap := by
    intro i
    have hi := h.heap i
    show HeapRel env S0 i S0.heap[i]? (S.heap.modify id _)[i]?
    rw [List.getElem?_modify]
    cases h0 : S0.heap[i]? with
    | none =>
      rw [h0] at hi
      cases h1 : S.heap[i]? with
      | none => simp [HeapRel]
      | some o => rw [h1] at hi; exact hi.elim
    | some o0 =>
      rw [h0] at hi
      cases h1 : S.heap[i]? with
      | none => rw [h1] at hi; exact hi.elim
      | some o =>
        rw [h1] at hi
        by_cases e : id = i
        · subst e
          simp only [if_true]
          refine ⟨hi.1, hi.2.1, ?_⟩
          intro r' hr'
          cases hr'; exact hr
        · simpa [e] using hi
  names := h.names
  symbols := h.symbols
  aliasNames := h.aliasNames
  aliasSymbols := h.aliasSymbols

/-- Simulation: from any state satisfying the invariant, the computation keeps it, its answer is an
approximation of the pure answer for some depth, and the pure answer at depth `f` approximates it. -/
def Sim {α} (env : Env) (S0 : System) (m : SysM α) (p : Nat → Py α) (f : Nat) : Prop :=
  ∀ S, Inv env S0 S → Inv env S0 (m S).2 ∧ (∃ F, Le (m S).1 (p F)) ∧ Le (p f) (m S).1

/-- pure answers only get more definite with depth -/
def Mono' {α} (p : Nat → Py α) : Prop := ∀ ⦃d e : Nat⦄, d ≤ e → Le (p d) (p e)

section
variable {env : Env} {S0 : System}

theorem sim_lookupAll {look : Str → SysM Ref} {p : Nat → Str → Py Ref} {f : Nat}
    (hm : ∀ n, Mono' fun F => p F n) (hl : ∀ n, Sim env S0 (look n) (fun F => p F n) f) (ns : List Str) :
    Sim env S0 (lookupAll look ns)
      (fun F => ns.mapM fun n => do .ok (n, ← p F n)) f := by
  induction ns with
  | nil => intro S hS; exact ⟨hS, ⟨0, Le.refl _⟩, Le.refl _⟩
  | cons n ns ih =>
    intro S hS
    obtain ⟨hi, ⟨F, hF⟩, hf⟩ := hl n S hS
    simp only [lookupAll, List.mapM_cons]
    cases h1 : look n S with
    | mk res S1 =>
      rw [h1] at hi hF hf
      cases res with
      | error e =>
        simp only at hi hF hf ⊢
        refine ⟨hi, ⟨F, ?_⟩, ?_⟩
        · by_cases he : e = .recursionError
          · subst he; exact Le.bot _
          · rw [hF.err he]; exact Le.refl _
        · rcases hf with hf | hf <;> · rw [hf]; first | exact Le.bot _ | exact Le.refl _
      | ok r =>
        simp only at hi hF hf ⊢
        obtain ⟨hi2, ⟨F2, hF2⟩, hf2⟩ := ih S1 hi
        cases h2 : lookupAll look ns S1 with
        | mk res2 S2 =>
          rw [h2] at hi2 hF2 hf2
          have e1 : p (max F F2) n = .ok r := (Le.trans hF (hm n (Nat.le_max_left F F2))).ok
          have m2 : ∀ {a b}, a ≤ b → Le (ns.mapM fun n => (do .ok (n, ← p a n) : Py _))
              (ns.mapM fun n => (do .ok (n, ← p b n) : Py _)) := fun hab =>
            Le.mapM (fun n => Le.bind (hm n hab) fun _ => Le.refl _) ns
          have l2 := Le.trans hF2 (m2 (Nat.le_max_right F F2))
          cases res2 with
          | error e =>
            simp only at hi2 l2 hf2 ⊢
            refine ⟨hi2, ⟨max F F2, ?_⟩, ?_⟩
            · by_cases he : e = .recursionError
              · subst he; exact Le.bot _
              · rw [e1, l2.err he]; exact Le.refl _
            · rcases hf with hf | hf
              · rw [hf]; exact Le.bot _
              · rw [hf]
                rcases hf2 with hf2 | hf2
                · rw [hf2]; exact Le.bot _
                · rw [hf2]; exact Le.refl _
          | ok rs =>
            simp only at hi2 l2 hf2 ⊢
            refine ⟨hi2, ⟨max F F2, ?_⟩, ?_⟩
            · rw [e1, l2.ok]; exact Le.refl _
            · rcases hf with hf | hf
              · rw [hf]; exact Le.bot _
              · rw [hf]
                rcases hf2 with hf2 | hf2
                · rw [hf2]; exact Le.bot _
                · rw [hf2]; exact Le.refl _

/-- `resolve` -/
theorem sim_resolve {look : Str → SysM Ref} {f : Nat}
    (hl : ∀ n, Sim env S0 (look n) (fun F => Spec.lookup env S0 F n) f) (id : Nat) :
    Sim env S0 (resolve env look id) (fun F => Spec.resolve env S0 (Spec.lookup env S0 F) id) f ∧
    ∀ S, Inv env S0 S → ∀ r S', resolve env look id S = (.ok r, S') → Den env S0 id r := by
  have hm : ∀ n, Mono' fun F => Spec.lookup env S0 F n := fun n _ _ h => Spec.lookup_mono env S0 h n
  have key : Sim env S0 (resolve env look id) (fun F => Spec.resolve env S0 (Spec.lookup env S0 F) id) f := by
    intro S hS
    have hh := hS.heap id
    unfold resolve
    cases h0 : S0.heap[id]? with
    | none =>
      rw [h0] at hh
      cases h1 : S.heap[id]? with
      | some o => rw [h1] at hh; exact hh.elim
      | none =>
        have : ∀ F, Spec.resolve env S0 (Spec.lookup env S0 F) id = .error .unmodelled := by
          intro F; simp [Spec.resolve, h0]
        refine ⟨hS, ⟨0, ?_⟩, ?_⟩
        · exact Or.inr (this 0).symm
        · exact Or.inr (this f)
    | some o0 =>
      rw [h0] at hh
      cases h1 : S.heap[id]? with
      | none => rw [h1] at hh; exact hh.elim
      | some o =>
        rw [h1] at hh
        obtain ⟨hd, hn, hres⟩ := hh
        simp only
        cases hr : o.resolved with
        | some r =>
          simp only
          have hden := hres r hr
          refine ⟨hS, ?_, ?_⟩
          · obtain ⟨F, hF⟩ := hden
            exact ⟨F, Or.inr hF.symm⟩
          · obtain ⟨F, hF⟩ := hden
            have a := Spec.resolve_mono env S0 (fun n => Spec.lookup_mono env S0 (Nat.le_max_left f F) n) id
            have b := Spec.resolve_mono env S0 (fun n => Spec.lookup_mono env S0 (Nat.le_max_right f F) n) id
            rw [hF] at b
            rw [b.ok] at a
            exact a
        | none =>
          simp only
          have spec : ∀ F, Spec.resolve env S0 (Spec.lookup env S0 F) id = (do
              let expr ← env.parse o0.defn
              let refs ← (env.order expr.identifiers).mapM fun n => do .ok (n, ← Spec.lookup env S0 F n)
              mkUnit (some o0.names) expr refs) := by
            intro F; simp [Spec.resolve, h0]
          simp only [spec]
          rw [hd]
          cases hp : env.parse o0.defn with
          | error e => exact ⟨hS, ⟨0, Le.refl _⟩, Le.refl _⟩
          | ok expr =>
            simp only
            obtain ⟨hi, ⟨F, hF⟩, hf⟩ := sim_lookupAll hm hl (env.order expr.identifiers) S hS
            cases h2 : lookupAll look (env.order expr.identifiers) S with
            | mk res S1 =>
              rw [h2] at hi hF hf
              cases res with
              | error e =>
                simp only at hi hF hf ⊢
                refine ⟨hi, ⟨F, ?_⟩, ?_⟩
                · by_cases he : e = .recursionError
                  · subst he; exact Le.bot _
                  · simp only [bind, Except.bind]
                    simp only [bind, Except.bind] at hF
                    rw [hF.err he]; exact Le.refl _
                · simp only [bind, Except.bind] at hf ⊢
                  rcases hf with hf | hf
                  · rw [hf]; exact Le.bot _
                  · rw [hf]; exact Le.refl _
              | ok refs =>
                simp only at hi hF hf ⊢
                rw [hn]
                have specF : (do
                    let refs ← (env.order expr.identifiers).mapM fun n => (do .ok (n, ← Spec.lookup env S0 F n) : Py _)
                    mkUnit (some o0.names) expr refs) = mkUnit (some o0.names) expr refs := by
                  rw [hF.ok]; rfl
                cases hu : mkUnit (some o0.names) expr refs with
                | error e =>
                  simp only
                  refine ⟨hi, ⟨F, ?_⟩, ?_⟩
                  · show Le _ (do
                      let refs ← (env.order expr.identifiers).mapM fun n => (do .ok (n, ← Spec.lookup env S0 F n) : Py _)
                      mkUnit (some o0.names) expr refs)
                    rw [specF, hu]; exact Le.refl _
                  · simp only [bind, Except.bind] at hf ⊢
                    rcases hf with hf | hf
                    · rw [hf]; exact Le.bot _
                    · rw [hf]; simp only; rw [hu]; exact Le.refl _
                | ok r =>
                  simp only
                  have hden : Den env S0 id r := by
                    refine ⟨F, ?_⟩
                    rw [spec, hp]
                    show (do
                      let refs ← (env.order expr.identifiers).mapM fun n => (do .ok (n, ← Spec.lookup env S0 F n) : Py _)
                      mkUnit (some o0.names) expr refs) = _
                    rw [specF, hu]
                  refine ⟨hi.setResolved hden, ⟨F, ?_⟩, ?_⟩
                  · show Le _ (do
                      let refs ← (env.order expr.identifiers).mapM fun n => (do .ok (n, ← Spec.lookup env S0 F n) : Py _)
                      mkUnit (some o0.names) expr refs)
                    rw [specF, hu]; exact Le.refl _
                  · simp only [bind, Except.bind] at hf ⊢
                    rcases hf with hf | hf
                    · rw [hf]; exact Le.bot _
                    · rw [hf]; simp only; rw [hu]; exact Le.refl _
  refine ⟨key, ?_⟩
  intro S hS r S' hr
  obtain ⟨_, ⟨F, hF⟩, _⟩ := key S hS
  rw [hr] at hF
  exact ⟨F, hF.ok⟩

/-- pure counterpart of `fetch` -/
def pureFetch (env : Env) (S0 : System) (look : Str → Py Ref) : Option Entry → Py (Option Ref)
  | none => .ok none
  | some e => do .ok (some (← Spec.entry env S0 look e))

theorem sim_fetch (hc : Spec.ConflictFree S0) {look : Str → SysM Ref} {f : Nat}
    (hl : ∀ n, Sim env S0 (look n) (fun F => Spec.lookup env S0 F n) f)
    {e0 e : Option Entry} (he : EntRel env S0 e0 e) :
    Sim env S0 (fetch env look e) (fun F => pureFetch env S0 (Spec.lookup env S0 F) e0) f := by
  intro S hS
  rcases he with rfl | ⟨id, r, rfl, rfl, hden⟩
  · cases e0 with
    | none => exact ⟨hS, ⟨0, Le.refl _⟩, Le.refl _⟩
    | some en =>
      cases en with
      | unit r => exact ⟨hS, ⟨0, Le.refl _⟩, Le.refl _⟩
      | lazy id =>
        obtain ⟨key, hden⟩ := sim_resolve hl id
        obtain ⟨hi, ⟨F, hF⟩, hf⟩ := key S hS
        simp only [fetch]
        cases h1 : resolve env look id S with
        | mk res S1 =>
          rw [h1] at hi hF hf
          cases res with
          | error err =>
            refine ⟨hi, ⟨F, ?_⟩, ?_⟩
            · simp only at hF ⊢
              by_cases hr : err = .recursionError
              · subst hr; exact Le.bot _
              · simp only [pureFetch, Spec.entry]
                rw [hF.err hr]; exact Le.refl _
            · simp only at hf ⊢
              simp only [pureFetch, Spec.entry]
              rcases hf with hf | hf <;> · rw [hf]; first | exact Le.bot _ | exact Le.refl _
          | ok r =>
            have hd := hden S hS r S1 h1
            simp only at hi
            obtain ⟨S', hadd, hS'⟩ := Inv.register hc hi hd
            simp only
            rw [hadd]
            refine ⟨hS', ⟨F, ?_⟩, ?_⟩
            · simp only [pureFetch, Spec.entry] at hF ⊢
              rw [hF.ok]; exact Le.refl _
            · simp only [pureFetch, Spec.entry] at hf ⊢
              rcases hf with hf | hf <;> · rw [hf]; first | exact Le.bot _ | exact Le.refl _
  · -- already replaced by its meaning
    obtain ⟨F, hF⟩ := hden
    refine ⟨hS, ⟨F, ?_⟩, ?_⟩
    · simp only [pureFetch, Spec.entry, fetch]; rw [hF]; exact Le.refl _
    · have a := Spec.resolve_mono env S0 (fun n => Spec.lookup_mono env S0 (Nat.le_max_left f F) n) id
      have b := Spec.resolve_mono env S0 (fun n => Spec.lookup_mono env S0 (Nat.le_max_right f F) n) id
      rw [hF] at b
      rw [b.ok] at a
      simp only [pureFetch, Spec.entry, fetch]
      rcases a with a | a <;> · rw [a]; first | exact Le.bot _ | exact Le.refl _

theorem fetch_some_ne_none {look : Str → SysM Ref} {en : Entry} {S S' : System} :
    fetch env look (some en) S ≠ (.ok none, S') := by
  cases en with
  | unit r => simp [fetch]
  | lazy id =>
    simp only [fetch]
    split
    · simp
    · split <;> simp

theorem EntRel.none_left {b : Option Entry} (h : EntRel env S0 none b) : b = none := by
  rcases h with h | ⟨_, _, h, _⟩
  · exact h.symm
  · cases h

theorem EntRel.some_left {e : Entry} {b : Option Entry} (h : EntRel env S0 (some e) b) : ∃ e', b = some e' := by
  rcases h with h | ⟨_, r, _, h, _⟩
  · exact ⟨e, h.symm⟩
  · exact ⟨_, h⟩

theorem sim_byNameOrSymbol (hc : Spec.ConflictFree S0) {look : Str → SysM Ref} {f : Nat}
    (hl : ∀ n, Sim env S0 (look n) (fun F => Spec.lookup env S0 F n) f) (n : Str) :
    Sim env S0 (byNameOrSymbol env look n)
      (fun F => pureFetch env S0 (Spec.lookup env S0 F) (Spec.direct S0 n)) f := by
  intro S hS
  have hne := hS.nameEntry n
  rw [Spec.direct_eq]
  simp only [byNameOrSymbol]
  cases h0 : S0.nameEntry n with
  | none =>
    rw [h0] at hne
    rw [hne.none_left]
    simp only [fetch, Option.none_or]
    exact sim_fetch hc hl (hS.symbolEntry n) S hS
  | some en =>
    rw [h0] at hne
    obtain ⟨e', he'⟩ := hne.some_left
    have hs := sim_fetch hc hl hne S hS
    rw [he'] at hs ⊢
    simp only [Option.some_or]
    cases h1 : fetch env look (some e') S with
    | mk res S1 =>
      rw [h1] at hs
      cases res with
      | error e => exact hs
      | ok o =>
        cases o with
        | some r => exact hs
        | none => exact absurd h1 fetch_some_ne_none

/-- pure counterpart of the prefix loop -/
def purePrefix (env : Env) (S0 : System) (look : Str → Py Ref) (n : Str) (l : List (Str × Prefix)) :
    Py (Option Ref) :=
  match Spec.firstSplit S0 n l with
  | none => .ok none
  | some (p, pre, rest, e) => do
    let u ← Spec.entry env S0 look e
    .ok (some (← prefixed p pre rest u))

theorem byNameOrSymbol_none (hS : Inv env S0 S) {look : Str → SysM Ref} {n : Str} (h : Spec.direct S0 n = none) :
    byNameOrSymbol env look n S = (.ok none, S) := by
  rw [Spec.direct_eq] at h
  have hne := hS.nameEntry n
  have hse := hS.symbolEntry n
  cases h0 : S0.nameEntry n with
  | some e => rw [h0] at h; simp at h
  | none =>
    rw [h0] at h hne
    simp at h
    rw [h] at hse
    simp [byNameOrSymbol, hne.none_left, hse.none_left, fetch]

theorem byNameOrSymbol_ne_none (hS : Inv env S0 S) {look : Str → SysM Ref} {n : Str} {e : Entry}
    (h : Spec.direct S0 n = some e) (S' : System) :
    byNameOrSymbol env look n S ≠ (.ok none, S') := by
  rw [Spec.direct_eq] at h
  have hne := hS.nameEntry n
  have hse := hS.symbolEntry n
  simp only [byNameOrSymbol]
  cases h0 : S0.nameEntry n with
  | some e =>
    rw [h0] at hne
    obtain ⟨e', he'⟩ := hne.some_left
    rw [he']
    cases h1 : fetch env look (some e') S with
    | mk res S1 =>
      cases res with
      | error e => simp
      | ok o =>
        cases o with
        | some r => simp
        | none => exact absurd h1 fetch_some_ne_none
  | none =>
    rw [h0] at h hne
    simp at h
    rw [h] at hse
    obtain ⟨e', he'⟩ := hse.some_left
    rw [hne.none_left]
    have : fetch env look none S = (.ok none, S) := rfl
    rw [this]
    simp only
    rw [he']
    exact fetch_some_ne_none (look := look)

theorem sim_prefixLoop (hc : Spec.ConflictFree S0) {look : Str → SysM Ref} {f : Nat}
    (hl : ∀ n, Sim env S0 (look n) (fun F => Spec.lookup env S0 F n) f) (n : Str) (l : List (Str × Prefix)) :
    Sim env S0 (prefixLoop env look n l)
      (fun F => purePrefix env S0 (Spec.lookup env S0 F) n l) f := by
  induction l with
  | nil => intro S hS; exact ⟨hS, ⟨0, Le.refl _⟩, Le.refl _⟩
  | cons q l ih =>
    obtain ⟨p, pre⟩ := q
    intro S hS
    simp only [prefixLoop, purePrefix, Spec.firstSplit]
    cases hd : dropPrefix p n with
    | none => exact ih S hS
    | some rest =>
      simp only
      cases hdir : Spec.direct S0 rest with
      | none =>
        rw [byNameOrSymbol_none hS hdir]
        exact ih S hS
      | some e =>
        simp only
        have hb := sim_byNameOrSymbol hc hl rest S hS
        rw [hdir] at hb
        cases h1 : byNameOrSymbol env look rest S with
        | mk res S1 =>
          rw [h1] at hb
          obtain ⟨hi, ⟨F, hF⟩, hf⟩ := hb
          simp only at hi hF hf
          cases res with
          | error er =>
            refine ⟨hi, ⟨F, ?_⟩, ?_⟩
            · by_cases hr : er = .recursionError
              · subst hr; exact Le.bot _
              · have := hF.err hr
                simp only [pureFetch] at this
                cases hx : Spec.entry env S0 (Spec.lookup env S0 F) e with
                | error e2 =>
                  rw [hx] at this; cases this; exact Le.refl _
                | ok u => rw [hx] at this; cases this
            · simp only [pureFetch] at hf
              cases hx : Spec.entry env S0 (Spec.lookup env S0 f) e with
              | error e2 =>
                rw [hx] at hf
                rcases hf with hf | hf
                · cases hf; exact Le.bot _
                · cases hf; exact Le.refl _
              | ok u =>
                rw [hx] at hf
                rcases hf with hf | hf <;> cases hf
          | ok o =>
            cases o with
            | none => exact absurd h1 (byNameOrSymbol_ne_none hS hdir S1)
            | some u =>
              simp only
              have eF : Spec.entry env S0 (Spec.lookup env S0 F) e = .ok u := by
                have := hF.ok
                simp only [pureFetch] at this
                cases hx : Spec.entry env S0 (Spec.lookup env S0 F) e with
                | error e2 => rw [hx] at this; cases this
                | ok u => rw [hx] at this; cases this; rfl
              have ef : Le (Spec.entry env S0 (Spec.lookup env S0 f) e) (.ok u) := by
                simp only [pureFetch] at hf
                cases hx : Spec.entry env S0 (Spec.lookup env S0 f) e with
                | error e2 =>
                  rw [hx] at hf
                  rcases hf with hf | hf
                  · cases hf; exact Le.bot _
                  · cases hf
                | ok u2 =>
                  rw [hx] at hf
                  rcases hf with hf | hf
                  · cases hf
                  · cases hf; exact Le.refl _
              cases hpx : prefixed p pre rest u with
              | error er =>
                refine ⟨hi, ⟨F, ?_⟩, ?_⟩
                · simp only [eF, bind, Except.bind, hpx]; exact Le.refl _
                · rcases ef with ef | ef <;> simp only [ef, bind, Except.bind, hpx] <;>
                    first | exact Le.bot _ | exact Le.refl _
              | ok r =>
                refine ⟨hi, ⟨F, ?_⟩, ?_⟩
                · simp only [eF, bind, Except.bind, hpx]; exact Le.refl _
                · rcases ef with ef | ef <;> simp only [ef, bind, Except.bind, hpx] <;>
                    first | exact Le.bot _ | exact Le.refl _

theorem firstSplit_append (s : System) (n : Str) (a b : List (Str × Prefix)) :
    Spec.firstSplit s n (a ++ b) =
      match Spec.firstSplit s n a with
      | some x => some x
      | none => Spec.firstSplit s n b := by
  induction a with
  | nil => rfl
  | cons q a ih =>
    obtain ⟨p, pre⟩ := q
    simp only [List.cons_append, Spec.firstSplit]
    cases dropPrefix p n with
    | none => exact ih
    | some rest =>
      simp only
      cases Spec.direct s rest with
      | none => exact ih
      | some e => rfl

/-- the pure step, phrased as the code runs -/
theorem spec_step_eq (look : Str → Py Ref) (n : Str) :
    Spec.step env S0 look n = (do
      match ← pureFetch env S0 look (Spec.direct S0 n) with
      | some r => .ok r
      | none =>
        match ← purePrefix env S0 look n S0.prefixNames with
        | some r => .ok r
        | none =>
          match ← purePrefix env S0 look n S0.prefixSymbols with
          | some r => .ok r
          | none => .error (.unresolvable n)) := by
  unfold Spec.step
  cases Spec.direct S0 n with
  | some e =>
    simp only [pureFetch, bind, Except.bind]
    cases Spec.entry env S0 look e <;> rfl
  | none =>
    simp only [pureFetch, bind, Except.bind, firstSplit_append, purePrefix]
    cases Spec.firstSplit S0 n S0.prefixNames with
    | some q =>
      obtain ⟨p, pre, rest, e⟩ := q
      simp only
      cases Spec.entry env S0 look e with
      | error _ => rfl
      | ok u => simp only; cases prefixed p pre rest u <;> rfl
    | none =>
      simp only
      cases Spec.firstSplit S0 n S0.prefixSymbols with
      | none => rfl
      | some q =>
        obtain ⟨p, pre, rest, e⟩ := q
        simp only
        cases Spec.entry env S0 look e with
        | error _ => rfl
        | ok u => simp only; cases prefixed p pre rest u <;> rfl

/-- generic sequencing of simulations through an option-valued stage -/
theorem Sim.orElse {m : SysM (Option Ref)} {p : Nat → Py (Option Ref)} {k : SysM Ref} {q : Nat → Py Ref}
    {f : Nat} (hp : Mono' p) (hq : Mono' q) (hm : Sim env S0 m p f) (hk : Sim env S0 k q f) :
    Sim env S0
      (fun s => match m s with
        | (.error e, s) => (.error e, s)
        | (.ok (some r), s) => (.ok r, s)
        | (.ok none, s) => k s)
      (fun F => do
        match ← p F with
        | some r => .ok r
        | none => q F) f := by
  intro S hS
  obtain ⟨hi, ⟨F, hF⟩, hf⟩ := hm S hS
  simp only []
  cases h1 : m S with
  | mk res S1 =>
    rw [h1] at hi hF hf
    simp only at hi hF hf
    cases res with
    | error e =>
      refine ⟨hi, ⟨F, ?_⟩, ?_⟩
      · by_cases he : e = .recursionError
        · subst he; exact Le.bot _
        · simp only; rw [hF.err he]; exact Le.refl _
      · simp only
        rcases hf with hf | hf
        · rw [hf]; exact Le.bot _
        · rw [hf]; exact Le.refl _
    | ok o =>
      cases o with
      | some r =>
        refine ⟨hi, ⟨F, ?_⟩, ?_⟩
        · simp only; rw [hF.ok]; exact Le.refl _
        · simp only
          rcases hf with hf | hf
          · rw [hf]; exact Le.bot _
          · rw [hf]; exact Le.refl _
      | none =>
        obtain ⟨hi2, ⟨F2, hF2⟩, hf2⟩ := hk S1 hi
        refine ⟨hi2, ⟨max F F2, ?_⟩, ?_⟩
        · have e1 : p (max F F2) = .ok none := (Le.trans hF (hp (Nat.le_max_left F F2))).ok
          have l2 := Le.trans hF2 (hq (Nat.le_max_right F F2))
          simp only; rw [e1]; exact l2
        · simp only
          rcases hf with hf | hf
          · rw [hf]; exact Le.bot _
          · rw [hf]; exact hf2

theorem pureFetch_mono (e : Option Entry) :
    Mono' fun F => pureFetch env S0 (Spec.lookup env S0 F) e := by
  intro a b hab
  cases e with
  | none => exact Le.refl _
  | some e =>
    exact Le.bind (Spec.entry_mono env S0 (fun n => Spec.lookup_mono env S0 hab n) e) fun _ => Le.refl _

theorem purePrefix_mono (n : Str) (l : List (Str × Prefix)) :
    Mono' fun F => purePrefix env S0 (Spec.lookup env S0 F) n l := by
  intro a b hab
  simp only [purePrefix]
  cases Spec.firstSplit S0 n l with
  | none => exact Le.refl _
  | some q =>
    obtain ⟨p, pre, rest, e⟩ := q
    exact Le.bind (Spec.entry_mono env S0 (fun n => Spec.lookup_mono env S0 hab n) e) fun _ => Le.refl _

theorem orElse_mono {p : Nat → Py (Option Ref)} {q : Nat → Py Ref} (hp : Mono' p) (hq : Mono' q) :
    Mono' (fun F => (do
        match ← p F with
        | some r => .ok r
        | none => q F : Py Ref)) := by
  intro a b hab
  refine Le.bind (hp hab) fun o => ?_
  cases o with
  | some r => exact Le.refl _
  | none => exact hq hab

theorem Sim.congr_state {m m' : SysM Ref} {q : Nat → Py Ref} {f : Nat}
    (h : Sim env S0 m q f) (he : ∀ S, Inv env S0 S → m' S = m S) : Sim env S0 m' q f := by
  intro S hS; rw [he S hS]; exact h S hS

theorem sim_lookupStep (hc : Spec.ConflictFree S0) {look : Str → SysM Ref} {f : Nat}
    (hl : ∀ n, Sim env S0 (look n) (fun F => Spec.lookup env S0 F n) f) (n : Str) :
    Sim env S0 (lookupStep env look n) (fun F => Spec.step env S0 (Spec.lookup env S0 F) n) f := by
  have hk0 : Sim env S0 (fun s => (.error (.unresolvable n), s) : SysM Ref)
      (fun _ => .error (.unresolvable n)) f := fun S hS => ⟨hS, ⟨0, Le.refl _⟩, Le.refl _⟩
  have m0 : Mono' (fun _ : Nat => (.error (.unresolvable n) : Py Ref)) := fun _ _ _ => Le.refl _
  have hk1 := Sim.orElse (purePrefix_mono n _) m0 (sim_prefixLoop hc hl n S0.prefixSymbols) hk0
  have m1 := orElse_mono (purePrefix_mono (env := env) (S0 := S0) n S0.prefixSymbols) m0
  have hk2 := Sim.orElse (purePrefix_mono n _) m1 (sim_prefixLoop hc hl n S0.prefixNames) hk1
  have m2 := orElse_mono (purePrefix_mono (env := env) (S0 := S0) n S0.prefixNames) m1
  have hk3 := Sim.orElse (pureFetch_mono _) m2 (sim_byNameOrSymbol hc hl n) hk2
  simp only [spec_step_eq]
  intro S hS
  have := hk3 S hS
  have e : lookupStep env look n S = (match byNameOrSymbol env look n S with
        | (.error e, s) => (.error e, s)
        | (.ok (some r), s) => (.ok r, s)
        | (.ok none, s) => match prefixLoop env look n S0.prefixNames s with
          | (.error e, s) => (.error e, s)
          | (.ok (some r), s) => (.ok r, s)
          | (.ok none, s) => match prefixLoop env look n S0.prefixSymbols s with
            | (.error e, s) => (.error e, s)
            | (.ok (some r), s) => (.ok r, s)
            | (.ok none, s) => (.error (.unresolvable n), s)) := by
    unfold lookupStep
    have h1 := (sim_byNameOrSymbol hc hl n S hS).1
    cases hb : byNameOrSymbol env look n S with
    | mk res S1 =>
      rw [hb] at h1
      simp only at h1
      cases res with
      | error e => rfl
      | ok o =>
        cases o with
        | some r => rfl
        | none =>
          simp only
          rw [h1.pn]
          have h2 := (sim_prefixLoop hc hl n S0.prefixNames S1 h1).1
          cases hb2 : prefixLoop env look n S0.prefixNames S1 with
          | mk res2 S2 =>
            rw [hb2] at h2
            simp only at h2
            cases res2 with
            | error e => rfl
            | ok o =>
              cases o with
              | some r => rfl
              | none => simp only; rw [h2.ps]; rfl
  rw [e]
  exact this

/-- **Refinement**: `unit_by_name_or_symbol` in any state reached from a pristine conflict-free
registry behaves as the pure lookup. -/
theorem sim_lookup (hc : Spec.ConflictFree S0) (f : Nat) (n : Str) :
    Sim env S0 (unitByNameOrSymbol env f n) (fun F => Spec.lookup env S0 F n) f := by
  induction f generalizing n with
  | zero => intro S hS; exact ⟨hS, ⟨0, Le.refl _⟩, Le.refl _⟩
  | succ f ih =>
    intro S hS
    obtain ⟨h1, ⟨F, hF⟩, h3⟩ := sim_lookupStep hc ih n S hS
    exact ⟨h1, ⟨F + 1, hF⟩, h3⟩

theorem sim_unit (hc : Spec.ConflictFree S0) (f : Nat) (t : Str) :
    Sim env S0 (System.unit env f t) (fun F => Spec.unit env S0 F t) f := by
  intro S hS
  simp only [System.unit, Spec.unit]
  cases env.parse t with
  | error e => exact ⟨hS, ⟨0, Le.refl _⟩, Le.refl _⟩
  | ok expr =>
    have hm : ∀ n, Mono' fun F => Spec.lookup env S0 F n := fun n _ _ h => Spec.lookup_mono env S0 h n
    obtain ⟨hi, ⟨F, hF⟩, hf⟩ := sim_lookupAll hm (sim_lookup hc f) (env.order expr.identifiers) S hS
    simp only [bind, Except.bind] at hF hf ⊢
    cases h2 : lookupAll (unitByNameOrSymbol env f) (env.order expr.identifiers) S with
    | mk res S1 =>
      rw [h2] at hi hF hf
      simp only at hi hF hf
      cases res with
      | error e =>
        refine ⟨hi, ⟨F, ?_⟩, ?_⟩
        · by_cases he : e = .recursionError
          · subst he; exact Le.bot _
          · rw [hF.err he]; exact Le.refl _
        · rcases hf with hf | hf
          · rw [hf]; exact Le.bot _
          · rw [hf]; exact Le.refl _
      | ok refs =>
        refine ⟨hi, ⟨F, ?_⟩, ?_⟩
        · rw [hF.ok]; exact Le.refl _
        · rcases hf with hf | hf
          · rw [hf]; exact Le.bot _
          · rw [hf]; exact Le.refl _

theorem inv_after (hc : Spec.ConflictFree S0) (h : List Spec.Query) {S : System} (hS : Inv env S0 S) :
    Inv env S0 (Spec.after env h S) := by
  induction h generalizing S with
  | nil => exact hS
  | cons q h ih =>
    refine ih ?_
    cases q with
    | lookup f n => exact (sim_lookup hc f n S hS).1
    | unit f t => exact (sim_unit hc f t S hS).1

end
end Verif

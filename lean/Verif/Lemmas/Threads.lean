import Verif.Model.Threads
import Verif.Lemmas.Lookup
/-! Lookups run as interleaved sequences of atomic accesses still refine the pure lookup. -/
namespace Verif
open Spec (Den)

theorem Prog.bind_assoc {α β γ} (m : Prog α) (k : α → Prog β) (k' : β → Prog γ) :
    (m.bind k).bind k' = m.bind fun x => (k x).bind k' := by
  induction m with
  | done r => cases r <;> rfl
  | act a c ih => simp only [Prog.bind]; congr 1; funext x; exact ih x

/-! ## Run alone, a program is the sequential function -/

theorem Prog.alone_bind {α β} (m : Prog α) (k : α → Prog β) (s : System) :
    (m.bind k).alone s = match m.alone s with
      | (.error e, s) => (.error e, s)
      | (.ok x, s) => (k x).alone s := by
  induction m generalizing s with
  | done r => cases r <;> rfl
  | act a c ih => simp only [Prog.bind, Prog.alone]; exact ih _ _

theorem setKeysP_alone (t : Table) (e : Entry) (ks : List Str) (s : System) :
    (setKeysP t e ks).alone s = (.ok (), ks.foldl (fun s k => s.setEntry t k e) s) := by
  induction ks generalizing s with
  | nil => rfl
  | cons k ks ih => simp only [setKeysP, Prog.bind, Prog.one, Prog.alone, Act.run, List.foldl_cons]; exact ih _

theorem setKeys_names (e : Entry) (ks : List Str) (s : System) :
    ks.foldl (fun s k => s.setEntry .names k e) s = { s with names := setAll ks e s.names } := by
  induction ks generalizing s with
  | nil => rfl
  | cons k ks ih => rw [List.foldl_cons, ih]; rfl

theorem setKeys_symbols (e : Entry) (ks : List Str) (s : System) :
    ks.foldl (fun s k => s.setEntry .symbols k e) s = { s with symbols := setAll ks e s.symbols } := by
  induction ks generalizing s with
  | nil => rfl
  | cons k ks ih => rw [List.foldl_cons, ih]; rfl

theorem setKeys_aliasNames (e : Entry) (ks : List Str) (s : System) :
    ks.foldl (fun s k => s.setEntry .aliasNames k e) s = { s with aliasNames := setAll ks e s.aliasNames } := by
  induction ks generalizing s with
  | nil => rfl
  | cons k ks ih => rw [List.foldl_cons, ih]; rfl

theorem setKeys_aliasSymbols (e : Entry) (ks : List Str) (s : System) :
    ks.foldl (fun s k => s.setEntry .aliasSymbols k e) s
      = { s with aliasSymbols := setAll ks e s.aliasSymbols } := by
  induction ks generalizing s with
  | nil => rfl
  | cons k ks ih => rw [List.foldl_cons, ih]; rfl

theorem writeUnitP_alone (ref : UnitReference) (e : Entry) (s : System) :
    (writeUnitP ref e).alone s = (.ok (), s.register ref e) := by
  simp only [writeUnitP, Prog.alone_bind, setKeysP_alone, setKeys_names, setKeys_symbols,
    setKeys_aliasNames, setKeys_aliasSymbols]
  rfl

theorem addUnitP_alone (r : Ref) (s : System) :
    (addUnitP (some r)).alone s = s.addUnit (.unit r) true := by
  cases r with
  | basis b => simp only [addUnitP, writeUnitP_alone]; rfl
  | pre p => rfl
  | unit n d refs =>
    cases n with
    | none => rfl
    | some n => simp only [addUnitP, writeUnitP_alone]; rfl

/-! ### Which programs leave the prefix tables alone -/

/-- does not write a prefix table -/
def Act.Quiet : Act → Prop
  | .setPrefix _ _ _ => False
  | _ => True

/-- never writes a prefix table -/
def Prog.Quiet {α} : Prog α → Prop
  | .done _ => True
  | .act a k => a.Quiet ∧ ∀ x, (k x).Quiet

theorem Prog.Quiet.bind {α β} {m : Prog α} {k : α → Prog β} (hm : m.Quiet) (hk : ∀ x, (k x).Quiet) : (m.bind k).Quiet := by
  induction m with
  | done r => cases r with
    | ok x => exact hk x
    | error e => exact trivial
  | act a c ih => exact ⟨hm.1, fun x => ih x (hm.2 x)⟩

theorem Prog.Quiet.done {α} (r : Py α) : (Prog.done r).Quiet := trivial

theorem Prog.Quiet.one {a : Act} (h : a.Quiet) : (Prog.one a).Quiet := ⟨h, fun _ => trivial⟩

theorem Act.Quiet.ptable {a : Act} (h : a.Quiet) (t : PTable) (s : System) : (a.run s).2.ptable t = s.ptable t := by
  cases a with
  | set t' n e => cases t' <;> cases t <;> rfl
  | write id r => cases t <;> rfl
  | setPrefix t' k p => exact h.elim
  | _ => rfl

theorem Prog.Quiet.alone_ptable {α} {m : Prog α} (h : m.Quiet) (t : PTable) (s : System) :
    (m.alone s).2.ptable t = s.ptable t := by
  induction m generalizing s with
  | done r => rfl
  | act a k ih => exact (ih _ (h.2 _) _).trans (h.1.ptable t s)

theorem quiet_setKeys (t : Table) (e : Entry) (ks : List Str) : (setKeysP t e ks).Quiet := by
  induction ks with
  | nil => exact trivial
  | cons k ks ih => exact Prog.Quiet.bind (Prog.Quiet.one trivial) fun _ => ih

theorem quiet_writeUnit (ref : UnitReference) (e : Entry) : (writeUnitP ref e).Quiet :=
  (quiet_setKeys _ _ _).bind fun _ => (quiet_setKeys _ _ _).bind fun _ => (quiet_setKeys _ _ _).bind fun _ =>
    quiet_setKeys _ _ _

theorem quiet_addUnit (r : Option Ref) : (addUnitP r).Quiet := by
  unfold addUnitP
  split <;> first | exact quiet_writeUnit _ _ | exact trivial

theorem quiet_lookupAll {look : Str → Prog Ref} (h : ∀ n, (look n).Quiet) (ns : List Str) : (lookupAllP look ns).Quiet := by
  induction ns with
  | nil => exact trivial
  | cons n ns ih => exact (h n).bind fun _ => ih.bind fun _ => trivial

theorem quiet_returnResolved (id : Nat) : (returnResolvedP id).Quiet := by
  refine Prog.Quiet.bind (Prog.Quiet.one trivial) fun o => ?_
  cases (o : Option LazyObj) <;> exact trivial

theorem quiet_resolve {env : Env} {look : Str → Prog Ref} (h : ∀ n, (look n).Quiet) (id : Nat) :
    (resolveP env look id).Quiet := by
  refine Prog.Quiet.bind (Prog.Quiet.one trivial) fun o => ?_
  cases (o : Option LazyObj) with
  | none => exact trivial
  | some o =>
    obtain ⟨d, ns, res⟩ := o
    cases res with
    | some r => exact quiet_returnResolved id
    | none =>
      exact Prog.Quiet.bind trivial fun _ => (quiet_lookupAll h _).bind fun _ => Prog.Quiet.bind trivial fun _ =>
        Prog.Quiet.bind (Prog.Quiet.one trivial) fun _ => quiet_returnResolved id

theorem quiet_fetch {env : Env} {look : Str → Prog Ref} (h : ∀ n, (look n).Quiet) (e : Option Entry) :
    (fetchP env look e).Quiet := by
  cases e with
  | none => exact trivial
  | some e => cases e with
    | unit r => exact trivial
    | lazy id => exact (quiet_resolve h id).bind fun r => (quiet_addUnit r).bind fun _ => trivial

theorem quiet_entry (t t' : Table) (n : Str) : (entryP t t' n).Quiet := by
  refine Prog.Quiet.bind (Prog.Quiet.one trivial) fun o => ?_
  cases (o : Option Entry) with
  | some e => exact trivial
  | none => exact Prog.Quiet.one trivial

theorem quiet_byNameOrSymbol {env : Env} {look : Str → Prog Ref} (h : ∀ n, (look n).Quiet) (n : Str) :
    (byNameOrSymbolP env look n).Quiet := by
  refine ((quiet_entry _ _ _).bind fun e => quiet_fetch h e).bind fun u => ?_
  cases u with
  | some r => exact trivial
  | none => exact (quiet_entry _ _ _).bind fun e => quiet_fetch h e

theorem quiet_prefixLoop {env : Env} {look : Str → Prog Ref} (h : ∀ n, (look n).Quiet) (n : Str) (t : PTable) (size left : Nat) :
    (prefixLoopP env look n t size left).Quiet := by
  induction left with
  | zero =>
    refine Prog.Quiet.bind (Prog.Quiet.one trivial) fun x => ?_
    cases (x : NextItem) <;> exact trivial
  | succ left ih =>
    refine Prog.Quiet.bind (Prog.Quiet.one trivial) fun x => ?_
    cases (x : NextItem) with
    | changed => exact trivial
    | stop => exact trivial
    | item p pre =>
      simp only
      cases dropPrefix p n with
      | none => exact ih
      | some rest =>
        refine (quiet_byNameOrSymbol h rest).bind fun u => ?_
        cases u with
        | none => exact ih
        | some u => exact Prog.Quiet.bind trivial fun _ => trivial

theorem quiet_lookupStep {env : Env} {look : Str → Prog Ref} (h : ∀ n, (look n).Quiet) (n : Str) :
    (lookupStepP env look n).Quiet := by
  refine (quiet_byNameOrSymbol h n).bind fun u => ?_
  cases u with
  | some r => exact trivial
  | none =>
    refine Prog.Quiet.bind (Prog.Quiet.bind (Prog.Quiet.one trivial) fun _ => quiet_prefixLoop h _ _ _ _) fun u => ?_
    cases u with
    | some r => exact trivial
    | none =>
      refine Prog.Quiet.bind (Prog.Quiet.bind (Prog.Quiet.one trivial) fun _ => quiet_prefixLoop h _ _ _ _) fun u => ?_
      cases u <;> exact trivial

theorem quiet_lookup (env : Env) (f : Nat) (n : Str) : (lookupP env f n).Quiet := by
  induction f generalizing n with
  | zero => exact trivial
  | succ f ih => exact quiet_lookupStep ih n

theorem quiet_unit (env : Env) (f : Nat) (t : Str) : (unitP env f t).Quiet :=
  Prog.Quiet.bind trivial fun _ => (quiet_lookupAll (quiet_lookup env f) _).bind fun _ => trivial

theorem lookupAllP_alone {look : Str → Prog Ref} {look' : Str → SysM Ref}
    (h : ∀ n s, (look n).alone s = look' n s) (ns : List Str) (s : System) :
    (lookupAllP look ns).alone s = lookupAll look' ns s := by
  induction ns generalizing s with
  | nil => rfl
  | cons n ns ih =>
    simp only [lookupAllP, lookupAll, Prog.alone_bind, h, ih]
    cases h1 : look' n s with
    | mk res s1 =>
      cases res with
      | error e => rfl
      | ok r =>
        simp only
        cases h2 : lookupAll look' ns s1 with
        | mk res s2 => cases res <;> rfl

/-- `SysM.map some` -/
def someM (x : Except PyErr Ref × System) : Except PyErr (Option Ref) × System := (x.1.map some, x.2)

theorem resolveP_alone {env : Env} {look : Str → Prog Ref} {look' : Str → SysM Ref}
    (h : ∀ n s, (look n).alone s = look' n s)
    (hh : ∀ n s, (look' n s).2.heap.length = s.heap.length) (id : Nat) (s : System) :
    (resolveP env look id).alone s = someM (resolve env look' id s) := by
  have hall : ∀ ns s, (lookupAll look' ns s).2.heap.length = s.heap.length := by
    intro ns
    induction ns with
    | nil => intro s; rfl
    | cons n ns ih =>
      intro s
      have h1 := hh n s
      simp only [lookupAll]
      cases e1 : look' n s with
      | mk res s1 =>
        rw [e1] at h1
        cases res with
        | error e => exact h1
        | ok r =>
          have h2 := ih s1
          simp only
          cases e2 : lookupAll look' ns s1 with
          | mk res s2 =>
            rw [e2] at h2
            cases res <;> exact h2.trans h1
  simp only [resolveP, resolve, Prog.alone_bind, Prog.one, Prog.alone, Act.run]
  cases h0 : s.heap[id]? with
  | none => rfl
  | some o =>
    simp only
    cases hr : o.resolved with
    | some r =>
      simp only [returnResolvedP, Prog.one, Prog.alone_bind, Prog.alone, Act.run, h0, hr]
      rfl
    | none =>
      simp only [Prog.alone_bind, Prog.alone]
      cases hp : env.parse o.defn with
      | error e => rfl
      | ok expr =>
        simp only [lookupAllP_alone h]
        have hl := hall (env.order expr.identifiers) s
        cases h2 : lookupAll look' (env.order expr.identifiers) s with
        | mk res s1 =>
          rw [h2] at hl
          cases res with
          | error e => rfl
          | ok refs =>
            simp only
            cases hu : mkUnit (some o.names) expr refs with
            | error e => rfl
            | ok r =>
              simp only [returnResolvedP, Prog.one, Prog.alone_bind, Prog.alone, Act.run, System.setResolved,
                List.getElem?_modify, if_true]
              simp only at hl
              have : id < s1.heap.length := hl ▸ (List.getElem?_eq_some_iff.1 h0).1
              rw [List.getElem?_eq_getElem this]
              rfl

theorem fetchP_alone {env : Env} {look : Str → Prog Ref} {look' : Str → SysM Ref}
    (h : ∀ n s, (look n).alone s = look' n s)
    (hh : ∀ n s, (look' n s).2.heap.length = s.heap.length) (e : Option Entry) (s : System) :
    (fetchP env look e).alone s = fetch env look' e s := by
  cases e with
  | none => rfl
  | some e =>
    cases e with
    | unit r => rfl
    | lazy id =>
      simp only [fetchP, fetch, Prog.alone_bind, resolveP_alone h hh]
      cases h1 : resolve env look' id s with
      | mk res s1 =>
        cases res with
        | error e => rfl
        | ok r =>
          simp only [someM, Except.map, Prog.alone_bind, addUnitP_alone]
          cases h2 : s1.addUnit (.unit r) true with
          | mk res s2 => cases res <;> rfl

theorem entryP_names_alone (n : Str) (s : System) :
    (entryP .names .aliasNames n).alone s = (.ok (s.nameEntry n), s) := by
  simp only [entryP, Prog.alone_bind, Prog.one, Prog.alone, Act.run, System.nameEntry, System.table]
  cases Dict.get n s.names <;> rfl

theorem entryP_symbols_alone (n : Str) (s : System) :
    (entryP .symbols .aliasSymbols n).alone s = (.ok (s.symbolEntry n), s) := by
  simp only [entryP, Prog.alone_bind, Prog.one, Prog.alone, Act.run, System.symbolEntry, System.table]
  cases Dict.get n s.symbols <;> rfl

theorem byNameOrSymbolP_alone {env : Env} {look : Str → Prog Ref} {look' : Str → SysM Ref}
    (h : ∀ n s, (look n).alone s = look' n s)
    (hh : ∀ n s, (look' n s).2.heap.length = s.heap.length) (n : Str) (s : System) :
    (byNameOrSymbolP env look n).alone s = byNameOrSymbol env look' n s := by
  simp only [byNameOrSymbolP, byNameP, bySymbolP, byNameOrSymbol, Prog.alone_bind, entryP_names_alone,
    fetchP_alone h hh]
  cases h1 : fetch env look' (s.nameEntry n) s with
  | mk res s1 =>
    cases res with
    | error e => rfl
    | ok o =>
      cases o with
      | some r => rfl
      | none => simp only [Prog.alone_bind, entryP_symbols_alone, fetchP_alone h hh]

theorem nextItem_drop (d : Dict Str Prefix) (i : Nat) :
    nextItem d d.length i = match d.drop i with | [] => .stop | (p, pre) :: _ => .item p pre := by
  unfold nextItem
  rw [if_neg (by simp)]
  cases h : d[i]? with
  | none =>
    have : d.length ≤ i := List.getElem?_eq_none_iff.1 h
    rw [List.drop_eq_nil_of_le this]
  | some x =>
    obtain ⟨hi, hx⟩ := List.getElem?_eq_some_iff.1 h
    rw [List.drop_eq_getElem_cons hi, hx]

theorem prefixLoopP_alone {env : Env} {look : Str → Prog Ref} {look' : Str → SysM Ref}
    (h : ∀ n s, (look n).alone s = look' n s) (hq : ∀ n, (look n).Quiet)
    (hh : ∀ n s, (look' n s).2.heap.length = s.heap.length) (n : Str) (t : PTable) (left : Nat) (d : Dict Str Prefix)
    (s : System) (hd : s.ptable t = d) (hle : left ≤ d.length) :
    (prefixLoopP env look n t d.length left).alone s = prefixLoop env look' n (d.drop (d.length - left)) s := by
  induction left generalizing s with
  | zero =>
    simp only [prefixLoopP, Prog.alone_bind, Prog.one, Prog.alone, Act.run, hd, nextItem_drop]
    simp [prefixLoop, Prog.alone]
  | succ left ih =>
    have hlt : d.length - (left + 1) < d.length := by omega
    simp only [prefixLoopP, Prog.alone_bind, Prog.one, Prog.alone, Act.run, hd, nextItem_drop]
    rw [List.drop_eq_getElem_cons hlt]
    have e : d.length - (left + 1) + 1 = d.length - left := by omega
    rw [e]
    obtain ⟨p, pre⟩ := d[d.length - (left + 1)]
    simp only [prefixLoop]
    cases dropPrefix p n with
    | none => exact ih s hd (by omega)
    | some rest =>
      have hkeep := (quiet_byNameOrSymbol (env := env) hq rest).alone_ptable t s
      rw [byNameOrSymbolP_alone h hh] at hkeep
      simp only [Prog.alone_bind, byNameOrSymbolP_alone h hh]
      cases h1 : byNameOrSymbol env look' rest s with
      | mk res s1 =>
        rw [h1] at hkeep
        cases res with
        | error e => rfl
        | ok o =>
          cases o with
          | none => exact ih s1 (hkeep.trans hd) (by omega)
          | some u =>
            simp only [Prog.alone_bind, Prog.alone]
            cases prefixed p pre rest u <;> rfl

theorem prefixesP_alone {env : Env} {look : Str → Prog Ref} {look' : Str → SysM Ref}
    (h : ∀ n s, (look n).alone s = look' n s) (hq : ∀ n, (look n).Quiet)
    (hh : ∀ n s, (look' n s).2.heap.length = s.heap.length) (n : Str) (t : PTable) (s : System) :
    (prefixesP env look n t).alone s = prefixLoop env look' n (s.ptable t) s := by
  have := prefixLoopP_alone (env := env) h hq hh n t (s.ptable t).length (s.ptable t) s rfl (Nat.le_refl _)
  rw [Nat.sub_self, List.drop_zero] at this
  rw [← this]
  rfl

theorem lookupStepP_alone {env : Env} {look : Str → Prog Ref} {look' : Str → SysM Ref}
    (h : ∀ n s, (look n).alone s = look' n s) (hq : ∀ n, (look n).Quiet)
    (hh : ∀ n s, (look' n s).2.heap.length = s.heap.length) (n : Str) (s : System) :
    (lookupStepP env look n).alone s = lookupStep env look' n s := by
  simp only [lookupStepP, lookupStep, Prog.alone_bind, byNameOrSymbolP_alone h hh]
  cases h1 : byNameOrSymbol env look' n s with
  | mk res s1 =>
    cases res with
    | error e => rfl
    | ok o =>
      cases o with
      | some r => rfl
      | none =>
        simp only [Prog.alone_bind, prefixesP_alone h hq hh, System.ptable]
        cases h2 : prefixLoop env look' n s1.prefixNames s1 with
        | mk res s2 =>
          cases res with
          | error e => rfl
          | ok o =>
            cases o with
            | some r => rfl
            | none =>
              simp only [Prog.alone_bind, prefixesP_alone h hq hh, System.ptable]
              cases h3 : prefixLoop env look' n s2.prefixSymbols s2 with
              | mk res s3 =>
                cases res with
                | error e => rfl
                | ok o => cases o <;> rfl


theorem Act.run_heap_length (a : Act) (s : System) : (a.run s).2.heap.length = s.heap.length := by
  cases a with
  | set t n e => cases t <;> rfl
  | setPrefix t k p => cases t <;> rfl
  | write id r => simp [Act.run, System.setResolved]
  | _ => rfl

theorem Prog.alone_heap_length {α} (m : Prog α) (s : System) : (m.alone s).2.heap.length = s.heap.length := by
  induction m generalizing s with
  | done r => rfl
  | act a k ih => exact (ih _ _).trans (Act.run_heap_length a s)

theorem lookupP_alone (env : Env) (f : Nat) (n : Str) (s : System) :
    (lookupP env f n).alone s = unitByNameOrSymbol env f n s := by
  induction f generalizing n s with
  | zero => rfl
  | succ f ih =>
    exact lookupStepP_alone ih (quiet_lookup env f) (fun n s => by rw [← ih n s]; exact Prog.alone_heap_length _ s) n s

theorem unitP_alone (env : Env) (f : Nat) (t : Str) (s : System) :
    (unitP env f t).alone s = System.unit env f t s := by
  simp only [unitP, System.unit, Prog.alone_bind, Prog.alone]
  cases env.parse t with
  | error e => rfl
  | ok expr =>
    simp only [lookupAllP_alone (lookupP_alone env f)]
    cases h : lookupAll (unitByNameOrSymbol env f) (env.order expr.identifiers) s with
    | mk res s1 => cases res <;> rfl

/-! ## Interference -/

section
variable {env : Env} {S0 : System}

/-- what other threads may do: lazily defined units, once resolved, stay resolved -/
def Grows (S S' : System) : Prop :=
  ∀ (id : Nat) o, S.heap[id]? = some o → o.resolved ≠ none → ∃ o', S'.heap[id]? = some o' ∧ o'.resolved ≠ none

theorem Grows.refl (S : System) : Grows S S := fun _ o h hr => ⟨o, h, hr⟩
theorem Grows.trans {S S' S'' : System} (h : Grows S S') (h' : Grows S' S'') : Grows S S'' := by
  intro id o ho hr
  obtain ⟨o', ho', hr'⟩ := h id o ho hr
  exact h' id o' ho' hr'
theorem Grows.of_heap {S S' : System} (h : S'.heap = S.heap) : Grows S S' := by
  intro id o ho hr; exact ⟨o, by rw [h]; exact ho, hr⟩

theorem Grows.setResolved (S : System) (id : Nat) (r : Ref) : Grows S (S.setResolved id r) := by
  intro i o ho hr
  simp only [System.setResolved, List.getElem?_modify, ho]
  by_cases e : id = i
  · exact ⟨{ o with resolved := some r }, by simp [e], by simp⟩
  · exact ⟨o, by simp [e], hr⟩

/-- From a state in which its last access was made, whatever others do in between, every access of the
program keeps the invariant and its result satisfies `Q`. -/
def Ok {α} (env : Env) (S0 : System) (Q : Py α → Prop) : Prog α → System → Prop
  | .done r, _ => Q r
  | .act a k, S => ∀ S', Inv env S0 S' → Grows S S' →
      Inv env S0 (a.run S').2 ∧ Grows S' (a.run S').2 ∧ Ok env S0 Q (k (a.run S').1) (a.run S').2

theorem Ok.weaken {α} {Q Q' : Py α → Prop} (hQ : ∀ r, Q r → Q' r) :
    ∀ {m : Prog α} {S}, Ok env S0 Q m S → Ok env S0 Q' m S
  | .done r, _, h => hQ r h
  | .act a k, S, h => fun S' hI hG =>
      ⟨(h S' hI hG).1, (h S' hI hG).2.1, Ok.weaken hQ (h S' hI hG).2.2⟩

/-- the state may move on before the first access -/
theorem Ok.later {α} {Q : Py α → Prop} {m : Prog α} {S S' : System} (h : Ok env S0 Q m S) (hG : Grows S S') :
    Ok env S0 Q m S' := by
  cases m with
  | done r => exact h
  | act a k => exact fun S'' hI hG' => h S'' hI (hG.trans hG')

theorem Ok.bind {α β} {Q : Py α → Prop} {Q' : Py β → Prop} {k : α → Prog β}
    (he : ∀ e, Q (.error e) → Q' (.error e)) :
    ∀ {m : Prog α} {S}, Inv env S0 S → Ok env S0 Q m S →
      (∀ x S', Inv env S0 S' → Grows S S' → Q (.ok x) → Ok env S0 Q' (k x) S') → Ok env S0 Q' (m.bind k) S
  | .done (.ok x), S, hI, h, hk => hk x S hI (Grows.refl S) h
  | .done (.error e), _, _, h, _ => he e h
  | .act a c, S, _, h, hk => fun S' hI' hG =>
      ⟨(h S' hI' hG).1, (h S' hI' hG).2.1,
        Ok.bind he (h S' hI' hG).1 (h S' hI' hG).2.2 fun x S'' hI'' hG'' hx =>
          hk x S'' hI'' ((hG.trans (h S' hI' hG).2.1).trans hG'') hx⟩

/-- the answer lies between the pure answers -/
def Within {α} (p : Nat → Py α) (f : Nat) (r : Py α) : Prop := (∃ F, Le r (p F)) ∧ Le (p f) r

/-- interference-proof simulation -/
def PSim {α} (env : Env) (S0 : System) (m : Prog α) (p : Nat → Py α) (f : Nat) : Prop :=
  ∀ S, Inv env S0 S → Ok env S0 (Within p f) m S

theorem PSim.pure {α} (r : Py α) (f : Nat) : PSim env S0 (.done r) (fun _ => r) f :=
  fun _ _ => ⟨⟨0, Le.refl _⟩, Le.refl _⟩

theorem Le.bind_error {α β} {e : PyErr} {b : Py α} {g : α → Py β} (h : Le (.error e) b) :
    Le (.error e) (b >>= g) := by
  rcases h with h | h
  · cases h; exact Le.bot _
  · rw [← h]; exact Le.refl _

theorem Le.bind_error' {α β} {e : PyErr} {b : Py α} {g : α → Py β} (h : Le b (.error e)) :
    Le (b >>= g) (.error e) := by
  rcases h with h | h
  · rw [h]; exact Le.bot _
  · rw [h]; exact Le.refl _

theorem PSim.bind {α β} {m : Prog α} {p : Nat → Py α} {k : α → Prog β} {q : α → Nat → Py β} {f : Nat}
    (hp : Mono' p) (hq : ∀ x, Mono' (q x)) (hm : PSim env S0 m p f)
    (hk : ∀ x, (∃ F, p F = .ok x) → PSim env S0 (k x) (q x) f) :
    PSim env S0 (m.bind k) (fun F => p F >>= fun x => q x F) f := by
  intro S hS
  refine Ok.bind ?_ hS (hm S hS) ?_
  · rintro e ⟨⟨F, hF⟩, hf⟩
    exact ⟨⟨F, hF.bind_error⟩, hf.bind_error'⟩
  · rintro x S' hS' _ ⟨⟨F, hF⟩, hf⟩
    refine Ok.weaken ?_ (hk x ⟨F, hF.ok⟩ S' hS')
    rintro r ⟨⟨F2, hF2⟩, hf2⟩
    refine ⟨⟨max F F2, ?_⟩, ?_⟩
    · have e1 : p (max F F2) = .ok x := (Le.trans hF (hp (Nat.le_max_left F F2))).ok
      show Le r (p (max F F2) >>= fun x => q x (max F F2))
      rw [e1]
      exact Le.trans hF2 (hq x (Nat.le_max_right F F2))
    · show Le (p f >>= fun x => q x f) r
      rcases hf with hf | hf
      · rw [hf]; exact Le.bot _
      · rw [hf]; exact hf2

theorem mono_const {α} (r : Py α) : Mono' (fun _ => r) := fun _ _ _ => Le.refl _

theorem mono_bind {α β} {p : Nat → Py α} {q : α → Nat → Py β} (hp : Mono' p) (hq : ∀ x, Mono' (q x)) :
    Mono' (fun F => p F >>= fun x => q x F) := fun _ _ h => Le.bind (hp h) fun x => hq x h

theorem mono_lookup (n : Str) : Mono' (fun F => Spec.lookup env S0 F n) :=
  fun _ _ h => Spec.lookup_mono env S0 h n

theorem mono_mapM (ns : List Str) :
    Mono' (fun F => ns.mapM fun n => (do .ok (n, ← Spec.lookup env S0 F n) : Py (Str × Ref))) :=
  fun _ _ h => Le.mapM (fun n => Le.bind (Spec.lookup_mono env S0 h n) fun _ => Le.refl _) ns

theorem PSim.congr {α} {m : Prog α} {p q : Nat → Py α} {f : Nat} (h : PSim env S0 m p f)
    (e : ∀ F, q F = p F) : PSim env S0 m q f := by
  have : q = p := funext e
  rw [this]; exact h

theorem psim_lookupAll {look : Str → Prog Ref} {f : Nat}
    (hl : ∀ n, PSim env S0 (look n) (fun F => Spec.lookup env S0 F n) f) (ns : List Str) :
    PSim env S0 (lookupAllP look ns)
      (fun F => ns.mapM fun n => (do .ok (n, ← Spec.lookup env S0 F n) : Py (Str × Ref))) f := by
  induction ns with
  | nil => exact PSim.pure _ f
  | cons n ns ih =>
    refine PSim.congr (p := fun F => Spec.lookup env S0 F n >>= fun r =>
        (ns.mapM fun n => (do .ok (n, ← Spec.lookup env S0 F n) : Py (Str × Ref))) >>= fun rs => .ok ((n, r) :: rs))
      (PSim.bind (mono_lookup n) (fun r => mono_bind (mono_mapM ns) fun _ => mono_const _) (hl n) fun r _ =>
        PSim.bind (mono_mapM ns) (fun _ => mono_const _) ih fun rs _ => PSim.pure _ f) ?_
    intro F
    rw [List.mapM_cons]
    cases Spec.lookup env S0 F n <;> rfl

/-! Single accesses. -/

theorem Ok.one_read {α} {Q : Py α → Prop} {a : Act} {k : a.Resp → Prog α} {S : System}
    (hp : ∀ S, (a.run S).2 = S)
    (h : ∀ S', Inv env S0 S' → Grows S S' → Ok env S0 Q (k (a.run S').1) S') :
    Ok env S0 Q ((Prog.one a).bind k) S := by
  intro S' hI hG
  show _ ∧ _ ∧ Ok env S0 Q (k (a.run S').1) _
  rw [hp S']
  exact ⟨hI, Grows.refl _, h S' hI hG⟩

/-- a read whose answer is the same in every state -/
theorem psim_read {α} {a : Act} {v : a.Resp} {k : a.Resp → Prog α} {q : Nat → Py α} {f : Nat}
    (hp : ∀ S, (a.run S).2 = S) (hv : ∀ S, Inv env S0 S → (a.run S).1 = v) (hk : PSim env S0 (k v) q f) :
    PSim env S0 ((Prog.one a).bind k) q f := by
  intro S _
  refine Ok.one_read hp fun S' hI _ => ?_
  rw [hv S' hI]
  exact hk S' hI

/-- `return self._resolved_unit` once the attribute has been set -/
theorem ok_returnResolved {id : Nat} {o : LazyObj} {S : System} (ho : S.heap[id]? = some o) (hr : o.resolved ≠ none)
    {Q : Py (Option Ref) → Prop} (hQ : ∀ r, Den env S0 id r → Q (.ok (some r))) :
    Ok env S0 Q (returnResolvedP id) S := by
  refine Ok.one_read (fun _ => rfl) fun S' hI hG => ?_
  obtain ⟨o', ho', hr'⟩ := hG id o ho hr
  have hh := hI.heap id
  simp only [Act.run, ho']
  rw [ho'] at hh
  cases h0 : S0.heap[id]? with
  | none => rw [h0] at hh; exact hh.elim
  | some o0 =>
    rw [h0] at hh
    cases hx : o'.resolved with
    | none => exact absurd hx hr'
    | some r => exact hQ r (hh.2.2 r hx)

theorem within_of_den {id : Nat} {r : Ref} (h : Den env S0 id r) (f : Nat) :
    Within (fun F => Spec.resolve env S0 (Spec.lookup env S0 F) id) f (.ok r) := by
  obtain ⟨F, hF⟩ := h
  refine ⟨⟨F, Or.inr hF.symm⟩, ?_⟩
  have a := Spec.resolve_mono env S0 (fun n => Spec.lookup_mono env S0 (Nat.le_max_left f F) n) id
  have b := Spec.resolve_mono env S0 (fun n => Spec.lookup_mono env S0 (Nat.le_max_right f F) n) id
  rw [hF] at b
  rw [b.ok] at a
  exact a

theorem mono_resolve (id : Nat) : Mono' (fun F => Spec.resolve env S0 (Spec.lookup env S0 F) id) :=
  fun _ _ h => Spec.resolve_mono env S0 (fun n => Spec.lookup_mono env S0 h n) id

/-- what `resolve()` guarantees: an exception is the exception of the pure resolution, and a result is
the meaning of the unit (never `None`) -/
def ResolveQ (env : Env) (S0 : System) (id f : Nat) : Py (Option Ref) → Prop
  | .error e => Within (fun F => Spec.resolve env S0 (Spec.lookup env S0 F) id) f (.error e)
  | .ok none => False
  | .ok (some r) => Den env S0 id r

theorem ok_resolve {look : Str → Prog Ref} {f : Nat}
    (hl : ∀ n, PSim env S0 (look n) (fun F => Spec.lookup env S0 F n) f) (id : Nat) (S : System) :
    Ok env S0 (ResolveQ env S0 id f) (resolveP env look id) S := by
  refine Ok.one_read (fun _ => rfl) fun S' hI _ => ?_
  simp only [Act.run]
  have hh := hI.heap id
  cases h0 : S0.heap[id]? with
  | none =>
    rw [h0] at hh
    cases h1 : S'.heap[id]? with
    | some o => rw [h1] at hh; exact hh.elim
    | none =>
      have : ∀ F, Spec.resolve env S0 (Spec.lookup env S0 F) id = .error .unmodelled := by
        intro F; simp [Spec.resolve, h0]
      exact ⟨⟨0, Or.inr (this 0).symm⟩, Or.inr (this f)⟩
  | some o0 =>
    rw [h0] at hh
    cases h1 : S'.heap[id]? with
    | none => rw [h1] at hh; exact hh.elim
    | some o =>
      rw [h1] at hh
      obtain ⟨hd, hn, _⟩ := hh
      simp only
      cases hr : o.resolved with
      | some r => exact ok_returnResolved h1 (by rw [hr]; simp) fun r hden => hden
      | none =>
        simp only
        have spec : ∀ F, Spec.resolve env S0 (Spec.lookup env S0 F) id = (env.parse o0.defn >>= fun expr =>
            ((env.order expr.identifiers).mapM fun n => (do .ok (n, ← Spec.lookup env S0 F n) : Py (Str × Ref)))
              >>= fun refs => mkUnit (some o0.names) expr refs) := by
          intro F; simp [Spec.resolve, h0]
        rw [hd, hn]
        -- the computation of the unit, up to the write
        have comp : PSim env S0
            ((Prog.done (env.parse o0.defn)).bind fun expr =>
              (lookupAllP look (env.order expr.identifiers)).bind fun refs =>
              Prog.done (mkUnit (some o0.names) expr refs))
            (fun F => Spec.resolve env S0 (Spec.lookup env S0 F) id) f := by
          refine PSim.congr (PSim.bind (q := fun expr F =>
              ((env.order expr.identifiers).mapM fun n => (do .ok (n, ← Spec.lookup env S0 F n) : Py (Str × Ref)))
                >>= fun refs => mkUnit (some o0.names) expr refs) (mono_const _) (fun expr => mono_bind (mono_mapM _) fun _ => mono_const _)
            (PSim.pure _ f) fun expr _ => PSim.bind (mono_mapM _) (fun _ => mono_const _)
              (psim_lookupAll hl _) fun refs _ => PSim.pure _ f) spec
        have := Ok.bind (Q' := ResolveQ env S0 id f)
          (k := fun r => (Prog.one (.write id r)).bind fun _ => returnResolvedP id)
          (fun e h => h) hI (comp S' hI) (by
          rintro r S2 hI2 _ ⟨⟨F, hF⟩, _⟩
          have hden : Den env S0 id r := ⟨F, hF.ok⟩
          intro S3 hI3 _
          refine ⟨hI3.setResolved hden, Grows.setResolved S3 id r, ?_⟩
          have hh3 := hI3.heap id
          rw [h0] at hh3
          cases h3 : S3.heap[id]? with
          | none => rw [h3] at hh3; exact hh3.elim
          | some o3 =>
            refine ok_returnResolved (o := { o3 with resolved := some r }) ?_ (by simp) fun r hden => hden
            show (S3.setResolved id r).heap[id]? = _
            simp only [System.setResolved, List.getElem?_modify, h3, if_true]
            rfl)
        rw [Prog.bind_assoc] at this
        simp only [Prog.bind_assoc] at this
        exact this

theorem Inv.setEntry {S : System} (h : Inv env S0 S) {t : Table} {k : Str} {id : Nat} {r : Ref}
    (hk : Dict.get k (S0.table t) = some (.lazy id)) (hr : Den env S0 id r) :
    Inv env S0 (S.setEntry t k (.unit r)) := by
  have key : ∀ {d0 d : Dict Str Entry}, (∀ k, EntRel env S0 (Dict.get k d0) (Dict.get k d)) →
      Dict.get k d0 = some (.lazy id) →
      ∀ k', EntRel env S0 (Dict.get k' d0) (Dict.get k' (Dict.set k (.unit r) d)) := by
    intro d0 d hd hk k'
    rw [Dict.get_set]
    by_cases e : k' = k
    · rw [if_pos e, e, hk]; exact Or.inr ⟨id, r, rfl, rfl, hr⟩
    · rw [if_neg e]; exact hd k'
  cases t with
  | names => exact ⟨h.pn, h.ps, h.heap, key h.names hk, h.symbols, h.aliasNames, h.aliasSymbols⟩
  | symbols => exact ⟨h.pn, h.ps, h.heap, h.names, key h.symbols hk, h.aliasNames, h.aliasSymbols⟩
  | aliasNames => exact ⟨h.pn, h.ps, h.heap, h.names, h.symbols, key h.aliasNames hk, h.aliasSymbols⟩
  | aliasSymbols => exact ⟨h.pn, h.ps, h.heap, h.names, h.symbols, h.aliasNames, key h.aliasSymbols hk⟩

theorem Grows.setEntry (S : System) (t : Table) (k : Str) (e : Entry) : Grows S (S.setEntry t k e) :=
  Grows.of_heap (by cases t <;> rfl)

theorem ok_setKeys {t : Table} {id : Nat} {r : Ref} (hr : Den env S0 id r) {Q : Py Unit → Prop} (hQ : Q (.ok ())) :
    ∀ (ks : List Str) (S : System), (∀ k ∈ ks, Dict.get k (S0.table t) = some (.lazy id)) →
      Ok env S0 Q (setKeysP t (.unit r) ks) S
  | [], _, _ => hQ
  | k :: ks, S, hk => fun S' hI _ =>
      ⟨hI.setEntry (hk k (by simp)) hr, Grows.setEntry S' t k _,
        ok_setKeys hr hQ ks _ fun k' h => hk k' (by simp [h])⟩

theorem ok_addUnit (hc : Spec.ConflictFree S0) {id : Nat} {r : Ref} (hr : Den env S0 id r) {S : System}
    (hS : Inv env S0 S) {Q : Py Unit → Prop} (hQ : Q (.ok ())) : Ok env S0 Q (addUnitP (some r)) S := by
  obtain ⟨o, d, refs, ho, rfl⟩ := hr.names
  obtain ⟨c1, c2, c3, c4⟩ := hc id o ho
  have noerr : ∀ e, (fun x : Py Unit => x = .ok ()) (.error e) → Q (.error e) := by intro e h; cases h
  refine Ok.bind (Q := fun x => x = .ok ()) noerr hS (ok_setKeys (t := .names) (Q := fun x => x = .ok ()) hr rfl _ S c1) fun _ S1 h1 _ _ => ?_
  refine Ok.bind (Q := fun x => x = .ok ()) noerr h1 (ok_setKeys (t := .symbols) (Q := fun x => x = .ok ()) hr rfl _ S1 c2) fun _ S2 h2 _ _ => ?_
  refine Ok.bind (Q := fun x => x = .ok ()) noerr h2 (ok_setKeys (t := .aliasNames) (Q := fun x => x = .ok ()) hr rfl _ S2 c3) fun _ S3 h3 _ _ => ?_
  exact ok_setKeys (t := .aliasSymbols) hr hQ _ S3 c4

theorem psim_fetch (hc : Spec.ConflictFree S0) {look : Str → Prog Ref} {f : Nat}
    (hl : ∀ n, PSim env S0 (look n) (fun F => Spec.lookup env S0 F n) f)
    {e0 e : Option Entry} (he : EntRel env S0 e0 e) :
    PSim env S0 (fetchP env look e) (fun F => pureFetch env S0 (Spec.lookup env S0 F) e0) f := by
  have some_den : ∀ {id r}, Den env S0 id r →
      Within (fun F => pureFetch env S0 (Spec.lookup env S0 F) (some (.lazy id))) f (.ok (some r)) := by
    intro id r hden
    obtain ⟨⟨F, hF⟩, hf⟩ := within_of_den hden f
    refine ⟨⟨F, ?_⟩, ?_⟩
    · simp only [pureFetch, Spec.entry]
      have := hF.ok
      simp only at this
      rw [this]; exact Le.refl _
    · exact Le.bind (b := .ok r) (g := fun r => .ok (some r)) hf fun _ => Le.refl _
  intro S hS
  rcases he with rfl | ⟨id, r, rfl, rfl, hden⟩
  · cases e0 with
    | none => exact PSim.pure _ f S hS
    | some en =>
      cases en with
      | unit r => exact PSim.pure _ f S hS
      | lazy id =>
        refine Ok.bind ?_ hS (ok_resolve hl id S) fun o S1 hS1 _ hQ => ?_
        · rintro e ⟨⟨F, hF⟩, hf⟩
          exact ⟨⟨F, hF.bind_error⟩, hf.bind_error'⟩
        · cases o with
          | none => exact hQ.elim
          | some r =>
            exact Ok.bind (Q := fun x => x = .ok ()) (by intro e h; cases h) hS1 (ok_addUnit hc hQ hS1 rfl)
              fun _ S2 _ _ _ => some_den hQ
  · exact some_den hden

theorem ok_entry {t t' : Table} {n : Str} {S : System}
    (ht : ∀ S, Inv env S0 S → EntRel env S0 (Dict.get n (S0.table t)) (Dict.get n (S.table t)))
    (ht' : ∀ S, Inv env S0 S → EntRel env S0 (Dict.get n (S0.table t')) (Dict.get n (S.table t'))) :
    Ok env S0 (fun x => ∃ e, x = .ok e ∧ EntRel env S0 ((Dict.get n (S0.table t)).or (Dict.get n (S0.table t'))) e)
      (entryP t t' n) S := by
  refine Ok.one_read (fun _ => rfl) fun S' hI _ => ?_
  simp only [Act.run]
  have h1 := ht S' hI
  cases hg : Dict.get n (S'.table t) with
  | some e =>
    rw [hg] at h1
    refine ⟨some e, rfl, ?_⟩
    rcases h1 with h1 | ⟨id, r, h1, h2, h3⟩
    · rw [h1]; exact Or.inl rfl
    · rw [h1]; exact Or.inr ⟨id, r, rfl, h2, h3⟩
  | none =>
    rw [hg] at h1
    have h0 : Dict.get n (S0.table t) = none := by
      rcases h1 with h1 | ⟨id, r, _, h2, _⟩
      · exact h1
      · cases h2
    intro S2 hI2 _
    refine ⟨hI2, Grows.refl _, _, rfl, ?_⟩
    rw [h0]
    exact ht' S2 hI2

theorem psim_byName (hc : Spec.ConflictFree S0) {look : Str → Prog Ref} {f : Nat}
    (hl : ∀ n, PSim env S0 (look n) (fun F => Spec.lookup env S0 F n) f) (n : Str) :
    PSim env S0 (byNameP env look n) (fun F => pureFetch env S0 (Spec.lookup env S0 F) (S0.nameEntry n)) f := by
  intro S hS
  refine Ok.bind (by rintro e ⟨_, h, _⟩; cases h) hS
    (ok_entry (fun S h => h.names n) (fun S h => h.aliasNames n)) fun x S' hS' _ hx => ?_
  obtain ⟨e, he, hrel⟩ := hx
  cases he
  exact psim_fetch hc hl hrel S' hS'

theorem psim_bySymbol (hc : Spec.ConflictFree S0) {look : Str → Prog Ref} {f : Nat}
    (hl : ∀ n, PSim env S0 (look n) (fun F => Spec.lookup env S0 F n) f) (n : Str) :
    PSim env S0 (bySymbolP env look n) (fun F => pureFetch env S0 (Spec.lookup env S0 F) (S0.symbolEntry n)) f := by
  intro S hS
  refine Ok.bind (by rintro e ⟨_, h, _⟩; cases h) hS
    (ok_entry (fun S h => h.symbols n) (fun S h => h.aliasSymbols n)) fun x S' hS' _ hx => ?_
  obtain ⟨e, he, hrel⟩ := hx
  cases he
  exact psim_fetch hc hl hrel S' hS'

theorem psim_byNameOrSymbol (hc : Spec.ConflictFree S0) {look : Str → Prog Ref} {f : Nat}
    (hl : ∀ n, PSim env S0 (look n) (fun F => Spec.lookup env S0 F n) f) (n : Str) :
    PSim env S0 (byNameOrSymbolP env look n)
      (fun F => pureFetch env S0 (Spec.lookup env S0 F) (Spec.direct S0 n)) f := by
  let q : Option Ref → Nat → Py (Option Ref) := fun u F => match u with
    | some r => .ok (some r)
    | none => pureFetch env S0 (Spec.lookup env S0 F) (S0.symbolEntry n)
  have hq : ∀ u, Mono' (q u) := by
    intro u; cases u with
    | some r => exact mono_const _
    | none => exact pureFetch_mono _
  refine PSim.congr (PSim.bind (q := q) (pureFetch_mono _) hq (psim_byName hc hl n) fun u _ => ?_) ?_
  · cases u with
    | some r => exact PSim.pure _ f
    | none => exact psim_bySymbol hc hl n
  · intro F
    rw [Spec.direct_eq]
    cases S0.nameEntry n with
    | none => rfl
    | some e =>
      simp only [Option.some_or, pureFetch, bind, Except.bind]
      cases Spec.entry env S0 (Spec.lookup env S0 F) e <;> rfl

theorem Inv.ptable {S : System} (h : Inv env S0 S) (t : PTable) : S.ptable t = S0.ptable t := by
  cases t with
  | names => exact h.pn
  | symbols => exact h.ps

theorem psim_prefixLoop (hc : Spec.ConflictFree S0) {look : Str → Prog Ref} {f : Nat}
    (hl : ∀ n, PSim env S0 (look n) (fun F => Spec.lookup env S0 F n) f) (n : Str) (t : PTable) (left : Nat)
    (hle : left ≤ (S0.ptable t).length) :
    PSim env S0 (prefixLoopP env look n t (S0.ptable t).length left)
      (fun F => purePrefix env S0 (Spec.lookup env S0 F) n ((S0.ptable t).drop ((S0.ptable t).length - left))) f := by
  have hv : ∀ i S, Inv env S0 S → ((Act.next t (S0.ptable t).length i).run S).1 = nextItem (S0.ptable t) (S0.ptable t).length i := by
    intro i S hS
    simp only [Act.run, hS.ptable t]
    rfl
  induction left with
  | zero =>
    refine psim_read (a := .next t (S0.ptable t).length (S0.ptable t).length) (fun _ => rfl) (hv _) ?_
    rw [nextItem_drop]
    simp only [List.drop_length, Nat.sub_zero]
    exact PSim.pure _ f
  | succ left ih =>
    refine psim_read (a := .next t (S0.ptable t).length ((S0.ptable t).length - (left + 1))) (fun _ => rfl) (hv _) ?_
    have ih := ih (by omega)
    rw [nextItem_drop]
    have hlt : (S0.ptable t).length - (left + 1) < (S0.ptable t).length := by omega
    rw [List.drop_eq_getElem_cons hlt]
    have e : (S0.ptable t).length - (left + 1) + 1 = (S0.ptable t).length - left := by omega
    rw [e]
    obtain ⟨p, pre⟩ := (S0.ptable t)[(S0.ptable t).length - (left + 1)]
    generalize (S0.ptable t).drop ((S0.ptable t).length - left) = l at *
    cases hd : dropPrefix p n with
    | none =>
      simp only [hd]
      exact PSim.congr ih fun F => by simp only [purePrefix, Spec.firstSplit, hd]
    | some rest =>
      simp only [hd]
      let q : Option Ref → Nat → Py (Option Ref) := fun u F => match u with
        | none => purePrefix env S0 (Spec.lookup env S0 F) n l
        | some u => prefixed p pre rest u >>= fun r => .ok (some r)
      have hq : ∀ u, Mono' (q u) := by
        intro u; cases u with
        | some r => exact mono_const _
        | none => exact purePrefix_mono _ _
      refine PSim.congr (PSim.bind (q := q) (pureFetch_mono _) hq (psim_byNameOrSymbol hc hl rest) fun u _ => ?_) ?_
      · cases u with
        | none => exact ih
        | some u =>
          exact PSim.bind (q := fun r _ => .ok (some r)) (mono_const _) (fun _ => mono_const _) (PSim.pure _ f)
            fun r _ => PSim.pure _ f
      · intro F
        simp only [purePrefix, Spec.firstSplit, hd]
        cases Spec.direct S0 rest with
        | none => rfl
        | some e =>
          simp only [pureFetch, bind, Except.bind]
          cases Spec.entry env S0 (Spec.lookup env S0 F) e <;> rfl

theorem psim_prefixes (hc : Spec.ConflictFree S0) {look : Str → Prog Ref} {f : Nat}
    (hl : ∀ n, PSim env S0 (look n) (fun F => Spec.lookup env S0 F n) f) (n : Str) (t : PTable) :
    PSim env S0 (prefixesP env look n t) (fun F => purePrefix env S0 (Spec.lookup env S0 F) n (S0.ptable t)) f := by
  have := psim_prefixLoop hc hl n t (S0.ptable t).length (Nat.le_refl _)
  rw [Nat.sub_self, List.drop_zero] at this
  exact psim_read (a := .iter t) (fun _ => rfl) (fun S hS => by simp only [Act.run, hS.ptable t]; rfl) this

theorem psim_lookupStep (hc : Spec.ConflictFree S0) {look : Str → Prog Ref} {f : Nat}
    (hl : ∀ n, PSim env S0 (look n) (fun F => Spec.lookup env S0 F n) f) (n : Str) :
    PSim env S0 (lookupStepP env look n) (fun F => Spec.step env S0 (Spec.lookup env S0 F) n) f := by
  have orElse : ∀ {m : Prog (Option Ref)} {p : Nat → Py (Option Ref)} {k : Prog Ref} {q : Nat → Py Ref},
      Mono' p → Mono' q → PSim env S0 m p f → PSim env S0 k q f →
      PSim env S0 (m.bind fun u => match u with | some r => .done (.ok r) | none => k)
        (fun F => do
          match ← p F with
          | some r => .ok r
          | none => q F) f := by
    intro m p k q hp hq hm hk
    let q' : Option Ref → Nat → Py Ref := fun u F => match u with
      | some r => .ok r
      | none => q F
    refine PSim.congr (PSim.bind (q := q') hp ?_ hm ?_) fun F => rfl
    · intro u; cases u with
      | some r => exact mono_const _
      | none => exact hq
    · intro u _; cases u with
      | some r => exact PSim.pure _ f
      | none => exact hk
  have m0 : Mono' (fun _ : Nat => (.error (.unresolvable n) : Py Ref)) := fun _ _ _ => Le.refl _
  have m1 := orElse_mono (purePrefix_mono (env := env) (S0 := S0) n S0.prefixSymbols) m0
  have m2 := orElse_mono (purePrefix_mono (env := env) (S0 := S0) n S0.prefixNames) m1
  have k1 := orElse (purePrefix_mono n _) m0 (psim_prefixes hc hl n .symbols) (PSim.pure _ f)
  have k2 := orElse (purePrefix_mono n _) m1 (psim_prefixes hc hl n .names) k1
  have k3 := orElse (pureFetch_mono _) m2 (psim_byNameOrSymbol hc hl n) k2
  exact PSim.congr k3 fun F => by rw [spec_step_eq]; rfl

theorem psim_lookup (hc : Spec.ConflictFree S0) (f : Nat) (n : Str) :
    PSim env S0 (lookupP env f n) (fun F => Spec.lookup env S0 F n) f := by
  induction f generalizing n with
  | zero => intro S hS; exact ⟨⟨0, Le.refl _⟩, Le.refl _⟩
  | succ f ih =>
    intro S hS
    refine Ok.weaken ?_ (psim_lookupStep hc ih n S hS)
    rintro r ⟨⟨F, hF⟩, h3⟩
    exact ⟨⟨F + 1, hF⟩, h3⟩

theorem psim_unit (hc : Spec.ConflictFree S0) (f : Nat) (t : Str) :
    PSim env S0 (unitP env f t) (fun F => Spec.unit env S0 F t) f :=
  PSim.congr (PSim.bind (q := fun expr F =>
      ((env.order expr.identifiers).mapM fun n => (do .ok (n, ← Spec.lookup env S0 F n) : Py (Str × Ref)))
        >>= fun refs => unitFromExpr expr refs)
    (mono_const _) (fun expr => mono_bind (mono_mapM _) fun _ => mono_const _)
    (PSim.pure _ f) fun expr _ => PSim.bind (mono_mapM _) (fun _ => mono_const _)
      (psim_lookupAll (psim_lookup hc f) _) fun refs _ => PSim.pure _ f) fun F => rfl

end

end Verif

import Verif.Lemmas.DbCheck
import Verif.Props.Resolve
/-!
# Expanding all units of a registry bottom-up

A kernel-friendly evaluation: the expansion and the dimensionality of every unit are computed once per unit, from those of
the units its definition mentions.
-/

namespace Verif
open Spec

/-- the expansion and the dimensionality of a unit (`none` for a prefix) -/
structure View where
  node : Node
  dims : Option Dims

/-- `v` is what the unit expands to -/
def Ref.HasView (r : Ref) (v : View) : Prop := r.expand = .ok v.node ∧ r.dims? = .ok v.dims

/-- a finished object's view, computed -/
def Ref.view (r : Ref) : Option View :=
  match r.expand with
  | .ok n => (match r.dims? with
    | .ok d => some ⟨n, d⟩
    | .error _ => none)
  | .error _ => none

theorem view_sound {r : Ref} {v : View} (h : r.view = some v) : r.HasView v := by
  unfold Ref.view at h
  cases h1 : r.expand with
  | error e => rw [h1] at h; cases h
  | ok n =>
    rw [h1] at h
    simp only at h
    cases h2 : r.dims? with
    | error e => rw [h2] at h; cases h
    | ok d => rw [h2] at h; cases h; exact ⟨h1, h2⟩

/-- the view of a unit from the views of what its definition mentions -/
def buildView (defn : Node) (vs : List (Str × View)) : Option View :=
  match unitDims (fun n => (Dict.get n vs).map fun v => .ok v.dims) defn with
  | .ok d => some ⟨defn.substitute (vs.map fun x => (x.1, x.2.node)), some d⟩
  | .error _ => none

theorem get_map {α β} (f : α → β) (k : Str) : ∀ l : List (Str × α),
    Dict.get k (l.map fun x => (x.1, f x.2)) = (Dict.get k l).map f
  | [] => rfl
  | (k', v) :: l => by
    rw [List.map_cons, Dict.get_cons, Dict.get_cons, get_map f k l]
    split <;> rfl

theorem buildView_sound {defn : Node} {vs : List (Str × View)} {v : View} (h : buildView defn vs = some v)
    (names : Option UnitReference) {refs : List (Str × Ref)} (hk : ∀ k, Dict.get k refs = none → Dict.get k vs = none)
    (hr : ∀ k r, (k, r) ∈ refs → ∃ w, Dict.get k vs = some w ∧ r.HasView w) : (Ref.unit names defn refs).HasView v := by
  unfold buildView at h
  have hlook : (fun n => Dict.get n (Ref.dimsList refs)) = (fun n => (Dict.get n vs).map fun v => (.ok v.dims : Py (Option Dims))) := by
    funext n
    rw [get_dimsList]
    cases hg : Dict.get n refs with
    | none => rw [hk n hg]; rfl
    | some r =>
      obtain ⟨w, h1, h2⟩ := hr n r (Dict.get_mem hg)
      rw [h1]
      simp only [Option.map_some, h2.2]
  cases hd : unitDims (fun n => (Dict.get n vs).map fun v => .ok v.dims) defn with
  | error e => rw [hd] at h; cases h
  | ok d =>
    rw [hd] at h; cases h
    constructor
    · obtain ⟨es, hes⟩ := expandList_total (refs := refs) fun k a ha => by
        obtain ⟨w, _, h2⟩ := hr k a ha; exact ⟨_, h2.1⟩
      rw [Ref.expand]
      simp only [bind, Except.bind, hes]
      congr 1
      refine substitute_congr (fun k => ?_) defn
      rw [get_map View.node]
      obtain ⟨h1, h2⟩ := expandList_ok hes k
      cases hg : Dict.get k refs with
      | none => rw [h2 hg, hk k hg]; rfl
      | some r =>
        obtain ⟨e, he, hge⟩ := h1 r hg
        obtain ⟨w, hw, hv⟩ := hr k r (Dict.get_mem hg)
        rw [hge, hw]
        rw [hv.1] at he
        cases he; rfl
    · rw [Ref.dims?, hlook]
      simp only [bind, Except.bind, hd]

/-- view of a registered object -/
def viewEntry (acc : Tree View) : Entry → Option View
  | .unit r => r.view
  | .lazy id => acc.find id

/-- first reading as prefix + registered spelling -/
def viewSplit (t : Tree Entry) (acc : Tree View) (n : Str) : List (Str × Prefix) → Option View
  | [] => none
  | (p, pre) :: l =>
    match dropPrefix p n with
    | none => viewSplit t acc n l
    | some rest =>
      match t.find (enc rest) with
      | none => viewSplit t acc n l
      | some e =>
        match viewEntry acc e, (Ref.pre pre).view with
        | some v, some pv => buildView (.mul (.ident p) (.ident rest)) (Dict.set rest v (Dict.set p pv []))
        | _, _ => none

/-- view of a spelling -/
def viewSpell (t : Tree Entry) (pres : List (Str × Prefix)) (acc : Tree View) (n : Str) : Option View :=
  match t.find (enc n) with
  | some e => viewEntry acc e
  | none => viewSplit t acc n pres

/-- views of all identifiers of a definition -/
def viewIdents (t : Tree Entry) (pres : List (Str × Prefix)) (acc : Tree View) : List Str → Option (List (Str × View))
  | [] => some []
  | n :: l =>
    match viewSpell t pres acc n with
    | none => none
    | some v => (viewIdents t pres acc l).map fun vs => (n, v) :: vs

/-- view of a lazily defined unit -/
def viewDefn (pf : Str → Py Node) (t : Tree Entry) (pres : List (Str × Prefix)) (acc : Tree View) (defn : Str) : Option View :=
  match pf defn with
  | .error _ => none
  | .ok e => (viewIdents t pres acc e.identifiers).bind (buildView e)

/-- evaluate definitions in the given order -/
def evalIds (pf : Str → Py Node) (t : Tree Entry) (pres : List (Str × Prefix)) (defns : List (Nat × Str)) (acc : Tree View) : Tree View :=
  match defns with
  | [] => acc
  | (id, defn) :: l =>
    match viewDefn pf t pres acc defn with
    | none => evalIds pf t pres l acc
    | some v => evalIds pf t pres l (acc.insert id v)

section
variable {pf : Str → Py Node} {s : System} {t : Tree Entry}

/-- whatever has been evaluated is right -/
def AccOk (pf : Str → Py Node) (s : System) (acc : Tree View) : Prop :=
  ∀ i v, acc.find i = some v → ∀ d r, Spec.resolve ⟨pf, id⟩ s (Spec.lookup ⟨pf, id⟩ s d) i = .ok r → r.HasView v

theorem viewEntry_sound {acc : Tree View} (ha : AccOk pf s acc) {e : Entry} {v : View}
    (h : viewEntry acc e = some v) (d : Nat) (r : Ref)
    (hr : Spec.entry ⟨pf, id⟩ s (Spec.lookup ⟨pf, id⟩ s d) e = .ok r) : r.HasView v := by
  cases e with
  | unit u => cases hr; exact view_sound h
  | lazy i => exact ha i v h d r hr

theorem viewSplit_sound (ht : ∀ n, t.find (enc n) = direct s n) {acc : Tree View} (ha : AccOk pf s acc) {n : Str} {v : View} (d : Nat) (r : Ref) :
    ∀ (l : List (Str × Prefix)), viewSplit t acc n l = some v →
    (match firstSplit s n l with
    | none => (.error (.unresolvable n) : Py Ref)
    | some (p, pre, rest, e) => do
      let u ← entry ⟨pf, id⟩ s (Spec.lookup ⟨pf, id⟩ s d) e
      prefixed p pre rest u) = .ok r → r.HasView v
  | [], h, _ => by cases h
  | (p, pre) :: l, h, hr => by
    unfold viewSplit at h
    unfold firstSplit at hr
    cases hd : dropPrefix p n with
    | none => rw [hd] at h hr; exact viewSplit_sound ht ha d r l h hr
    | some rest =>
      rw [hd] at h hr
      simp only [ht] at h hr
      cases he : direct s rest with
      | none => rw [he] at h hr; exact viewSplit_sound ht ha d r l h hr
      | some e =>
        rw [he] at h hr
        simp only at h hr
        cases hv : viewEntry acc e with
        | none => rw [hv] at h; cases h
        | some w =>
          rw [hv] at h
          cases hpv : (Ref.pre pre).view with
          | none => rw [hpv] at h; cases h
          | some pv =>
            rw [hpv] at h
            simp only at h
            simp only [bind, Except.bind] at hr
            cases hu : entry ⟨pf, id⟩ s (Spec.lookup ⟨pf, id⟩ s d) e with
            | error err => rw [hu] at hr; cases hr
            | ok u =>
              rw [hu] at hr
              have hw := viewEntry_sound ha hv d u hu
              have hp := view_sound hpv
              have : r = .unit none (.mul (.ident p) (.ident rest)) (Dict.set rest u (Dict.set p (.pre pre) [])) := by
                change prefixed p pre rest u = .ok r at hr
                unfold prefixed at hr
                rw [mkUnit_shiftFree none _ (.mul (.ident p) (.ident rest)) ⟨trivial, trivial⟩] at hr
                exact (Except.ok.inj hr).symm
              rw [this]
              refine buildView_sound h _ ?_ ?_
              · intro k hk
                rw [Dict.get_set] at hk ⊢
                split at hk
                · cases hk
                · rename_i hne
                  rw [if_neg hne]
                  rw [Dict.get_set] at hk ⊢
                  split at hk
                  · cases hk
                  · rename_i hne'; rw [if_neg hne']; rfl
              · intro k r' hk
                have hnd : Dict.Nodup (Dict.set rest u (Dict.set p (.pre pre) [])) :=
                  Dict.nodup_set _ _ (Dict.nodup_set _ _ List.nodup_nil)
                have hg := Dict.get_of_mem_nodup hnd hk
                rw [Dict.get_set] at hg ⊢
                split at hg
                · rename_i heq; rw [if_pos heq]; cases hg; exact ⟨w, rfl, hw⟩
                · rename_i hne
                  rw [if_neg hne]
                  rw [Dict.get_set] at hg ⊢
                  split at hg
                  · rename_i heq; rw [if_pos heq]; cases hg; exact ⟨pv, rfl, hp⟩
                  · cases hg

theorem viewSpell_sound (ht : ∀ n, t.find (enc n) = direct s n) {acc : Tree View} (ha : AccOk pf s acc) {n : Str} {v : View}
    (h : viewSpell t (s.prefixNames ++ s.prefixSymbols) acc n = some v) (d : Nat) (r : Ref)
    (hr : Spec.lookup ⟨pf, id⟩ s d n = .ok r) : r.HasView v := by
  cases d with
  | zero => cases hr
  | succ d =>
    change Spec.step ⟨pf, id⟩ s _ n = _ at hr
    unfold Spec.step at hr
    unfold viewSpell at h
    rw [ht] at h
    cases hd : direct s n with
    | some e => rw [hd] at h hr; exact viewEntry_sound ha h d r hr
    | none => rw [hd] at h hr; exact viewSplit_sound ht ha d r _ h hr

theorem viewIdents_spec {pres : List (Str × Prefix)} {acc : Tree View} : ∀ {l : List Str} {vs : List (Str × View)},
    viewIdents t pres acc l = some vs → Dict.keys vs = l ∧ ∀ k v, Dict.get k vs = some v → viewSpell t pres acc k = some v
  | [], vs, h => by cases h; exact ⟨rfl, by intro k v h; cases h⟩
  | n :: l, vs, h => by
    unfold viewIdents at h
    cases hv : viewSpell t pres acc n with
    | none => rw [hv] at h; cases h
    | some v =>
      rw [hv] at h
      simp only at h
      cases hl : viewIdents t pres acc l with
      | none => rw [hl] at h; cases h
      | some ws =>
        rw [hl] at h
        cases h
        obtain ⟨h1, h2⟩ := viewIdents_spec hl
        refine ⟨by rw [← h1]; rfl, ?_⟩
        intro k w hk
        rw [Dict.get_cons] at hk
        split at hk
        · rename_i heq; subst heq; cases hk; exact hv
        · exact h2 k w hk

theorem viewDefn_sound (ht : ∀ n, t.find (enc n) = direct s n) {acc : Tree View} (ha : AccOk pf s acc) {i : Nat} {o : LazyObj}
    (ho : s.heap[i]? = some o) {v : View}
    (h : viewDefn pf t (s.prefixNames ++ s.prefixSymbols) acc o.defn = some v) (d : Nat) (r : Ref)
    (hr : Spec.resolve ⟨pf, id⟩ s (Spec.lookup ⟨pf, id⟩ s d) i = .ok r) : r.HasView v := by
  unfold viewDefn at h
  cases hp : pf o.defn with
  | error e => rw [hp] at h; cases h
  | ok expr =>
    rw [hp] at h
    simp only at h
    rw [spec_resolve_eq ⟨pf, id⟩ s _ ho hp] at hr
    cases hvs : viewIdents t (s.prefixNames ++ s.prefixSymbols) acc expr.identifiers with
    | none => rw [hvs] at h; cases h
    | some vs =>
      rw [hvs] at h
      change buildView expr vs = some v at h
      obtain ⟨k1, k2⟩ := viewIdents_spec hvs
      cases hm : (expr.identifiers).mapM (fun n => do .ok (n, ← Spec.lookup ⟨pf, id⟩ s d n) : Str → Py (Str × Ref)) with
      | error e =>
        simp only [bind, Except.bind, id] at hr hm
        rw [hm] at hr; cases hr
      | ok refs =>
        obtain ⟨m1, m2⟩ := mapM_refs_ok hm
        simp only [bind, Except.bind, id] at hr hm
        rw [hm] at hr
        have : r = .unit (some o.names) expr refs := by
          change mkUnit _ _ _ = _ at hr
          unfold mkUnit at hr
          cases hn : normalisedNode refs expr with
          | error e => rw [hn] at hr; cases hr
          | ok q => rw [hn] at hr; exact (Except.ok.inj hr).symm
        rw [this]
        refine buildView_sound h _ ?_ ?_
        · intro k hk
          rw [Dict.get_eq_none_iff] at hk ⊢
          rw [k1, ← m1]; exact hk
        · intro k r' hk
          have hnd : Dict.Nodup refs := by unfold Dict.Nodup; rw [m1]; exact identifiers_nodup expr
          have hg := Dict.get_of_mem_nodup hnd hk
          have hmem : k ∈ Dict.keys refs := (Dict.get_isSome_iff k refs).1 (by rw [hg]; rfl)
          rw [m1] at hmem
          obtain ⟨r'', hl, hg'⟩ := m2 k hmem
          rw [hg] at hg'; cases hg'
          have : (Dict.get k vs).isSome := (Dict.get_isSome_iff k vs).2 (by rw [k1]; exact hmem)
          obtain ⟨w, hw⟩ := Option.isSome_iff_exists.1 this
          exact ⟨w, hw, viewSpell_sound ht ha (k2 k w hw) d r' hl⟩

theorem evalIds_sound (ht : ∀ n, t.find (enc n) = direct s n) : ∀ (defns : List (Nat × Str)) (acc : Tree View),
    (∀ x ∈ defns, ∃ o, s.heap[x.1]? = some o ∧ o.defn = x.2) →
    AccOk pf s acc → AccOk pf s (evalIds pf t (s.prefixNames ++ s.prefixSymbols) defns acc)
  | [], acc, _, ha => ha
  | (j, defn) :: l, acc, hx, ha => by
    unfold evalIds
    cases hv : viewDefn pf t (s.prefixNames ++ s.prefixSymbols) acc defn with
    | none => exact evalIds_sound ht l acc (fun x hx' => hx x (List.mem_cons_of_mem _ hx')) ha
    | some w =>
      refine evalIds_sound ht l _ (fun x hx' => hx x (List.mem_cons_of_mem _ hx')) ?_
      intro i v hi d r hr
      rw [Tree.find_insert] at hi
      split at hi
      · rename_i heq
        subst heq
        cases hf : acc.find i with
        | some v' => rw [hf] at hi; cases hi; exact ha i _ hf d r hr
        | none =>
          rw [hf] at hi; cases hi
          obtain ⟨o, ho, rfl⟩ := hx _ (List.mem_cons_self ..)
          exact viewDefn_sound ht ha ho hv d r hr
      · exact ha i v hi d r hr

end

end Verif

import Verif.Lemmas.ArrangeXml
import Verif.Props.Shipped
/-!
# Rearranging the shipped file
-/

namespace Verif.Arr
open Spec

theorem mapM_congr_mem {α β} {f g : α → Py β} : ∀ {l : List α}, (∀ x ∈ l, f x = g x) → l.mapM f = l.mapM g
  | [], _ => rfl
  | a :: l, h => by
    rw [List.mapM_cons, List.mapM_cons, h a (by simp), mapM_congr_mem (fun x hx => h x (by simp [hx]))]

/-- the definitions of a system do not mention certain spellings -/
def Avoids (env : Env) (s : System) (X : Str → Prop) : Prop :=
  ∀ (id : Nat) (o : LazyObj) (expr : Node), s.heap[id]? = some o → env.parse o.defn = .ok expr → ∀ n ∈ env.order expr.identifiers, ¬ X n

theorem entry_congr {env : Env} {s : System} {X : Str → Prop} (ha : Avoids env s X) {look look' : Str → Py Ref}
    (hl : ∀ n, ¬ X n → look n = look' n) (e : Entry) : Spec.entry env s look e = Spec.entry env s look' e := by
  cases e with
  | unit r => rfl
  | lazy id =>
    show Spec.resolve env s look id = Spec.resolve env s look' id
    unfold Spec.resolve
    cases ho : s.heap[id]? with
    | none => rfl
    | some o =>
      simp only
      cases hp : env.parse o.defn with
      | error e => rfl
      | ok expr =>
        have : (env.order expr.identifiers).mapM (fun n => do .ok (n, ← look n))
            = (env.order expr.identifiers).mapM (fun n => (do .ok (n, ← look' n) : Py (Str × Ref))) :=
          mapM_congr_mem fun n hn => by rw [hl n (ha id o expr ho hp n hn)]
        simp only [bind, Except.bind] at this ⊢
        rw [this]

theorem Match.lookup_except (env : Env) {s s' : System} (h : Match s s') {X : Str → Prop} (ha : Avoids env s X)
    (hs : ∀ n, ¬ X n → Spec.direct s n = none →
      (firstSplit s n (s.prefixNames ++ s.prefixSymbols)).map (shape s.heap)
      = (firstSplit s' n (s'.prefixNames ++ s'.prefixSymbols)).map (shape s'.heap)) (d : Nat) : ∀ (n : Str), ¬ X n →
    Spec.lookup env s d n = Spec.lookup env s' d n := by
  induction d with
  | zero => intro n _; rfl
  | succ d ih =>
    intro n hX
    show Spec.step env s (Spec.lookup env s d) n = Spec.step env s' (Spec.lookup env s' d) n
    have hent : ∀ e e', deref s.heap e = deref s'.heap e' →
        Spec.entry env s (Spec.lookup env s d) e = Spec.entry env s' (Spec.lookup env s' d) e' := fun e e' he =>
      (entry_congr ha ih e).trans (entry_deref env _ he)
    have hdir := h.direct n
    unfold Spec.step
    cases hd : Spec.direct s n with
    | some e =>
      cases hd' : Spec.direct s' n with
      | none => rw [hd, hd'] at hdir; cases hdir
      | some e' =>
        rw [hd, hd'] at hdir
        exact hent _ _ (Option.some.inj hdir)
    | none =>
      rw [(h.direct_none n).1 hd]
      have hsp := hs n hX hd
      cases hf : firstSplit s n (s.prefixNames ++ s.prefixSymbols) with
      | none =>
        cases hf' : firstSplit s' n (s'.prefixNames ++ s'.prefixSymbols) with
        | none => rfl
        | some x => rw [hf, hf'] at hsp; cases hsp
      | some x =>
        cases hf' : firstSplit s' n (s'.prefixNames ++ s'.prefixSymbols) with
        | none => rw [hf, hf'] at hsp; cases hsp
        | some x' =>
          rw [hf, hf'] at hsp
          obtain ⟨p, pre, rest, e⟩ := x
          obtain ⟨p', pre', rest', e'⟩ := x'
          simp only [shape, Option.map_some, Option.some.injEq, Prod.mk.injEq] at hsp
          obtain ⟨rfl, rfl, rfl, he⟩ := hsp
          simp only [hent _ _ he]

/-- two readings with prefixes are the same, apart from certain spellings -/
def OneExcept (ts : List Step) (X : Str → Prop) : Prop :=
  ∀ p ∈ prefixesAdded ts, ∀ q ∈ prefixesAdded ts, ∀ k l rest rest' : Str,
    (k = p.name ∧ l = q.name ∨ k ∈ p.symbols ∧ l ∈ q.symbols) →
    k ++ rest = l ++ rest' → Declared ts rest → Declared ts rest' → ¬ Declared ts (k ++ rest) → ¬ X (k ++ rest) →
    p = q ∧ k = l

theorem Match.firstSplit_except {s s' : System} (h : Match s s') (f : Prefix → List Str) {ps ps' : List Prefix}
    (hp : ∀ p, p ∈ ps ↔ p ∈ ps') {D : Str → Prop} (hD : ∀ k, Spec.direct s k ≠ none ↔ D k)
    {n : Str} (hn : Spec.direct s n = none)
    (ho : ∀ p ∈ ps, ∀ q ∈ ps, ∀ k l rest rest' : Str, k ∈ f p → l ∈ f q → n = k ++ rest → n = l ++ rest' → D rest → D rest' →
      p = q ∧ k = l) :
    (firstSplit s n (ptab f ps)).map (shape s.heap) = (firstSplit s' n (ptab f ps')).map (shape s'.heap) := by
  have hD' : ∀ k, Spec.direct s' k ≠ none ↔ D k := fun k => by rw [← hD k]; exact not_congr (h.direct_none k).symm
  cases hx : firstSplit s n (ptab f ps) with
  | none =>
    cases hy : firstSplit s' n (ptab f ps') with
    | none => rfl
    | some y =>
      obtain ⟨h1, h2, h3⟩ := firstSplit_reading hy
      obtain ⟨h4, h5⟩ := ptab_mem h1
      obtain ⟨v, hv⟩ := ptab_has (ps := ps) ((hp _).2 h4) h5
      have hne := firstSplit_none.1 hx _ hv y.2.2.1 h2
      exact absurd hne ((hD _).2 ((hD' _).1 (by rw [h3]; simp)))
  | some x =>
    obtain ⟨h1, h2, h3⟩ := firstSplit_reading hx
    obtain ⟨h4, h5⟩ := ptab_mem h1
    have hDx : D x.2.2.1 := (hD _).1 (by rw [h3]; simp)
    cases hy : firstSplit s' n (ptab f ps') with
    | none =>
      obtain ⟨v, hv⟩ := ptab_has (ps := ps') ((hp _).1 h4) h5
      have hne := firstSplit_none.1 hy _ hv x.2.2.1 h2
      exact absurd hne ((hD' _).2 hDx)
    | some y =>
      obtain ⟨g1, g2, g3⟩ := firstSplit_reading hy
      obtain ⟨g4, g5⟩ := ptab_mem g1
      have hDy : D y.2.2.1 := (hD' _).1 (by rw [g3]; simp)
      obtain ⟨a, b⟩ := ho _ h4 _ ((hp _).2 g4) x.1 y.1 x.2.2.1 y.2.2.1 h5 g5 h2 g2 hDx hDy
      have hr : x.2.2.1 = y.2.2.1 := by
        have := h2.symm.trans g2
        rw [b] at this
        exact List.append_cancel_left this
      have hd := h.direct x.2.2.1
      rw [h3] at hd
      rw [hr, g3] at hd
      have a' : x.2.1 = y.2.1 := a
      simp only [Option.map_some, shape, Option.some.injEq, Prod.mk.injEq]
      exact ⟨b, a', hr, Option.some.inj hd⟩

theorem lookup_except (env : Env) {ts us : List Step} (hp : ts.Perm us) (hn : NoShared ts) {X : Str → Prop}
    (ho : OneExcept ts X) (ha : Avoids env (registry ts System.empty) X) (d : Nat) (n : Str) (hX : ¬ X n) :
    Spec.lookup env (registry ts System.empty) d n = Spec.lookup env (registry us System.empty) d n := by
  have f1 := filled hn
  have f2 := filled (noShared_perm hp hn)
  have hm := Match.of_filled f1 f2 (fun t => hp.mem_iff)
  obtain ⟨p1, p2⟩ := registry_prefixes ts System.empty
  obtain ⟨q1, q2⟩ := registry_prefixes us System.empty
  refine hm.lookup_except env ha (fun n hX hd => ?_) d n hX
  have hmem : ∀ p, p ∈ prefixesAdded ts ↔ p ∈ prefixesAdded us := fun p => (hp.filterMap _).mem_iff
  have hDn : ¬ Declared ts n := fun h => (f1.declared n).2 h hd
  have e1 := hm.firstSplit_except (fun p => [p.name]) hmem f1.declared hd (fun p hp q hq k l r r' hk hl h1 h2 h3 h4 => by
    rw [List.mem_singleton] at hk hl
    exact ho p hp q hq k l r r' (Or.inl ⟨hk, hl⟩) (h1.symm.trans h2) h3 h4 (by rw [← h1]; exact hDn) (by rw [← h1]; exact hX))
  have e2 := hm.firstSplit_except Prefix.symbols hmem f1.declared hd (fun p hp q hq k l r r' hk hl h1 h2 h3 h4 =>
    ho p hp q hq k l r r' (Or.inr ⟨hk, hl⟩) (h1.symm.trans h2) h3 h4 (by rw [← h1]; exact hDn) (by rw [← h1]; exact hX))
  have fs : ∀ (s : System) (n : Str) (a b : List (Str × Prefix)), firstSplit s n (a ++ b) = (firstSplit s n a).or (firstSplit s n b) := by
    intro s n a b
    rw [firstSplit_append]
    cases firstSplit s n a <;> rfl
  rw [fs, fs, p1, p2, q1, q2]
  show Option.map _ (Option.or (firstSplit _ n (ptab (fun p => [p.name]) (prefixesAdded ts))) (firstSplit _ n (ptab Prefix.symbols (prefixesAdded ts))))
    = Option.map _ (Option.or (firstSplit _ n (ptab (fun p => [p.name]) (prefixesAdded us))) (firstSplit _ n (ptab Prefix.symbols (prefixesAdded us))))
  rw [map_or', map_or', e1, e2]

/-! ## The check on the shipped file -/

/-- the two spellings with two readings -/
def twice : List Str := [c!"dat", c!"dau"]

/-- all pairs of prefix keys of a kind: no second reading -/
def pairsB (sp : List Str) (t : Tree Entry) (ks : List (Str × Nat)) : Bool :=
  ks.all fun x => ks.all fun y =>
    (if x.1 = y.1 then decide (x.2 = y.2) else
      match dropPrefix x.1 y.1 with
      | none => true
      | some m => sp.all fun r => (t.find (enc (m ++ r))).isNone || (t.find (enc (y.1 ++ r))).isSome || decide (y.1 ++ r ∈ twice))

def nameIdx (ps : List Prefix) : List (Str × Nat) := ps.zipIdx.map fun x => (x.1.name, x.2)
def symIdx (ps : List Prefix) : List (Str × Nat) := ps.zipIdx.flatMap fun x => x.1.symbols.map fun y => (y, x.2)

theorem pairs_names : pairsB ((allClaims (withEntries 0 Db.decls)).map Prod.fst) Db.tree (nameIdx Db.prefixes) = true := by
  decide +kernel
theorem pairs_symbols : pairsB ((allClaims (withEntries 0 Db.decls)).map Prod.fst) Db.tree (symIdx Db.prefixes) = true := by
  decide +kernel

theorem pairs_half {sp : List Str} {t : Tree Entry} {ks : List (Str × Nat)} (h : pairsB sp t ks = true) {k m : Str} {i j : Nat}
    (hk : (k, i) ∈ ks) (hl : (k ++ m, j) ∈ ks) {r : Str} (hr : r ∈ sp) (h1 : t.find (enc (m ++ r)) ≠ none)
    (h2 : t.find (enc (k ++ (m ++ r))) = none) (h3 : k ++ (m ++ r) ∉ twice) : m = [] ∧ i = j := by
  have := List.all_eq_true.1 (List.all_eq_true.1 h _ hk) _ hl
  dsimp only at this
  by_cases hm : m = []
  · subst hm
    rw [if_pos (by simp)] at this
    exact ⟨rfl, of_decide_eq_true this⟩
  · rw [if_neg (by simpa using hm), dropPrefix_eq_some.2 rfl] at this
    have := List.all_eq_true.1 this r hr
    rw [List.append_assoc, h2] at this
    simp only [Option.isSome_none, Bool.or_false, Bool.or_eq_true, decide_eq_true_eq] at this
    rcases this with h | h
    · exact absurd (Option.isNone_iff_eq_none.1 h) h1
    · exact absurd h h3

theorem pairs_sound {sp : List Str} {t : Tree Entry} {ks : List (Str × Nat)} (h : pairsB sp t ks = true) {k l : Str} {i j : Nat}
    (hk : (k, i) ∈ ks) (hl : (l, j) ∈ ks) {r r' : Str} (he : k ++ r = l ++ r') (hr : r ∈ sp) (hr' : r' ∈ sp)
    (h1 : t.find (enc r) ≠ none) (h1' : t.find (enc r') ≠ none)
    (h2 : t.find (enc (k ++ r)) = none) (h3 : k ++ r ∉ twice) : k = l ∧ i = j := by
  rcases List.append_eq_append_iff.1 he with ⟨m, a, b⟩ | ⟨m, a, b⟩
  · subst a; subst b
    obtain ⟨c, d⟩ := pairs_half h hk hl hr' h1 h2 h3
    exact ⟨by rw [c, List.append_nil], d⟩
  · subst a; subst b
    obtain ⟨c, d⟩ := pairs_half h hl hk hr h1' (by rw [← he]; exact h2) (by rw [← he]; exact h3)
    exact ⟨by rw [c, List.append_nil], d.symm⟩

/-- the prefixes as read with a given order of symbol sets -/
def ordered (q : List Str → List Str) (p : Prefix) : Prefix := ⟨p.name, p.value, q p.symbols⟩

theorem each_prefix_ordered (q : List Str → List Str) {l : List Tag} {ps : List Prefix} (h : Each (PrefixIs id) l ps) :
    Each (PrefixIs q) l (ps.map (ordered q)) := by
  induction h with
  | nil => exact .nil
  | @cons t p l ps hp _ ih =>
    obtain ⟨name, value, h1, h2, h3, h4, h5, h6, h7⟩ := hp
    exact .cons ⟨name, value, h1, h2, h3, h4, h5, h6, by show q p.symbols = _; rw [h7]; rfl⟩ ih

theorem shipped_declared {ps : List Prefix} (k : Str) :
    Declared (docSteps ps Db.decls) k ↔ Db.tree.find (enc k) ≠ none := by
  obtain ⟨h1, h2, h3, h4⟩ := Db.distinct
  have hn : NoShared (docSteps ps Db.decls) := docSteps_noShared h1 h2 h3 h4
  have hn0 : NoShared (docSteps Db.prefixes Db.decls) := docSteps_noShared h1 h2 h3 h4
  obtain ⟨s0, e0, ht, _⟩ := Db.base
  have e1 := parseSystem_steps Db.declares hn0
  rw [e0 false] at e1
  have e2 : s0 = registry (docSteps Db.prefixes Db.decls) System.empty := Except.ok.inj e1
  have key : Declared (docSteps ps Db.decls) k ↔ Declared (docSteps Db.prefixes Db.decls) k := by
    have : ∀ ps ps' : List Prefix, Declared (docSteps ps Db.decls) k → Declared (docSteps ps' Db.decls) k := by
      rintro ps ps' ⟨t, ht, ref, hr, hk⟩
      rcases List.mem_append.1 ht with ht | ht
      · obtain ⟨p, _, rfl⟩ := List.mem_map.1 ht
        cases hr
      · exact ⟨t, List.mem_append_right _ ht, ref, hr, hk⟩
    exact ⟨this _ _, this _ _⟩
  rw [key, ← (filled hn0).declared, ← e2, ← ht]

theorem tree_mem {k : Str} (h : Db.tree.find (enc k) ≠ none) : k ∈ (allClaims (withEntries 0 Db.decls)).map Prod.fst := by
  have h' : Tree.find (enc k) (Tree.ofList (allClaims (withEntries 0 Db.decls)) .leaf) ≠ none := h
  rw [Tree.find_ofList] at h'
  cases hg : Dict.get k (allClaims (withEntries 0 Db.decls)) with
  | none => rw [hg] at h'; exact absurd rfl h'
  | some e => exact List.mem_map.2 ⟨_, Dict.get_mem hg, rfl⟩

theorem shipped_one (q : List Str → List Str) (hq : ∀ l, (q l).Perm l) :
    OneExcept (docSteps (Db.prefixes.map (ordered q)) Db.decls) (· ∈ twice) := by
  intro p hp p' hp' k l r r' hkl he hr hr' hnd hX
  rw [docSteps_prefixes] at hp hp'
  obtain ⟨p0, hp0, rfl⟩ := List.mem_map.1 hp
  obtain ⟨p0', hp0', rfl⟩ := List.mem_map.1 hp'
  obtain ⟨i, hi⟩ := List.mem_iff_getElem?.1 hp0
  obtain ⟨j, hj⟩ := List.mem_iff_getElem?.1 hp0'
  have zi : (p0, i) ∈ Db.prefixes.zipIdx := List.mem_zipIdx_iff_getElem?.2 hi
  have zj : (p0', j) ∈ Db.prefixes.zipIdx := List.mem_zipIdx_iff_getElem?.2 hj
  have t1 := (shipped_declared r).1 hr
  have t2 := (shipped_declared r').1 hr'
  have t3 : Db.tree.find (enc (k ++ r)) = none := Classical.byContradiction fun h => hnd ((shipped_declared _).2 h)
  have fin : k = l ∧ i = j := by
    rcases hkl with ⟨a, b⟩ | ⟨a, b⟩
    · exact pairs_sound pairs_names (i := i) (j := j)
        (List.mem_map.2 ⟨_, zi, by rw [a]; rfl⟩) (List.mem_map.2 ⟨_, zj, by rw [b]; rfl⟩) he (tree_mem t1) (tree_mem t2) t1 t2 t3 hX
    · have a' : k ∈ p0.symbols := (hq _).mem_iff.1 a
      have b' : l ∈ p0'.symbols := (hq _).mem_iff.1 b
      exact pairs_sound pairs_symbols (i := i) (j := j)
        (List.mem_flatMap.2 ⟨_, zi, List.mem_map.2 ⟨_, a', rfl⟩⟩) (List.mem_flatMap.2 ⟨_, zj, List.mem_map.2 ⟨_, b', rfl⟩⟩)
        he (tree_mem t1) (tree_mem t2) t1 t2 t3 hX
  obtain ⟨hkl', hij⟩ := fin
  subst hij
  rw [hi] at hj
  cases hj
  exact ⟨rfl, hkl'⟩

def defsAvoidB : Bool := Db.decls.all fun d => match d with
  | .basis _ => true
  | .lazy t _ => match parse t with
    | .error _ => true
    | .ok e => e.identifiers.all fun n => decide (n ∉ twice)

theorem defs_avoid : defsAvoidB = true := by decide +kernel

theorem shipped_avoids (o : List Str → List Str) (ho : ∀ l, (o l).Perm l) (ps : List Prefix) :
    Avoids ⟨parse, o⟩ (registry (docSteps ps Db.decls) System.empty) (· ∈ twice) := by
  intro id ob expr hob hex n hn hX
  obtain ⟨h1, h2, h3, h4⟩ := Db.distinct
  have hf : Filled (docSteps ps Db.decls) (registry (docSteps ps Db.decls) System.empty) := filled (docSteps_noShared h1 h2 h3 h4)
  have hd : .lazy ob.defn ob.names ∈ Db.decls := by
    have hm := hf.heap ob (List.mem_of_getElem? hob)
    rcases List.mem_append.1 hm with hm | hm
    · obtain ⟨p, _, hp⟩ := List.mem_map.1 hm
      cases hp
    · obtain ⟨d, hd, hp⟩ := List.mem_map.1 hm
      cases d with
      | basis b => cases hp
      | lazy t r => cases hp; exact hd
  have := List.all_eq_true.1 defs_avoid _ hd
  dsimp only at this hex
  rw [hex] at this
  have hn' : n ∈ expr.identifiers := (ho _).mem_iff.1 hn
  exact of_decide_eq_true (List.all_eq_true.1 this n hn') hX

end Verif.Arr

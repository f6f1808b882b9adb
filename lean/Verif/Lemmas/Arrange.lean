import Verif.Lemmas.Build
import Verif.Spec.Arrange
/-!
# The registry as a set of declarations
-/

namespace Verif.Arr
open Spec

/-- the four unit tables -/
inductive Kind where
  | name | symbol | aliasName | aliasSymbol

def tab (s : System) : Kind → Dict Str Entry
  | .name => s.names
  | .symbol => s.symbols
  | .aliasName => s.aliasNames
  | .aliasSymbol => s.aliasSymbols

def keys (ref : UnitReference) : Kind → List Str
  | .name => nameKeys ref.name
  | .symbol => ref.symbols
  | .aliasName => aliasKeys ref.aliasNames
  | .aliasSymbol => ref.aliasSymbols

/-- what an entry is, apart from its identity -/
abbrev Thing := Sum Ref (Option (Str × UnitReference))

def deref (h : List LazyObj) : Entry → Thing
  | .unit r => .inl r
  | .lazy id => .inr ((h[id]?).map fun o => (o.defn, o.names))

def thing : Step → Thing
  | .addUnit u => .inl u
  | .define d n => .inr (some (d, n))
  | _ => .inr none

def Claims (t : Step) (κ : Kind) (k : Str) (x : Thing) : Prop :=
  ∃ ref, t.names = some ref ∧ k ∈ keys ref κ ∧ thing t = x

theorem Separate.keys_disjoint {a b : UnitReference} (h : Separate a b) (κ : Kind) {k : Str}
    (ha : k ∈ keys a κ) (hb : k ∈ keys b κ) : False := by
  cases κ with
  | name => exact h.names k (mem_nameKeys_iff.1 ha) (mem_nameKeys_iff.1 hb)
  | symbol => exact h.symbols k ha hb
  | aliasName => exact h.aliasNames k (mem_aliasKeys_iff.1 ha) (mem_aliasKeys_iff.1 hb)
  | aliasSymbol => exact h.aliasSymbols k ha hb

theorem Separate.symm {a b : UnitReference} (h : Separate a b) : Separate b a :=
  ⟨fun k x y => h.names k y x, fun k x y => h.symbols k y x, fun k x y => h.aliasNames k y x,
   fun k x y => h.aliasSymbols k y x⟩

theorem noShared_perm {ts us : List Step} (hp : ts.Perm us) (h : NoShared ts) : NoShared us :=
  hp.pairwise h (fun {_ _} hxy a b ha hb => Separate.symm (hxy b a hb ha))

/-- the invariant of filling a system -/
structure Filled (ts : List Step) (s : System) : Prop where
  table : ∀ κ k x, (Dict.get k (tab s κ)).map (deref s.heap) = some x ↔ ∃ t ∈ ts, Claims t κ k x
  valid : ∀ κ k id, Dict.get k (tab s κ) = some (.lazy id) → id < s.heap.length
  pristine : Pristine s
  heap : ∀ o ∈ s.heap, .define o.defn o.names ∈ ts
  free : ∀ (id : Nat) (o : LazyObj), s.heap[id]? = some o → ∀ κ, ∀ k ∈ keys o.names κ, Dict.get k (tab s κ) = some (.lazy id)

theorem Filled.conflictFree {ts : List Step} {s : System} (h : Filled ts s) : ConflictFree s := by
  intro id o ho
  exact ⟨h.free id o ho .name, h.free id o ho .symbol, h.free id o ho .aliasName, h.free id o ho .aliasSymbol⟩

theorem Filled.empty : Filled [] System.empty := by
  refine ⟨fun κ k x => ?_, fun κ k id h => ?_, fun o h => ?_, fun o h => ?_, fun id o h => ?_⟩
  · cases κ <;> simp [tab, System.empty, Dict.get]
  · cases κ <;> simp [tab, System.empty, Dict.get] at h
  · simp [System.empty] at h
  · simp [System.empty] at h
  · simp [System.empty] at h

theorem tab_register (s : System) (ref : UnitReference) (e : Entry) (κ : Kind) :
    tab (s.register ref e) κ = setAll (keys ref κ) e (tab s κ) := by cases κ <;> rfl

theorem Filled.not_claimed {ts : List Step} {s : System} (h : Filled ts s) {ref : UnitReference}
    (hd : ∀ t ∈ ts, ∀ a, t.names = some a → Separate a ref) (κ : Kind) {k : Str} (hk : k ∈ keys ref κ) :
    Dict.get k (tab s κ) = none := by
  cases hg : Dict.get k (tab s κ) with
  | none => rfl
  | some e =>
    obtain ⟨t, ht, a, ha, hka, _⟩ := (h.table κ k _).1 (by rw [hg]; rfl)
    exact (Separate.keys_disjoint (hd t ht a ha) κ hka hk).elim

theorem Filled.no_collision {ts : List Step} {s : System} (h : Filled ts s) {ref : UnitReference}
    (hd : ∀ t ∈ ts, ∀ a, t.names = some a → Separate a ref) : s.collision ref = none := by
  have hn : ∀ k ∈ nameKeys ref.name, Dict.has k s.names = false := by
    intro k hk
    have := h.not_claimed hd .name hk
    simp only [tab] at this
    cases hh : Dict.has k s.names with
    | false => rfl
    | true =>
      rw [Dict.has_iff] at hh
      rw [this] at hh; simp at hh
  have hs : ∀ k ∈ ref.symbols, Dict.has k s.symbols = false := by
    intro k hk
    have := h.not_claimed hd .symbol hk
    simp only [tab] at this
    cases hh : Dict.has k s.symbols with
    | false => rfl
    | true =>
      rw [Dict.has_iff] at hh
      rw [this] at hh; simp at hh
  unfold System.collision
  have h1 : (nameKeys ref.name).find? (fun k => Dict.has k s.names) = none := by
    rw [List.find?_eq_none]; intro k hk; rw [hn k hk]; simp
  rw [h1]
  show ref.symbols.find? _ = none
  rw [List.find?_eq_none]; intro k hk; rw [hs k hk]; simp

/-- registering an entry that is new -/
theorem Filled.register {ts : List Step} {s : System} (h : Filled ts s) {t : Step} {ref : UnitReference}
    (hn : t.names = some ref) (hd : ∀ u ∈ ts, ∀ a, u.names = some a → Separate a ref)
    {objs : List LazyObj} {e : Entry} (hpr : ∀ o ∈ objs, o.resolved = none) (hobj : ∀ o ∈ objs, t = .define o.defn o.names)
    (he : deref (s.heap ++ objs) e = thing t) (hev : ∀ id, e = .lazy id → id < (s.heap ++ objs).length)
    (hlast : ∀ (i : Nat) (o : LazyObj), objs[i]? = some o → e = .lazy (s.heap.length + i)) :
    Filled (ts ++ [t]) (System.register { s with heap := s.heap ++ objs } ref e) := by
  have hder : ∀ κ k, (Dict.get k (tab s κ)).map (deref (s.heap ++ objs)) = (Dict.get k (tab s κ)).map (deref s.heap) := by
    intro κ k
    cases hg : Dict.get k (tab s κ) with
    | none => rfl
    | some e' =>
      cases e' with
      | unit r => rfl
      | lazy id =>
        have := h.valid κ k id hg
        simp only [Option.map_some, deref, List.getElem?_append_left this]
  have htab : ∀ κ, tab (System.register { s with heap := s.heap ++ objs } ref e) κ = setAll (keys ref κ) e (tab s κ) := by
    intro κ; cases κ <;> rfl
  have hheap : (System.register { s with heap := s.heap ++ objs } ref e).heap = s.heap ++ objs := rfl
  refine ⟨fun κ k x => ?_, fun κ k id hg => ?_, fun o ho => ?_, fun o ho => ?_, fun id o ho κ k hk => ?_⟩
  · rw [htab, hheap, get_setAll]
    by_cases hk : k ∈ keys ref κ
    · rw [if_pos hk, Option.map_some, he]
      constructor
      · intro hx
        exact ⟨t, by simp, ref, hn, hk, Option.some.inj hx⟩
      · rintro ⟨u, hu, a, ha, hka, hx⟩
        rcases List.mem_append.1 hu with hu | hu
        · exact (Separate.keys_disjoint (hd u hu a ha) κ hka hk).elim
        · rw [List.mem_singleton] at hu
          subst hu; rw [hx]
    · rw [if_neg hk, hder, h.table]
      constructor
      · rintro ⟨u, hu, hc⟩; exact ⟨u, by simp [hu], hc⟩
      · rintro ⟨u, hu, hc⟩
        rcases List.mem_append.1 hu with hu | hu
        · exact ⟨u, hu, hc⟩
        · rw [List.mem_singleton] at hu
          subst hu
          obtain ⟨a, ha, hka, _⟩ := hc
          rw [hn] at ha
          cases ha
          exact absurd hka hk
  · rw [htab, get_setAll] at hg
    rw [hheap]
    by_cases hk : k ∈ keys ref κ
    · rw [if_pos hk] at hg
      exact hev id (Option.some.inj hg)
    · rw [if_neg hk] at hg
      have := h.valid κ k id hg
      rw [List.length_append]; omega
  · rw [hheap] at ho
    rcases List.mem_append.1 ho with ho | ho
    · exact h.pristine o ho
    · exact hpr o ho
  · rw [hheap] at ho
    rcases List.mem_append.1 ho with ho | ho
    · exact List.mem_append_left _ (h.heap o ho)
    · rw [← hobj o ho]; simp
  · rw [hheap] at ho
    rw [htab, get_setAll]
    by_cases hid : id < s.heap.length
    · rw [List.getElem?_append_left hid] at ho
      have hmem : o ∈ s.heap := List.mem_of_getElem? ho
      rw [if_neg (fun hk' => Separate.keys_disjoint (hd _ (h.heap o hmem) _ rfl) κ hk hk')]
      exact h.free id o ho κ k hk
    · rw [List.getElem?_append_right (by omega)] at ho
      have hnm := hobj o (List.mem_of_getElem? ho)
      rw [hnm] at hn
      have hnm' : o.names = ref := Option.some.inj hn
      rw [hnm'] at hk
      rw [if_pos hk, hlast _ o ho]
      congr 2; omega

/-- steps that register no unit -/
theorem Filled.skip {ts : List Step} {s s' : System} (h : Filled ts s) {t : Step} (hn : t.names = none)
    (ht : ∀ κ, tab s' κ = tab s κ) (hh : s'.heap = s.heap) : Filled (ts ++ [t]) s' := by
  refine ⟨fun κ k x => ?_, fun κ k id hg => ?_, fun o ho => ?_, fun o ho => ?_, fun id o ho κ k hk => ?_⟩
  · rw [ht, hh, h.table]
    constructor
    · rintro ⟨u, hu, hc⟩; exact ⟨u, by simp [hu], hc⟩
    · rintro ⟨u, hu, hc⟩
      rcases List.mem_append.1 hu with hu | hu
      · exact ⟨u, hu, hc⟩
      · rw [List.mem_singleton] at hu
        subst hu
        obtain ⟨a, ha, _⟩ := hc
        rw [hn] at ha; cases ha
  · rw [ht] at hg; rw [hh]; exact h.valid κ k id hg
  · rw [hh] at ho; exact h.pristine o ho
  · rw [hh] at ho
    exact List.mem_append_left _ (h.heap o ho)
  · rw [hh] at ho; rw [ht]; exact h.free id o ho κ k hk

theorem namesOf_step {s : System} {u : Ref} {ref : UnitReference} (h : (Step.addUnit u).names = some ref) :
    s.namesOf (.unit u) = .ok ref := by
  cases u with
  | basis b => cases h; rfl
  | pre p => cases h
  | unit n d r => cases h; rfl

theorem namesOf_step_none {s : System} {u : Ref} (h : (Step.addUnit u).names = none) :
    s.namesOf (.unit u) = .error .attributeError := by
  cases u with
  | basis b => cases h
  | pre p => rfl
  | unit n d r => cases h; rfl

/-- a step whose spellings are new succeeds and keeps the invariant -/
theorem Filled.step {ts : List Step} {s : System} (h : Filled ts s) (t : Step)
    (hd : ∀ u ∈ ts, ∀ a b, u.names = some a → t.names = some b → Separate a b) :
    Filled (ts ++ [t]) (t.register s) ∧ (∀ ref, t.names = some ref → t.outcome s = .ok ()) := by
  cases t with
  | addPrefix p => exact ⟨h.skip rfl (fun κ => by cases κ <;> rfl) rfl, fun _ _ => rfl⟩
  | query q => exact ⟨h.skip rfl (fun κ => rfl) rfl, fun _ _ => rfl⟩
  | addUnit u =>
    cases hn : (Step.addUnit u).names with
    | none =>
      refine ⟨h.skip hn (fun κ => ?_) ?_, fun ref hr => by cases hr⟩
      · show tab (s.addUnit (.unit u) false).2 κ = _
        rw [System.addUnit, namesOf_step_none hn]
      · show (s.addUnit (.unit u) false).2.heap = _
        rw [System.addUnit, namesOf_step_none hn]
    | some ref =>
      have hd' : ∀ u ∈ ts, ∀ a, u.names = some a → Separate a ref := fun v hv a ha => hd v hv a ref ha hn
      have hcol := h.no_collision hd'
      have hadd : s.addUnit (.unit u) false = (.ok (), s.register ref (.unit u)) := by
        rw [System.addUnit, namesOf_step hn]
        simp only [Bool.false_eq_true, if_false, hcol]
      constructor
      · show Filled _ (s.addUnit (.unit u) false).2
        rw [hadd]
        have := h.register (t := .addUnit u) hn hd' (objs := []) (e := .unit u) (by simp) (by simp) rfl
          (fun id hid => by cases hid) (fun i o ho => by simp at ho)
        rw [List.append_nil] at this
        exact this
      · intro r _
        show (s.addUnit (.unit u) false).1 = _
        rw [hadd]
  | define d names =>
    have hd' : ∀ u ∈ ts, ∀ a, u.names = some a → Separate a names := fun v hv a ha => hd v hv a names ha rfl
    have hcol := h.no_collision hd'
    have hlen : (s.heap ++ [(⟨d, names, none⟩ : LazyObj)])[s.heap.length]? = some ⟨d, names, none⟩ := by simp
    have hadd : (s.alloc d names).2.addUnit (.lazy (s.alloc d names).1) false
        = (.ok (), System.register { s with heap := s.heap ++ [⟨d, names, none⟩] } names (.lazy s.heap.length)) := by
      show System.addUnit { s with heap := s.heap ++ [⟨d, names, none⟩] } (.lazy s.heap.length) false = _
      unfold System.addUnit
      have hno : System.namesOf { s with heap := s.heap ++ [⟨d, names, none⟩] } (.lazy s.heap.length) = .ok names := by
        simp only [System.namesOf, hlen]
      have hco : System.collision { s with heap := s.heap ++ [⟨d, names, none⟩] } names = none := hcol
      rw [hno]
      simp only [Bool.false_eq_true, if_false, hco]
    constructor
    · show Filled _ ((s.alloc d names).2.addUnit (.lazy (s.alloc d names).1) false).2
      rw [hadd]
      refine h.register (t := .define d names) rfl hd' (objs := [⟨d, names, none⟩]) (e := .lazy s.heap.length)
        (by simp) (by simp) ?_ ?_ ?_
      · simp only [deref, hlen, thing, Option.map_some]
      · intro id hid
        cases hid
        simp
      · intro i o ho
        cases i with
        | zero => rfl
        | succ i => simp at ho
    · intro r _
      show ((s.alloc d names).2.addUnit (.lazy (s.alloc d names).1) false).1 = _
      rw [hadd]

theorem registry_append (ts us : List Step) (s : System) : registry (ts ++ us) s = registry us (registry ts s) := by
  simp [registry, List.foldl_append]

theorem filled_from (us : List Step) : ∀ (ts : List Step) (s : System), Filled ts s → NoShared (ts ++ us) →
    Filled (ts ++ us) (registry us s) := by
  induction us with
  | nil => intro ts s h _; rw [List.append_nil]; exact h
  | cons t us ih =>
    intro ts s h hn
    have hs := h.step t (by
      intro u hu a b ha hb
      exact (List.pairwise_append.1 hn).2.2 u hu t (by simp) a b ha hb)
    have := ih (ts ++ [t]) (t.register s) hs.1 (by rw [List.append_assoc]; exact hn)
    rw [List.append_assoc] at this
    exact this

theorem filled {ts : List Step} (h : NoShared ts) : Filled ts (registry ts System.empty) :=
  filled_from ts [] System.empty Filled.empty h

theorem accepted {ts us : List Step} {t : Step} {ref : UnitReference} (h : NoShared (ts ++ t :: us))
    (hn : t.names = some ref) : t.outcome (registry ts System.empty) = .ok () := by
  obtain ⟨h1, h2, h3⟩ := List.pairwise_append.1 h
  exact ((filled h1).step t (fun u hu a b ha hb => h3 u hu t (by simp) a b ha hb)).2 ref hn

/-! ## Two ways of filling a system -/

/-- the two systems hold the same things under the same spellings -/
structure Match (s s' : System) : Prop where
  table : ∀ κ k, (Dict.get k (tab s κ)).map (deref s.heap) = (Dict.get k (tab s' κ)).map (deref s'.heap)

theorem Match.of_filled {ts us : List Step} {s s' : System} (h : Filled ts s) (h' : Filled us s')
    (hm : ∀ t, t ∈ ts ↔ t ∈ us) : Match s s' := by
  constructor
  intro κ k
  apply Option.ext
  intro x
  rw [h.table, h'.table]
  constructor
  · rintro ⟨t, ht, hc⟩; exact ⟨t, (hm t).1 ht, hc⟩
  · rintro ⟨t, ht, hc⟩; exact ⟨t, (hm t).2 ht, hc⟩

theorem direct_or (s : System) (n : Str) : direct s n =
    (Dict.get n s.names).or ((Dict.get n s.aliasNames).or ((Dict.get n s.symbols).or (Dict.get n s.aliasSymbols))) := by
  unfold direct
  cases Dict.get n s.names <;> cases Dict.get n s.aliasNames <;> cases Dict.get n s.symbols <;> rfl

theorem map_or' {α β} (f : α → β) (a b : Option α) : (a.or b).map f = (a.map f).or (b.map f) := by
  cases a <;> rfl

theorem Match.direct {s s' : System} (h : Match s s') (n : Str) :
    (direct s n).map (deref s.heap) = (direct s' n).map (deref s'.heap) := by
  have h1 := h.table .name n
  have h2 := h.table .aliasName n
  have h3 := h.table .symbol n
  have h4 := h.table .aliasSymbol n
  simp only [tab] at h1 h2 h3 h4
  rw [direct_or, direct_or, map_or', map_or', map_or', map_or', map_or', map_or', h1, h2, h3, h4]

theorem Match.direct_none {s s' : System} (h : Match s s') (n : Str) : Spec.direct s n = none ↔ Spec.direct s' n = none := by
  have := h.direct n
  rw [← Option.map_eq_none_iff (f := deref s.heap), this, Option.map_eq_none_iff]

theorem entry_deref (env : Env) {s s' : System} {e e' : Entry} (look : Str → Py Ref)
    (h : deref s.heap e = deref s'.heap e') : Spec.entry env s look e = Spec.entry env s' look e' := by
  cases e with
  | unit r =>
    cases e' with
    | unit r' => cases h; rfl
    | lazy id => cases h
  | lazy id =>
    cases e' with
    | unit r' => cases h
    | lazy id' =>
      have h' : (s.heap[id]?).map (fun o => (o.defn, o.names)) = (s'.heap[id']?).map fun o => (o.defn, o.names) := by
        simpa [deref] using h
      show Spec.resolve env s look id = Spec.resolve env s' look id'
      unfold Spec.resolve
      cases ha : s.heap[id]? with
      | none =>
        rw [ha] at h'
        cases hb : s'.heap[id']? with
        | none => rfl
        | some o => rw [hb] at h'; simp at h'
      | some o =>
        rw [ha] at h'
        cases hb : s'.heap[id']? with
        | none => rw [hb] at h'; simp at h'
        | some o' =>
          rw [hb] at h'
          simp only [Option.map_some, Option.some.injEq, Prod.mk.injEq] at h'
          simp only [h'.1, h'.2]

/-- the split found, with the thing in place of the entry -/
def shape (h : List LazyObj) (x : Str × Prefix × Str × Entry) : Str × Prefix × Str × Thing := (x.1, x.2.1, x.2.2.1, deref h x.2.2.2)

theorem Match.lookup (env : Env) {s s' : System} (h : Match s s')
    (hs : ∀ n, Spec.direct s n = none →
      (firstSplit s n (s.prefixNames ++ s.prefixSymbols)).map (shape s.heap)
      = (firstSplit s' n (s'.prefixNames ++ s'.prefixSymbols)).map (shape s'.heap)) (d : Nat) (n : Str) :
    Spec.lookup env s d n = Spec.lookup env s' d n := by
  induction d generalizing n with
  | zero => rfl
  | succ d ih =>
    have ih' : Spec.lookup env s d = Spec.lookup env s' d := funext ih
    show Spec.step env s (Spec.lookup env s d) n = Spec.step env s' (Spec.lookup env s' d) n
    rw [ih']
    have hdir := h.direct n
    unfold Spec.step
    cases hd : Spec.direct s n with
    | some e =>
      cases hd' : Spec.direct s' n with
      | none => rw [hd, hd'] at hdir; cases hdir
      | some e' =>
        rw [hd, hd'] at hdir
        exact entry_deref env _ (Option.some.inj hdir)
    | none =>
      rw [(h.direct_none n).1 hd]
      have hsp := hs n hd
      cases hf : firstSplit s n (s.prefixNames ++ s.prefixSymbols) with
      | none =>
        cases hf' : firstSplit s' n (s'.prefixNames ++ s'.prefixSymbols) with
        | none => rfl
        | some x => rw [hf, hf'] at hsp; cases hsp
      | some x =>
        cases hf' : firstSplit s' n (s'.prefixNames ++ s'.prefixSymbols) with
        | none => rw [hf, hf'] at hsp; cases hsp
        | some x' =>
          rw [hf, hf'] at hsp
          obtain ⟨p, pre, rest, e⟩ := x
          obtain ⟨p', pre', rest', e'⟩ := x'
          simp only [shape, Option.map_some, Option.some.injEq, Prod.mk.injEq] at hsp
          obtain ⟨rfl, rfl, rfl, he⟩ := hsp
          simp only [entry_deref env _ he]

theorem Match.unit (env : Env) {s s' : System} (hl : ∀ d n, Spec.lookup env s d n = Spec.lookup env s' d n) (d : Nat) (t : Str) :
    Spec.unit env s d t = Spec.unit env s' d t := by
  unfold Spec.unit
  have : Spec.lookup env s d = Spec.lookup env s' d := funext (hl d)
  rw [this]

theorem Match.firstSplit_same {s s' : System} (h : Match s s') (n : Str) (l : List (Str × Prefix)) :
    (firstSplit s n l).map (shape s.heap) = (firstSplit s' n l).map (shape s'.heap) := by
  induction l with
  | nil => rfl
  | cons q l ih =>
    obtain ⟨p, pre⟩ := q
    unfold firstSplit
    cases dropPrefix p n with
    | none => exact ih
    | some rest =>
      have hd := h.direct rest
      simp only
      cases hx : Spec.direct s rest with
      | none => rw [(h.direct_none rest).1 hx]; exact ih
      | some e =>
        cases hy : Spec.direct s' rest with
        | none => rw [hx, hy] at hd; cases hd
        | some e' =>
          rw [hx, hy] at hd
          simp only [Option.map_some, shape, Option.some.inj hd]

/-! ## Prefix tables -/

theorem registry_prefixes (ts : List Step) : ∀ s : System,
    (registry ts s).prefixNames = (prefixesAdded ts).foldl (fun d p => Dict.set p.name p d) s.prefixNames ∧
    (registry ts s).prefixSymbols
      = (prefixesAdded ts).foldl (fun d p => p.symbols.foldl (fun d y => Dict.set y p d) d) s.prefixSymbols := by
  induction ts with
  | nil => intro s; exact ⟨rfl, rfl⟩
  | cons t ts ih =>
    intro s
    have hstep : registry (t :: ts) s = registry ts (t.register s) := rfl
    rw [hstep, (ih _).1, (ih _).2]
    have key : ∀ (s : System) (e : Entry), (s.addUnit e false).2.prefixNames = s.prefixNames ∧
        (s.addUnit e false).2.prefixSymbols = s.prefixSymbols := by
      intro s e
      unfold System.addUnit
      cases s.namesOf e with
      | error err => exact ⟨rfl, rfl⟩
      | ok ref =>
        simp only [Bool.false_eq_true, if_false]
        cases s.collision ref <;> exact ⟨rfl, rfl⟩
    cases t with
    | addPrefix p => exact ⟨rfl, rfl⟩
    | query q => exact ⟨rfl, rfl⟩
    | addUnit u =>
      show List.foldl _ (s.addUnit (.unit u) false).2.prefixNames _ = _ ∧ List.foldl _ (s.addUnit (.unit u) false).2.prefixSymbols _ = _
      rw [(key s _).1, (key s _).2]
      exact ⟨rfl, rfl⟩
    | define d n =>
      show List.foldl _ ((s.alloc d n).2.addUnit (.lazy (s.alloc d n).1) false).2.prefixNames _ = _ ∧
        List.foldl _ ((s.alloc d n).2.addUnit (.lazy (s.alloc d n).1) false).2.prefixSymbols _ = _
      rw [(key _ _).1, (key _ _).2]
      exact ⟨rfl, rfl⟩

theorem mem_set' {k : Str} {v : Prefix} {d : Dict Str Prefix} {q : Str × Prefix} (h : q ∈ Dict.set k v d) :
    q = (k, v) ∨ q ∈ d := by
  induction d with
  | nil => simp [Dict.set] at h; exact Or.inl h
  | cons a d ih =>
    obtain ⟨k', v'⟩ := a
    by_cases e : k' = k
    · simp only [Dict.set, if_pos e, List.mem_cons] at h
      rcases h with h | h
      · left; rw [h, e]
      · right; exact List.mem_cons_of_mem _ h
    · simp only [Dict.set, if_neg e, List.mem_cons] at h
      rcases h with h | h
      · right; rw [h]; simp
      · rcases ih h with h | h
        · exact Or.inl h
        · exact Or.inr (List.mem_cons_of_mem _ h)

theorem keys_set_mono {k k' : Str} {v : Prefix} {d : Dict Str Prefix} (h : k' ∈ Dict.keys d) : k' ∈ Dict.keys (Dict.set k v d) := by
  rw [Dict.keys_set]
  split
  · exact h
  · exact List.mem_append_left _ h

theorem keys_set_self {k : Str} {v : Prefix} {d : Dict Str Prefix} : k ∈ Dict.keys (Dict.set k v d) := by
  rw [← Dict.get_isSome_iff, Dict.get_set_self]; rfl

theorem inner_mono (p : Prefix) (ks : List Str) : ∀ {d : Dict Str Prefix} {k : Str}, k ∈ Dict.keys d →
    k ∈ Dict.keys (ks.foldl (fun d y => Dict.set y p d) d) := by
  induction ks with
  | nil => intro d k h; exact h
  | cons y ks ih => intro d k h; exact ih (keys_set_mono h)

theorem inner_has (p : Prefix) (ks : List Str) : ∀ {d : Dict Str Prefix} {k : Str}, k ∈ ks →
    k ∈ Dict.keys (ks.foldl (fun d y => Dict.set y p d) d) := by
  induction ks with
  | nil => intro d k h; cases h
  | cons y ks ih =>
    intro d k h
    rcases List.mem_cons.1 h with rfl | h
    · exact inner_mono p ks keys_set_self
    · exact ih h

theorem inner_mem (p : Prefix) (ks : List Str) : ∀ {d : Dict Str Prefix} {q : Str × Prefix},
    q ∈ ks.foldl (fun d y => Dict.set y p d) d → q ∈ d ∨ (q.1 ∈ ks ∧ q.2 = p) := by
  induction ks with
  | nil => intro d q h; exact Or.inl h
  | cons y ks ih =>
    intro d q h
    rcases ih h with h | ⟨h, h'⟩
    · rcases mem_set' h with h | h
      · right; rw [h]; exact ⟨by simp, rfl⟩
      · exact Or.inl h
    · exact Or.inr ⟨List.mem_cons_of_mem _ h, h'⟩

theorem outer_mono (f : Prefix → List Str) (ps : List Prefix) : ∀ {d : Dict Str Prefix} {k : Str}, k ∈ Dict.keys d →
    k ∈ Dict.keys (ps.foldl (fun d p => (f p).foldl (fun d y => Dict.set y p d) d) d) := by
  induction ps with
  | nil => intro d k h; exact h
  | cons y ks ih => intro d k h; exact ih (inner_mono _ _ h)

theorem outer_has (f : Prefix → List Str) (ps : List Prefix) : ∀ {d : Dict Str Prefix} {k : Str} {p : Prefix}, p ∈ ps → k ∈ f p →
    k ∈ Dict.keys (ps.foldl (fun d p => (f p).foldl (fun d y => Dict.set y p d) d) d) := by
  induction ps with
  | nil => intro d k p h; cases h
  | cons y ks ih =>
    intro d k p h hk
    rcases List.mem_cons.1 h with rfl | h
    · exact outer_mono f ks (inner_has _ _ hk)
    · exact ih h hk

theorem outer_mem (f : Prefix → List Str) (ps : List Prefix) : ∀ {d : Dict Str Prefix} {q : Str × Prefix},
    q ∈ ps.foldl (fun d p => (f p).foldl (fun d y => Dict.set y p d) d) d → q ∈ d ∨ (q.2 ∈ ps ∧ q.1 ∈ f q.2) := by
  induction ps with
  | nil => intro d q h; exact Or.inl h
  | cons y ks ih =>
    intro d q h
    rcases ih h with h | ⟨h, h'⟩
    · rcases inner_mem _ _ h with h | ⟨h, h'⟩
      · exact Or.inl h
      · right; rw [h']; exact ⟨by simp, h⟩
    · exact Or.inr ⟨List.mem_cons_of_mem _ h, h'⟩

/-- a prefix table filled from a list of prefixes -/
def ptab (f : Prefix → List Str) (ps : List Prefix) : Dict Str Prefix :=
  ps.foldl (fun d p => (f p).foldl (fun d y => Dict.set y p d) d) []

theorem ptab_mem {f : Prefix → List Str} {ps : List Prefix} {q : Str × Prefix} (h : q ∈ ptab f ps) :
    q.2 ∈ ps ∧ q.1 ∈ f q.2 := by
  rcases outer_mem f ps h with h | h
  · cases h
  · exact h

theorem ptab_has {f : Prefix → List Str} {ps : List Prefix} {p : Prefix} {k : Str} (hp : p ∈ ps) (hk : k ∈ f p) :
    ∃ v, (k, v) ∈ ptab f ps := by
  have := outer_has f ps (d := []) hp hk
  obtain ⟨q, hq, e⟩ := List.mem_map.1 this
  exact ⟨q.2, by rw [← e]; exact hq⟩

theorem firstSplit_reading {s : System} {n : Str} {l : List (Str × Prefix)} {x : Str × Prefix × Str × Entry}
    (h : firstSplit s n l = some x) : (x.1, x.2.1) ∈ l ∧ n = x.1 ++ x.2.2.1 ∧ Spec.direct s x.2.2.1 = some x.2.2.2 := by
  induction l with
  | nil => cases h
  | cons q l ih =>
    obtain ⟨p, pre⟩ := q
    unfold firstSplit at h
    cases hd : dropPrefix p n with
    | none =>
      rw [hd] at h
      obtain ⟨h1, h2⟩ := ih h
      exact ⟨List.mem_cons_of_mem _ h1, h2⟩
    | some rest =>
      rw [hd] at h
      simp only at h
      cases hx : Spec.direct s rest with
      | none =>
        rw [hx] at h
        obtain ⟨h1, h2⟩ := ih h
        exact ⟨List.mem_cons_of_mem _ h1, h2⟩
      | some e =>
        rw [hx] at h
        cases h
        exact ⟨by simp, dropPrefix_eq_some.1 hd, hx⟩

/-- no two prefixes of the list of prefixes give readings of the same spelling -/
def One (D : Str → Prop) (f : Prefix → List Str) (ps : List Prefix) : Prop :=
  ∀ p ∈ ps, ∀ q ∈ ps, ∀ k l rest rest' : Str, k ∈ f p → l ∈ f q → k ++ rest = l ++ rest' → D rest → D rest' → ¬ D (k ++ rest) →
    p = q ∧ k = l

theorem Match.firstSplit_perm {s s' : System} (h : Match s s') (f : Prefix → List Str) {ps ps' : List Prefix}
    (hp : ∀ p, p ∈ ps ↔ p ∈ ps') {D : Str → Prop} (hD : ∀ k, Spec.direct s k ≠ none ↔ D k) (ho : One D f ps)
    {n : Str} (hn : Spec.direct s n = none) :
    (firstSplit s n (ptab f ps)).map (shape s.heap) = (firstSplit s' n (ptab f ps')).map (shape s'.heap) := by
  have hD' : ∀ k, Spec.direct s' k ≠ none ↔ D k := fun k => by rw [← hD k]; exact not_congr (h.direct_none k).symm
  have hDn : ¬ D n := fun hd => (hD n).2 hd hn
  cases hx : firstSplit s n (ptab f ps) with
  | none =>
    cases hy : firstSplit s' n (ptab f ps') with
    | none => rfl
    | some y =>
      obtain ⟨h1, h2, h3⟩ := firstSplit_reading hy
      obtain ⟨h4, h5⟩ := ptab_mem h1
      obtain ⟨v, hv⟩ := ptab_has (ps := ps) ((hp _).2 h4) h5
      have hne := firstSplit_none.1 hx _ hv y.2.2.1 h2
      exact absurd hne ((hD _).2 ((hD' _).1 (by rw [h3]; simp)))
  | some x =>
    obtain ⟨h1, h2, h3⟩ := firstSplit_reading hx
    obtain ⟨h4, h5⟩ := ptab_mem h1
    have hDx : D x.2.2.1 := (hD _).1 (by rw [h3]; simp)
    cases hy : firstSplit s' n (ptab f ps') with
    | none =>
      obtain ⟨v, hv⟩ := ptab_has (ps := ps') ((hp _).1 h4) h5
      have hne := firstSplit_none.1 hy _ hv x.2.2.1 h2
      exact absurd hne ((hD' _).2 hDx)
    | some y =>
      obtain ⟨g1, g2, g3⟩ := firstSplit_reading hy
      obtain ⟨g4, g5⟩ := ptab_mem g1
      have hDy : D y.2.2.1 := (hD' _).1 (by rw [g3]; simp)
      obtain ⟨a, b⟩ := ho _ h4 _ ((hp _).2 g4) x.1 y.1 x.2.2.1 y.2.2.1 h5 g5 (h2.symm.trans g2) hDx hDy (by rw [← h2]; exact hDn)
      have hr : x.2.2.1 = y.2.2.1 := by
        have := h2.symm.trans g2
        rw [b] at this
        exact List.append_cancel_left this
      have hd := h.direct x.2.2.1
      rw [h3] at hd
      rw [hr, g3] at hd
      have a' : x.2.1 = y.2.1 := a
      simp only [Option.map_some, shape, Option.some.injEq, Prod.mk.injEq]
      exact ⟨b, a', hr, Option.some.inj hd⟩

theorem Filled.declared {ts : List Step} {s : System} (h : Filled ts s) (k : Str) :
    Spec.direct s k ≠ none ↔ Declared ts k := by
  have tk : ∀ κ, Dict.get k (tab s κ) ≠ none ↔ ∃ t ∈ ts, ∃ ref, t.names = some ref ∧ k ∈ keys ref κ := by
    intro κ
    constructor
    · intro hg
      cases he : Dict.get k (tab s κ) with
      | none => exact absurd he hg
      | some e =>
        obtain ⟨t, ht, ref, h1, h2, _⟩ := (h.table κ k _).1 (by rw [he]; rfl)
        exact ⟨t, ht, ref, h1, h2⟩
    · rintro ⟨t, ht, ref, h1, h2⟩ hg
      have := (h.table κ k (thing t)).2 ⟨t, ht, ref, h1, h2, rfl⟩
      rw [hg] at this; cases this
  have hdir : Spec.direct s k ≠ none ↔ ∃ κ, Dict.get k (tab s κ) ≠ none := by
    rw [direct_or]
    constructor
    · intro hne
      apply Classical.byContradiction
      intro hall
      have hall' : ∀ κ, Dict.get k (tab s κ) = none := fun κ =>
        Classical.byContradiction fun hc => hall ⟨κ, hc⟩
      have h1 := hall' .name
      have h2 := hall' .aliasName
      have h3 := hall' .symbol
      have h4 := hall' .aliasSymbol
      simp only [tab] at h1 h2 h3 h4
      rw [h1, h2, h3, h4] at hne
      exact hne rfl
    · rintro ⟨κ, hκ⟩ hn
      rw [Option.or_eq_none_iff, Option.or_eq_none_iff, Option.or_eq_none_iff] at hn
      cases κ with
      | name => exact hκ hn.1
      | aliasName => exact hκ hn.2.1
      | symbol => exact hκ hn.2.2.1
      | aliasSymbol => exact hκ hn.2.2.2
  rw [hdir]
  constructor
  · rintro ⟨κ, hκ⟩
    obtain ⟨t, ht, ref, h1, h2⟩ := (tk κ).1 hκ
    refine ⟨t, ht, ref, h1, ?_⟩
    cases κ with
    | name => exact Or.inl (mem_nameKeys_iff.1 h2)
    | aliasName => exact Or.inr (Or.inl (mem_aliasKeys_iff.1 h2))
    | symbol => exact Or.inr (Or.inr (Or.inl h2))
    | aliasSymbol => exact Or.inr (Or.inr (Or.inr h2))
  · rintro ⟨t, ht, ref, h1, h2⟩
    rcases h2 with h2 | h2 | h2 | h2
    · exact ⟨.name, (tk .name).2 ⟨t, ht, ref, h1, mem_nameKeys_iff.2 h2⟩⟩
    · exact ⟨.aliasName, (tk .aliasName).2 ⟨t, ht, ref, h1, mem_aliasKeys_iff.2 h2⟩⟩
    · exact ⟨.symbol, (tk .symbol).2 ⟨t, ht, ref, h1, h2⟩⟩
    · exact ⟨.aliasSymbol, (tk .aliasSymbol).2 ⟨t, ht, ref, h1, h2⟩⟩

/-- filling a system in another order: the fixed readings are the same -/
theorem lookup_perm (env : Env) {ts us : List Step} (hp : ts.Perm us) (hn : NoShared ts)
    (hpre : prefixesAdded ts = prefixesAdded us ∨ OneReading ts) (d : Nat) (n : Str) :
    Spec.lookup env (registry ts System.empty) d n = Spec.lookup env (registry us System.empty) d n := by
  have f1 := filled hn
  have f2 := filled (noShared_perm hp hn)
  have hm := Match.of_filled f1 f2 (fun t => hp.mem_iff)
  obtain ⟨p1, p2⟩ := registry_prefixes ts System.empty
  obtain ⟨q1, q2⟩ := registry_prefixes us System.empty
  refine hm.lookup env (fun n hd => ?_) d n
  rcases hpre with he | ho
  · rw [p1, p2, q1, q2, ← he]
    exact hm.firstSplit_same n _
  · have hmem : ∀ p, p ∈ prefixesAdded ts ↔ p ∈ prefixesAdded us := fun p => (hp.filterMap _).mem_iff
    have e1 := hm.firstSplit_perm (fun p => [p.name]) hmem f1.declared (fun p hp q hq k l r r' hk hl => by
      rw [List.mem_singleton] at hk hl
      exact ho p hp q hq k l r r' (Or.inl ⟨hk, hl⟩)) hd
    have e2 := hm.firstSplit_perm Prefix.symbols hmem f1.declared (fun p hp q hq k l r r' hk hl =>
      ho p hp q hq k l r r' (Or.inr ⟨hk, hl⟩)) hd
    have fs : ∀ (s : System) (n : Str) (a b : List (Str × Prefix)), firstSplit s n (a ++ b) = (firstSplit s n a).or (firstSplit s n b) := by
      intro s n a b
      rw [firstSplit_append]
      cases firstSplit s n a <;> rfl
    rw [fs, fs, p1, p2, q1, q2]
    show Option.map _ (Option.or (firstSplit _ n (ptab (fun p => [p.name]) (prefixesAdded ts))) (firstSplit _ n (ptab Prefix.symbols (prefixesAdded ts))))
      = Option.map _ (Option.or (firstSplit _ n (ptab (fun p => [p.name]) (prefixesAdded us))) (firstSplit _ n (ptab Prefix.symbols (prefixesAdded us))))
    rw [map_or', map_or', e1, e2]

end Verif.Arr

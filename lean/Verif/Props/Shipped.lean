import Verif.Props.Database
/-!
# C48 for the shipped database
-/

namespace Verif
open Spec

theorem SysSame.symm {s1 s2 : System} (h : SysSame s1 s2) : SysSame s2 s1 := by
  refine ⟨h.heap.symm, fun n => (h.direct n).symm, fun n => ?_⟩
  rcases h.split n with ⟨a, b⟩ | ⟨p, pre1, pre2, rest, e, a, b, c, d, f⟩
  · exact .inl ⟨b, a⟩
  · exact .inr ⟨p, pre2, pre1, rest, e, b, a, c.symm, d.symm, f.symm⟩

namespace Db

/-- the shipped database read with the document order of symbol sets -/
theorem base : ∃ s0, (∀ strict, parseSystem strict id unitSystem = .ok s0) ∧ (∀ n, tree.find (enc n) = direct s0 n) ∧
    s0.prefixNames ++ s0.prefixSymbols = pres ∧ s0.heap = lazyObjs decls ∧ Pristine s0 ∧ ConflictFree s0 := by
  obtain ⟨h1, h2, h3, h4⟩ := Db.distinct
  obtain ⟨s0, e0, t1, t2, t3, t4, hh, hp1, hp2, hp, hc⟩ :=
    C38_distinct_spellings_load id Db.unitSystem Db.prefixes Db.decls Db.declares h1 h2 h3 h4
  refine ⟨s0, ?_, ?_, ?_, hh, hp, hc⟩
  · intro strict; rw [load_id strict, ← load_id false]; exact e0
  · intro n
    rw [direct_claims ⟨t1, t2, t3, t4⟩]
    show Tree.find (enc n) (Tree.ofList _ _) = _
    rw [Tree.find_ofList]
    rfl
  · rw [hp1, hp2]; rfl

theorem normalise_shift_ident (refs : List (Str × Ref)) (k : Str) (r : Ref) (v : Num) (raw : Option Str)
    (hr : Dict.get k refs = some r) :
    normalise refs (.shift (.ident k) (.number v raw)) = normalise [(k, r)] (.shift (.ident k) (.number v raw)) := by
  have h1 : Dict.get k (Ref.dimsList refs) = some r.dims? := by rw [get_dimsList, hr]; rfl
  have h2 : Dict.get k (Ref.dimsList [(k, r)]) = some r.dims? := by
    rw [get_dimsList, Dict.get_cons, if_pos rfl]; rfl
  have h3 : defnDims refs (.ident k) = defnDims [(k, r)] (.ident k) := by
    unfold defnDims unitDims
    simp only [Node.split, bind, Except.bind, Node.dimCount, dimsLoop, h1, h2]
  rw [normalise, normalise]
  simp only [bind, Except.bind, normalise, Option.getD_none, h3]

/-- the unit built from `[(k, r)]` decides whether it can be built from any references with `k ↦ r` -/
theorem builds_shift (env : Env) (s : System) (names : UnitReference) (k : Str) (v : Num) (raw : Option Str) (r : Ref)
    (hl : ∀ d r', Spec.lookup env s d k = .ok r' → r' = r)
    (hb : (normalise [(k, r)] (.shift (.ident k) (.number v raw))).isOk = true) :
    Builds env s names (.shift (.ident k) (.number v raw)) := by
  intro refs h1 h2
  have hk : (Dict.get k refs).isSome = true := h2 k (by
    rw [show Node.identifiers (.shift (.ident k) (.number v raw)) = setUnion (Node.identifiers (.ident k)) (Node.identifiers (.number v raw)) from rfl,
      mem_setUnion]
    left
    show k ∈ [k]
    simp)
  obtain ⟨r', hr'⟩ := Option.isSome_iff_exists.1 hk
  obtain ⟨d, hd⟩ := h1 k r' hr'
  have := hl d r' hd
  subst this
  unfold mkUnit normalisedNode
  rw [normalise_shift_ident refs k r' v raw hr']
  cases hn : normalise [(k, r')] (.shift (.ident k) (.number v raw)) with
  | error e => rw [hn] at hb; cases hb
  | ok x => exact ⟨_, rfl⟩

/-- the basis unit kelvin as registered -/
def kelvin : Ref := match tree.find (enc c!"K") with
  | some (.unit r) => r
  | _ => .pre ⟨[], [], []⟩

theorem find_K : tree.find (enc c!"K") = some (.unit kelvin) := by decide +kernel
theorem find_R : tree.find (enc c!"°R") = some (.lazy 248) := by decide +kernel
/-- the object registered as degree Rankine -/
def rankineObj : LazyObj := ((lazyObjs decls)[248]?).getD ⟨[], ⟨none, [], [], []⟩, none⟩
theorem heap_R : (lazyObjs decls)[248]? = some rankineObj := by decide +kernel
theorem parse_R : parse rankineObj.defn = .ok (.div (.ident c!"K") (.number (.dec ⟨false, 18, -1⟩) (some c!"1.8"))) := by
  decide +kernel
attribute [irreducible] kelvin rankineObj
/-- degree Rankine, resolved -/
def rankine : Ref := .unit (some rankineObj.names) (.div (.ident c!"K") (.number (.dec ⟨false, 18, -1⟩) (some c!"1.8"))) [(c!"K", kelvin)]

theorem lookup_K {s : System} (ht : ∀ n, tree.find (enc n) = direct s n) (env : Env) (d : Nat) (r : Ref)
    (h : Spec.lookup env s d c!"K" = .ok r) : r = kelvin := by
  cases d with
  | zero => cases h
  | succ d =>
    change Spec.step env s _ _ = _ at h
    unfold Spec.step at h
    rw [← ht, find_K] at h
    exact (Except.ok.inj (show Except.ok kelvin = Except.ok r from h)).symm

theorem lookup_R {pf : Str → Py Node} (hpf : pf rankineObj.defn = .ok (.div (.ident c!"K") (.number (.dec ⟨false, 18, -1⟩) (some c!"1.8"))))
    {s : System} (ht : ∀ n, tree.find (enc n) = direct s n) (hR : s.heap[248]? = some rankineObj) (d : Nat) (r : Ref)
    (h : Spec.lookup ⟨pf, id⟩ s d c!"°R" = .ok r) : r = rankine := by
  cases d with
  | zero => cases h
  | succ d =>
    change Spec.step _ s _ _ = _ at h
    unfold Spec.step at h
    rw [← ht, find_R] at h
    change Spec.resolve _ s _ 248 = _ at h
    rw [spec_resolve_eq ⟨pf, id⟩ s _ hR hpf] at h
    rw [show (Env.order ⟨pf, id⟩ (Node.identifiers (.div (.ident c!"K") (.number (.dec ⟨false, 18, -1⟩) (some c!"1.8"))))) = [c!"K"] from rfl,
      List.mapM_cons, List.mapM_nil] at h
    simp only [bind, Except.bind] at h
    cases hk : Spec.lookup ⟨pf, id⟩ s d c!"K" with
    | error e => rw [hk] at h; cases h
    | ok rk =>
      rw [hk] at h
      have := lookup_K ht _ d rk hk
      subst this
      have hs : mkUnit (some rankineObj.names) (.div (.ident c!"K") (.number (.dec ⟨false, 18, -1⟩) (some c!"1.8"))) [(c!"K", kelvin)] = .ok rankine :=
        mkUnit_shiftFree _ _ _ ⟨trivial, trivial⟩
      change mkUnit _ _ _ = _ at h
      rw [hs] at h
      exact (Except.ok.inj h).symm

theorem ranks_length : ranks.length = (lazyObjs decls).length := by decide +kernel
theorem ranks_le : ranks.all (fun r => decide (r ≤ 7)) = true := by decide +kernel
/-- the two definitions with an offset -/
def shiftObj (id : Nat) : LazyObj := ((lazyObjs decls)[id]?).getD ⟨[], ⟨none, [], [], []⟩, none⟩
theorem heap_C : (lazyObjs decls)[15]? = some (shiftObj 15) := by decide +kernel
theorem heap_F : (lazyObjs decls)[249]? = some (shiftObj 249) := by decide +kernel
theorem parse_C : parse (shiftObj 15).defn
    = .ok (.shift (.ident c!"K") (.number (.dec ⟨false, 27315, -2⟩) (some c!"273.15"))) := by decide +kernel
theorem parse_F : parse (shiftObj 249).defn
    = .ok (.shift (.ident c!"°R") (.number (.dec ⟨false, 45967, -2⟩) (some c!"459.67"))) := by decide +kernel
theorem norm_C : (normalise [(c!"K", kelvin)] (.shift (.ident c!"K") (.number (.dec ⟨false, 27315, -2⟩) (some c!"273.15")))).isOk = true := by
  decide +kernel
theorem norm_F : (normalise [(c!"°R", rankine)] (.shift (.ident c!"°R") (.number (.dec ⟨false, 45967, -2⟩) (some c!"459.67")))).isOk = true := by
  decide +kernel
attribute [irreducible] shiftObj

theorem wellFounded {pf : Str → Py Node} (hpf : pf = parse) {s : System} (ht : ∀ n, tree.find (enc n) = direct s n)
    (hp : s.prefixNames ++ s.prefixSymbols = pres) (hh : s.heap = lazyObjs decls) :
    WellFounded ⟨pf, id⟩ s (fun id => rankOf ranks id ≠ 0) (rankOf ranks) ∧
    ∀ i, i < s.heap.length → rankOf ranks i = 0 → Broken ⟨pf, id⟩ s i := by
  apply wellFounded_of_check ht (ranks := ranks) (shifts := shifts)
  · rw [hp, hh, hpf]; exact definitions_ok
  · intro i hi o expr ho hpo
    have hR : s.heap[248]? = some rankineObj := by rw [hh]; exact heap_R
    rcases List.mem_cons.1 hi with rfl | hi
    · have e1 : o = shiftObj 15 := by rw [hh, heap_C] at ho; exact (Option.some.inj ho).symm
      rw [e1, hpf, parse_C] at hpo
      rw [← Except.ok.inj hpo]
      exact builds_shift _ s _ _ _ _ kelvin (fun d r' => lookup_K ht _ d r') norm_C
    · rcases List.mem_cons.1 hi with rfl | hi
      · have e1 : o = shiftObj 249 := by rw [hh, heap_F] at ho; exact (Option.some.inj ho).symm
        rw [e1, hpf, parse_F] at hpo
        rw [← Except.ok.inj hpo]
        exact builds_shift _ s _ _ _ _ rankine (fun d r' => lookup_R (by rw [hpf]; exact parse_R) ht hR d r') norm_F
      · cases hi
  · rw [hh]; exact ranks_length

/-- the 22 spellings of the shipped database that cannot be used -/
def unusable : List Str :=
  [c!"arc_second", c!"arc_seconds", c!"angular_second", c!"angular_seconds", c!"arcsecond", c!"arcseconds", c!"arcsec", c!"arcsecs",
   c!"inch_H2O_39F", c!"inches_H2O_39F", c!"inch_H2O_60F", c!"inches_H2O_60F", c!"millimeter_Hg_0C", c!"millimeters_Hg_0C",
   c!"inch_Hg_32F", c!"inches_Hg_32F", c!"inch_Hg_60F", c!"inches_Hg_60F", c!"\"", c!"″", c!"cm_H2O", c!"cmH2O"]

/-- the spelling is registered for a unit that cannot be resolved -/
def deadB (n : Str) : Bool := match tree.find (enc n) with
  | some (.lazy id) => rankOf ranks id == 0
  | _ => false

theorem unusable_ok : ((allClaims (withEntries 0 decls)).all fun x =>
    deadB x.1 == ((unusable.map enc).any fun k => Nat.beq k (enc x.1))) = true := by decide +kernel

theorem dead_iff {n : Str} {e : Entry} (h : (n, e) ∈ allClaims (withEntries 0 decls)) : deadB n = true ↔ n ∈ unusable := by
  have h1 := List.all_eq_true.1 unusable_ok _ h
  simp only [beq_iff_eq] at h1
  rw [h1, List.any_eq_true]
  constructor
  · rintro ⟨k, hk, he⟩
    obtain ⟨m, hm, rfl⟩ := List.mem_map.1 hk
    rw [← enc_inj (Nat.eq_of_beq_eq_true he)]; exact hm
  · intro hn
    exact ⟨enc n, List.mem_map.2 ⟨n, hn, rfl⟩, by simp⟩

theorem rank_le (id : Nat) : rankOf ranks id ≤ 7 := by
  unfold rankOf
  cases h : ranks[id]? with
  | none => simp
  | some r =>
    have := List.all_eq_true.1 ranks_le r (List.mem_of_getElem? h)
    simpa using this

/-- `n` is one of the spellings of a declared unit -/
def Claimed (n : Str) : Prop :=
  ∃ d ∈ decls, IsName (declRef d) n ∨ IsSymbol (declRef d) n ∨ IsAlias (declRef d) n ∨ IsAliasSymbol (declRef d) n

theorem withEntries_of_mem : ∀ (ds : List UnitDecl) (h : Nat) (d : UnitDecl), d ∈ ds → ∃ e, (declRef d, e) ∈ withEntries h ds
  | [], _, _, hd => by cases hd
  | d' :: ds, h, d, hd => by
    rcases List.mem_cons.1 hd with rfl | hd'
    · cases d with
      | lazy t r => exact ⟨_, List.mem_cons_self ..⟩
      | basis b => exact ⟨_, List.mem_cons_self ..⟩
    · cases d' with
      | lazy t r => obtain ⟨e, he⟩ := withEntries_of_mem ds (h + 1) d hd'; exact ⟨e, List.mem_cons_of_mem _ he⟩
      | basis b => obtain ⟨e, he⟩ := withEntries_of_mem ds h d hd'; exact ⟨e, List.mem_cons_of_mem _ he⟩

theorem claimed_mem {n : Str} (h : Claimed n) : ∃ e, (n, e) ∈ allClaims (withEntries 0 decls) := by
  obtain ⟨d, hd, h⟩ := h
  obtain ⟨e, he⟩ := withEntries_of_mem decls 0 d hd
  refine ⟨e, ?_⟩
  unfold allClaims
  simp only [List.mem_append, mem_claimsOf]
  rcases h with h | h | h | h
  · exact .inl ⟨_, he, mem_nameKeys_iff.2 h⟩
  · exact .inr (.inr (.inl ⟨_, he, h⟩))
  · exact .inr (.inl ⟨_, he, mem_aliasKeys_iff.2 h⟩)
  · exact .inr (.inr (.inr ⟨_, he, h⟩))

theorem claims_heap {n : Str} {i : Nat} (h : tree.find (enc n) = some (.lazy i)) : i < (lazyObjs decls).length := by
  by_cases hi : i < (lazyObjs decls).length
  · exact hi
  · exfalso
    have h1 : ((allClaims (withEntries 0 decls)).all fun x => match x.2 with
      | .lazy i => Nat.blt i 500 && (rankOf ranks i != 0 || (decide (i < ranks.length)))
      | .unit _ => true) = true := by decide +kernel
    have h2 : Dict.get n (allClaims (withEntries 0 decls)) = some (.lazy i) := by
      have := Tree.find_ofList n (allClaims (withEntries 0 decls)) .leaf
      rw [show Tree.find (enc n) (Tree.ofList (allClaims (withEntries 0 decls)) .leaf) = some (.lazy i) from h] at this
      exact this.symm
    have h3 := List.all_eq_true.1 h1 _ (Dict.get_mem h2)
    simp only [Bool.and_eq_true, Bool.or_eq_true, bne_iff_ne, decide_eq_true_eq] at h3
    rw [← ranks_length] at hi
    rcases h3.2 with h | h
    · apply h; unfold rankOf; rw [List.getElem?_eq_none (by omega)]; rfl
    · exact hi h

end Db

/-- **C48** (the shipped database). Load `udunits2_combined.xml` in any way (strictly or not, any iteration order of symbol
sets) and use it in any way (any iteration order of identifier sets, any history of lookups and `unit` calls).  A spelling
declared for any of its units resolves — given a recursion limit of 9 nested lookups — unless it is one of 22 listed
spellings, which never resolve, whatever the limit. -/
theorem C48_shipped_spellings (strict : Bool) (o q : List Str → List Str) (ho : ∀ l, (o l).Perm l) (hq : ∀ l, (q l).Perm l)
    (s : System) (hs : parseSystem strict q Db.unitSystem = .ok s) (hist : List Query) (n : Str) (hn : Db.Claimed n) :
    (n ∉ Db.unusable → ∀ limit, 9 ≤ limit → ∃ u, (unitByNameOrSymbol ⟨parse, o⟩ limit n (after ⟨parse, o⟩ hist s)).1 = .ok u) ∧
    (n ∈ Db.unusable → ∀ limit, ∃ e, (unitByNameOrSymbol ⟨parse, o⟩ limit n (after ⟨parse, o⟩ hist s)).1 = .error e) := by
  obtain ⟨s0, hl, ht, hp, hh, hpr, hcf⟩ := Db.base
  obtain ⟨s', hs', hpr', hcf', _⟩ := C38_shipped_database_loads strict q hq
  rw [hs] at hs'; cases hs'
  rcases system_order strict id q (fun _ => .refl _) hq Db.unitSystem Db.free with ⟨e, e2, _⟩ | ⟨s0', s', e2, e3, hsame⟩
  · rw [hl] at e2; cases e2
  rw [hl] at e2; cases e2
  rw [hs] at e3; cases e3
  obtain ⟨pf, hpf⟩ : ∃ pf, pf = parse := ⟨_, rfl⟩
  rw [← hpf]
  obtain ⟨hw, hb⟩ := Db.wellFounded hpf ht hp hh
  obtain ⟨e, he⟩ := Db.claimed_mem hn
  have hdead := Db.dead_iff he
  have hsome : ∃ e, direct s0 n = some e := by
    rw [← ht, show Db.tree = .ofList (allClaims (withEntries 0 Db.decls)) .leaf from rfl, Tree.find_ofList]
    have : (Dict.get n (allClaims (withEntries 0 Db.decls))).isSome := by
      rw [Dict.get_isSome_iff]; exact List.mem_map.2 ⟨_, he, rfl⟩
    obtain ⟨e', he'⟩ := Option.isSome_iff_exists.1 this
    exact ⟨e', by rw [he']; rfl⟩
  obtain ⟨e', he'⟩ := hsome
  constructor
  · intro hnu limit hlim
    obtain ⟨d, rfl⟩ : ∃ d, limit = d + 1 := ⟨limit - 1, by omega⟩
    have hgood : ∀ b, e' = .lazy b → rankOf Db.ranks b ≠ 0 ∧ rankOf Db.ranks b < d := by
      rintro b rfl
      refine ⟨fun h0 => hnu (hdead.1 ?_), ?_⟩
      · unfold Db.deadB; rw [ht, he']; simpa using h0
      · have := Db.rank_le b; omega
    obtain ⟨r, hr⟩ := spec_lookup_resolves (env := ⟨pf, id⟩) (fun _ => .refl _) hw n e' (.inl he') d hgood
    obtain ⟨r2, hr2, _⟩ := spec_lookup_same (env1 := ⟨pf, id⟩) (env2 := ⟨pf, o⟩) hsame.sysSame rfl (fun _ => .refl _) ho (d + 1) n r hr
    exact ⟨r2, by
      rw [(C05_lookup_refines_fixed_registry ⟨pf, o⟩ s hpr' hcf' hist (d + 1) n).1 (d + 1) (Nat.le_refl _) (by rw [hr2]; simp), hr2]⟩
  · intro hnu limit
    cases hu : (unitByNameOrSymbol ⟨pf, o⟩ limit n (after ⟨pf, o⟩ hist s)).1 with
    | error e => exact ⟨e, rfl⟩
    | ok r =>
      obtain ⟨d, hd⟩ := (C05_lookup_refines_fixed_registry ⟨pf, o⟩ s hpr' hcf' hist limit n).2 r hu
      obtain ⟨r2, hr2, _⟩ := spec_lookup_same (env1 := ⟨pf, o⟩) (env2 := ⟨pf, id⟩) hsame.sysSame.symm rfl ho (fun _ => .refl _) d n r hd
      have h1 := hdead.2 hnu
      unfold Db.deadB at h1
      rw [ht, he'] at h1
      cases e' with
      | unit u => cases h1
      | lazy i =>
        have h2 : rankOf Db.ranks i = 0 := by simpa using h1
        have h3 := hb i (by rw [hh]; exact Db.claims_heap (by rw [ht]; exact he')) h2
        exact absurd hr2 (spec_lookup_broken (fun _ => .refl _) n i (.inl he') h3 d r2)

/-- Non-vacuity of C48 for the shipped database: two declared spellings, one usable and one not. -/
example : Db.Claimed c!"furlong" ∧ c!"furlong" ∉ Db.unusable ∧ Db.Claimed c!"arcsecond" ∧ c!"arcsecond" ∈ Db.unusable := by
  have key : ∀ n, (Db.decls.any fun d => decide (n ∈ nameKeys (declRef d).name ∨ n ∈ aliasKeys (declRef d).aliasNames)) = true → Db.Claimed n := by
    intro n h
    obtain ⟨d, hd, h⟩ := List.any_eq_true.1 h
    rcases of_decide_eq_true h with h | h
    · exact ⟨d, hd, .inl (mem_nameKeys_iff.1 h)⟩
    · exact ⟨d, hd, .inr (.inr (.inl (mem_aliasKeys_iff.1 h)))⟩
  exact ⟨key _ (by decide +kernel), by decide +kernel, key _ (by decide +kernel), by decide +kernel⟩

end Verif

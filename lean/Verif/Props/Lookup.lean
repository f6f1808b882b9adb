import Verif.Lemmas.Order
import Verif.Props.Registry
/-!
# C05–C08: lookups do not interfere, do not depend on set order, and cannot resolve cycles
-/

namespace Verif
open Spec

/-! ## C05 -/

/-- answers that are not cut short by the recursion limit are determined by the pure specification -/
theorem agree {α} {a b : Py α} {p : Nat → Py α} (hm : Mono' p) (ha : ∃ F, Le a (p F)) (hb : ∃ F, Le b (p F))
    (ha' : a ≠ .error .recursionError) (hb' : b ≠ .error .recursionError) : a = b := by
  obtain ⟨F, hF⟩ := ha
  obtain ⟨G, hG⟩ := hb
  rcases hF with h | h
  · exact absurd h ha'
  · rcases hG with h' | h'
    · exact absurd h' hb'
    · rcases Nat.le_total F G with hl | hl
      · rcases hm hl with h'' | h''
        · exact absurd (h.trans h'') ha'
        · exact h.trans (h''.trans h'.symm)
      · rcases hm hl with h'' | h''
        · exact absurd (h'.trans h'') hb'
        · exact h.trans (h''.symm.trans h'.symm)

theorem spec_unit_mono (env : Env) (s : System) (t : Str) : Mono' fun F => Spec.unit env s F t := by
  intro a b hab
  refine Le.bind (Le.refl _) fun e => ?_
  refine Le.bind (Le.mapM (fun n => ?_) _) fun _ => Le.refl _
  exact Le.bind (Spec.lookup_mono env s hab n) fun _ => Le.refl _

/-- **C05.** In a freshly registered system without conflicting spellings, the result of looking up
any string is the same whatever queries (successful or failing, lookups or whole expressions, with
whatever recursion budget) were made before — provided the interpreter's recursion limit is not hit. -/
theorem C05_lookup_independent_of_history (env : Env) (s : System) (hp : Pristine s) (hc : ConflictFree s)
    (h1 h2 : List Query) (l1 l2 : Nat) (n : Str)
    (ha : (unitByNameOrSymbol env l1 n (after env h1 s)).1 ≠ .error .recursionError)
    (hb : (unitByNameOrSymbol env l2 n (after env h2 s)).1 ≠ .error .recursionError) :
    (unitByNameOrSymbol env l1 n (after env h1 s)).1 = (unitByNameOrSymbol env l2 n (after env h2 s)).1 := by
  have i0 := Inv.init env hp
  exact agree (fun _ _ h => Spec.lookup_mono env s h n)
    (sim_lookup hc l1 n _ (inv_after hc h1 i0)).2.1 (sim_lookup hc l2 n _ (inv_after hc h2 i0)).2.1 ha hb

/-- **C05** for `UnitSystem.unit` on whole expressions. -/
theorem C05_unit_independent_of_history (env : Env) (s : System) (hp : Pristine s) (hc : ConflictFree s)
    (h1 h2 : List Query) (l1 l2 : Nat) (text : Str)
    (ha : (System.unit env l1 text (after env h1 s)).1 ≠ .error .recursionError)
    (hb : (System.unit env l2 text (after env h2 s)).1 ≠ .error .recursionError) :
    (System.unit env l1 text (after env h1 s)).1 = (System.unit env l2 text (after env h2 s)).1 := by
  have i0 := Inv.init env hp
  exact agree (spec_unit_mono env s text)
    (sim_unit hc l1 text _ (inv_after hc h1 i0)).2.1 (sim_unit hc l2 text _ (inv_after hc h2 i0)).2.1 ha hb

/-- **C05**, the answer itself: what the stateful lookup returns after any history is what reading the
registry as a fixed table gives; and when the table's nesting depth fits the limit, the lookup never
hits the limit. -/
theorem C05_lookup_refines_fixed_registry (env : Env) (s : System) (hp : Pristine s) (hc : ConflictFree s)
    (h : List Query) (limit : Nat) (n : Str) :
    (∀ depth, depth ≤ limit → Spec.lookup env s depth n ≠ .error .recursionError →
      (unitByNameOrSymbol env limit n (after env h s)).1 = Spec.lookup env s depth n) ∧
    (∀ r, (unitByNameOrSymbol env limit n (after env h s)).1 = .ok r →
      ∃ depth, Spec.lookup env s depth n = .ok r) := by
  have i0 := Inv.init env hp
  obtain ⟨_, ⟨F, hF⟩, hf⟩ := sim_lookup hc limit n _ (inv_after hc h i0)
  constructor
  · intro depth hd hne
    have := Le.trans (Spec.lookup_mono env s hd n) hf
    rcases this with h | h
    · exact absurd h hne
    · exact h.symm
  · intro r hr
    rw [hr] at hF
    exact ⟨F, hF.ok⟩

/-- decidable form of `ConflictFree` (used for examples and for the shipped database) -/
def conflictFreeB (s : System) : Bool :=
  (List.range s.heap.length).all fun id =>
    match s.heap[id]? with
    | none => true
    | some o =>
      ((nameKeys o.names.name).all fun k => Dict.get k s.names == some (.lazy id)) &&
      (o.names.symbols.all fun k => Dict.get k s.symbols == some (.lazy id)) &&
      ((aliasKeys o.names.aliasNames).all fun k => Dict.get k s.aliasNames == some (.lazy id)) &&
      (o.names.aliasSymbols.all fun k => Dict.get k s.aliasSymbols == some (.lazy id))

theorem conflictFree_of_bool {s : System} (h : conflictFreeB s = true) : ConflictFree s := by
  intro id o ho
  have hid : id < s.heap.length := (List.getElem?_eq_some_iff.1 ho).1
  have := List.all_eq_true.1 h id (List.mem_range.2 hid)
  rw [ho] at this
  simp only [Bool.and_eq_true, List.all_eq_true, beq_iff_eq] at this
  obtain ⟨⟨⟨a, b⟩, c⟩, d⟩ := this
  exact ⟨a, b, c, d⟩

/-- Non-vacuity: the demo system meets the hypotheses; a history with successes and failures. -/
theorem Demo.sys_conflictFree : ConflictFree Demo.sys := conflictFree_of_bool (by decide +kernel)
theorem Demo.sys_pristine : Pristine Demo.sys := by
  have : (Demo.sys.heap.all fun o => o.resolved.isNone) = true := by decide +kernel
  intro o ho
  have := List.all_eq_true.1 this o ho
  simpa using this
example : (unitByNameOrSymbol Demo.env 5 c!"khour"
    (after Demo.env [.lookup 9 c!"nonsense", .lookup 1 c!"h", .unit 7 c!"degC/minute"] Demo.sys)).1.map Ref.str
      = .ok c!"k·hour" := by decide +kernel

/-! ## C06 -/

/-- two lazily defined units with the same alias `x` -/
def Demo.clash : System :=
  Demo.sys |> Demo.addLazy c!"m" ⟨some ⟨c!"a", none⟩, [], [⟨c!"x", none⟩], []⟩
           |> Demo.addLazy c!"s" ⟨some ⟨c!"b", none⟩, [], [⟨c!"x", none⟩], []⟩

/-- **C06** (refuted). Lookups are not pure queries: in a reachable system, looking one spelling up can
change what another spelling means.  (`x` means `b` until `a` is looked up, then it means `a`.) -/
theorem C06_lookups_pure_refuted :
    ¬ ∀ (s : System) (q n : Str) (limit : Nat), Reachable Demo.env s →
        ((unitByNameOrSymbol Demo.env limit n (unitByNameOrSymbol Demo.env limit q s).2).1.map Ref.str)
          = (unitByNameOrSymbol Demo.env limit n s).1.map Ref.str := by
  intro h
  have h1 := h Demo.clash c!"a" c!"x" 3
    (Demo.addLazy_reachable (Demo.addLazy_reachable Demo.sys_reachable _ _) _ _)
  exact absurd h1 (by decide +kernel)

/-- the two answers -/
example : (unitByNameOrSymbol Demo.env 3 c!"x" Demo.clash).1.map Ref.str = .ok c!"s" ∧
    (unitByNameOrSymbol Demo.env 3 c!"x" (unitByNameOrSymbol Demo.env 3 c!"a" Demo.clash).2).1.map Ref.str
      = .ok c!"m" := by
  constructor <;> decide +kernel

/-! ## C07 -/

/-- **C07.** Let the hash-dependent iteration order of identifier sets be any permutation whatsoever,
differently in two runs, with different histories.  If a lookup succeeds in one run then it succeeds in
the other (unless that one hits the recursion limit), and the two units are equal as Python values:
they differ at most in the insertion order of their reference dicts. -/
theorem C07_set_order_unobservable (parser : Str → Py Node) (o1 o2 : List Str → List Str)
    (ho1 : ∀ l, (o1 l).Perm l) (ho2 : ∀ l, (o2 l).Perm l)
    (s : System) (hp : Pristine s) (hc : ConflictFree s) (h1 h2 : List Query) (l1 l2 : Nat) (n : Str)
    (r1 : Ref) (hr1 : (unitByNameOrSymbol ⟨parser, o1⟩ l1 n (after ⟨parser, o1⟩ h1 s)).1 = .ok r1)
    (hr2 : (unitByNameOrSymbol ⟨parser, o2⟩ l2 n (after ⟨parser, o2⟩ h2 s)).1 ≠ .error .recursionError) :
    ∃ r2, (unitByNameOrSymbol ⟨parser, o2⟩ l2 n (after ⟨parser, o2⟩ h2 s)).1 = .ok r2 ∧ Same r1 r2 := by
  obtain ⟨d, hd⟩ := (C05_lookup_refines_fixed_registry _ s hp hc h1 l1 n).2 r1 hr1
  obtain ⟨r2, hd2, hs⟩ := spec_lookup_same (SysSame.refl s) (env1 := ⟨parser, o1⟩) (env2 := ⟨parser, o2⟩) rfl ho1 ho2 d n r1 hd
  refine ⟨r2, ?_, hs⟩
  have i0 := Inv.init ⟨parser, o2⟩ hp
  rw [← hd2]
  exact agree (fun _ _ h => Spec.lookup_mono _ s h n)
    (sim_lookup hc l2 n _ (inv_after hc h2 i0)).2.1 ⟨d, Le.refl _⟩ hr2 (by rw [hd2]; simp)

/-- **C07** for whole expressions. -/
theorem C07_unit_set_order_unobservable (parser : Str → Py Node) (o1 o2 : List Str → List Str)
    (ho1 : ∀ l, (o1 l).Perm l) (ho2 : ∀ l, (o2 l).Perm l)
    (s : System) (hp : Pristine s) (hc : ConflictFree s) (h1 h2 : List Query) (l1 l2 : Nat) (t : Str)
    (a : UObj) (ha : (System.unit ⟨parser, o1⟩ l1 t (after ⟨parser, o1⟩ h1 s)).1 = .ok a)
    (hb : (System.unit ⟨parser, o2⟩ l2 t (after ⟨parser, o2⟩ h2 s)).1 ≠ .error .recursionError) :
    ∃ b, (System.unit ⟨parser, o2⟩ l2 t (after ⟨parser, o2⟩ h2 s)).1 = .ok b ∧ SameObj a b := by
  obtain ⟨F, hF⟩ := (sim_unit hc l1 t _ (inv_after hc h1 (Inv.init ⟨parser, o1⟩ hp))).2.1
  rw [ha] at hF
  obtain ⟨b, hb2, hs⟩ := spec_unit_same (SysSame.refl s) (env1 := ⟨parser, o1⟩) (env2 := ⟨parser, o2⟩) rfl ho1 ho2 F t hF.ok
  refine ⟨b, ?_, hs⟩
  have i0 := Inv.init ⟨parser, o2⟩ hp
  rw [← hb2]
  exact agree (spec_unit_mono _ s t)
    (sim_unit hc l2 t _ (inv_after hc h2 i0)).2.1 ⟨F, Le.refl _⟩ hb (by rw [hb2]; simp)

/-- **C07**, consequences: every observation of the two units agrees — text, dimensionality, time-unit
test, expansion to the basis, symbolic definition. -/
theorem C07_observations_agree {a b : Ref} (h : Same a b) :
    a.str = b.str ∧ a.dims = b.dims ∧ a.isTimeUnit = b.isTimeUnit ∧ a.dimObj = b.dimObj ∧
    (∀ e, a.expand = .ok e ↔ b.expand = .ok e) ∧ (∀ d, a.symDef = .ok d ↔ b.symDef = .ok d) :=
  ⟨h.str, h.dims, h.isTimeUnit, h.dimObj, h.expand, h.symDef⟩

/-- Non-vacuity: reversing the order gives a different dict order but the same unit. -/
example : (unitByNameOrSymbol ⟨parse, id⟩ 5 c!"khour" Demo.sys).1.toOption.isSome ∧
    (∀ l : List Str, (l.reverse).Perm l) := ⟨by decide +kernel, fun l => List.reverse_perm l⟩

/-! ## C08 -/

/-- The definition of lazily defined unit `a` mentions a spelling that is read as lazily defined unit
`b`, directly or behind a prefix. -/
def DependsOn (env : Env) (s : System) (a b : Nat) : Prop :=
  ∃ o expr n, s.heap[a]? = some o ∧ env.parse o.defn = .ok expr ∧ n ∈ env.order expr.identifiers ∧
    (direct s n = some (.lazy b) ∨
     (direct s n = none ∧ ∃ p pre rest,
       FirstSplit s n (s.prefixNames ++ s.prefixSymbols) p pre rest (.lazy b)))

theorem resolve_acc (env : Env) (s : System) (d : Nat) : ∀ id r,
    Spec.resolve env s (Spec.lookup env s d) id = .ok r → Acc (fun b a => DependsOn env s a b) id := by
  induction d with
  | zero =>
    intro id r h
    refine Acc.intro _ ?_
    rintro b ⟨o, expr, n, ho, hp, hn, _⟩
    unfold Spec.resolve at h
    rw [ho] at h
    simp only at h
    rw [hp] at h
    cases hm : (env.order expr.identifiers).mapM
        (fun n => do .ok (n, ← Spec.lookup env s 0 n) : Str → Py (Str × Ref)) with
    | error e =>
      change (do
        let refs ← (env.order expr.identifiers).mapM (fun n => do .ok (n, ← Spec.lookup env s 0 n) : Str → Py (Str × Ref))
        mkUnit (some o.names) expr refs : Py Ref) = _ at h
      rw [hm] at h; cases h
    | ok l =>
      obtain ⟨r, hr, _⟩ := (mapM_refs_ok hm).2 n hn
      cases hr
  | succ d ih =>
    intro id r h
    refine Acc.intro _ ?_
    rintro b ⟨o, expr, n, ho, hp, hn, hread⟩
    unfold Spec.resolve at h
    rw [ho] at h
    simp only at h
    rw [hp] at h
    cases hm : (env.order expr.identifiers).mapM
        (fun n => do .ok (n, ← Spec.lookup env s (d + 1) n) : Str → Py (Str × Ref)) with
    | error e =>
      change (do
        let refs ← (env.order expr.identifiers).mapM (fun n => do .ok (n, ← Spec.lookup env s (d + 1) n) : Str → Py (Str × Ref))
        mkUnit (some o.names) expr refs : Py Ref) = _ at h
      rw [hm] at h; cases h
    | ok l =>
      obtain ⟨r', hr', _⟩ := (mapM_refs_ok hm).2 n hn
      change Spec.step env s _ n = _ at hr'
      unfold Spec.step at hr'
      rcases hread with hd | ⟨hd, p, pre, rest, hf⟩
      · rw [hd] at hr'
        exact ih b r' hr'
      · rw [hd, FirstSplit_unique hf] at hr'
        simp only at hr'
        cases hu : Spec.entry env s (Spec.lookup env s d) (.lazy b) with
        | error e => rw [hu] at hr'; cases hr'
        | ok u => exact ih b u hu

/-- **C08.** If looking up a spelling of a lazily defined unit succeeds — after any history, with any
recursion limit — then its definition is well founded: there is no infinite chain of definitions
starting from it, in particular no cycle through it. -/
theorem C08_success_implies_wellfounded (env : Env) (s : System) (hp : Pristine s) (hc : ConflictFree s)
    (h : List Query) (limit : Nat) (n : Str) (id : Nat) (r : Ref) (hd : direct s n = some (.lazy id))
    (hr : (unitByNameOrSymbol env limit n (after env h s)).1 = .ok r) :
    ¬ ∃ chain : Nat → Nat, chain 0 = id ∧ ∀ i, DependsOn env s (chain i) (chain (i + 1)) := by
  obtain ⟨d, hdep⟩ := (C05_lookup_refines_fixed_registry env s hp hc h limit n).2 r hr
  cases d with
  | zero => cases hdep
  | succ d =>
    change Spec.step env s _ n = _ at hdep
    unfold Spec.step at hdep
    rw [hd] at hdep
    have hacc := resolve_acc env s d id r hdep
    rintro ⟨chain, h0, hstep⟩
    have : ∀ x, Acc (fun b a => DependsOn env s a b) x → ∀ i, chain i = x → False := by
      intro x hx
      induction hx with
      | intro x _ ih =>
        intro i hi
        exact ih (chain (i + 1)) (by rw [← hi]; exact hstep i) (i + 1) rfl
    exact this id hacc 0 h0

/-- **C08**, the other direction: a unit whose definitions form a cycle fails for every recursion limit
and every history. -/
theorem C08_cyclic_definitions_fail (env : Env) (s : System) (hp : Pristine s) (hc : ConflictFree s)
    (h : List Query) (limit : Nat) (n : Str) (id : Nat) (hd : direct s n = some (.lazy id))
    (cycle : List Nat) (hne : cycle ≠ []) (hhead : cycle.head? = some id)
    (hstep : ∀ i a b, cycle[i]? = some a → cycle[(i + 1) % cycle.length]? = some b → DependsOn env s a b) :
    ∃ e, (unitByNameOrSymbol env limit n (after env h s)).1 = .error e := by
  cases hr : (unitByNameOrSymbol env limit n (after env h s)).1 with
  | error e => exact ⟨e, rfl⟩
  | ok r =>
    exfalso
    apply C08_success_implies_wellfounded env s hp hc h limit n id r hd hr
    have hlen : 0 < cycle.length := List.length_pos_iff.2 hne
    refine ⟨fun i => cycle[i % cycle.length]'(Nat.mod_lt _ hlen), ?_, ?_⟩
    · have : cycle[0]? = some id := by rw [← List.head?_eq_getElem?]; exact hhead
      have h2 := (List.getElem?_eq_some_iff.1 this).2
      simpa using h2
    · intro i
      refine hstep (i % cycle.length) _ _ ?_ ?_
      · exact List.getElem?_eq_getElem _
      · rw [Nat.mod_add_mod]
        exact List.getElem?_eq_getElem _

/-- a cyclic system: `p = 2 q`, `q = 3 kilop` -/
def Demo.cyclic : System :=
  Demo.sys |> Demo.addLazy c!"2 q" ⟨some ⟨c!"p", none⟩, [], [], []⟩
           |> Demo.addLazy c!"3 kilop" ⟨some ⟨c!"q", none⟩, [], [], []⟩

/-- Non-vacuity: the cycle `[3, 4]` of `Demo.cyclic` satisfies the hypotheses of
`C08_cyclic_definitions_fail`. -/
theorem Demo.cyclic_cycle : ∀ i a b, ([3, 4] : List Nat)[i]? = some a →
    ([3, 4] : List Nat)[(i + 1) % 2]? = some b → DependsOn Demo.env Demo.cyclic a b := by
  have h34 : DependsOn Demo.env Demo.cyclic 3 4 :=
    ⟨⟨c!"2 q", ⟨some ⟨c!"p", none⟩, [], [], []⟩, none⟩,
      .mul (.number (.int 2) (some c!"2")) (.ident c!"q"), c!"q", by decide +kernel, by decide +kernel,
      by decide +kernel, Or.inl (by decide +kernel)⟩
  have h43 : DependsOn Demo.env Demo.cyclic 4 3 :=
    ⟨⟨c!"3 kilop", ⟨some ⟨c!"q", none⟩, [], [], []⟩, none⟩,
      .mul (.number (.int 3) (some c!"3")) (.ident c!"kilop"), c!"kilop", by decide +kernel,
      by decide +kernel, by decide +kernel,
      Or.inr ⟨by decide +kernel, c!"kilo", Demo.kilo, c!"p",
        firstSplit_some (show firstSplit Demo.cyclic c!"kilop"
          (Demo.cyclic.prefixNames ++ Demo.cyclic.prefixSymbols) = some (c!"kilo", Demo.kilo, c!"p", .lazy 3)
          by decide +kernel)⟩⟩
  intro i a b ha hb
  match i with
  | 0 => simp at ha hb; subst ha; subst hb; exact h34
  | 1 => simp at ha hb; subst ha; subst hb; exact h43
  | i + 2 => simp at ha
example : ConflictFree Demo.cyclic := conflictFree_of_bool (by decide +kernel)
example : (unitByNameOrSymbol Demo.env 50 c!"p" Demo.cyclic).1.map Ref.str = .error .recursionError := by
  decide +kernel

end Verif

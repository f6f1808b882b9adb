import Verif.Spec.Understood
import Verif.Lemmas.Readings
import Verif.Props.Parser
/-!
# Which words the shipped database understands
-/

namespace Verif.Db
open Spec

/-- every way to split a prefixed unusable spelling leaves something unregistered or unusable -/
theorem unusable_splits : (pres.all fun a => unusable.all fun k => pres.all fun b =>
    match dropPrefix b.1 (a.1 ++ k) with
    | none => true
    | some rest => match tree.find (enc rest) with
      | none => true
      | some _ => deadB rest) = true := by decide +kernel

theorem unusable_claimed : (unusable.all fun k => (tree.find (enc k)).isSome && deadB k) = true := by decide +kernel

/-- a definition that cannot be resolved does not parse, or each of its words either has no reading or is fine -/
def deadDefOk (pf : Str → Py Node) (t : Tree Entry) (ps : List (Str × Prefix)) (rs : List Nat) (defn : Str) : Bool :=
  match pf defn with
  | .error _ => true
  | .ok expr => (expr.identifiers.all fun n => (readsB t ps n).isNone || identOk t ps rs 7 n) &&
      expr.identifiers.any fun n => (readsB t ps n).isNone

/-- all definitions of rank 0 -/
def deadDefsOk (pf : Str → Py Node) (t : Tree Entry) (ps : List (Str × Prefix)) (rs : List Nat) : Nat → List LazyObj → Bool
  | _, [] => true
  | i, o :: l => (rankOf rs i != 0 || deadDefOk pf t ps rs o.defn) && deadDefsOk pf t ps rs (i + 1) l

theorem dead_definitions : deadDefsOk parse tree pres ranks 0 (lazyObjs decls) = true := by decide +kernel

theorem deadDefsOk_get {pf : Str → Py Node} {t : Tree Entry} {ps : List (Str × Prefix)} {rs : List Nat} : ∀ (l : List LazyObj) (k : Nat),
    deadDefsOk pf t ps rs k l = true → ∀ (i : Nat) (o : LazyObj), l[i]? = some o → rankOf rs (k + i) = 0 → deadDefOk pf t ps rs o.defn = true
  | [], _, _, i, o, h, _ => by simp at h
  | o' :: l, k, h, i, o, ho, h0 => by
    rw [deadDefsOk, Bool.and_eq_true] at h
    cases i with
    | zero =>
      simp at ho; subst ho
      have h1 := h.1
      rw [Nat.add_zero] at h0
      rw [h0] at h1
      exact h1
    | succ i =>
      exact deadDefsOk_get l (k + 1) h.2 i o (by simpa using ho) (by rw [show k + 1 + i = k + (i + 1) by omega]; exact h0)

theorem mem_direct {s0 : System} (ht : ∀ n, tree.find (enc n) = direct s0 n) {n : Str} {e : Entry} (h : direct s0 n = some e) :
    (n, e) ∈ allClaims (withEntries 0 decls) := by
  rw [← ht, show Db.tree = .ofList (allClaims (withEntries 0 Db.decls)) .leaf from rfl, Tree.find_ofList] at h
  refine Dict.get_mem ?_
  cases hg : Dict.get n (allClaims (withEntries 0 decls)) with
  | none => rw [hg] at h; cases h
  | some x => rw [hg] at h; exact h

theorem direct_iff {s0 : System} (ht : ∀ n, tree.find (enc n) = direct s0 n) (n : Str) :
    (∃ e, direct s0 n = some e) ↔ Claimed n := by
  constructor
  · rintro ⟨e, he⟩
    exact claimed_of_mem (mem_direct ht he)
  · intro h
    obtain ⟨e, he⟩ := claimed_mem h
    rw [← ht, show Db.tree = .ofList (allClaims (withEntries 0 Db.decls)) .leaf from rfl, Tree.find_ofList]
    have : (Dict.get n (allClaims (withEntries 0 Db.decls))).isSome := by
      rw [Dict.get_isSome_iff]; exact List.mem_map.2 ⟨_, he, rfl⟩
    obtain ⟨e', he'⟩ := Option.isSome_iff_exists.1 this
    exact ⟨e', by rw [he']; rfl⟩

theorem dead_direct {s0 : System} (ht : ∀ n, tree.find (enc n) = direct s0 n) {n : Str} {e : Entry} (h : direct s0 n = some e) :
    n ∈ unusable ↔ ∃ i, e = .lazy i ∧ rankOf ranks i = 0 := by
  rw [← dead_iff (mem_direct ht h)]
  unfold deadB
  rw [ht, h]
  cases e with
  | unit r => simp
  | lazy i => simp

theorem unusable_is_claimed {n : Str} (h : n ∈ unusable) : Claimed n := by
  have h1 := List.all_eq_true.1 unusable_claimed n h
  rw [Bool.and_eq_true] at h1
  obtain ⟨e, he⟩ := Option.isSome_iff_exists.1 h1.1
  rw [show Db.tree = .ofList (allClaims (withEntries 0 Db.decls)) .leaf from rfl, Tree.find_ofList] at he
  cases hg : Dict.get n (allClaims (withEntries 0 decls)) with
  | none => rw [hg] at he; cases he
  | some x => exact claimed_of_mem (Dict.get_mem hg)

theorem mem_pres {p : Str} {pre : Prefix} (h : (p, pre) ∈ pres) : ∃ v, (p, v) ∈ prefixTable := by
  have h1 : (p, preRat pre) ∈ pres.map fun x => (x.1, preRat x.2) := List.mem_map.2 ⟨_, h, rfl⟩
  rw [pres_table] at h1
  obtain ⟨x, h2, h3⟩ := List.mem_map.1 h1
  obtain ⟨q, v⟩ := x
  cases h3' : (Prod.mk.inj h3).1
  exact ⟨v, h2⟩

theorem split_unusable {p q k rest : Str} {v w : Rat} (hp : (p, v) ∈ prefixTable) (hk : k ∈ unusable)
    (hq : (q, w) ∈ prefixTable) (e : p ++ k = q ++ rest) (hr : Claimed rest) : rest ∈ unusable := by
  obtain ⟨_, pre, h1, _⟩ := prefix_mem hp
  obtain ⟨_, pre', h2, _⟩ := prefix_mem hq
  have h := List.all_eq_true.1 (List.all_eq_true.1 (List.all_eq_true.1 unusable_splits _ h1) _ hk) _ h2
  simp only at h
  rw [dropPrefix_eq_some.2 e] at h
  simp only at h
  obtain ⟨x, hx⟩ := claimed_mem hr
  obtain ⟨s0, _, ht, _⟩ := base
  obtain ⟨e', he'⟩ := (direct_iff ht rest).2 hr
  rw [ht, he'] at h
  exact (dead_iff hx).1 h

theorem hopeless_not_understood {n : Str} (h : Hopeless n) : ¬ Understood n := by
  rintro (⟨h1, h2⟩ | ⟨h1, p, v, k, hp, e, hk, hu⟩)
  · rcases h with h | ⟨h, _⟩
    · exact h2 h
    · exact h h1
  · rcases h with h | ⟨_, q, w, k', hq, e', hk'⟩
    · exact h1 (unusable_is_claimed h)
    · exact hu (split_unusable hq hk' hp (e'.symm.trans e) hk)

theorem reads_cases {s0 : System} (ht : ∀ n, tree.find (enc n) = direct s0 n) (hpp : s0.prefixNames ++ s0.prefixSymbols = pres) (n : Str) :
    (Understood n → ∃ e, Spec.Reads s0 n e ∧ ∀ b, e = .lazy b → rankOf ranks b ≠ 0) ∧
    (Hopeless n → ∃ i, Spec.Reads s0 n (.lazy i) ∧ rankOf ranks i = 0 ∧ i < (lazyObjs decls).length) ∧
    (¬ Understood n → ¬ Hopeless n → ∀ e, ¬ Spec.Reads s0 n e) := by
  -- a split, if there is one
  have first : ∀ p v k, ¬ Claimed n → (p, v) ∈ prefixTable → n = p ++ k → Claimed k →
      ∃ q pre rest e, FirstSplit s0 n (s0.prefixNames ++ s0.prefixSymbols) q pre rest e ∧ (∃ w, (q, w) ∈ prefixTable) ∧
        n = q ++ rest ∧ Claimed rest ∧ direct s0 rest = some e := by
    intro p v k hc hp e hk
    obtain ⟨_, pre, h1, _⟩ := prefix_mem hp
    obtain ⟨e', he'⟩ := (direct_iff ht k).2 hk
    cases hf : firstSplit s0 n (s0.prefixNames ++ s0.prefixSymbols) with
    | none =>
      have := firstSplit_none.1 hf (p, pre) (by rw [hpp]; exact h1) k e
      rw [this] at he'; cases he'
    | some x =>
      obtain ⟨q, pre', rest, e''⟩ := x
      have hfs := firstSplit_some hf
      obtain ⟨g1, g2, b, a, g3, g4⟩ := hfs
      refine ⟨q, pre', rest, e'', ⟨g1, g2, b, a, g3, g4⟩, mem_pres (pre := pre') ?_, g1, (direct_iff ht rest).1 ⟨_, g2⟩, g2⟩
      rw [← hpp, g3]; simp
  refine ⟨?_, ?_, ?_⟩
  · rintro (⟨h1, h2⟩ | ⟨h1, p, v, k, hp, e, hk, hu⟩)
    · obtain ⟨e, he⟩ := (direct_iff ht n).2 h1
      refine ⟨e, .inl he, ?_⟩
      rintro b rfl h0
      exact h2 ((dead_direct ht he).2 ⟨b, rfl, h0⟩)
    · obtain ⟨q, pre, rest, e', hf, ⟨w, hw⟩, e2, hc, hd⟩ := first p v k h1 hp e hk
      have hd0 : direct s0 n = none := by
        cases hx : direct s0 n with
        | none => rfl
        | some x => exact absurd ((direct_iff ht n).1 ⟨x, hx⟩) h1
      refine ⟨e', .inr ⟨hd0, q, pre, rest, hf⟩, ?_⟩
      rintro b rfl h0
      have hru : rest ∈ unusable := (dead_direct ht hd).2 ⟨b, rfl, h0⟩
      exact hu (split_unusable hw hru hp (e2.symm.trans e) hk)
  · rintro (h | ⟨h1, p, v, k, hp, e, hk⟩)
    · obtain ⟨e, he⟩ := (direct_iff ht n).2 (unusable_is_claimed h)
      obtain ⟨i, rfl, h0⟩ := (dead_direct ht he).1 h
      exact ⟨i, .inl he, h0, claims_heap (by rw [ht]; exact he)⟩
    · obtain ⟨q, pre, rest, e', hf, ⟨w, hw⟩, e2, hc, hd⟩ := first p v k h1 hp e (unusable_is_claimed hk)
      have hru := split_unusable hp hk hw (e.symm.trans e2) hc
      obtain ⟨i, rfl, h0⟩ := (dead_direct ht hd).1 hru
      have hd0 : direct s0 n = none := by
        cases hx : direct s0 n with
        | none => rfl
        | some x => exact absurd ((direct_iff ht n).1 ⟨x, hx⟩) h1
      exact ⟨i, .inr ⟨hd0, q, pre, rest, hf⟩, h0, claims_heap (by rw [ht]; exact hd)⟩
  · intro h1 h2 e hr
    rcases hr with hr | ⟨hd, p, pre, rest, hf⟩
    · have hc := (direct_iff ht n).1 ⟨e, hr⟩
      by_cases hu : n ∈ unusable
      · exact h2 (.inl hu)
      · exact h1 (.inl ⟨hc, hu⟩)
    · have hnc : ¬ Claimed n := by
        intro hc
        obtain ⟨x, hx⟩ := (direct_iff ht n).2 hc
        rw [hx] at hd; cases hd
      obtain ⟨g1, g2, b, a, g3, g4⟩ := hf
      obtain ⟨v, hv⟩ := mem_pres (p := p) (pre := pre) (by rw [← hpp, g3]; simp)
      have hc := (direct_iff ht rest).1 ⟨_, g2⟩
      by_cases hu : rest ∈ unusable
      · exact h2 (.inr ⟨hnc, p, v, rest, hv, g1, hu⟩)
      · exact h1 (.inr ⟨hnc, p, v, rest, hv, g1, hc, hu⟩)

theorem reads_same {s1 s2 : System} (h : SysSame s1 s2) {n : Str} {e : Entry} (hr : Spec.Reads s1 n e) : Spec.Reads s2 n e := by
  rcases hr with hr | ⟨hd, p, pre, rest, hf⟩
  · exact .inl (by rw [← h.direct]; exact hr)
  · refine .inr ⟨by rw [← h.direct]; exact hd, ?_⟩
    have h1 := FirstSplit_unique hf
    rcases h.split n with ⟨a, _⟩ | ⟨p', pre1, pre2, rest', e', a, b, _⟩
    · rw [h1] at a; cases a
    · rw [h1] at a
      cases a
      exact ⟨_, _, _, firstSplit_some b⟩

/-- what a lookup does with a word, by its reading -/
theorem lookup_of_reads (env : Env) (s : System) (d : Nat) {n : Str} {e : Entry} (hr : Spec.Reads s n e) {x : PyErr}
    (hx : Spec.entry env s (Spec.lookup env s d) e = .error x) : Spec.lookup env s (d + 1) n = .error x := by
  show Spec.step env s _ n = _
  unfold Spec.step
  rcases hr with hr | ⟨hr, p, pre, rest, hf⟩
  · rw [hr]; exact hx
  · rw [hr, FirstSplit_unique hf]
    simp only [bind, Except.bind, hx]

theorem lookup_of_unread (env : Env) (s : System) (d : Nat) {n : Str} (hr : ∀ e, ¬ Spec.Reads s n e) :
    Spec.lookup env s (d + 1) n = .error (.unresolvable n) := by
  show Spec.step env s _ n = _
  unfold Spec.step
  cases hd : direct s n with
  | some e => exact absurd (.inl hd) (hr e)
  | none =>
    cases hf : firstSplit s n (s.prefixNames ++ s.prefixSymbols) with
    | none => rfl
    | some x =>
      obtain ⟨p, pre, rest, e⟩ := x
      exact absurd (.inr ⟨hd, p, pre, rest, firstSplit_some hf⟩) (hr e)

/-- looking up a list of words, some of which fail -/
theorem mapM_refs_fail {look : Str → Py Ref} {P : PyErr → Prop} : ∀ (ids : List Str),
    (∀ k ∈ ids, (∃ r, look k = .ok r) ∨ ∃ e, look k = .error e ∧ P e) → (∃ k ∈ ids, ∃ e, look k = .error e) →
    ∃ e, ids.mapM (fun n => do .ok (n, ← look n) : Str → Py (Str × Ref)) = .error e ∧ P e ∧ ∃ k ∈ ids, look k = .error e
  | [], _, ⟨k, hk, _⟩ => by cases hk
  | n :: ids, h, hex => by
    rw [List.mapM_cons]
    simp only [bind, Except.bind]
    rcases h n (List.mem_cons_self ..) with ⟨r, hr⟩ | ⟨e, he, hP⟩
    · obtain ⟨e, h1, h2, k, h3, h4⟩ := mapM_refs_fail ids (fun k hk => h k (List.mem_cons_of_mem _ hk)) (by
        obtain ⟨k, hk, e, he⟩ := hex
        rcases List.mem_cons.1 hk with rfl | hk
        · rw [hr] at he; cases he
        · exact ⟨k, hk, e, he⟩)
      simp only [bind, Except.bind] at h1
      refine ⟨e, ?_, h2, k, List.mem_cons_of_mem _ h3, h4⟩
      rw [hr]
      simp only [h1]
    · refine ⟨e, ?_, hP, n, List.mem_cons_self .., he⟩
      rw [he]

theorem loaded {strict : Bool} {q : List Str → List Str} (hq : ∀ l, (q l).Perm l) {s : System}
    (hs : parseSystem strict q Db.unitSystem = .ok s) :
    ∃ s0, SysSame s0 s ∧ (∀ n, tree.find (enc n) = direct s0 n) ∧ s0.prefixNames ++ s0.prefixSymbols = pres ∧
      s0.heap = lazyObjs decls ∧ Pristine s ∧ ConflictFree s := by
  obtain ⟨s0, hl, ht, hp, hh, hpr, hcf⟩ := Db.base
  obtain ⟨s', hs', hpr', hcf', _⟩ := C38_shipped_database_loads strict q hq
  rw [hs] at hs'
  have e0 := Except.ok.inj hs'
  subst e0
  rcases system_order strict id q (fun _ => .refl _) hq Db.unitSystem Db.free with ⟨e, e2, _⟩ | ⟨s0', s', e2, e3, hsame⟩
  · rw [hl] at e2; cases e2
  rw [hl] at e2
  have e2' := Except.ok.inj e2
  subst e2'
  rw [hs] at e3
  have e3' := Except.ok.inj e3
  subst e3'
  exact ⟨s0, hsame.sysSame, ht, hp, hh, hpr', hcf'⟩

theorem word_lookup {pf : Str → Py Node} (hpf : pf = parse) {o q : List Str → List Str} (ho : ∀ l, (o l).Perm l)
    (hq : ∀ l, (q l).Perm l) {strict : Bool} {s : System} (hs : parseSystem strict q Db.unitSystem = .ok s) (n : Str) :
    (Understood n → ∃ r, Spec.lookup ⟨pf, o⟩ s 9 n = .ok r) ∧
    (¬ Understood n → ¬ Hopeless n → Spec.lookup ⟨pf, o⟩ s 9 n = .error (.unresolvable n)) ∧
    (Hopeless n → ∃ x, Spec.lookup ⟨pf, o⟩ s 9 n = .error x ∧ WordError x) := by
  obtain ⟨s0, hsame, ht, hpp, hh, _, _⟩ := loaded hq hs
  obtain ⟨hw, _⟩ := Db.wellFounded hpf ht hpp hh
  obtain ⟨c1, c2, c3⟩ := reads_cases ht hpp n
  have okAt : ∀ (d : Nat) (m : Str) (e : Entry), Spec.Reads s0 m e → (∀ b, e = .lazy b → rankOf ranks b ≠ 0 ∧ rankOf ranks b < d) →
      ∃ r, Spec.lookup ⟨pf, o⟩ s (d + 1) m = .ok r := by
    intro d m e hr hg
    obtain ⟨r, hr⟩ := spec_lookup_resolves (env := ⟨pf, id⟩) (fun _ => .refl _) hw m e hr d hg
    obtain ⟨r2, hr2, _⟩ := spec_lookup_same (env1 := ⟨pf, id⟩) (env2 := ⟨pf, o⟩) hsame rfl (fun _ => .refl _) ho (d + 1) m r hr
    exact ⟨r2, hr2⟩
  have errAt : ∀ (d : Nat) (m : Str), (∀ e, ¬ Spec.Reads s0 m e) → Spec.lookup ⟨pf, o⟩ s (d + 1) m = .error (.unresolvable m) := by
    intro d m hm
    exact lookup_of_unread _ s d (fun e he => hm e (reads_same hsame.symm he))
  refine ⟨?_, ?_, ?_⟩
  · intro hu
    obtain ⟨e, he, hg⟩ := c1 hu
    refine okAt 8 n e he (fun b hb => ⟨hg b hb, ?_⟩)
    have := rank_le b; omega
  · intro h1 h2
    exact errAt 8 n (c3 h1 h2)
  · intro hd
    obtain ⟨i, hr, h0, hi⟩ := c2 hd
    obtain ⟨ob, hob⟩ : ∃ ob, (lazyObjs decls)[i]? = some ob := ⟨_, List.getElem?_eq_getElem hi⟩
    have hdd := deadDefsOk_get _ 0 dead_definitions i ob hob (by rw [Nat.zero_add]; exact h0)
    have hob' : s.heap[i]? = some ob := by rw [← hsame.heap, hh]; exact hob
    have key : ∃ x, Spec.resolve ⟨pf, o⟩ s (Spec.lookup ⟨pf, o⟩ s 8) i = .error x ∧ WordError x := by
      unfold deadDefOk at hdd
      rw [← hpf] at hdd
      cases hp : pf ob.defn with
      | error x =>
        have hx : x = .syntaxError := C30_only_syntax_errors ob.defn x (by rw [← hpf]; exact hp)
        refine ⟨x, ?_, .inl hx⟩
        unfold Spec.resolve
        rw [hob']
        simp only [bind, Except.bind, hp]
      | ok expr =>
        rw [hp] at hdd
        simp only [Bool.and_eq_true, List.all_eq_true, List.any_eq_true, Bool.or_eq_true] at hdd
        rw [spec_resolve_eq ⟨pf, o⟩ s _ hob' hp]
        have none_err : ∀ k, (readsB tree pres k).isNone = true →
            Spec.lookup ⟨pf, o⟩ s 8 k = .error (.unresolvable k) ∧ ¬ Understood k := by
          intro k hk
          have hk' : readsB tree (s0.prefixNames ++ s0.prefixSymbols) k = none := by
            rw [hpp]; exact Option.isNone_iff_eq_none.1 hk
          refine ⟨errAt 7 k (readsB_none ht hk'), fun hu => ?_⟩
          obtain ⟨e, he, _⟩ := (reads_cases ht hpp k).1 hu
          exact readsB_none ht hk' e he
        obtain ⟨x, h1, h2, _⟩ := mapM_refs_fail (look := Spec.lookup ⟨pf, o⟩ s 8) (P := WordError) (o expr.identifiers) (by
            intro k hk
            rcases hdd.1 k ((ho _).subset hk) with h | h
            · obtain ⟨a, b⟩ := none_err k h
              exact .inr ⟨_, a, .inr ⟨k, rfl, b⟩⟩
            · left
              unfold identOk at h
              cases hrd : readsB tree pres k with
              | none => rw [hrd] at h; cases h
              | some e =>
                refine okAt 7 k e (readsB_some ht (by rw [hpp]; exact hrd)) ?_
                rintro b rfl
                rw [hrd] at h
                simp only at h
                cases hb : ranks[b]? with
                | none => rw [hb] at h; cases h
                | some rb =>
                  rw [hb] at h
                  simp only [Option.any_some, Bool.and_eq_true, decide_eq_true_eq] at h
                  have e1 : rankOf ranks b = rb := by unfold rankOf; rw [hb]; rfl
                  rw [e1]
                  exact ⟨by omega, h.2⟩) (by
            obtain ⟨k, hk, hn⟩ := hdd.2
            exact ⟨k, (ho _).symm.subset hk, _, (none_err k hn).1⟩)
        refine ⟨x, ?_, h2⟩
        simp only [bind, Except.bind] at h1 ⊢
        rw [h1]
    obtain ⟨x, hx, hP⟩ := key
    exact ⟨x, lookup_of_reads _ s 8 (reads_same hsame hr) hx, hP⟩

end Verif.Db

import Verif.Lemmas.Registry
/-!
# Which exceptions can come from where
-/

namespace Verif

/-- Not one of the exceptions raised by the unit system, the parser or the interpreter's stack limit. -/
def PyErr.core : PyErr → Prop
  | .unresolvable _ | .alreadyRegistered _ | .recursionError | .syntaxError => False
  | _ => True

/-- only core exceptions -/
def Clean {α} (p : Py α) : Prop := ∀ e, p = .error e → e.core

theorem Clean.ok {α} (x : α) : Clean (.ok x : Py α) := by intro e h; cases h
theorem Clean.err {α} {e : PyErr} (h : e.core) : Clean (.error e : Py α) := by
  intro e' h'; cases h'; exact h
theorem Clean.bind {α β} {p : Py α} {f : α → Py β} (h : Clean p) (hf : ∀ x, Clean (f x)) :
    Clean (p >>= f) := by
  cases p with
  | error e => intro e' h'; cases h'; exact h e rfl
  | ok x => exact hf x

theorem clean_split (n : Node) : ∀ root, Clean (n.split root) := by
  induction n with
  | number v r => intro _; exact Clean.ok _
  | ident n => intro _; exact Clean.ok _
  | unhandled r => intro _; exact Clean.ok _
  | mul l r hl hr =>
    intro _
    refine Clean.bind (hl false) fun q => Clean.bind (hr false) fun q' => ?_
    obtain ⟨t1, d1⟩ := q; obtain ⟨t2, d2⟩ := q'
    cases t1 <;> cases t2 <;> first | exact Clean.ok _ | exact Clean.err trivial
  | div l r hl hr =>
    intro _
    refine Clean.bind (hl false) fun q => Clean.bind (hr false) fun q' => ?_
    obtain ⟨t1, d1⟩ := q; obtain ⟨t2, d2⟩ := q'
    cases t1 <;> cases t2 <;> first | exact Clean.ok _ | exact Clean.err trivial
  | raise l r hl hr =>
    intro _
    refine Clean.bind (hl false) fun q => Clean.bind (hr false) fun q' => ?_
    obtain ⟨t1, d1⟩ := q; obtain ⟨t2, d2⟩ := q'
    dsimp only
    split
    · exact Clean.err trivial
    · exact Clean.ok _
  | shift u f hu hf =>
    intro root
    refine Clean.bind (hu false) fun q => ?_
    obtain ⟨t1, d1⟩ := q
    dsimp only
    split <;> exact Clean.ok _
  | log fn t ht =>
    intro _
    exact Clean.bind (ht false) fun q => Clean.ok _

theorem clean_add (a b : PyVal) : Clean (PyVal.add a b) := by
  cases a <;> cases b <;> first | exact Clean.ok _ | exact Clean.err trivial
theorem clean_sub (a b : PyVal) : Clean (PyVal.sub a b) := by
  cases a <;> cases b <;> first | exact Clean.ok _ | exact Clean.err trivial
theorem clean_mul (a b : PyVal) : Clean (PyVal.mul a b) := by
  cases a <;> cases b <;> first | exact Clean.ok _ | exact Clean.err trivial
theorem clean_asPyVal (n : Num) : Clean n.asPyVal := by
  cases n <;> first | exact Clean.ok _ | exact Clean.err trivial

theorem clean_dimMerge {op : PyVal → PyVal → Py PyVal} (h : ∀ a b, Clean (op a b))
    (items : List (Str × PyVal)) : ∀ scope, Clean (dimMerge op items scope) := by
  induction items with
  | nil => intro _; exact Clean.ok _
  | cons q items ih =>
    obtain ⟨u, o⟩ := q
    intro scope
    exact Clean.bind (h _ _) fun v => ih _

theorem clean_dimScale (n : Num) (scope : Dict Str PyVal) : Clean (dimScale n scope) := by
  induction scope with
  | nil => exact Clean.ok _
  | cons q scope ih =>
    obtain ⟨u, o⟩ := q
    exact Clean.bind (clean_asPyVal n) fun k => Clean.bind (clean_mul _ _) fun v =>
      Clean.bind ih fun r => Clean.ok _

theorem clean_dimCount (n : Node) : Clean n.dimCount := by
  induction n with
  | number v r => exact Clean.ok _
  | ident n => exact Clean.ok _
  | unhandled r => exact Clean.err trivial
  | mul l r hl hr => exact Clean.bind hl fun _ => Clean.bind hr fun _ => clean_dimMerge clean_add _ _
  | div l r hl hr => exact Clean.bind hl fun _ => Clean.bind hr fun _ => clean_dimMerge clean_sub _ _
  | raise l r hl hr =>
    cases r with
    | number n _ => exact Clean.bind hl fun _ => clean_dimScale _ _
    | _ => exact Clean.err trivial
  | shift u f hu hf => exact hu
  | log fn t ht => exact ht

theorem clean_dimsAddAll (order : PyVal) (l : List (Basis × Int)) :
    ∀ r, Clean (dimsAddAll order l r) := by
  induction l with
  | nil => intro _; exact Clean.ok _
  | cons q l ih =>
    obtain ⟨b, k⟩ := q
    intro r
    refine Clean.bind (clean_mul _ _) fun p => Clean.bind (clean_add _ _) fun v => ?_
    cases v with
    | int i => exact ih _
    | str s => exact Clean.err trivial

theorem clean_dimsLoop {look : Str → Option (Py (Option Dims))}
    (h : ∀ n p, look n = some p → Clean p) (items : List (Str × PyVal)) :
    ∀ r, Clean (dimsLoop look items r) := by
  induction items with
  | nil => intro _; exact Clean.ok _
  | cons q items ih =>
    obtain ⟨n, o⟩ := q
    intro r
    simp only [dimsLoop]
    cases hl : look n with
    | none => exact Clean.err trivial
    | some p =>
      refine Clean.bind (h n p hl) fun x => ?_
      cases x with
      | none => exact ih r
      | some ud => exact Clean.bind (clean_dimsAddAll _ _ _) fun r' => ih r'

theorem clean_unitDims {look : Str → Option (Py (Option Dims))}
    (h : ∀ n p, look n = some p → Clean p) (d : Node) : Clean (unitDims look d) :=
  Clean.bind (clean_split d true) fun _ => Clean.bind (clean_dimCount _) fun _ =>
    Clean.bind (clean_dimsLoop h _ _) fun _ => Clean.ok _

mutual
theorem clean_dims? (r : Ref) : Clean r.dims? := by
  cases r with
  | basis b => rw [Ref.dims?]; exact Clean.ok _
  | pre p => rw [Ref.dims?]; exact Clean.ok _
  | unit names defn refs =>
    rw [Ref.dims?]
    refine Clean.bind (clean_unitDims ?_ defn) fun _ => Clean.ok _
    intro n p hp
    exact clean_dimsList refs n p (Dict.get_mem hp)
theorem clean_dimsList (l : List (Str × Ref)) : ∀ n p, (n, p) ∈ Ref.dimsList l → Clean p := by
  cases l with
  | nil => intro n p h; rw [Ref.dimsList] at h; cases h
  | cons q l =>
    obtain ⟨m, r⟩ := q
    intro n p h
    rw [Ref.dimsList] at h
    rcases List.mem_cons.1 h with h | h
    · cases h; exact clean_dims? r
    · exact clean_dimsList l n p h
end

theorem clean_defnDims (refs : List (Str × Ref)) (n : Node) : Clean (defnDims refs n) :=
  clean_unitDims (fun n p hp => clean_dimsList refs n p (Dict.get_mem hp)) n

theorem clean_dims (r : Ref) : Clean r.dims := by
  refine Clean.bind (clean_dims? r) fun x => ?_
  cases x <;> first | exact Clean.ok _ | exact Clean.err trivial

theorem clean_isTimeUnit (r : Ref) : Clean r.isTimeUnit := by
  cases r with
  | basis b => exact Clean.ok _
  | pre p => exact Clean.err trivial
  | unit n d refs => exact Clean.bind (clean_dims _) fun _ => Clean.ok _

theorem clean_normalise (refs : List (Str × Ref)) (n : Node) : Clean (normalise refs n) := by
  induction n with
  | number v r => exact Clean.ok _
  | ident n => exact Clean.ok _
  | unhandled r => exact Clean.err trivial
  | mul l r hl hr => exact Clean.bind hl fun _ => Clean.bind hr fun _ => Clean.ok _
  | div l r hl hr => exact Clean.bind hl fun _ => Clean.bind hr fun _ => Clean.ok _
  | raise l r hl hr => exact Clean.bind hl fun _ => Clean.bind hr fun _ => Clean.ok _
  | log fn t ht => exact Clean.bind ht fun _ => Clean.ok _
  | shift u f hu hf =>
    refine Clean.bind hu fun nu => Clean.bind (clean_defnDims _ _) fun d => ?_
    split
    · exact Clean.err trivial
    · split
      · exact Clean.ok _
      · exact Clean.err trivial

theorem clean_mkUnit (names : Option UnitReference) (d : Node) (refs : List (Str × Ref)) :
    Clean (mkUnit names d refs) :=
  Clean.bind (Clean.bind (clean_normalise refs d) fun _ => Clean.ok _) fun _ => Clean.ok _

theorem clean_prefixed (p : Str) (pre : Prefix) (rest : Str) (u : Ref) : Clean (prefixed p pre rest u) :=
  clean_mkUnit _ _ _

theorem clean_mkDate (u : Ref) (r : Option Str) : Clean (mkDate u r) := by
  refine Clean.bind (clean_isTimeUnit u) fun b => ?_
  cases b <;> first | exact Clean.ok _ | exact Clean.err trivial

theorem clean_unitFromExpr (e : Node) (refs : List (Str × Ref)) : Clean (unitFromExpr e refs) := by
  have h : ∀ n, Clean (do let r ← mkUnit none n refs; .ok (UObj.unit r) : Py UObj) := fun n =>
    Clean.bind (clean_mkUnit _ _ _) fun _ => Clean.ok _
  cases e with
  | shift u f =>
    refine Clean.bind (clean_mkUnit _ _ _) fun su => Clean.bind (clean_isTimeUnit su) fun b => ?_
    cases b with
    | false => exact h _
    | true =>
      cases f <;> first | exact clean_mkDate _ _ | exact Clean.err trivial
  | _ => exact h _

/-! ## Prefix loops and lookups, in any state -/

theorem prefixLoop_eq (env : Env) (look : Str → SysM Ref) (n : Str) (l : List (Str × Prefix)) (s : System) :
    prefixLoop env look n l s =
      match Spec.firstSplit s n l with
      | none => (.ok none, s)
      | some (p, pre, rest, e) =>
        match fetch env look (some e) s with
        | (.error err, s1) => (.error err, s1)
        | (.ok none, s1) => (.ok none, s1)
        | (.ok (some u), s1) =>
          match prefixed p pre rest u with
          | .error err => (.error err, s1)
          | .ok r => (.ok (some r), s1) := by
  induction l with
  | nil => rfl
  | cons q l ih =>
    obtain ⟨p, pre⟩ := q
    simp only [prefixLoop, Spec.firstSplit]
    cases hd : dropPrefix p n with
    | none => simpa using ih
    | some rest =>
      simp only
      rw [byNameOrSymbol_eq]
      cases hr : Spec.direct s rest with
      | none => simpa [fetch] using ih
      | some e =>
        simp only
        have hne := fun S' => fetch_some_ne_none (env := env) (look := look) (en := e) (S := s) (S' := S')
        generalize fetch env look (some e) s = q at hne ⊢
        obtain ⟨r, s1⟩ := q
        cases r with
        | error err => rfl
        | ok o =>
          cases o with
          | none => exact absurd rfl (hne s1)
          | some u => rfl

/-- One level of lookup, in any state whatever. -/
theorem lookupStep_eq (env : Env) (look : Str → SysM Ref) (n : Str) (s : System) :
    lookupStep env look n s =
      match Spec.direct s n with
      | some e =>
        match fetch env look (some e) s with
        | (.error err, s1) => (.error err, s1)
        | (.ok none, s1) => (.error .unmodelled, s1)   -- impossible
        | (.ok (some u), s1) => (.ok u, s1)
      | none =>
        match Spec.firstSplit s n (s.prefixNames ++ s.prefixSymbols) with
        | none => (.error (.unresolvable n), s)
        | some (p, pre, rest, e) =>
          match fetch env look (some e) s with
          | (.error err, s1) => (.error err, s1)
          | (.ok none, s1) => (.error .unmodelled, s1)   -- impossible
          | (.ok (some u), s1) => (prefixed p pre rest u, s1) := by
  simp only [lookupStep]
  rw [byNameOrSymbol_eq]
  cases hd : Spec.direct s n with
  | some e =>
    simp only
    have hne := fun S' => fetch_some_ne_none (env := env) (look := look) (en := e) (S := s) (S' := S')
    generalize fetch env look (some e) s = q at hne ⊢
    obtain ⟨r, s1⟩ := q
    cases r with
    | error err => rfl
    | ok o =>
      cases o with
      | none => exact absurd rfl (hne s1)
      | some u => rfl
  | none =>
    rw [show fetch env look none s = (.ok none, s) from rfl]
    simp only
    rw [prefixLoop_eq, firstSplit_append]
    cases h1 : Spec.firstSplit s n s.prefixNames with
    | some q =>
      obtain ⟨p, pre, rest, e⟩ := q
      simp only
      have hne := fun S' => fetch_some_ne_none (env := env) (look := look) (en := e) (S := s) (S' := S')
      generalize fetch env look (some e) s = q at hne ⊢
      obtain ⟨r, s1⟩ := q
      cases r with
      | error err => rfl
      | ok o =>
        cases o with
        | none => exact absurd rfl (hne s1)
        | some u =>
          simp only
          cases prefixed p pre rest u <;> rfl
    | none =>
      simp only
      rw [prefixLoop_eq]
      cases h2 : Spec.firstSplit s n s.prefixSymbols with
      | none => rfl
      | some q =>
        obtain ⟨p, pre, rest, e⟩ := q
        simp only
        have hne := fun S' => fetch_some_ne_none (env := env) (look := look) (en := e) (S := s) (S' := S')
        generalize fetch env look (some e) s = q at hne ⊢
        obtain ⟨r, s1⟩ := q
        cases r with
        | error err => rfl
        | ok o =>
          cases o with
          | none => exact absurd rfl (hne s1)
          | some u =>
            simp only
            cases prefixed p pre rest u <;> rfl

theorem firstSplit_some {s : System} {n : Str} {l : List (Str × Prefix)} {p : Str} {pre : Prefix}
    {rest : Str} {e : Entry} :
    Spec.firstSplit s n l = some (p, pre, rest, e) → Spec.FirstSplit s n l p pre rest e := by
  induction l with
  | nil => intro h; cases h
  | cons q l ih =>
    obtain ⟨p', pre'⟩ := q
    simp only [Spec.firstSplit]
    intro h
    have ext : Spec.FirstSplit s n l p pre rest e →
        (∀ rest', n = p' ++ rest' → Spec.direct s rest' = none) →
        Spec.FirstSplit s n ((p', pre') :: l) p pre rest e := by
      rintro ⟨h1, h2, b, a, h3, h4⟩ h5
      refine ⟨h1, h2, (p', pre') :: b, a, by rw [h3]; rfl, ?_⟩
      intro q hq
      rcases List.mem_cons.1 hq with rfl | hq
      · exact h5
      · exact h4 q hq
    cases hd : dropPrefix p' n with
    | none =>
      rw [hd] at h
      refine ext (ih h) ?_
      intro rest' hr
      rw [dropPrefix_eq_some.2 hr] at hd; cases hd
    | some rest1 =>
      rw [hd] at h
      have hn := dropPrefix_eq_some.1 hd
      simp only at h
      cases hdir : Spec.direct s rest1 with
      | none =>
        rw [hdir] at h
        refine ext (ih h) ?_
        intro rest' hr
        rw [hn] at hr
        rw [← List.append_cancel_left hr]; exact hdir
      | some e1 =>
        rw [hdir] at h
        cases h
        exact ⟨hn, hdir, [], l, rfl, by simp⟩

theorem firstSplit_none {s : System} {n : Str} {l : List (Str × Prefix)} :
    Spec.firstSplit s n l = none ↔ Spec.NoSplit s n l := by
  induction l with
  | nil => simp [Spec.firstSplit, Spec.NoSplit]
  | cons q l ih =>
    obtain ⟨p', pre'⟩ := q
    simp only [Spec.firstSplit]
    have hcons : Spec.NoSplit s n ((p', pre') :: l) ↔
        (∀ rest', n = p' ++ rest' → Spec.direct s rest' = none) ∧ Spec.NoSplit s n l := by
      simp [Spec.NoSplit]
    rw [hcons]
    cases hd : dropPrefix p' n with
    | none =>
      simp only
      rw [ih]
      constructor
      · intro h
        refine ⟨?_, h⟩
        intro rest' hr
        rw [dropPrefix_eq_some.2 hr] at hd; cases hd
      · exact fun h => h.2
    | some rest1 =>
      have hn := dropPrefix_eq_some.1 hd
      simp only
      cases hdir : Spec.direct s rest1 with
      | none =>
        simp only
        rw [ih]
        constructor
        · intro h
          refine ⟨?_, h⟩
          intro rest' hr
          rw [hn] at hr
          rw [← List.append_cancel_left hr]; exact hdir
        · exact fun h => h.2
      | some e1 =>
        simp only
        constructor
        · intro h; cases h
        · rintro ⟨h, _⟩
          rw [h rest1 hn] at hdir; cases hdir

theorem FirstSplit_unique {s : System} {n : Str} {l : List (Str × Prefix)} {p : Str} {pre : Prefix}
    {rest : Str} {e : Entry} (h : Spec.FirstSplit s n l p pre rest e) :
    Spec.firstSplit s n l = some (p, pre, rest, e) := by
  obtain ⟨hn, hd, b, a, rfl, hb⟩ := h
  rw [firstSplit_append, firstSplit_none.2 (show Spec.NoSplit s n b from hb)]
  simp only [Spec.firstSplit]
  rw [dropPrefix_eq_some.2 hn]
  simp [hd]

/-! ## The only unresolvable spellings are those without a reading -/

/-- `n` cannot be read in `s`. -/
def Unreadable (s : System) (n : Str) : Prop :=
  Spec.direct s n = none ∧ Spec.NoSplit s n (s.prefixNames ++ s.prefixSymbols)

theorem SameDom.direct_none {s s' : System} (h : SameDom s s') (n : Str) :
    Spec.direct s' n = none ↔ Spec.direct s n = none := by
  have := h.direct n
  cases h1 : Spec.direct s' n <;> cases h2 : Spec.direct s n <;> rw [h1, h2] at this <;> simp_all

theorem SameDom.unreadable {s s' : System} (h : SameDom s s') (n : Str) :
    Unreadable s' n ↔ Unreadable s n := by
  unfold Unreadable Spec.NoSplit
  rw [h.direct_none, h.pn, h.ps]
  simp only [h.direct_none]

/-- errors of a computation that name an unreadable spelling -/
def Honest {α} (m : SysM α) : Prop :=
  ∀ s, SysOk s → ∀ k, (m s).1 = .error (.unresolvable k) → Unreadable s k

theorem honest_lookupAll {look : Str → SysM Ref} (hs : ∀ n, Safe (look n)) (hl : ∀ n, Honest (look n))
    (ns : List Str) : Honest (lookupAll look ns) := by
  induction ns with
  | nil => intro s _ k h; cases h
  | cons n ns ih =>
    intro s hok k h
    have h0 := hs n s hok
    have h1 := hl n s hok
    simp only [lookupAll] at h
    generalize look n s = q at h h0 h1
    obtain ⟨r, s1⟩ := q
    cases r with
    | error e => cases h; exact h1 k rfl
    | ok r =>
      simp only at h
      have h2 := ih s1 h0.1 k
      generalize lookupAll look ns s1 = q at h h2
      obtain ⟨r2, s2⟩ := q
      cases r2 with
      | error e => exact (h0.2.1.unreadable k).1 (h2 h)
      | ok rs => cases h

/-- The parser raises only `SyntaxError`. -/
def Env.ParserOk (env : Env) : Prop := ∀ t e, env.parse t = .error e → e = .syntaxError

theorem honest_resolve {env : Env} (hp : env.ParserOk) {look : Str → SysM Ref} (hs : ∀ n, Safe (look n))
    (hl : ∀ n, Honest (look n)) (id : Nat) : Honest (resolve env look id) := by
  intro s hok k h
  unfold resolve at h
  cases ho : s.heap[id]? with
  | none => rw [ho] at h; simp at h
  | some o =>
    rw [ho] at h
    simp only at h
    cases hr : o.resolved with
    | some r => rw [hr] at h; simp at h
    | none =>
      rw [hr] at h
      simp only at h
      cases hpar : env.parse o.defn with
      | error e => rw [hpar] at h; simp only at h; cases h; cases hp _ _ hpar
      | ok expr =>
        rw [hpar] at h
        simp only at h
        have h1 := honest_lookupAll hs hl (env.order expr.identifiers) s hok k
        generalize lookupAll look (env.order expr.identifiers) s = q at h h1
        obtain ⟨r2, s1⟩ := q
        cases r2 with
        | error e => cases h; exact h1 rfl
        | ok refs =>
          simp only at h
          cases hm : mkUnit (some o.names) expr refs with
          | error e =>
            rw [hm] at h
            simp only at h
            cases h
            exact absurd (clean_mkUnit _ _ _ _ hm) (by simp [PyErr.core])
          | ok r => rw [hm] at h; cases h

theorem honest_fetch {env : Env} (hp : env.ParserOk) {look : Str → SysM Ref} (hs : ∀ n, Safe (look n))
    (hl : ∀ n, Honest (look n)) {n : Str} {s : System} (hok : SysOk s) {e : Entry}
    (he : Spec.direct s n = some e) {k : Str}
    (h : (fetch env look (some e) s).1 = .error (.unresolvable k)) : Unreadable s k := by
  cases e with
  | unit r => cases h
  | lazy id =>
    rw [(fetch_lazy env hs hok (hok.direct he)).2] at h
    cases hr : (resolve env look id s).1 with
    | ok r => rw [hr] at h; cases h
    | error err =>
      rw [hr] at h
      cases h
      exact honest_resolve hp hs hl id s hok k hr

theorem honest_lookupStep {env : Env} (hp : env.ParserOk) {look : Str → SysM Ref}
    (hs : ∀ n, Safe (look n)) (hl : ∀ n, Honest (look n)) (n : Str) : Honest (lookupStep env look n) := by
  intro s hok k h
  rw [lookupStep_eq] at h
  cases hd : Spec.direct s n with
  | some e =>
    rw [hd] at h
    simp only at h
    have h1 := honest_fetch hp hs hl hok hd (k := k)
    generalize fetch env look (some e) s = q at h h1
    obtain ⟨r, s1⟩ := q
    cases r with
    | error e => cases h; exact h1 rfl
    | ok o => cases o <;> cases h
  | none =>
    rw [hd] at h
    simp only at h
    cases hf : Spec.firstSplit s n (s.prefixNames ++ s.prefixSymbols) with
    | none =>
      rw [hf] at h
      cases h
      exact ⟨hd, firstSplit_none.1 hf⟩
    | some q =>
      obtain ⟨p, pre, rest, e⟩ := q
      rw [hf] at h
      simp only at h
      have h1 := honest_fetch hp hs hl hok (firstSplit_some hf).2.1 (k := k)
      generalize fetch env look (some e) s = q at h h1
      obtain ⟨r, s1⟩ := q
      cases r with
      | error e => cases h; exact h1 rfl
      | ok o =>
        cases o with
        | none => cases h
        | some u => exact absurd (clean_prefixed _ _ _ _ _ h) (by simp [PyErr.core])

theorem honest_lookup {env : Env} (hp : env.ParserOk) (f : Nat) (n : Str) :
    Honest (unitByNameOrSymbol env f n) := by
  induction f generalizing n with
  | zero => intro s _ k h; cases h
  | succ f ih => exact honest_lookupStep hp (safe_lookup env f) ih n

end Verif

import Verif.Lemmas.Live
/-! Lookups while others register, from the single access up. -/
namespace Verif.Live
open Spec

section
variable {env : Env} {s : System} {js : List Job} {q : Prop} {L : System}

/-- a result that is good, or an exception that is justified -/
def Post {α} (q : Prop) (good : α → Prop) (bad : Prop) : Py α → System → Prop
  | .ok x, _ => good x
  | .error err, _ => bad ∨ (err = .runtimeError ∧ ¬ q)

theorem Post.weaken {α} {good good' : α → Prop} {bad bad' : Prop} (hg : ∀ x, good x → good' x) (hb : bad → bad') :
    ∀ (r : Py α) (S : System), Post q good bad r S → Post q good' bad' r S
  | .ok x, _, h => hg x h
  | .error _, _, h => h.imp hb id

theorem Post.err {α β} {good : α → Prop} {good' : β → Prop} {bad bad' : Prop} (hb : bad → bad') (e : PyErr) (S : System)
    (h : Post q good bad (.error e) S) : Post q good' bad' (.error e) S := h.imp hb id

/-- the lower bound: a system on the way to the completed one -/
structure Lower (s : System) (js : List Job) (L : System) : Prop where
  between : Between s js L
  heap : ∀ (id : Nat) o, L.heap[id]? = some o → (completed js s).heap[id]? = some o

/-- where a program may be run -/
structure Here (env : Env) (s : System) (js : List Job) (L S : System) : Prop where
  inv : Inv env s js S
  base : Grows False s S
  above : Above L S

theorem Here.grows {S S' : System} (h : Here env s js L S) (hI : Inv env s js S') (g : Grows q S S') : Here env s js L S' :=
  ⟨hI, h.base.trans (g.weaken False.elim), h.above.grows g⟩

/-- the meaning of a claimed object -/
def Val (env : Env) (s : System) (js : List Job) : Entry → Ref → Prop
  | .unit r', r => r' = r
  | .lazy id, r => Den env (completed js s) id r

theorem Val.unique {e : Entry} {r r' : Ref} (h : Val env s js e r) (h' : Val env s js e r') : r = r' := by
  cases e with
  | unit x => exact h.symm.trans h'
  | lazy id => exact Den.unique h h'

theorem mapM_up {look look' : Str → Py Ref} (h : ∀ n v, look n = .ok v → look' n = .ok v) (ns : List Str) :
    ∀ {rs}, (ns.mapM fun n => (do .ok (n, ← look n) : Py (Str × Ref))) = .ok rs →
      (ns.mapM fun n => (do .ok (n, ← look' n) : Py (Str × Ref))) = .ok rs := by
  induction ns with
  | nil => intro rs h; exact h
  | cons n ns ih =>
    intro rs hr
    rw [List.mapM_cons] at hr ⊢
    cases h1 : look n with
    | error e => rw [h1] at hr; cases hr
    | ok v =>
      rw [h1] at hr
      rw [h n v h1]
      simp only [bind, Except.bind] at hr ⊢
      cases h2 : (ns.mapM fun n => (do .ok (n, ← look n) : Py (Str × Ref))) with
      | error e =>
        simp only [bind, Except.bind] at h2
        rw [h2] at hr; cases hr
      | ok rs' =>
        have h3 := ih h2
        simp only [bind, Except.bind] at h2 h3
        rw [h2] at hr
        rw [h3]
        exact hr

theorem resolve_up (hL : Lower s js L) {look look' : Str → Py Ref} (h : ∀ n v, look n = .ok v → look' n = .ok v) {id : Nat} {r : Ref}
    (hr : Spec.resolve env L look id = .ok r) : Spec.resolve env (completed js s) look' id = .ok r := by
  unfold Spec.resolve at hr ⊢
  cases h0 : L.heap[id]? with
  | none => rw [h0] at hr; cases hr
  | some o =>
    rw [h0] at hr
    rw [hL.heap id o h0]
    simp only [bind, Except.bind] at hr ⊢
    cases hp : env.parse o.defn with
    | error e => rw [hp] at hr; cases hr
    | ok expr =>
      rw [hp] at hr
      simp only at hr ⊢
      cases hm : ((env.order expr.identifiers).mapM fun n => (do .ok (n, ← look n) : Py (Str × Ref))) with
      | error e =>
        simp only [bind, Except.bind] at hm
        rw [hm] at hr; cases hr
      | ok refs =>
        have := mapM_up h _ hm
        simp only [bind, Except.bind] at hm this
        rw [hm] at hr
        rw [this]
        exact hr

theorem entry_up (hL : Lower s js L) {look look' : Str → Py Ref} (h : ∀ n v, look n = .ok v → look' n = .ok v) {e : Entry} {r : Ref}
    (hr : entry env L look e = .ok r) : entry env (completed js s) look' e = .ok r := by
  cases e with
  | unit r' => exact hr
  | lazy id => exact resolve_up hL h hr

theorem wval_up (hL : Lower s js L) {look look' : Str → Py Ref} (h : ∀ n v, look n = .ok v → look' n = .ok v) {n : Str} {w} {r : Ref}
    (hr : wval env L look n w = .ok r) : wval env (completed js s) look' n w = .ok r := by
  obtain ⟨pp, e⟩ := w
  cases pp with
  | none => exact entry_up hL h hr
  | some pp =>
    obtain ⟨p, pre⟩ := pp
    simp only [wval, bind, Except.bind] at hr ⊢
    cases h1 : entry env L look e with
    | error err => rw [h1] at hr; cases hr
    | ok u =>
      rw [h1] at hr
      rw [entry_up hL h h1]
      exact hr

theorem lookup_up (hd : PrefixDicts s) (hm : NoSecondMeaning s js) (hL : Lower s js L) (f : Nat) (n : Str) (v : Ref)
    (h : lookup env L f n = .ok v) : lookup env (completed js s) f n = .ok v := by
  induction f generalizing n v with
  | zero => cases h
  | succ f ih =>
    rw [lookup, step_pick] at h ⊢
    cases hp : pick L n with
    | none => rw [hp] at h; cases h
    | some w =>
      rw [hp] at h
      rw [(hL.between.seen hp).picked hd hm]
      exact wval_up hL ih h

theorem entry_val (hd : PrefixDicts s) (hm : NoSecondMeaning s js) (hL : Lower s js L) {f : Nat} {e : Entry} {r : Ref}
    (h : entry env L (lookup env L f) e = .ok r) : Val env s js e r := by
  have := entry_up hL (lookup_up hd hm hL f) h
  cases e with
  | unit r' => cases this; rfl
  | lazy id => exact ⟨f, this⟩

/-- what is expected of the lookups of identifiers -/
def Looks (env : Env) (s : System) (js : List Job) (q : Prop) (L : System) (f : Nat) (look : Str → Prog Ref) : Prop :=
  ∀ n S, Here env s js L S → Ok env s js q (Post q (fun v => ∃ F, lookup env (completed js s) F n = .ok v)
    (∀ v, lookup env L f n ≠ .ok v)) (look n) S

theorem ok_lookupAll {look : Str → Prog Ref} {f : Nat} (hl : Looks env s js q L f look) (ns : List Str) (S : System)
    (hS : Here env s js L S) :
    Ok env s js q (Post q
      (fun rs => ∃ F, (ns.mapM fun n => (do .ok (n, ← lookup env (completed js s) F n) : Py (Str × Ref))) = .ok rs)
      (∀ rs, (ns.mapM fun n => (do .ok (n, ← lookup env L f n) : Py (Str × Ref))) ≠ .ok rs)) (lookupAllP look ns) S := by
  induction ns generalizing S with
  | nil => exact fun _ _ _ => ⟨0, rfl⟩
  | cons n ns ih =>
    refine Ok.bind (Post.err ?_) hS.inv (hl n S hS) ?_
    · intro h rs hr
      rw [List.mapM_cons] at hr
      cases h1 : lookup env L f n with
      | error e => rw [h1] at hr; cases hr
      | ok v => exact h v h1
    · rintro r S1 hI1 hG1 ⟨F1, hF1⟩
      refine Ok.bind (Post.err ?_) hI1 (ih S1 (hS.grows hI1 hG1)) ?_
      · intro h rs hr
        rw [List.mapM_cons] at hr
        cases h1 : lookup env L f n with
        | error e => rw [h1] at hr; cases hr
        | ok v =>
          rw [h1] at hr
          cases h2 : (ns.mapM fun n => (do .ok (n, ← lookup env L f n) : Py (Str × Ref))) with
          | error e =>
            rw [h2] at hr; cases hr
          | ok rs' => exact h rs' h2
      · rintro rs S2 hI2 hG2 ⟨F2, hF2⟩ S3 hI3 hG3
        refine ⟨max F1 F2, ?_⟩
        rw [List.mapM_cons]
        have e1 : lookup env (completed js s) (max F1 F2) n = .ok r := by
          have := Spec.lookup_mono env (completed js s) (Nat.le_max_left F1 F2) n
          rw [hF1] at this; exact this.ok
        have e2 := mono_mapM (env := env) (S0 := completed js s) ns (Nat.le_max_right F1 F2)
        simp only [hF2] at e2
        rw [e1, e2.ok]
        rfl

theorem ok_returnResolved {id : Nat} {o : LazyObj} {S : System} (ho : S.heap[id]? = some o) (hr : o.resolved ≠ none)
    {bad : Prop} :
    Ok env s js q (Post q (fun x => ∃ r, x = some r ∧ Den env (completed js s) id r) bad) (returnResolvedP id) S := by
  refine Ok.one_read (fun _ => rfl) fun S' hI hG => ?_
  obtain ⟨o', ho', hr'⟩ := hG.res id o ho hr
  simp only [Act.run, ho']
  obtain ⟨o0, h0, _, _, hden⟩ := hI.heap id o' ho'
  cases hx : o'.resolved with
  | none => exact absurd hx hr'
  | some r => exact fun _ _ _ => ⟨r, rfl, hden r hx⟩

theorem ok_resolve (hd0 : PrefixDicts s) (hm : NoSecondMeaning s js) (hL : Lower s js L) {look : Str → Prog Ref} {f : Nat} (hl : Looks env s js q L f look) (id : Nat)
    (S : System) (hS : Here env s js L S) :
    Ok env s js q (Post q (fun x => ∃ r, x = some r ∧ Den env (completed js s) id r)
      (∀ r, Spec.resolve env L (lookup env L f) id ≠ .ok r)) (resolveP env look id) S := by
  refine Ok.one_read (fun _ => rfl) fun S' hI hG => ?_
  have hS' := hS.grows hI hG
  simp only [Act.run]
  cases h1 : S'.heap[id]? with
  | none =>
    refine fun _ _ _ => Or.inl fun r hr => ?_
    have : L.heap[id]? = none := by
      rw [List.getElem?_eq_none_iff] at h1 ⊢
      exact Nat.le_trans hS'.above.len h1
    simp [Spec.resolve, this] at hr
  | some o =>
    obtain ⟨o0, h0, hd, hn, _⟩ := hI.heap id o h1
    simp only
    cases hr : o.resolved with
    | some r => exact ok_returnResolved h1 (by rw [hr]; simp)
    | none =>
      simp only
      rw [hd, hn]
      -- in the lower bound the definition is the same, if it is there
      have low : ∀ r, Spec.resolve env L (lookup env L f) id = .ok r → ∃ expr refs, env.parse o0.defn = .ok expr ∧
          ((env.order expr.identifiers).mapM fun n => (do .ok (n, ← lookup env L f n) : Py (Str × Ref))) = .ok refs ∧
          mkUnit (some o0.names) expr refs = .ok r := by
        intro r hr
        unfold Spec.resolve at hr
        cases hl0 : L.heap[id]? with
        | none => rw [hl0] at hr; cases hr
        | some o2 =>
          have := hL.heap id o2 hl0
          rw [h0] at this
          cases this
          rw [hl0] at hr
          simp only [bind, Except.bind] at hr
          cases hp : env.parse o0.defn with
          | error e => rw [hp] at hr; cases hr
          | ok expr =>
            rw [hp] at hr
            simp only at hr
            cases hm : ((env.order expr.identifiers).mapM fun n => (do .ok (n, ← lookup env L f n) : Py (Str × Ref))) with
            | error e =>
              simp only [bind, Except.bind] at hm
              rw [hm] at hr; cases hr
            | ok refs =>
              refine ⟨expr, refs, rfl, hm, ?_⟩
              simp only [bind, Except.bind] at hm
              rw [hm] at hr; exact hr
      cases hp : env.parse o0.defn with
      | error e =>
        refine fun _ _ _ => Or.inl fun r hr => ?_
        obtain ⟨_, _, h, _⟩ := low r hr
        rw [hp] at h; cases h
      | ok expr =>
        show Ok env s js q _ ((lookupAllP look (env.order expr.identifiers)).bind _) S'
        refine Ok.bind (Post.err ?_) hI (ok_lookupAll hl _ S' hS') ?_
        · intro h r hr
          obtain ⟨expr', refs, h1, h2, _⟩ := low r hr
          rw [hp] at h1; cases h1
          exact h refs h2
        · rintro refs S2 hI2 hG2 ⟨F, hF⟩
          have full : ∀ x, mkUnit (some o0.names) expr refs = x → Spec.resolve env (completed js s) (lookup env (completed js s) F) id = x := by
            intro x hx
            unfold Spec.resolve
            rw [h0]
            simp only [bind, Except.bind] at hF ⊢
            rw [hp]
            simp only
            rw [hF]
            exact hx
          cases hu : mkUnit (some o0.names) expr refs with
          | error e =>
            refine fun _ _ _ => Or.inl fun r hr => ?_
            obtain ⟨expr', refs', h1, h2, h3⟩ := low r hr
            rw [hp] at h1; cases h1
            have h4 := mapM_up (lookup_up hd0 hm hL f) _ h2
            have e1 := mono_mapM (env := env) (S0 := completed js s) (env.order expr.identifiers) (Nat.le_max_left f F)
            have e2 := mono_mapM (env := env) (S0 := completed js s) (env.order expr.identifiers) (Nat.le_max_right f F)
            simp only [h4] at e1
            simp only [hF] at e2
            rw [e1.ok] at e2
            have := e2.ok
            cases this
            rw [hu] at h3; cases h3
          | ok r =>
            have hden : Den env (completed js s) id r := ⟨F, full _ hu⟩
            intro S3 hI3 hG3
            refine ⟨hI3.setResolved hden, Grows.act (.write id r) S3 (fun _ => trivial), ?_⟩
            have hlen : id < S3.heap.length :=
              Nat.lt_of_lt_of_le (List.getElem?_eq_some_iff.1 h1).1 (hG2.trans hG3).len
            refine ok_returnResolved (o := { S3.heap[id] with resolved := some r }) ?_ (by simp)
            show (S3.setResolved id r).heap[id]? = _
            simp only [System.setResolved, List.getElem?_modify, List.getElem?_eq_getElem hlen, if_true]
            rfl

/-- a claim of the object the entry stands for -/
theorem Fits.claim {t : Table} {m : Str} {e : Entry} (h : Fits env s js t m e) : ∃ e0, Claim s js t m e0 ∧
    (e0 = e ∨ ∃ id r, e0 = .lazy id ∧ e = .unit r ∧ Den env (completed js s) id r) := by
  rcases h with h | ⟨id, r, rfl, h, hden⟩
  · exact ⟨e, h, Or.inl rfl⟩
  · exact ⟨.lazy id, h, Or.inr ⟨id, r, rfl, rfl, hden⟩⟩

theorem ok_addUnit (hd : PrefixDicts s) (hc : ConflictFree s) {id : Nat} {r : Ref} (hr : Den env (completed js s) id r) {S : System}
    (hS : Inv env s js S) : Ok env s js q (fun x _ => x = .ok ()) (addUnitP (some r)) S := by
  obtain ⟨o, d, refs, ho, rfl⟩ := hr.names
  refine Ok.weaken (fun _ _ h => h.1) (ok_writeUnit (ref := o.names) ?_ hS)
  exact fun t k hk => Or.inr ⟨id, _, rfl, completed_conflictFree hd hc ho hk, hr⟩

theorem ok_fetch (hd : PrefixDicts s) (hc : ConflictFree s) (hm : NoSecondMeaning s js) (hL : Lower s js L)
    {look : Str → Prog Ref} {f : Nat} (hl : Looks env s js q L f look) {e0 e : Entry}
    (he : e0 = e ∨ ∃ id r, e0 = .lazy id ∧ e = .unit r ∧ Den env (completed js s) id r) {S : System} (hS : Here env s js L S) :
    Ok env s js q (Post q (fun x => ∃ r, x = some r ∧ Val env s js e0 r) (∀ v, entry env L (lookup env L f) e0 ≠ .ok v))
      (fetchP env look (some e)) S := by
  rcases he with rfl | ⟨id, r, rfl, rfl, hden⟩
  · cases e0 with
    | unit r => exact fun _ _ _ => ⟨r, rfl, rfl⟩
    | lazy id =>
      refine Ok.bind (Post.err fun h => h) hS.inv (ok_resolve hd hm hL hl id S hS) ?_
      rintro x S1 hI1 hG1 ⟨r, rfl, hden⟩
      refine Ok.bind (Q := fun x _ => x = .ok ()) (by intro e S h; cases h) hI1 (ok_addUnit hd hc hden hI1) ?_
      exact fun _ _ _ _ _ _ _ _ => ⟨r, rfl, hden⟩
  · exact fun _ _ _ => ⟨r, rfl, hden⟩

/-- the result of looking at two tables -/
theorem ok_entry {t t' : Table} {m : Str} (hb : ∀ t0 ∈ before t, Dict.get m (s.table t0) = none)
    (hb' : ∀ t0 ∈ before t', t0 = t ∨ t0 ∈ before t) {S : System} (hS : Here env s js L S) :
    Ok env s js q (fun x _ => ∃ o, x = .ok o ∧ match o with
      | none => Dict.get m (L.table t) = none ∧ Dict.get m (L.table t') = none
      | some e => ∃ t0, Fits env s js t0 m e ∧ ∀ t1 ∈ before t0, Dict.get m (s.table t1) = none) (entryP t t' m) S := by
  refine Ok.one_read (fun _ => rfl) fun S' hI hG => ?_
  have hS' := hS.grows hI hG
  simp only [Act.run]
  cases hg : Dict.get m (S'.table t) with
  | some e => exact fun _ _ _ => ⟨some e, rfl, t, hI.tab t m e hg, hb⟩
  | none =>
    have hlow : Dict.get m (L.table t) = none := Classical.byContradiction fun h => hS'.above.tab t m h hg
    have hlow0 : Dict.get m (s.table t) = none := Classical.byContradiction fun h => hS'.base.tab t m h hg
    intro S2 hI2 hG2
    have hS2 := hS'.grows hI2 hG2
    refine ⟨hI2, Grows.refl q _, fun _ _ _ => ⟨_, rfl, ?_⟩⟩
    show match Dict.get m (S2.table t') with
      | none => _
      | some e => _
    cases hg2 : Dict.get m (S2.table t') with
    | none => exact ⟨hlow, Classical.byContradiction fun h => hS2.above.tab t' m h hg2⟩
    | some e =>
      refine ⟨t', hI2.tab t' m e hg2, fun t1 h1 => ?_⟩
      rcases hb' t1 h1 with rfl | h1
      · exact hlow0
      · exact hb t1 h1

/-- the result of one of the two halves of a direct lookup -/
theorem ok_half (hd : PrefixDicts s) (hc : ConflictFree s) (hm : NoSecondMeaning s js) (hL : Lower s js L)
    {look : Str → Prog Ref} {f : Nat} (hl : Looks env s js q L f look) {t t' : Table} {m : Str}
    (hb : ∀ t0 ∈ before t, Dict.get m (s.table t0) = none)
    (hb' : ∀ t0 ∈ before t', t0 = t ∨ t0 ∈ before t) {S : System} (hS : Here env s js L S) :
    Ok env s js q (Post q (fun x => (x = none ∧ Dict.get m (L.table t) = none ∧ Dict.get m (L.table t') = none) ∨
        ∃ e r, x = some r ∧ Found s js m e ∧ Val env s js e r)
      (∃ e, Found s js m e ∧ ∀ v, entry env L (lookup env L f) e ≠ .ok v)) ((entryP t t' m).bind (fetchP env look)) S := by
  refine Ok.bind (by rintro e S ⟨o, h, _⟩; cases h) hS.inv (ok_entry hb hb' hS) ?_
  rintro x S1 hI1 hG1 ⟨o, hx, h⟩
  cases hx
  cases x with
  | none => exact fun _ _ _ => Or.inl ⟨rfl, h⟩
  | some e =>
    obtain ⟨t0, hf, hb0⟩ := h
    obtain ⟨e0, hcl, he⟩ := hf.claim
    have hfound : Found s js m e0 := ⟨t0, hcl, hb0⟩
    refine Ok.weaken (Post.weaken ?_ ?_) (ok_fetch hd hc hm hL hl he (hS.grows hI1 hG1))
    · rintro x ⟨r, rfl, hv⟩; exact Or.inr ⟨e0, r, rfl, hfound, hv⟩
    · exact fun h => ⟨e0, hfound, h⟩

theorem ok_byNameOrSymbol (hd : PrefixDicts s) (hc : ConflictFree s) (hm : NoSecondMeaning s js) (hL : Lower s js L)
    {look : Str → Prog Ref} {f : Nat} (hl : Looks env s js q L f look) (m : Str) {S : System} (hS : Here env s js L S) :
    Ok env s js q (Post q (fun x => (x = none ∧ direct L m = none) ∨ ∃ e r, x = some r ∧ Found s js m e ∧ Val env s js e r)
      (∃ e, Found s js m e ∧ ∀ v, entry env L (lookup env L f) e ≠ .ok v)) (byNameOrSymbolP env look m) S := by
  have absent : ∀ t, Dict.get m (L.table t) = none → Dict.get m (s.table t) = none :=
    fun t h => Classical.byContradiction fun hne => hL.between.base t m hne h
  refine Ok.bind (Post.err fun h => h) hS.inv
    (ok_half hd hc hm hL hl (t := .names) (t' := .aliasNames) (by simp [before]) (by simp [before]) hS) ?_
  rintro x S1 hI1 hG1 (⟨rfl, h1, h2⟩ | ⟨e, r, rfl, hf, hv⟩)
  · refine Ok.weaken (Post.weaken ?_ fun h => h) (ok_half hd hc hm hL hl (t := .symbols) (t' := .aliasSymbols) (m := m) ?_ ?_ (hS.grows hI1 hG1))
    · rintro x (⟨rfl, h3, h4⟩ | h)
      · refine Or.inl ⟨rfl, direct_none.2 fun t => ?_⟩
        cases t <;> assumption
      · exact Or.inr h
    · intro t ht
      simp only [before, List.mem_cons, List.not_mem_nil, or_false] at ht
      rcases ht with rfl | rfl
      · exact absent _ h1
      · exact absent _ h2
    · intro t ht
      simp only [before, List.mem_cons, List.not_mem_nil, or_false] at ht ⊢
      rcases ht with h | h | h
      · exact Or.inr (Or.inl h)
      · exact Or.inr (Or.inr h)
      · exact Or.inl h
  · exact fun _ _ _ => Or.inr ⟨e, r, rfl, hf, hv⟩

/-- what a prefix loop finds -/
def LoopPost (env : Env) (s : System) (js : List Job) (q : Prop) (L : System) (f : Nat) (n : Str) (t : PTable) (none_ : Prop) :
    Py (Option Ref) → System → Prop :=
  Post q (fun x => (x = none ∧ none_) ∨ ∃ p pre e u v, x = some v ∧ SeenP s js n t p pre e ∧ Val env s js e u ∧
      prefixed p pre (n.drop p.length) u = .ok v)
    (∃ p pre e, SeenP s js n t p pre e ∧ ∀ v, wval env L (lookup env L f) n (some (p, pre), e) ≠ .ok v)

theorem keys_get {d : Dict Str Prefix} {i : Nat} {p : Str} {pre : Prefix} (h : d[i]? = some (p, pre)) :
    (Dict.keys d)[i]? = some p := by
  unfold Dict.keys; rw [List.getElem?_map, h]; rfl

theorem ok_prefixLoop (hd : PrefixDicts s) (hc : ConflictFree s) (hm : NoSecondMeaning s js) (hL : Lower s js L)
    {look : Str → Prog Ref} {f : Nat} (hl : Looks env s js q L f look) (n : Str) (t : PTable) {S0 : System}
    (h0 : Here env s js L S0) {size : Nat} (hsize : (S0.ptable t).length = size) (left : Nat)
    (hle : left ≤ size) (hno : ∀ k ∈ (Dict.keys (S0.ptable t)).take (size - left), NoRead L n k)
    {S : System} (hS : Here env s js L S) (g0 : Grows q S0 S) :
    Ok env s js q (LoopPost env s js q L f n t (∀ k ∈ Dict.keys (S0.ptable t), NoRead L n k))
      (prefixLoopP env look n t size left) S := by
  have hklen : (Dict.keys (S0.ptable t)).length = size := by simp [Dict.keys, hsize]
  -- the dict is the same, or the iterator complains
  have next : ∀ S' i, Grows q S0 S' → (nextItem (S'.ptable t) size i = .changed ∧ ¬ q) ∨
      (Dict.keys (S'.ptable t) = Dict.keys (S0.ptable t) ∧ (S'.ptable t).length = size) := by
    intro S' i g
    obtain ⟨l, e, hl⟩ := g.pre t
    have hlen : (S'.ptable t).length = size + l.length := by
      have := congrArg List.length e
      rw [List.length_append, hklen] at this
      simpa [Dict.keys] using this
    cases l with
    | nil => right; exact ⟨by simpa using e, by simpa using hlen⟩
    | cons x l =>
      left
      refine ⟨?_, fun hq => by cases hl hq⟩
      unfold nextItem
      rw [if_pos (by rw [hlen]; simp)]
  induction left generalizing S with
  | zero =>
    refine Ok.one_read (a := .next t size size) (fun _ => rfl) fun S' hI hG => ?_
    simp only [Act.run]
    rcases next S' size (g0.trans hG) with ⟨h, hq⟩ | ⟨hk, hl'⟩
    · rw [h]; exact fun _ _ _ => Or.inr ⟨rfl, hq⟩
    · have : nextItem (S'.ptable t) size size = .stop := by
        unfold nextItem
        rw [if_neg (by rw [hl']; simp), List.getElem?_eq_none_iff.2 (by omega)]
      rw [this]
      refine fun _ _ _ => Or.inl ⟨rfl, fun k hk => hno k ?_⟩
      rw [Nat.sub_zero, List.take_of_length_le (by omega)]; exact hk
  | succ left ih =>
    refine Ok.one_read (a := .next t size (size - (left + 1))) (fun _ => rfl) fun S' hI hG => ?_
    simp only [Act.run]
    have hS' := hS.grows hI hG
    rcases next S' (size - (left + 1)) (g0.trans hG) with ⟨h, hq⟩ | ⟨hk, hl'⟩
    · rw [h]; exact fun _ _ _ => Or.inr ⟨rfl, hq⟩
    · have hlt : size - (left + 1) < (S'.ptable t).length := by omega
      obtain ⟨p, pre, hget⟩ : ∃ p pre, (S'.ptable t)[size - (left + 1)]? = some (p, pre) :=
        ⟨_, _, List.getElem?_eq_getElem hlt⟩
      have hkey : (Dict.keys (S0.ptable t))[size - (left + 1)]? = some p := by rw [← hk]; exact keys_get hget
      have : nextItem (S'.ptable t) size (size - (left + 1)) = .item p pre := by
        unfold nextItem
        rw [if_neg (by rw [hl']; simp), hget]
      rw [this]
      simp only
      -- going on
      have go : ∀ {S2 : System}, NoRead L n p → Here env s js L S2 → Grows q S0 S2 →
          Ok env s js q (LoopPost env s js q L f n t (∀ k ∈ Dict.keys (S0.ptable t), NoRead L n k))
            (prefixLoopP env look n t size left) S2 := by
        intro S2 hp hS2 hg2
        refine ih (by omega) ?_ hS2 hg2
        intro k hk
        have e : size - left = size - (left + 1) + 1 := by omega
        rw [e, List.take_add_one, hkey] at hk
        rcases List.mem_append.1 hk with hk | hk
        · exact hno k hk
        · simp at hk; subst hk; exact hp
      cases hdp : dropPrefix p n with
      | none =>
        refine go ?_ hS' (g0.trans hG)
        intro r hr
        rw [dropPrefix_eq_some.2 hr] at hdp; cases hdp
      | some rest =>
        have hn := dropPrefix_eq_some.1 hdp
        have hrest : n.drop p.length = rest := by rw [hn]; simp
        have seen : ∀ e, Found s js rest e → SeenP s js n t p pre e := by
          intro e hf
          refine ⟨hI.ptab t p pre (List.mem_of_getElem? hget), ⟨rest, hn, hf⟩, ?_⟩
          obtain ⟨l, el, _⟩ := h0.base.pre t
          obtain ⟨hi, hpi⟩ := List.getElem?_eq_some_iff.1 hkey
          refine ⟨(Dict.keys (S0.ptable t)).take (size - (left + 1)), (Dict.keys (S0.ptable t)).drop (size - (left + 1) + 1), l, ?_, ?_⟩
          · rw [← el]
            refine (List.take_append_drop (size - (left + 1)) (Dict.keys (S0.ptable t))).symm.trans ?_
            rw [List.drop_eq_getElem_cons hi, hpi]
          · exact fun k hk r hr => hL.between.absent (hno k hk r hr)
        refine Ok.bind (Post.err ?_) hI (ok_byNameOrSymbol hd hc hm hL hl rest hS') ?_
        · rintro ⟨e, hf, hbad⟩
          refine ⟨p, pre, e, seen e hf, fun v hv => ?_⟩
          simp only [wval, bind, Except.bind] at hv
          cases h1 : entry env L (lookup env L f) e with
          | error err => rw [h1] at hv; cases hv
          | ok u => exact hbad u h1
        · rintro x S2 hI2 hG2 (⟨rfl, hnone⟩ | ⟨e, u, rfl, hf, hv⟩)
          · refine go ?_ (hS'.grows hI2 hG2) ((g0.trans hG).trans hG2)
            intro r hr
            have : r = rest := by rw [hn] at hr; exact (List.append_cancel_left hr).symm
            rw [this]; exact hnone
          · simp only
            cases hpf : prefixed p pre rest u with
            | ok v => exact fun _ _ _ => Or.inr ⟨p, pre, e, u, v, rfl, seen e hf, hv, by rw [hrest]; exact hpf⟩
            | error err =>
              refine fun _ _ _ => Or.inl ⟨p, pre, e, seen e hf, fun v hv' => ?_⟩
              simp only [wval, bind, Except.bind] at hv'
              cases h1 : entry env L (lookup env L f) e with
              | error err => rw [h1] at hv'; cases hv'
              | ok u' =>
                rw [h1] at hv'
                have : u' = u := (entry_val hd hm hL h1).unique hv
                subst this
                simp only [hrest, hpf] at hv'
                cases hv'

theorem ok_prefixes (hd : PrefixDicts s) (hc : ConflictFree s) (hm : NoSecondMeaning s js) (hL : Lower s js L)
    {look : Str → Prog Ref} {f : Nat} (hl : Looks env s js q L f look) (n : Str) (t : PTable) {S : System}
    (hS : Here env s js L S) :
    Ok env s js q (LoopPost env s js q L f n t (∀ k ∈ Dict.keys (L.ptable t), NoRead L n k)) (prefixesP env look n t) S := by
  refine Ok.one_read (a := .iter t) (fun _ => rfl) fun S' hI hG => ?_
  simp only [Act.run]
  have hS' := hS.grows hI hG
  refine Ok.weaken (Post.weaken ?_ fun h => h)
    (ok_prefixLoop hd hc hm hL hl n t hS' rfl _ (Nat.le_refl _) (by rw [Nat.sub_self]; simp) hS' (Grows.refl q S'))
  rintro x (⟨rfl, h⟩ | h)
  · exact Or.inl ⟨rfl, fun k hk => h k (hS'.above.pre t k hk)⟩
  · exact Or.inr h

theorem ok_lookupStep (hd : PrefixDicts s) (hc : ConflictFree s) (hm : NoSecondMeaning s js) (hL : Lower s js L)
    {look : Str → Prog Ref} {f : Nat} (hl : Looks env s js q L f look) (n : Str) {S : System}
    (hS : Here env s js L S) :
    Ok env s js q (Post q (fun v => ∃ F, lookup env (completed js s) F n = .ok v)
      (∀ v, lookup env L (f + 1) n ≠ .ok v)) (lookupStepP env look n) S := by
  -- the reading seen is the one of the completed system, and of the lower bound if it has one
  have good : ∀ w v, Seen s js n w → (∃ F, wval env (completed js s) (lookup env (completed js s) F) n w = .ok v) →
      ∃ F, lookup env (completed js s) F n = .ok v := by
    rintro w v hw ⟨F, hF⟩
    refine ⟨F + 1, ?_⟩
    rw [lookup, step_pick, hw.picked hd hm]
    exact hF
  have bad : ∀ w, Seen s js n w → (∀ v, wval env L (lookup env L f) n w ≠ .ok v) → ∀ v, lookup env L (f + 1) n ≠ .ok v := by
    intro w hw hbad v hv
    rw [lookup, step_pick] at hv
    cases hp : pick L n with
    | none => rw [hp] at hv; cases hv
    | some w' =>
      rw [hp] at hv
      have := Seen.unique hd hm (hL.between.seen hp) hw
      subst this
      exact hbad v hv
  have val : ∀ e u, Val env s js e u → ∃ F, entry env (completed js s) (lookup env (completed js s) F) e = .ok u := by
    intro e u h
    cases e with
    | unit r => cases h; exact ⟨0, rfl⟩
    | lazy id => exact h
  have goodP : ∀ p pre e u v, Seen s js n (some (p, pre), e) → Val env s js e u → prefixed p pre (n.drop p.length) u = .ok v →
      ∃ F, lookup env (completed js s) F n = .ok v := by
    intro p pre e u v hw hv hp
    obtain ⟨F, hF⟩ := val e u hv
    refine good _ v hw ⟨F, ?_⟩
    simp only [wval, hF, bind, Except.bind]
    exact hp
  refine Ok.bind (Post.err ?_) hS.inv (ok_byNameOrSymbol hd hc hm hL hl n hS) ?_
  · rintro ⟨e, hf, hb⟩
    exact bad (none, e) (.direct e hf) hb
  · rintro x S1 hI1 hG1 (⟨rfl, hnone⟩ | ⟨e, u, rfl, hf, hv⟩)
    · have hS1 := hS.grows hI1 hG1
      have hnone0 := hL.between.absent hnone
      refine Ok.bind (Post.err ?_) hI1 (ok_prefixes hd hc hm hL hl n .names hS1) ?_
      · rintro ⟨p, pre, e, hs, hb⟩
        exact bad _ (.name p pre e hnone0 hs) hb
      · rintro x S2 hI2 hG2 (⟨rfl, hno⟩ | ⟨p, pre, e, u, v, rfl, hs, hv, hp⟩)
        · have hS2 := hS1.grows hI2 hG2
          have hno0 : ∀ k ∈ Dict.keys (s.ptable .names), NoRead s n k := by
            intro k hk r hr
            obtain ⟨l, el⟩ := hL.between.pkeys .names
            exact hL.between.absent (hno k (by rw [el]; exact List.mem_append_left _ hk) r hr)
          refine Ok.bind (Post.err ?_) hI2 (ok_prefixes hd hc hm hL hl n .symbols hS2) ?_
          · rintro ⟨p, pre, e, hs, hb⟩
            exact bad _ (.symbol p pre e hnone0 hno0 hs) hb
          · rintro x S3 hI3 hG3 (⟨rfl, hno'⟩ | ⟨p, pre, e, u, v, rfl, hs, hv, hp⟩)
            · refine fun _ _ _ => Or.inl fun v hv => ?_
              rw [lookup, step_pick] at hv
              have hf : firstSplit L n (L.prefixNames ++ L.prefixSymbols) = none := by
                refine Verif.firstSplit_none.2 fun x hx r hr => ?_
                rcases List.mem_append.1 hx with hx | hx
                · exact hno x.1 (List.mem_map_of_mem hx) r hr
                · exact hno' x.1 (List.mem_map_of_mem hx) r hr
              have : pick L n = none := by simp [pick, hnone, hf]
              rw [this] at hv; cases hv
            · exact fun _ _ _ => goodP p pre e u v (.symbol p pre e hnone0 hno0 hs) hv hp
        · exact fun _ _ _ => goodP p pre e u v (.name p pre e hnone0 hs) hv hp
    · exact fun _ _ _ => good (none, e) u (.direct e hf) (val e u hv)

theorem ok_lookup (hd : PrefixDicts s) (hc : ConflictFree s) (hm : NoSecondMeaning s js) (hL : Lower s js L) (f : Nat) :
    Looks env s js q L f (lookupP env f) := by
  induction f with
  | zero => exact fun n S hS _ _ _ => Or.inl fun v hv => by cases hv
  | succ f ih => exact fun n S hS => ok_lookupStep hd hc hm hL ih n hS

theorem ok_unit (hd : PrefixDicts s) (hc : ConflictFree s) (hm : NoSecondMeaning s js) (hL : Lower s js L) (f : Nat) (t : Str)
    {S : System} (hS : Here env s js L S) :
    Ok env s js q (Post q (fun v => ∃ F, Spec.unit env (completed js s) F t = .ok v)
      (∀ v, Spec.unit env L f t ≠ .ok v)) (unitP env f t) S := by
  unfold unitP
  cases hp : env.parse t with
  | error e => 
    refine fun _ _ _ => Or.inl fun v hv => ?_
    simp only [Spec.unit, hp, bind, Except.bind] at hv; cases hv
  | ok expr =>
    show Ok env s js q _ ((lookupAllP (lookupP env f) (env.order expr.identifiers)).bind _) S
    refine Ok.bind (Post.err ?_) hS.inv (ok_lookupAll (ok_lookup hd hc hm hL f) _ S hS) ?_
    · intro h v hv
      unfold Spec.unit at hv
      rw [hp] at hv
      cases h1 : ((env.order expr.identifiers).mapM fun n => (do .ok (n, ← lookup env L f n) : Py (Str × Ref))) with
      | error e =>
        simp only [bind, Except.bind] at h1 hv
        rw [h1] at hv; cases hv
      | ok rs => exact h rs h1
    · rintro refs S1 hI1 hG1 ⟨F, hF⟩
      cases hu : unitFromExpr expr refs with
      | ok u =>
        refine fun _ _ _ => ⟨F, ?_⟩
        unfold Spec.unit
        rw [hp]
        simp only [bind, Except.bind] at hF ⊢
        rw [hF]
        exact hu
      | error err =>
        refine fun _ _ _ => Or.inl fun v hv => ?_
        unfold Spec.unit at hv
        rw [hp] at hv
        cases h1 : ((env.order expr.identifiers).mapM fun n => (do .ok (n, ← lookup env L f n) : Py (Str × Ref))) with
        | error e =>
          simp only [bind, Except.bind] at h1 hv
          rw [h1] at hv; cases hv
        | ok rs =>
          have h4 := mapM_up (lookup_up hd hm hL f) _ h1
          have e1 := mono_mapM (env := env) (S0 := completed js s) (env.order expr.identifiers) (Nat.le_max_left f F)
          have e2 := mono_mapM (env := env) (S0 := completed js s) (env.order expr.identifiers) (Nat.le_max_right f F)
          simp only [h4] at e1
          simp only [hF] at e2
          rw [e1.ok] at e2
          have := e2.ok
          cases this
          simp only [bind, Except.bind] at h1 hv
          rw [h1] at hv
          simp only [hu] at hv
          cases hv

end
end Verif.Live

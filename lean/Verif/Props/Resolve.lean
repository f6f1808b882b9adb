import Verif.Spec.Resolve
import Verif.Props.Lookup
/-!
# C48: which spellings resolve
-/

namespace Verif
open Spec

theorem normalise_shiftFree (refs : List (Str × Ref)) : ∀ n : Node, ShiftFree n → ∃ r, normalise refs n = .ok r
  | .number _ _, _ => ⟨_, rfl⟩
  | .ident _, _ => ⟨_, rfl⟩
  | .mul l r, h => by
    obtain ⟨a, ha⟩ := normalise_shiftFree refs l h.1
    obtain ⟨b, hb⟩ := normalise_shiftFree refs r h.2
    exact ⟨_, by rw [normalise]; simp only [bind, Except.bind, ha, hb]; rfl⟩
  | .div l r, h => by
    obtain ⟨a, ha⟩ := normalise_shiftFree refs l h.1
    obtain ⟨b, hb⟩ := normalise_shiftFree refs r h.2
    exact ⟨_, by rw [normalise]; simp only [bind, Except.bind, ha, hb]; rfl⟩
  | .raise l r, h => by
    obtain ⟨a, ha⟩ := normalise_shiftFree refs l h.1
    obtain ⟨b, hb⟩ := normalise_shiftFree refs r h.2
    exact ⟨_, by rw [normalise]; simp only [bind, Except.bind, ha, hb]; rfl⟩
  | .log fn t, h => by
    obtain ⟨a, ha⟩ := normalise_shiftFree refs t h
    exact ⟨_, by rw [normalise]; simp only [bind, Except.bind, ha]; rfl⟩
  | .unhandled _, h => h.elim
  | .shift _ _, h => h.elim

theorem mkUnit_shiftFree (names : Option UnitReference) (refs : List (Str × Ref)) (n : Node) (h : ShiftFree n) :
    mkUnit names n refs = .ok (.unit names n refs) := by
  obtain ⟨r, hr⟩ := normalise_shiftFree refs n h
  unfold mkUnit normalisedNode
  simp only [bind, Except.bind, hr]

theorem spec_resolve_eq (env : Env) (s : System) (look : Str → Py Ref) {id : Nat} {o : LazyObj} {expr : Node}
    (ho : s.heap[id]? = some o) (hp : env.parse o.defn = .ok expr) :
    Spec.resolve env s look id = (do
      let refs ← (env.order expr.identifiers).mapM (fun n => do .ok (n, ← look n) : Str → Py (Str × Ref))
      mkUnit (some o.names) expr refs) := by
  unfold Spec.resolve
  rw [ho]
  simp only [bind, Except.bind, hp]

theorem entry_resolves {env : Env} {s : System} (hperm : ∀ l, (env.order l).Perm l) {good : Nat → Prop} {rank : Nat → Nat}
    (hg : WellFounded env s good rank) : ∀ (d id : Nat), good id → rank id < d →
    ∃ r, Spec.resolve env s (Spec.lookup env s d) id = .ok r
  | 0, _, _, h => by omega
  | d + 1, id, hid, hd => by
    obtain ⟨o, expr, ho, hp, hb, hids⟩ := hg id hid
    rw [spec_resolve_eq env s _ ho hp]
    have hl : ∀ n ∈ env.order expr.identifiers, ∃ r, Spec.lookup env s (d + 1) n = .ok r := by
      intro n hn
      obtain ⟨e, hr, he⟩ := hids n ((hperm _).subset hn)
      have hent : ∃ r, Spec.entry env s (Spec.lookup env s d) e = .ok r := by
        cases e with
        | unit r => exact ⟨r, rfl⟩
        | lazy b =>
          obtain ⟨h1, h2⟩ := he b rfl
          exact entry_resolves hperm hg d b h1 (by omega)
      obtain ⟨r, hr'⟩ := hent
      show ∃ r, Spec.step env s _ n = .ok r
      unfold Spec.step
      rcases hr with hr | ⟨hr, p, pre, rest, hf⟩
      · rw [hr]; exact ⟨r, hr'⟩
      · rw [hr, FirstSplit_unique hf]
        simp only [bind, Except.bind, hr']
        exact ⟨_, mkUnit_shiftFree _ _ _ ⟨trivial, trivial⟩⟩
    obtain ⟨l, hl'⟩ := mapM_refs_total hl
    simp only [bind, Except.bind] at hl' ⊢
    rw [hl']
    rcases hb with hb | hb
    · exact ⟨_, mkUnit_shiftFree _ _ _ hb⟩
    · have hm := mapM_refs_ok (look := Spec.lookup env s (d + 1)) (ids := env.order expr.identifiers) (l := l) hl'
      refine hb l ?_ ?_
      · intro k r hk
        have : k ∈ Dict.keys l := (Dict.get_isSome_iff k l).1 (by rw [hk]; rfl)
        rw [hm.1] at this
        obtain ⟨r', h1, h2⟩ := hm.2 k this
        rw [hk] at h2; cases h2
        exact ⟨_, h1⟩
      · intro k hk
        obtain ⟨r', _, h2⟩ := hm.2 k ((hperm _).symm.subset hk)
        rw [h2]; rfl

theorem spec_lookup_resolves {env : Env} {s : System} (hperm : ∀ l, (env.order l).Perm l) {good : Nat → Prop} {rank : Nat → Nat}
    (hg : WellFounded env s good rank) (n : Str) (e : Entry) (hr : Reads s n e) (d : Nat)
    (he : ∀ b, e = .lazy b → good b ∧ rank b < d) : ∃ r, Spec.lookup env s (d + 1) n = .ok r := by
  have hent : ∃ r, Spec.entry env s (Spec.lookup env s d) e = .ok r := by
    cases e with
    | unit r => exact ⟨r, rfl⟩
    | lazy b =>
      obtain ⟨h1, h2⟩ := he b rfl
      exact entry_resolves hperm hg d b h1 h2
  obtain ⟨r, hr'⟩ := hent
  show ∃ r, Spec.step env s _ n = .ok r
  unfold Spec.step
  rcases hr with hr | ⟨hr, p, pre, rest, hf⟩
  · rw [hr]; exact ⟨r, hr'⟩
  · rw [hr, FirstSplit_unique hf]
    simp only [bind, Except.bind, hr']
    exact ⟨_, mkUnit_shiftFree _ _ _ ⟨trivial, trivial⟩⟩

/-- **C48.** In a conflict-free system every spelling that is read as a finished unit, or as a lazily defined unit with a
well-founded definition, resolves — after any history, whatever the iteration order of identifier sets, as soon as the
recursion limit exceeds the nesting of definitions. -/
theorem C48_wellfounded_definitions_resolve (env : Env) (hperm : ∀ l, (env.order l).Perm l) (s : System)
    (hp : Pristine s) (hc : ConflictFree s) (good : Nat → Prop) (rank : Nat → Nat) (hg : WellFounded env s good rank)
    (n : Str) (e : Entry) (hr : Reads s n e) (h : List Query) (limit : Nat) (hpos : 0 < limit)
    (he : ∀ b, e = .lazy b → good b ∧ rank b + 1 < limit) :
    ∃ r, (unitByNameOrSymbol env limit n (after env h s)).1 = .ok r := by
  obtain ⟨d, rfl⟩ : ∃ d, limit = d + 1 := ⟨limit - 1, by omega⟩
  obtain ⟨r, hr'⟩ := spec_lookup_resolves hperm hg n e hr d (fun b hb => ⟨(he b hb).1, by have := (he b hb).2; omega⟩)
  exact ⟨r, by rw [(C05_lookup_refines_fixed_registry env s hp hc h (d + 1) n).1 (d + 1) (Nat.le_refl _) (by rw [hr']; simp), hr']⟩

theorem reads_iff_step (env : Env) (s : System) (look : Str → Py Ref) (n : Str) {r : Ref} (h : Spec.step env s look n = .ok r) :
    ∃ e u, Reads s n e ∧ Spec.entry env s look e = .ok u := by
  unfold Spec.step at h
  cases hd : direct s n with
  | some e => rw [hd] at h; exact ⟨e, r, .inl hd, h⟩
  | none =>
    rw [hd] at h
    cases hf : firstSplit s n (s.prefixNames ++ s.prefixSymbols) with
    | none => rw [hf] at h; cases h
    | some q =>
      obtain ⟨p, pre, rest, e⟩ := q
      rw [hf] at h
      simp only [bind, Except.bind] at h
      cases hu : Spec.entry env s look e with
      | error err => rw [hu] at h; cases h
      | ok u => exact ⟨e, u, .inr ⟨hd, p, pre, rest, firstSplit_some hf⟩, hu⟩

theorem Spec.Reads.unique {s : System} {n : Str} {e e' : Entry} (h : Reads s n e) (h' : Reads s n e') : e = e' := by
  rcases h with h | ⟨h, p, pre, rest, hf⟩ <;> rcases h' with h' | ⟨h', p', pre', rest', hf'⟩
  · rw [h] at h'; cases h'; rfl
  · rw [h] at h'; cases h'
  · rw [h] at h'; cases h'
  · have := FirstSplit_unique hf
    rw [FirstSplit_unique hf'] at this
    cases this; rfl

theorem broken_never {env : Env} {s : System} (hperm : ∀ l, (env.order l).Perm l) {id : Nat} (h : Broken env s id) :
    ∀ d r, Spec.resolve env s (Spec.lookup env s d) id ≠ .ok r := by
  induction h with
  | @badSyntax id o e ho hp =>
    intro d r hr
    unfold Spec.resolve at hr
    rw [ho] at hr
    simp only [bind, Except.bind, hp] at hr
    cases hr
  | @unreadable id o expr n ho hp hn hno =>
    intro d r hr
    rw [spec_resolve_eq env s _ ho hp] at hr
    cases hm : (env.order expr.identifiers).mapM
        (fun n => do .ok (n, ← Spec.lookup env s d n) : Str → Py (Str × Ref)) with
    | error e => rw [hm] at hr; cases hr
    | ok l =>
      obtain ⟨r', hr', _⟩ := (mapM_refs_ok hm).2 n ((hperm _).symm.subset hn)
      cases d with
      | zero => cases hr'
      | succ d =>
        obtain ⟨e, _, h1, _⟩ := reads_iff_step env s _ n hr'
        exact hno e h1
  | @uses id b o expr n ho hp hn hb _ ih =>
    intro d r hr
    rw [spec_resolve_eq env s _ ho hp] at hr
    cases hm : (env.order expr.identifiers).mapM
        (fun n => do .ok (n, ← Spec.lookup env s d n) : Str → Py (Str × Ref)) with
    | error e => rw [hm] at hr; cases hr
    | ok l =>
      obtain ⟨r', hr', _⟩ := (mapM_refs_ok hm).2 n ((hperm _).symm.subset hn)
      cases d with
      | zero => cases hr'
      | succ d =>
        obtain ⟨e, u, h1, h2⟩ := reads_iff_step env s _ n hr'
        have := Spec.Reads.unique h1 hb
        subst this
        exact ih d u h2

theorem spec_lookup_broken {env : Env} {s : System} (hperm : ∀ l, (env.order l).Perm l) (n : Str) (id : Nat)
    (hr : Reads s n (.lazy id)) (hb : Broken env s id) (d : Nat) (r : Ref) : Spec.lookup env s d n ≠ .ok r := by
  intro hd
  cases d with
  | zero => cases hd
  | succ d =>
    obtain ⟨e, u, h1, h2⟩ := reads_iff_step env s _ n hd
    have := Spec.Reads.unique h1 hr
    subst this
    exact broken_never hperm hb d u h2

/-- **C48**, the other side: a unit whose definition does not parse, mentions a spelling without reading, or depends on
such a unit, never resolves: no history and no recursion limit helps. -/
theorem C48_broken_definitions_never_resolve (env : Env) (hperm : ∀ l, (env.order l).Perm l) (s : System)
    (hp : Pristine s) (hc : ConflictFree s) (n : Str) (id : Nat) (hr : Reads s n (.lazy id)) (hb : Broken env s id)
    (h : List Query) (limit : Nat) :
    ∃ e, (unitByNameOrSymbol env limit n (after env h s)).1 = .error e := by
  cases hl : (unitByNameOrSymbol env limit n (after env h s)).1 with
  | error e => exact ⟨e, rfl⟩
  | ok r =>
    obtain ⟨d, hd⟩ := (C05_lookup_refines_fixed_registry env s hp hc h limit n).2 r hl
    exact absurd hd (spec_lookup_broken hperm n id hr hb d r)

end Verif

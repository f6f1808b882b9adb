import Verif.Spec.Build
import Verif.Lemmas.Lookup
import Verif.Lemmas.Registry
import Verif.Lemmas.Errors
/-! Fresh registrations are conservative. -/
namespace Verif
open Spec (Den direct firstSplit NoSplit Unread FreshUnit FreshPrefix Spelling prefixes ConflictFree IsName IsAlias Step)

/-- `s'` reads everything `s` reads, in the same way -/
structure Extends (s s' : System) : Prop where
  direct : ∀ n e, direct s n = some e → direct s' n = some e
  split : ∀ n x, Spec.direct s n = none → firstSplit s n (prefixes s) = some x →
    Spec.direct s' n = none ∧ firstSplit s' n (prefixes s') = some x
  heap : ∀ (id : Nat) o, s.heap[id]? = some o → ∃ o', s'.heap[id]? = some o' ∧ o'.defn = o.defn ∧ o'.names = o.names

theorem Extends.refl (s : System) : Extends s s := ⟨fun _ _ h => h, fun _ _ h h' => ⟨h, h'⟩, fun _ o h => ⟨o, h, rfl, rfl⟩⟩

theorem Extends.trans {s s' s'' : System} (h : Extends s s') (h' : Extends s' s'') : Extends s s'' where
  direct n e hd := h'.direct n e (h.direct n e hd)
  split n x hd hx := by
    obtain ⟨a, b⟩ := h.split n x hd hx
    exact h'.split n x a b
  heap id o ho := by
    obtain ⟨o', ho', e1, e2⟩ := h.heap id o ho
    obtain ⟨o'', ho'', e3, e4⟩ := h'.heap id o' ho'
    exact ⟨o'', ho'', e3.trans e1, e4.trans e2⟩

theorem mapM_ok_mono {α β} {f g : α → Py β} (h : ∀ x r, f x = .ok r → g x = .ok r) :
    ∀ (l : List α) (rs : List β), l.mapM f = .ok rs → l.mapM g = .ok rs
  | [], rs, e => e
  | x :: l, rs, e => by
    rw [List.mapM_cons] at e ⊢
    cases hx : f x with
    | error er => rw [hx] at e; cases e
    | ok y =>
      rw [hx] at e
      rw [h x y hx]
      cases hl : l.mapM f with
      | error er => simp only [bind, Except.bind, hl] at e; cases e
      | ok ys =>
        simp only [bind, Except.bind, hl] at e
        simp only [bind, Except.bind, mapM_ok_mono h l ys hl]
        exact e

section
variable {env : Env} {s s' : System}

theorem Extends.resolve (h : Extends s s') {f g : Str → Py Ref} (hf : ∀ n r, f n = .ok r → g n = .ok r) {id : Nat} {r : Ref}
    (hr : Spec.resolve env s f id = .ok r) : Spec.resolve env s' g id = .ok r := by
  unfold Spec.resolve at hr ⊢
  cases ho : s.heap[id]? with
  | none => rw [ho] at hr; cases hr
  | some o =>
    obtain ⟨o', ho', e1, e2⟩ := h.heap id o ho
    rw [ho] at hr
    rw [ho']
    simp only at hr ⊢
    rw [e1, e2]
    cases hp : env.parse o.defn with
    | error er => rw [hp] at hr; cases hr
    | ok expr =>
      rw [hp] at hr
      simp only [bind, Except.bind] at hr ⊢
      split at hr
      · cases hr
      · rename_i rs hm
        have := mapM_ok_mono (f := fun n => (do .ok (n, ← f n) : Py (Str × Ref)))
          (g := fun n => (do .ok (n, ← g n) : Py (Str × Ref))) (by
            intro x y hx
            cases hfx : f x with
            | error er => simp only [bind, Except.bind, hfx] at hx; cases hx
            | ok z => simp only [bind, Except.bind, hfx] at hx; simp only [bind, Except.bind, hf x z hfx]; exact hx)
          _ rs hm
        simp only [bind, Except.bind] at this
        rw [this]
        exact hr

theorem Extends.entry (h : Extends s s') {f g : Str → Py Ref} (hf : ∀ n r, f n = .ok r → g n = .ok r) {e : Entry} {r : Ref}
    (hr : Spec.entry env s f e = .ok r) : Spec.entry env s' g e = .ok r := by
  cases e with
  | unit u => exact hr
  | lazy id => exact h.resolve hf hr

theorem Extends.lookup (h : Extends s s') (d : Nat) {n : Str} {r : Ref} (hr : Spec.lookup env s d n = .ok r) :
    Spec.lookup env s' d n = .ok r := by
  induction d generalizing n r with
  | zero => cases hr
  | succ d ih =>
    have hr : Spec.step env s (Spec.lookup env s d) n = .ok r := hr
    show Spec.step env s' (Spec.lookup env s' d) n = .ok r
    unfold Spec.step at hr ⊢
    cases hd : Spec.direct s n with
    | some e =>
      rw [hd] at hr
      rw [h.direct n e hd]
      exact h.entry (fun n r => ih) hr
    | none =>
      rw [hd] at hr
      simp only at hr
      cases hx : firstSplit s n (s.prefixNames ++ s.prefixSymbols) with
      | none => rw [hx] at hr; cases hr
      | some x =>
        obtain ⟨h1, h2⟩ := h.split n x hd hx
        rw [hx] at hr
        rw [h1]
        simp only [prefixes] at h2
        simp only
        rw [h2]
        obtain ⟨p, pre, rest, e⟩ := x
        simp only at hr ⊢
        cases he : Spec.entry env s (Spec.lookup env s d) e with
        | error er => rw [he] at hr; cases hr
        | ok u =>
          rw [he] at hr
          rw [h.entry (fun n r => ih) he]
          exact hr

theorem Extends.unit (h : Extends s s') (d : Nat) {t : Str} {u : UObj} (hr : Spec.unit env s d t = .ok u) :
    Spec.unit env s' d t = .ok u := by
  unfold Spec.unit at hr ⊢
  cases hp : env.parse t with
  | error er => rw [hp] at hr; cases hr
  | ok expr =>
    rw [hp] at hr
    simp only [bind, Except.bind] at hr ⊢
    split at hr
    · cases hr
    · rename_i rs hm
      have := mapM_ok_mono (f := fun n => (do .ok (n, ← Spec.lookup env s d n) : Py (Str × Ref)))
        (g := fun n => (do .ok (n, ← Spec.lookup env s' d n) : Py (Str × Ref))) (by
          intro x y hx
          cases hfx : Spec.lookup env s d x with
          | error er => simp only [bind, Except.bind, hfx] at hx; cases hx
          | ok z => simp only [bind, Except.bind, hfx] at hx; simp only [bind, Except.bind, h.lookup d hfx]; exact hx)
        _ rs hm
      simp only [bind, Except.bind] at this
      rw [this]
      exact hr

theorem Extends.den (h : Extends s s') {id : Nat} {r : Ref} (hd : Den env s id r) : Den env s' id r := by
  obtain ⟨d, hd⟩ := hd
  exact ⟨d, h.resolve (fun n r => h.lookup d) hd⟩

end

/-! ## Registering a unit -/

theorem direct_register (s : System) (ref : UnitReference) (e : Entry) {k : Str} (hk : ¬ Spelling ref k) :
    direct (s.register ref e) k = direct s k := by
  have h1 : k ∉ nameKeys ref.name := fun h => hk (Or.inl (mem_nameKeys_iff.1 h))
  have h2 : k ∉ aliasKeys ref.aliasNames := fun h => hk (Or.inr (Or.inl (mem_aliasKeys_iff.1 h)))
  have h3 : k ∉ ref.symbols := fun h => hk (Or.inr (Or.inr (Or.inl h)))
  have h4 : k ∉ ref.aliasSymbols := fun h => hk (Or.inr (Or.inr (Or.inr h)))
  unfold direct
  simp only [System.register, get_setAll, if_neg h1, if_neg h2, if_neg h3, if_neg h4]

theorem direct_none {s : System} {k : Str} (h : direct s k = none) :
    Dict.get k s.names = none ∧ Dict.get k s.aliasNames = none ∧ Dict.get k s.symbols = none ∧
      Dict.get k s.aliasSymbols = none := by
  unfold direct at h
  split at h
  · cases h
  · cases h
  · cases h
  · rename_i h1 h2 h3
    exact ⟨h1, h2, h3, h⟩

theorem firstSplit_congr {s s' : System} {n : Str} {l : List (Str × Prefix)}
    (h : ∀ q ∈ l, ∀ rest, n = q.1 ++ rest → direct s' rest = direct s rest) :
    firstSplit s' n l = firstSplit s n l := by
  induction l with
  | nil => rfl
  | cons q l ih =>
    obtain ⟨p, pre⟩ := q
    have ih := ih fun q hq => h q (List.mem_cons_of_mem _ hq)
    simp only [firstSplit]
    cases hd : dropPrefix p n with
    | none => exact ih
    | some rest =>
      simp only
      rw [h (p, pre) (by simp) rest (dropPrefix_eq_some.1 hd), ih]

theorem not_unread_of_split {s : System} {n : Str} {x} (h : firstSplit s n (prefixes s) = some x) : ¬ Unread s n := by
  intro hu
  rw [firstSplit_none.2 hu.2] at h
  cases h

theorem Extends.register {s : System} {ref : UnitReference} (hf : FreshUnit s ref) (e : Entry) :
    Extends s (s.register ref e) where
  direct n e' hd := by
    rw [direct_register]; exact hd
    intro hk
    have := (hf n hk).1.1
    rw [this] at hd; cases hd
  split n x hd hx := by
    have h1 : ¬ Spelling ref n := fun hk => not_unread_of_split hx (hf n hk).1
    refine ⟨by rw [direct_register s ref e h1]; exact hd, ?_⟩
    rw [← hx]
    refine firstSplit_congr fun q hq rest hr => direct_register s ref e fun hk => ?_
    subst hr
    exact not_unread_of_split hx ((hf rest hk).2 q hq hd)
  heap id o ho := ⟨o, ho, rfl, rfl⟩

theorem collision_fresh {s : System} {ref : UnitReference}
    (h : ∀ k, Spelling ref k → direct s k = none) : s.collision ref = none := by
  have key : ∀ {d : Dict Str Entry} {k}, Dict.get k d = none → Dict.has k d = false := by
    intro d k hk; unfold Dict.has; rw [hk]; rfl
  unfold System.collision
  have h1 : (nameKeys ref.name).find? (fun k => Dict.has k s.names) = none := by
    rw [List.find?_eq_none]
    intro k hk
    rw [key (direct_none (h k (Or.inl (mem_nameKeys_iff.1 hk)))).1]; simp
  have h2 : ref.symbols.find? (fun k => Dict.has k s.symbols) = none := by
    rw [List.find?_eq_none]
    intro k hk
    rw [key (direct_none (h k (Or.inr (Or.inr (Or.inl hk))))).2.2.1]; simp
  rw [h1]
  exact h2

/-! ## Registering a prefix -/

theorem set_append {d B : Dict Str Prefix} {k : Str} {v : Prefix} (h : Dict.get k d = none) :
    Dict.set k v (d ++ B) = d ++ Dict.set k v B := by
  induction d with
  | nil => rfl
  | cons q d ih =>
    obtain ⟨k', v'⟩ := q
    rw [Dict.get_cons] at h
    by_cases e : k' = k
    · rw [if_pos e] at h; cases h
    · rw [if_neg e] at h
      show Dict.set k v ((k', v') :: (d ++ B)) = _
      simp only [Dict.set, if_neg e, ih h]
      rfl

theorem set_keys {B : Dict Str Prefix} {k : Str} {v : Prefix} {P : Str → Prop} (hB : ∀ q ∈ B, P q.1) (hk : P k) :
    ∀ q ∈ Dict.set k v B, P q.1 := by
  intro q hq
  have : q.1 ∈ Dict.keys (Dict.set k v B) := List.mem_map_of_mem hq
  rw [Dict.keys_set] at this
  split at this
  · obtain ⟨q', hq', e⟩ := List.mem_map.1 this
    rw [← e]; exact hB q' hq'
  · rcases List.mem_append.1 this with h | h
    · obtain ⟨q', hq', e⟩ := List.mem_map.1 h
      rw [← e]; exact hB q' hq'
    · rw [List.mem_singleton] at h
      rw [h]; exact hk

theorem foldl_set_append {p : Prefix} {P : Str → Prop} : ∀ (ks : List Str) {d B : Dict Str Prefix},
    (∀ k ∈ ks, Dict.get k d = none ∧ P k) → (∀ q ∈ B, P q.1) →
    ∃ B', ks.foldl (fun d k => Dict.set k p d) (d ++ B) = d ++ B' ∧ ∀ q ∈ B', P q.1
  | [], d, B, _, hB => ⟨B, rfl, hB⟩
  | k :: ks, d, B, hk, hB => by
    rw [List.foldl_cons, set_append (hk k (by simp)).1]
    exact foldl_set_append ks (fun k' h => hk k' (by simp [h])) (set_keys hB (hk k (by simp)).2)

theorem Extends.addPrefix {s : System} {p : Prefix} (hf : FreshPrefix s p) : Extends s (s.addPrefix p) where
  direct _ _ hd := hd
  split n x hd hx := by
    refine ⟨hd, ?_⟩
    have hA : Dict.set p.name p s.prefixNames = s.prefixNames ++ [(p.name, p)] := by
      have := set_append (B := []) (v := p) (hf p.name (Or.inl rfl)).1
      rw [List.append_nil] at this
      exact this
    obtain ⟨B, hB, hBk⟩ := foldl_set_append (p := p) (P := fun k => k = p.name ∨ k ∈ p.symbols) p.symbols
      (d := s.prefixSymbols) (B := [])
      (fun k hk => ⟨(hf k (Or.inr hk)).2.1, Or.inr hk⟩) (by intro q hq; cases hq)
    rw [List.append_nil] at hB
    have hpre : prefixes (s.addPrefix p) = (s.prefixNames ++ [(p.name, p)]) ++ (s.prefixSymbols ++ B) := by
      unfold prefixes System.addPrefix
      simp only
      rw [hA, hB]
    have hdir : ∀ l, firstSplit (s.addPrefix p) n l = firstSplit s n l := fun l =>
      firstSplit_congr fun _ _ _ _ => rfl
    rw [hdir, hpre]
    -- the new prefixes do not read `n`
    have hnew : firstSplit s n [(p.name, p)] = none := by
      rw [firstSplit_none]
      intro q hq rest hr
      rw [List.mem_singleton] at hq
      subst hq
      cases hdr : Spec.direct s rest with
      | none => rfl
      | some e =>
        subst hr
        exact absurd ((hf p.name (Or.inl rfl)).2.2 rest (by rw [hdr]; simp) hd) (not_unread_of_split hx)
    unfold prefixes at hx
    rw [firstSplit_append] at hx
    rw [firstSplit_append, firstSplit_append, firstSplit_append, hnew]
    cases h1 : firstSplit s n s.prefixNames with
    | some y => rw [h1] at hx; exact hx
    | none =>
      rw [h1] at hx
      simp only at hx ⊢
      rw [hx]
  heap id o ho := ⟨o, ho, rfl, rfl⟩

theorem Extends.alloc (s : System) (d : Str) (names : UnitReference) : Extends s (s.alloc d names).2 where
  direct _ _ hd := hd
  split n x hd hx := ⟨hd, by rw [← hx]; exact firstSplit_congr fun _ _ _ _ => rfl⟩
  heap id o ho := by
    refine ⟨o, ?_, rfl, rfl⟩
    show (s.heap ++ _)[id]? = _
    rw [List.getElem?_append_left (List.getElem?_eq_some_iff.1 ho).1]
    exact ho

/-! ## The invariant follows the registry -/

section
variable {env : Env} {S0 S S0' : System}

theorem EntRel.mono (h : Extends S0 S0') {a b : Option Entry} (hab : EntRel env S0 a b) : EntRel env S0' a b := by
  rcases hab with rfl | ⟨id, r, h1, h2, h3⟩
  · exact Or.inl rfl
  · exact Or.inr ⟨id, r, h1, h2, h.den h3⟩

theorem EntRel.registerAll (h : Extends S0 S0') {d0 d : Dict Str Entry} (hd : ∀ k, EntRel env S0 (Dict.get k d0) (Dict.get k d))
    (keys : List Str) (e : Entry) (k : Str) :
    EntRel env S0' (Dict.get k (Verif.setAll keys e d0)) (Dict.get k (Verif.setAll keys e d)) := by
  rw [get_setAll, get_setAll]
  by_cases hk : k ∈ keys
  · rw [if_pos hk, if_pos hk]; exact Or.inl rfl
  · rw [if_neg hk, if_neg hk]; exact (hd k).mono h

theorem HeapRel.mono (h : Extends S0 S0') {id : Nat} {a b : Option LazyObj} (hab : HeapRel env S0 id a b) :
    HeapRel env S0' id a b := by
  cases a with
  | none => cases b with
    | none => trivial
    | some o => exact hab.elim
  | some o0 => cases b with
    | none => exact hab.elim
    | some o => exact ⟨hab.1, hab.2.1, fun r hr => h.den (hab.2.2 r hr)⟩

theorem Inv.registerBoth (h : Inv env S0 S) {ref : UnitReference} (hf : FreshUnit S0 ref) (e : Entry) :
    Inv env (S0.register ref e) (S.register ref e) where
  pn := h.pn
  ps := h.ps
  heap id := (h.heap id).mono (Extends.register hf e)
  names := EntRel.registerAll (Extends.register hf e) h.names _ e
  symbols := EntRel.registerAll (Extends.register hf e) h.symbols _ e
  aliasNames := EntRel.registerAll (Extends.register hf e) h.aliasNames _ e
  aliasSymbols := EntRel.registerAll (Extends.register hf e) h.aliasSymbols _ e

theorem Inv.length (h : Inv env S0 S) : S.heap.length = S0.heap.length := by
  have key : ∀ i : Nat, S.heap[i]? = none ↔ S0.heap[i]? = none := by
    intro i
    have hi := h.heap i
    cases h0 : S0.heap[i]? with
    | none =>
      rw [h0] at hi
      cases h1 : S.heap[i]? with
      | none => simp
      | some o => rw [h1] at hi; exact hi.elim
    | some o0 =>
      rw [h0] at hi
      cases h1 : S.heap[i]? with
      | none => rw [h1] at hi; exact hi.elim
      | some o => simp
  have a := key S.heap.length
  have b := key S0.heap.length
  simp only [List.getElem?_eq_none_iff] at a b
  omega

theorem Inv.allocBoth (h : Inv env S0 S) (d : Str) (names : UnitReference) :
    (S.alloc d names).1 = (S0.alloc d names).1 ∧ Inv env (S0.alloc d names).2 (S.alloc d names).2 := by
  refine ⟨h.length, ?_⟩
  have hx := Extends.alloc S0 d names
  exact {
    pn := h.pn
    ps := h.ps
    heap := by
      intro i
      show HeapRel env _ i (S0.heap ++ _)[i]? (S.heap ++ _)[i]?
      by_cases hi : i < S0.heap.length
      · rw [List.getElem?_append_left hi, List.getElem?_append_left (h.length ▸ hi)]
        exact (h.heap i).mono hx
      · rw [List.getElem?_append_right (by omega), List.getElem?_append_right (by have := h.length; omega), h.length]
        cases hj : i - S0.heap.length with
        | zero => exact ⟨rfl, rfl, by intro r hr; cases hr⟩
        | succ j => exact trivial
    names := fun k => (h.names k).mono hx
    symbols := fun k => (h.symbols k).mono hx
    aliasNames := fun k => (h.aliasNames k).mono hx
    aliasSymbols := fun k => (h.aliasSymbols k).mono hx }

theorem EntRel.none_iff {a b : Option Entry} (h : EntRel env S0 a b) : a = none ↔ b = none := by
  rcases h with rfl | ⟨id, r, rfl, rfl, _⟩
  · rfl
  · simp

theorem Inv.direct_none (h : Inv env S0 S) {k : Str} : Spec.direct S0 k = none ↔ Spec.direct S k = none := by
  rw [Spec.direct_eq, Spec.direct_eq]
  exact ((h.nameEntry k).or (h.symbolEntry k)).none_iff

/-- `add_unit` of a unit object goes through in both -/
theorem Inv.addUnitBoth (h : Inv env S0 S) {e : Entry} {ref : UnitReference} (hn : S.namesOf e = .ok ref)
    (hn0 : S0.namesOf e = .ok ref) (hf : FreshUnit S0 ref) :
    (S.addUnit e false).2 = S.register ref e ∧ (S0.addUnit e false).2 = S0.register ref e := by
  have c0 : S0.collision ref = none := collision_fresh fun k hk => (hf k hk).1.1
  have c1 : S.collision ref = none := collision_fresh fun k hk => h.direct_none.1 (hf k hk).1.1
  constructor
  · unfold System.addUnit; simp only [hn, c1]; rfl
  · unfold System.addUnit; simp only [hn0, c0]; rfl

theorem cf_registerUnit {s : System} (hc : ConflictFree s) {ref : UnitReference} (hf : FreshUnit s ref) (e : Entry) :
    ConflictFree (s.register ref e) := by
  have key : ∀ {k id}, direct s k ≠ none → ∀ {keys d}, (∀ k ∈ keys, Spelling ref k) → Dict.get k d = some (Entry.lazy id) →
      Dict.get k (setAll keys e d) = some (.lazy id) := by
    intro k id hk keys d hs hd
    rw [get_setAll, if_neg, hd]
    intro hm
    exact hk (hf k (hs k hm)).1.1
  intro id o ho
  obtain ⟨c1, c2, c3, c4⟩ := hc id o ho
  have d1 : ∀ {k x}, Dict.get k s.names = some x → direct s k ≠ none := by
    intro k x h hn; rw [(Verif.direct_none hn).1] at h; cases h
  have d2 : ∀ {k x}, Dict.get k s.symbols = some x → direct s k ≠ none := by
    intro k x h hn; rw [(Verif.direct_none hn).2.2.1] at h; cases h
  have d3 : ∀ {k x}, Dict.get k s.aliasNames = some x → direct s k ≠ none := by
    intro k x h hn; rw [(Verif.direct_none hn).2.1] at h; cases h
  have d4 : ∀ {k x}, Dict.get k s.aliasSymbols = some x → direct s k ≠ none := by
    intro k x h hn; rw [(Verif.direct_none hn).2.2.2] at h; cases h
  exact ⟨fun k hk => key (d1 (c1 k hk)) (fun k hk => Or.inl (mem_nameKeys_iff.1 hk)) (c1 k hk),
    fun k hk => key (d2 (c2 k hk)) (fun k hk => Or.inr (Or.inr (Or.inl hk))) (c2 k hk),
    fun k hk => key (d3 (c3 k hk)) (fun k hk => Or.inr (Or.inl (mem_aliasKeys_iff.1 hk))) (c3 k hk),
    fun k hk => key (d4 (c4 k hk)) (fun k hk => Or.inr (Or.inr (Or.inr hk))) (c4 k hk)⟩

theorem cf_defineUnit {s : System} (hc : ConflictFree s) {d : Str} {ref : UnitReference} (hf : FreshUnit s ref) :
    ConflictFree ((s.alloc d ref).2.register ref (.lazy s.heap.length)) := by
  have base := cf_registerUnit hc hf (.lazy s.heap.length)
  intro id o ho
  by_cases hid : id < s.heap.length
  · have ho' : s.heap[id]? = some o := by
      have : (s.heap ++ [⟨d, ref, none⟩])[id]? = some o := ho
      rw [List.getElem?_append_left hid] at this
      exact this
    exact base id o ho'
  · have : (s.heap ++ [⟨d, ref, none⟩])[id]? = some o := ho
    have hl := (List.getElem?_eq_some_iff.1 this).1
    simp at hl
    have e : id = s.heap.length := by omega
    subst e
    rw [List.getElem?_append_right (Nat.le_refl _)] at this
    simp at this
    subst this
    have key : ∀ {keys : List Str} {dd : Dict Str Entry} {k}, k ∈ keys →
        Dict.get k (setAll keys (.lazy s.heap.length) dd) = some (.lazy s.heap.length) := by
      intro keys dd k hk
      rw [get_setAll, if_pos hk]
    exact ⟨fun k hk => key hk, fun k hk => key hk, fun k hk => key hk, fun k hk => key hk⟩

theorem fresh_alloc {s : System} {ref : UnitReference} (hf : FreshUnit s ref) (d : Str) (names : UnitReference) :
    FreshUnit (s.alloc d names).2 ref := by
  intro k hk
  obtain ⟨h1, h2⟩ := hf k hk
  exact ⟨h1, fun q hq hd => h2 q hq hd⟩

/-- one step: the live system keeps following the registry -/
theorem Inv.step (h : Inv env S0 S) (hc : ConflictFree S0) (t : Step) (hf : t.Fresh S0) :
    Inv env (t.register S0) (t.apply env S) ∧ ConflictFree (t.register S0) ∧ Extends S0 (t.register S0) := by
  cases t with
  | addPrefix p =>
    have hx := Extends.addPrefix (show FreshPrefix S0 p from hf)
    refine ⟨?_, hc, hx⟩
    exact {
      pn := by show Dict.set _ _ _ = Dict.set _ _ _; rw [h.pn]
      ps := by show List.foldl _ _ _ = List.foldl _ _ _; rw [h.ps]
      heap := fun id => (h.heap id).mono hx
      names := fun k => (h.names k).mono hx
      symbols := fun k => (h.symbols k).mono hx
      aliasNames := fun k => (h.aliasNames k).mono hx
      aliasSymbols := fun k => (h.aliasSymbols k).mono hx }
  | addUnit u =>
    simp only [Step.apply, Step.register]
    have hsame : S.namesOf (.unit u) = S0.namesOf (.unit u) := by
      cases u with
      | unit n d r => cases n <;> rfl
      | _ => rfl
    cases hn : S0.namesOf (.unit u) with
    | error er =>
      have e0 : (S0.addUnit (.unit u) false).2 = S0 := by unfold System.addUnit; rw [hn]
      have e1 : (S.addUnit (.unit u) false).2 = S := by unfold System.addUnit; rw [hsame, hn]
      rw [e0, e1]
      exact ⟨h, hc, Extends.refl _⟩
    | ok ref =>
      have hff : FreshUnit S0 ref := hf ref hn
      obtain ⟨e1, e0⟩ := h.addUnitBoth (hsame.trans hn) hn hff
      rw [e0, e1]
      exact ⟨h.registerBoth hff _, cf_registerUnit hc hff _, Extends.register hff _⟩
  | define d ref =>
    simp only [Step.apply, Step.register]
    have hff : FreshUnit S0 ref := hf
    obtain ⟨hid, hI⟩ := h.allocBoth d ref
    have hn0 : (S0.alloc d ref).2.namesOf (.lazy (S0.alloc d ref).1) = .ok ref := by
      simp [System.namesOf, System.alloc]
    have hn : (S.alloc d ref).2.namesOf (.lazy (S.alloc d ref).1) = .ok ref := by
      simp [System.namesOf, System.alloc]
    rw [hid] at hn ⊢
    obtain ⟨e1, e0⟩ := hI.addUnitBoth hn hn0 (fresh_alloc hff d ref)
    rw [e0, e1]
    exact ⟨hI.registerBoth (fresh_alloc hff d ref) _, cf_defineUnit hc hff,
      (Extends.alloc S0 d ref).trans (Extends.register (fresh_alloc hff d ref) _)⟩
  | query q =>
    refine ⟨?_, hc, Extends.refl _⟩
    exact inv_after hc [q] h

theorem Inv.steps (ts : List Step) {S0 S : System} (h : Inv env S0 S) (hc : ConflictFree S0) (ht : Spec.AllFresh ts S0) :
    Inv env (Spec.registry ts S0) (Spec.live env ts S) ∧ ConflictFree (Spec.registry ts S0) ∧
      Extends S0 (Spec.registry ts S0) := by
  induction ts generalizing S0 S with
  | nil => exact ⟨h, hc, Extends.refl _⟩
  | cons t ts ih =>
    obtain ⟨h1, h2, h3⟩ := h.step hc t ht.1
    obtain ⟨g1, g2, g3⟩ := ih h1 h2 ht.2
    exact ⟨g1, g2, h3.trans g3⟩

theorem allFresh_append (ts us : List Step) (s : System) :
    Spec.AllFresh (ts ++ us) s ↔ Spec.AllFresh ts s ∧ Spec.AllFresh us (Spec.registry ts s) := by
  induction ts generalizing s with
  | nil => simp [Spec.AllFresh, Spec.registry]
  | cons t ts ih =>
    simp only [List.cons_append, Spec.AllFresh, ih, and_assoc]
    rfl

end
end Verif

import Verif.Props.Registry
/-!
# C52: registering a prefix

What `add_prefix` does to lookups.
-/

namespace Verif
open Spec

/-- prefixes are registered in two tables, by name and by symbol, the last registration winning -/
theorem foldl_set_get (p : Prefix) (k : Str) : ∀ (l : List Str) (d : Dict Str Prefix),
    Dict.get k (l.foldl (fun d sym => Dict.set sym p d) d) = if k ∈ l then some p else Dict.get k d
  | [], d => by simp
  | x :: l, d => by
    rw [List.foldl_cons, foldl_set_get p k l, Dict.get_set]
    by_cases h1 : k ∈ l
    · simp [h1]
    · by_cases h2 : k = x
      · simp [h2]
      · simp [h1, h2]

theorem mem_set {k k' : Str} {v v' : Prefix} : ∀ {d : Dict Str Prefix},
    (k', v') ∈ Dict.set k v d → (k' = k ∧ v' = v) ∨ (k', v') ∈ d
  | [], h => by
    simp [Dict.set] at h; exact Or.inl h
  | (k0, v0) :: d, h => by
    by_cases h0 : k0 = k
    · simp only [Dict.set, h0, if_true] at h
      rcases List.mem_cons.1 h with h | h
      · cases h; exact Or.inl ⟨rfl, rfl⟩
      · exact Or.inr (List.mem_cons_of_mem _ h)
    · simp only [Dict.set, h0, if_false] at h
      rcases List.mem_cons.1 h with h | h
      · rw [h]; exact Or.inr (List.mem_cons_self ..)
      · rcases mem_set h with h | h
        · exact Or.inl h
        · exact Or.inr (List.mem_cons_of_mem _ h)

theorem mem_foldl_set {k' : Str} {p v' : Prefix} : ∀ (l : List Str) (d : Dict Str Prefix),
    (k', v') ∈ l.foldl (fun d sym => Dict.set sym p d) d → (k' ∈ l ∧ v' = p) ∨ (k', v') ∈ d
  | [], d, h => Or.inr h
  | x :: l, d, h => by
    rcases mem_foldl_set l _ h with ⟨a, b⟩ | h
    · exact Or.inl ⟨List.mem_cons_of_mem _ a, b⟩
    · rcases mem_set h with ⟨a, b⟩ | h
      · exact Or.inl ⟨a ▸ List.mem_cons_self .., b⟩
      · exact Or.inr h

theorem set_split {k q : Str} {v w : Prefix} (hq : k ≠ q) : ∀ {d b a : Dict Str Prefix},
    d = b ++ (q, w) :: a → ∃ b' a', Dict.set k v d = b' ++ (q, w) :: a' ∧ ∀ x ∈ b', ∃ y ∈ b, x.1 = y.1
  | _, [], a, rfl => ⟨[], Dict.set k v a, by
      show Dict.set k v ((q, w) :: a) = _
      simp [Dict.set, Ne.symm hq], by simp⟩
  | _, (k0, v0) :: b, a, rfl => by
    show ∃ b' a', Dict.set k v ((k0, v0) :: (b ++ (q, w) :: a)) = _ ∧ _
    by_cases h0 : k0 = k
    · refine ⟨(k, v) :: b, a, by simp [Dict.set, h0], ?_⟩
      intro x hx
      rcases List.mem_cons.1 hx with rfl | hx
      · exact ⟨(k0, v0), by simp, h0.symm⟩
      · exact ⟨x, by simp [hx], rfl⟩
    · obtain ⟨b', a', h1, h2⟩ := set_split (v := v) (w := w) hq (d := b ++ (q, w) :: a) (b := b) (a := a) rfl
      refine ⟨(k0, v0) :: b', a', by simp [Dict.set, h0, h1], ?_⟩
      intro x hx
      rcases List.mem_cons.1 hx with rfl | hx
      · exact ⟨(k0, v0), by simp, rfl⟩
      · obtain ⟨y, hy, e⟩ := h2 x hx
        exact ⟨y, by simp [hy], e⟩

/-- **C52.** After `add_prefix(p)` the prefix is registered under its name and each of its symbols,
every other prefix spelling keeps its prefix, and no unit spelling changes its meaning. -/
theorem C52_prefix_registered (s : System) (p : Prefix) (k : Str) :
    Dict.get k (s.addPrefix p).prefixNames = (if k = p.name then some p else Dict.get k s.prefixNames) ∧
    Dict.get k (s.addPrefix p).prefixSymbols =
      (if k ∈ p.symbols then some p else Dict.get k s.prefixSymbols) ∧
    direct (s.addPrefix p) k = direct s k :=
  ⟨Dict.get_set _ _ _ _, foldl_set_get p k _ _, rfl⟩

/-- **C52.** A unit that is found without a prefix is still found, the same one, after `add_prefix`. -/
theorem C52_direct_spellings_keep {env : Env} {s : System} (hr : Reachable env s) (p : Prefix)
    (k : Str) (limit : Nat) (r : Ref) (hd : direct s k = some (.unit r)) :
    unitByNameOrSymbol env (limit + 1) k s = (.ok r, s) ∧
    unitByNameOrSymbol env (limit + 1) k (s.addPrefix p) = (.ok r, s.addPrefix p) :=
  ⟨(lookup_of_direct hr.sysOk hd limit).1 r rfl,
   (lookup_of_direct (Reachable.addPrefix p hr).sysOk (show direct (s.addPrefix p) k = _ from hd) limit).1 r rfl⟩

/-- **C52.** After `add_prefix(p)`, the name of `p` and each of its symbols can be put in front of every
registered spelling: the lookup is never answered with "unknown unit". -/
theorem C52_prefixed_spellings_found {env : Env} (hp : env.ParserOk) {s : System} (hr : Reachable env s)
    (p : Prefix) (k rest : Str) (hk : k = p.name ∨ k ∈ p.symbols) (hd : direct s rest ≠ none) (limit : Nat) :
    (unitByNameOrSymbol env (limit + 1) (k ++ rest) (s.addPrefix p)).1 ≠ .error (.unresolvable (k ++ rest)) := by
  intro h
  obtain ⟨_, hs⟩ := (C04_lookup_precedence hp (Reachable.addPrefix p hr) limit _).2.2.2.2.1.1 h
  obtain ⟨h1, h2, _⟩ := C52_prefix_registered s p k
  have : (k, p) ∈ (s.addPrefix p).prefixNames ++ (s.addPrefix p).prefixSymbols := by
    rcases hk with hk | hk
    · rw [if_pos hk] at h1; exact List.mem_append_left _ (Dict.get_mem h1)
    · rw [if_pos hk] at h2; exact List.mem_append_right _ (Dict.get_mem h2)
  exact hd (hs _ this rest rfl)

/-- …and if no other prefix spelling reads it, what is found is `p` times the unit. -/
theorem C52_prefixed_unit {env : Env} (hp : env.ParserOk) {s : System} (hr : Reachable env s)
    (p : Prefix) (k rest : Str) (u : Ref) (hk : k = p.name ∨ k ∈ p.symbols)
    (hd : direct s rest = some (.unit u)) (hfree : direct s (k ++ rest) = none)
    (honly : ∀ q ∈ s.prefixNames ++ s.prefixSymbols, ∀ rest', k ++ rest = q.1 ++ rest' → direct s rest' = none)
    (hown : ∀ q, q = p.name ∨ q ∈ p.symbols → ∀ rest', k ++ rest = q ++ rest' → direct s rest' ≠ none → q = k)
    (limit : Nat) :
    unitByNameOrSymbol env (limit + 1) (k ++ rest) (s.addPrefix p) = (prefixed k p rest u, s.addPrefix p) := by
  have hne := C52_prefixed_spellings_found hp hr p k rest hk (by rw [hd]; simp) limit
  have hc := C04_lookup_precedence hp (Reachable.addPrefix p hr) limit (k ++ rest)
  cases hf : firstSplit (s.addPrefix p) (k ++ rest)
      ((s.addPrefix p).prefixNames ++ (s.addPrefix p).prefixSymbols) with
  | none => exact absurd (hc.2.2.2.2.1.2 ⟨hfree, firstSplit_none.1 hf⟩) hne
  | some x =>
    obtain ⟨p', pre', rest', e'⟩ := x
    have hF := firstSplit_some hf
    obtain ⟨hn, hd', b, a, hl, _⟩ := hF
    have hd2 : direct s rest' = some e' := hd'
    have hm : (p', pre') ∈ (s.addPrefix p).prefixNames ++ (s.addPrefix p).prefixSymbols := by
      rw [hl]; simp
    have hin : ((p' = p.name ∨ p' ∈ p.symbols) ∧ pre' = p) ∨ (p', pre') ∈ s.prefixNames ++ s.prefixSymbols := by
      rcases List.mem_append.1 hm with hm | hm
      · rcases mem_set hm with ⟨a, b⟩ | a
        · exact Or.inl ⟨Or.inl a, b⟩
        · exact Or.inr (List.mem_append_left _ a)
      · rcases mem_foldl_set _ _ hm with ⟨a, b⟩ | a
        · exact Or.inl ⟨Or.inr a, b⟩
        · exact Or.inr (List.mem_append_right _ a)
    rcases hin with ⟨hq, rfl⟩ | hq
    · have hqk := hown p' hq rest' hn (by rw [hd2]; simp)
      subst hqk
      have hrr := List.append_cancel_left hn
      subst hrr
      rw [hd] at hd2; cases hd2
      exact hc.2.2.1 hfree _ _ _ _ (firstSplit_some hf)
    · rw [honly _ hq rest' hn] at hd2; cases hd2

/-- Non-vacuity: `Mega` is a new prefix, `Mmetre` becomes `M·metre` (and was unknown before). -/
def Demo.mega : Prefix := ⟨c!"mega", c!"1e6", [c!"M"]⟩
example : (unitByNameOrSymbol Demo.env 3 c!"Mmetre" Demo.sys).1 = .error (.unresolvable c!"Mmetre") ∧
    (unitByNameOrSymbol Demo.env 3 c!"Mmetre" (Demo.sys.addPrefix Demo.mega)).1.map Ref.str = .ok c!"M·metre" := by
  decide +kernel
example : ∀ q ∈ Demo.sys.prefixNames ++ Demo.sys.prefixSymbols, ∀ rest',
    c!"M" ++ c!"metre" = q.1 ++ rest' → direct Demo.sys rest' = none :=
  firstSplit_none.1 (by decide +kernel)

/-- …a spelling that was read with a prefix *name* keeps that reading when a different prefix is added. -/
theorem C52_prefix_names_keep {s : System} (p : Prefix) {n q rest : Str} {pre : Prefix} {e : Entry}
    (h : FirstSplit s n s.prefixNames q pre rest e) (hq : q ≠ p.name) :
    FirstSplit (s.addPrefix p) n ((s.addPrefix p).prefixNames ++ (s.addPrefix p).prefixSymbols) q pre rest e := by
  obtain ⟨hn, hd, b, a, hl, hb⟩ := h
  obtain ⟨b', a', hl', hb'⟩ := set_split (v := p) (Ne.symm hq) hl
  refine ⟨hn, hd, b', a' ++ (s.addPrefix p).prefixSymbols, ?_, ?_⟩
  · show Dict.set p.name p s.prefixNames ++ _ = _
    rw [hl']; simp
  · intro x hx rest' hr'
    obtain ⟨y, hy, hxy⟩ := hb' x hx
    exact hb y hy rest' (by rw [hr', hxy])

/-- prefixes `d` (symbol) and the units `am`, `m` -/
def Demo.damClash : System :=
  (System.empty.addPrefix ⟨c!"deci", c!"1e-1", [c!"d"]⟩) |> Demo.addBasis Demo.metre
    |> Demo.addBasis ⟨c!"attometre", false, false, Demo.named c!"attometre" c!"attometres" [c!"am"]⟩
def Demo.deca : Prefix := ⟨c!"da", c!"1e1", []⟩

/-- **C52**, refutation of the stronger claim: adding a prefix can change what a spelling means that
was read with a prefix *symbol* before (`dam` = d·am turns into da·m). -/
theorem C52_prefix_symbols_keep_refuted :
    ¬ ∀ (env : Env) (s : System) (p : Prefix) (n : Str) (r : Ref), Reachable env s →
        Dict.get p.name s.prefixNames = none → (∀ y ∈ p.symbols, Dict.get y s.prefixSymbols = none) →
        (unitByNameOrSymbol env 3 n s).1 = .ok r →
        ((unitByNameOrSymbol env 3 n (s.addPrefix p)).1.map Ref.str) = .ok r.str := by
  intro h
  cases hr : (unitByNameOrSymbol Demo.env 3 c!"dam" Demo.damClash).1 with
  | error e =>
    have : ((unitByNameOrSymbol Demo.env 3 c!"dam" Demo.damClash).1.map Ref.str) = .ok c!"d·am" := by decide +kernel
    rw [hr] at this; cases this
  | ok r =>
    have h0 : ((unitByNameOrSymbol Demo.env 3 c!"dam" Demo.damClash).1.map Ref.str) = .ok c!"d·am" := by decide +kernel
    rw [hr] at h0
    have h1 := h Demo.env Demo.damClash Demo.deca c!"dam" r
      (Demo.addBasis_reachable (Demo.addBasis_reachable (.addPrefix _ .empty) _) _)
      (by decide +kernel) (by decide +kernel) hr
    have h2 : ((unitByNameOrSymbol Demo.env 3 c!"dam" (Demo.damClash.addPrefix Demo.deca)).1.map Ref.str)
      = .ok c!"da·m" := by decide +kernel
    rw [h2] at h1
    have h0 : Except.ok r.str = (Except.ok c!"d·am" : Py Str) := h0
    rw [← h1] at h0
    exact absurd (Except.ok.inj h0) (by decide)

end Verif

import Verif.Lemmas.Understood
/-!
# C79: exactly which words and texts the shipped database understands

`Spec.Understood` says in terms of the declarations of `udunits2_combined.xml` which words have a meaning.
-/

namespace Verif
open Spec (Query after Understood Hopeless WordError ReadingError ShiftFree)

namespace Db

theorem unit_after {env : Env} {s : System} (hp : Spec.Pristine s) (hc : Spec.ConflictFree s) (hist : List Query) {d limit : Nat}
    (hd : d ≤ limit) (t : Str) (hne : Spec.unit env s d t ≠ .error .recursionError) :
    (System.unit env limit t (after env hist s)).1 = Spec.unit env s d t := by
  obtain ⟨_, _, hf⟩ := sim_unit hc limit t _ (inv_after hc hist (Inv.init env hp))
  rcases Le.trans (spec_unit_mono env s t hd) hf with h | h
  · exact absurd h hne
  · exact h.symm

theorem wordError_ne {x : PyErr} (h : WordError x) : x ≠ .recursionError := by
  rintro rfl
  rcases h with h | ⟨m, h, _⟩ <;> cases h

end Db

/-- **C79** (words). Load the shipped database in any way and use it in any way.  A word resolves exactly if it is understood: then it
resolves whenever the recursion limit allows 9 nested lookups, and otherwise it resolves under no limit. -/
theorem C79_words (strict : Bool) (o q : List Str → List Str) (ho : ∀ l, (o l).Perm l) (hq : ∀ l, (q l).Perm l)
    (s : System) (hs : parseSystem strict q Db.unitSystem = .ok s) (hist : List Query) (n : Str) :
    (Understood n → ∀ limit, 9 ≤ limit → ∃ u, (unitByNameOrSymbol ⟨parse, o⟩ limit n (after ⟨parse, o⟩ hist s)).1 = .ok u) ∧
    (¬ Understood n → ∀ limit, ∃ x, (unitByNameOrSymbol ⟨parse, o⟩ limit n (after ⟨parse, o⟩ hist s)).1 = .error x) := by
  obtain ⟨pf, hpf⟩ : ∃ pf, pf = parse := ⟨_, rfl⟩
  rw [← hpf]
  obtain ⟨_, _, _, _, _, hpr, hcf⟩ := Db.loaded hq hs
  obtain ⟨w1, w2, w3⟩ := Db.word_lookup hpf ho hq hs n
  constructor
  · intro hu limit hlim
    obtain ⟨r, hr⟩ := w1 hu
    exact ⟨r, by rw [(C05_lookup_refines_fixed_registry ⟨pf, o⟩ s hpr hcf hist limit n).1 9 hlim (by rw [hr]; simp), hr]⟩
  · intro hu limit
    cases hl : (unitByNameOrSymbol ⟨pf, o⟩ limit n (after ⟨pf, o⟩ hist s)).1 with
    | error x => exact ⟨x, rfl⟩
    | ok r =>
      exfalso
      obtain ⟨d, hd⟩ := (C05_lookup_refines_fixed_registry ⟨pf, o⟩ s hpr hcf hist limit n).2 r hl
      have hd9 : Spec.lookup ⟨pf, o⟩ s (max d 9) n = .ok r := by
        rcases Spec.lookup_mono ⟨pf, o⟩ s (Nat.le_max_left d 9) n with h | h
        · rw [hd] at h; cases h
        · rw [← h, hd]
      have herr : ∃ x, Spec.lookup ⟨pf, o⟩ s 9 n = .error x ∧ x ≠ .recursionError := by
        by_cases hh : Hopeless n
        · obtain ⟨x, hx, hw⟩ := w3 hh; exact ⟨x, hx, Db.wordError_ne hw⟩
        · exact ⟨_, w2 hu hh, by simp⟩
      obtain ⟨x, hx, hne⟩ := herr
      rcases Spec.lookup_mono ⟨pf, o⟩ s (Nat.le_max_right d 9) n with h | h
      · rw [hx] at h; exact hne (Except.error.inj h)
      · rw [hd9, hx] at h; cases h

/-- **C79** (words, the exceptions). A word that is not understood is reported: `UnresolvableUnitException` names the word itself,
unless the word stands for one of the 22 unusable spellings, where the complaint is about their definitions. -/
theorem C79_word_errors (strict : Bool) (o q : List Str → List Str) (ho : ∀ l, (o l).Perm l) (hq : ∀ l, (q l).Perm l)
    (s : System) (hs : parseSystem strict q Db.unitSystem = .ok s) (hist : List Query) (limit : Nat) (hlim : 9 ≤ limit) (n : Str) :
    (¬ Understood n → ¬ Hopeless n →
      (unitByNameOrSymbol ⟨parse, o⟩ limit n (after ⟨parse, o⟩ hist s)).1 = .error (.unresolvable n)) ∧
    (Hopeless n → ¬ Understood n ∧
      ∃ x, (unitByNameOrSymbol ⟨parse, o⟩ limit n (after ⟨parse, o⟩ hist s)).1 = .error x ∧ WordError x) := by
  obtain ⟨pf, hpf⟩ : ∃ pf, pf = parse := ⟨_, rfl⟩
  rw [← hpf]
  obtain ⟨_, _, _, _, _, hpr, hcf⟩ := Db.loaded hq hs
  obtain ⟨w1, w2, w3⟩ := Db.word_lookup hpf ho hq hs n
  have hC := (C05_lookup_refines_fixed_registry ⟨pf, o⟩ s hpr hcf hist limit n).1 9 hlim
  constructor
  · intro h1 h2
    rw [hC (by rw [w2 h1 h2]; simp), w2 h1 h2]
  · intro h
    obtain ⟨x, hx, hw⟩ := w3 h
    refine ⟨Db.hopeless_not_understood h, x, ?_, hw⟩
    rw [hC (by rw [hx]; intro h'; exact Db.wordError_ne hw (Except.error.inj h')), hx]

/-- **C79** (texts). `unit(text)` on the shipped database: a text that does not parse raises `SyntaxError`; one with a word that is not
understood raises an exception about a word without meaning — if none of its words stands for an unusable spelling,
`UnresolvableUnitException` naming one of the words of the text; one whose words are all understood never raises a
reading error, and is a unit if it has no offset. -/
theorem C79_texts (strict : Bool) (o q : List Str → List Str) (ho : ∀ l, (o l).Perm l) (hq : ∀ l, (q l).Perm l)
    (s : System) (hs : parseSystem strict q Db.unitSystem = .ok s) (hist : List Query) (limit : Nat) (hlim : 9 ≤ limit) (t : Str) :
    (∀ x, parse t = .error x → (System.unit ⟨parse, o⟩ limit t (after ⟨parse, o⟩ hist s)).1 = .error .syntaxError) ∧
    (∀ e, parse t = .ok e →
      ((∃ n ∈ e.identifiers, ¬ Understood n) →
        ∃ x, (System.unit ⟨parse, o⟩ limit t (after ⟨parse, o⟩ hist s)).1 = .error x ∧ WordError x ∧
          ((∀ n ∈ e.identifiers, ¬ Hopeless n) → ∃ n ∈ e.identifiers, x = .unresolvable n ∧ ¬ Understood n)) ∧
      ((∀ n ∈ e.identifiers, Understood n) →
        (∀ x, (System.unit ⟨parse, o⟩ limit t (after ⟨parse, o⟩ hist s)).1 = .error x → ¬ ReadingError x) ∧
        (ShiftFree e → ∃ r, (System.unit ⟨parse, o⟩ limit t (after ⟨parse, o⟩ hist s)).1 = .ok (.unit r)))) := by
  obtain ⟨pf, hpf⟩ : ∃ pf, pf = parse := ⟨_, rfl⟩
  have hsyn : ∀ x, pf t = .error x → x = .syntaxError := fun x hx => C30_only_syntax_errors t x (by rw [← hpf]; exact hx)
  rw [← hpf]
  obtain ⟨_, _, _, _, _, hpr, hcf⟩ := Db.loaded hq hs
  have hw := Db.word_lookup hpf ho hq hs
  have hU := Db.unit_after (env := ⟨pf, o⟩) hpr hcf hist hlim t
  refine ⟨?_, ?_⟩
  · intro x hx
    have h1 : Spec.unit ⟨pf, o⟩ s 9 t = .error .syntaxError := by
      unfold Spec.unit
      simp only [bind, Except.bind, hx, hsyn x hx]
    rw [hU (by rw [h1]; simp), h1]
  intro e he
  constructor
  · rintro ⟨n, hn, hnu⟩
    have bad : ∀ k, ¬ Understood k → ∃ x, Spec.lookup ⟨pf, o⟩ s 9 k = .error x ∧ WordError x ∧ (¬ Hopeless k → x = .unresolvable k) := by
      intro k hk
      by_cases hh : Hopeless k
      · obtain ⟨x, hx, hw⟩ := (hw k).2.2 hh; exact ⟨x, hx, hw, fun h => absurd hh h⟩
      · exact ⟨_, (hw k).2.1 hk hh, .inr ⟨k, rfl, hk⟩, fun _ => rfl⟩
    obtain ⟨x, h1, h2, k, hk, h3⟩ := Db.mapM_refs_fail (look := Spec.lookup ⟨pf, o⟩ s 9) (P := WordError) (o e.identifiers)
      (by
        intro k _
        by_cases hu : Understood k
        · exact .inl ((hw k).1 hu)
        · obtain ⟨x, hx, hw, _⟩ := bad k hu; exact .inr ⟨x, hx, hw⟩)
      (by
        obtain ⟨x, hx, _⟩ := bad n hnu
        exact ⟨n, (ho _).symm.subset hn, x, hx⟩)
    have h4 : Spec.unit ⟨pf, o⟩ s 9 t = .error x := by
      unfold Spec.unit
      simp only [bind, Except.bind] at h1 ⊢
      rw [he]
      simp only
      rw [h1]
    refine ⟨x, ?_, h2, fun hnh => ⟨k, (ho _).subset hk, ?_⟩⟩
    · rw [hU (by rw [h4]; intro h; exact Db.wordError_ne h2 (Except.error.inj h)), h4]
    · have hku : ¬ Understood k := by
        intro hu
        obtain ⟨r, hr⟩ := (hw k).1 hu
        rw [hr] at h3; cases h3
      have := (hw k).2.1 hku (hnh k ((ho _).subset hk))
      rw [this] at h3
      exact ⟨(Except.error.inj h3).symm, hku⟩
  · intro hall
    obtain ⟨refs, hrefs⟩ := mapM_refs_total (look := Spec.lookup ⟨pf, o⟩ s 9) (ids := o e.identifiers)
      (fun k hk => (hw k).1 (hall k ((ho _).subset hk)))
    have h4 : Spec.unit ⟨pf, o⟩ s 9 t = unitFromExpr e refs := by
      unfold Spec.unit
      simp only [bind, Except.bind] at hrefs ⊢
      rw [he]
      simp only
      rw [hrefs]
    have hclean := clean_unitFromExpr e refs
    have h5 : (System.unit ⟨pf, o⟩ limit t (after ⟨pf, o⟩ hist s)).1 = unitFromExpr e refs := by
      rw [hU ?_, h4]
      rw [h4]
      intro h
      exact hclean _ h
    rw [h5]
    constructor
    · intro x hx
      have hc := hclean x hx
      rintro (rfl | ⟨m, rfl⟩ | rfl) <;> exact hc
    · intro hsf
      have h6 := mkUnit_shiftFree none refs e hsf
      refine ⟨.unit none e refs, ?_⟩
      cases e with
      | shift u f => exact absurd hsf (by simp [ShiftFree])
      | _ => unfold unitFromExpr; simp only [bind, Except.bind, h6]

/-- **C79** (texts, converse): whatever the limit, a text that makes a unit parses, and all its words are understood. -/
theorem C79_texts_only (strict : Bool) (o q : List Str → List Str) (ho : ∀ l, (o l).Perm l) (hq : ∀ l, (q l).Perm l)
    (s : System) (hs : parseSystem strict q Db.unitSystem = .ok s) (hist : List Query) (limit : Nat) (t : Str) (u : UObj)
    (h : (System.unit ⟨parse, o⟩ limit t (after ⟨parse, o⟩ hist s)).1 = .ok u) :
    ∃ e, parse t = .ok e ∧ ∀ n ∈ e.identifiers, Understood n := by
  have hbig : (System.unit ⟨parse, o⟩ (max limit 9) t (after ⟨parse, o⟩ hist s)).1 = .ok u := by
    obtain ⟨_, _, _, _, _, hpr, hcf⟩ := Db.loaded hq hs
    have hA := (sim_unit (env := ⟨parse, o⟩) hcf limit t _ (inv_after hcf hist (Inv.init _ hpr))).2.1
    obtain ⟨F, hF⟩ := hA
    rw [h] at hF
    have hF' : Spec.unit ⟨parse, o⟩ s F t = .ok u := hF.ok
    have hB := C05_unit_independent_of_history ⟨parse, o⟩ s hpr hcf hist hist limit (max limit 9) t (by rw [h]; simp)
    by_cases hr : (System.unit ⟨parse, o⟩ (max limit 9) t (after ⟨parse, o⟩ hist s)).1 = .error .recursionError
    · exfalso
      obtain ⟨c1, c2⟩ := C79_texts strict o q ho hq s hs hist (max limit 9) (Nat.le_max_right ..) t
      cases hp : parse t with
      | error x => rw [c1 x hp] at hr; cases hr
      | ok e =>
        obtain ⟨d1, d2⟩ := c2 e hp
        by_cases hall : ∀ n ∈ e.identifiers, Understood n
        · exact (d2 hall).1 _ hr (.inr (.inr rfl))
        · simp only [not_forall] at hall
          obtain ⟨n, hn, hnu⟩ := hall
          obtain ⟨x, hx, hw, _⟩ := d1 ⟨n, hn, hnu⟩
          rw [hr] at hx
          exact Db.wordError_ne hw (Except.error.inj hx).symm
    · rw [← hB hr, h]
  obtain ⟨c1, c2⟩ := C79_texts strict o q ho hq s hs hist (max limit 9) (Nat.le_max_right ..) t
  cases hp : parse t with
  | error x => rw [c1 x hp] at hbig; cases hbig
  | ok e =>
    refine ⟨e, rfl, fun n hn => Classical.byContradiction fun hnu => ?_⟩
    obtain ⟨x, hx, _⟩ := (c2 e hp).1 ⟨n, hn, hnu⟩
    rw [hbig] at hx; cases hx

/-! ## Non-vacuity -/

namespace Db

/-- a word without reading is not understood, and stands for nothing -/
theorem unread_word {n : Str} (h : readsB tree pres n = none) : ¬ Understood n ∧ ¬ Hopeless n := by
  obtain ⟨s0, _, ht, hpp, _⟩ := base
  obtain ⟨c1, c2, _⟩ := reads_cases ht hpp n
  have hn := readsB_none ht (n := n) (by rw [hpp]; exact h)
  exact ⟨fun hu => (c1 hu).elim fun e he => hn e he.1, fun hu => (c2 hu).elim fun i hi => hn _ hi.1⟩

theorem claimed_of_find {n : Str} (h : (tree.find (enc n)).isSome = true) : Claimed n := by
  obtain ⟨s0, _, ht, _⟩ := base
  rw [ht] at h
  obtain ⟨e, he⟩ := Option.isSome_iff_exists.1 h
  exact (direct_iff ht n).1 ⟨e, he⟩

theorem not_claimed_of_find {n : Str} (h : tree.find (enc n) = none) : ¬ Claimed n := by
  obtain ⟨s0, _, ht, _⟩ := base
  rw [ht] at h
  intro hc
  obtain ⟨e, he⟩ := (direct_iff ht n).2 hc
  rw [h] at he; cases he

end Db

/-- Non-vacuity of C79: an understood word of each kind, one that stands for an unusable spelling, one that means nothing. -/
theorem C79_example_words : Understood c!"furlong" ∧ Understood c!"kilofurlong" ∧ Hopeless c!"marcsecond" ∧
    (¬ Understood c!"blorp" ∧ ¬ Hopeless c!"blorp") := by
  refine ⟨.inl ⟨Db.claimed_of_find (by decide +kernel), by decide +kernel⟩,
    .inr ⟨Db.not_claimed_of_find (by decide +kernel), c!"kilo", 1000, c!"furlong", by decide +kernel, rfl,
      Db.claimed_of_find (by decide +kernel), by decide +kernel⟩,
    .inr ⟨Db.not_claimed_of_find (by decide +kernel), c!"m", 1/1000, c!"arcsecond", by decide +kernel, rfl, by decide +kernel⟩,
    Db.unread_word (by decide +kernel)⟩

/-- … and a text with understood words only. -/
example : ∃ e, parse c!"kilofurlong/furlong2" = .ok e ∧ ShiftFree e ∧ e.identifiers = [c!"kilofurlong", c!"furlong"] := by
  refine ⟨.div (.ident c!"kilofurlong") (.raise (.ident c!"furlong") (.number (.int 2) (some c!"2"))), by decide +kernel, ?_, by decide +kernel⟩
  exact ⟨trivial, trivial, trivial⟩

end Verif

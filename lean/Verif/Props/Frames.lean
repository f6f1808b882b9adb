import Verif.Lemmas.FramesShipped
import Verif.Lemmas.FramesDeep
import Verif.Props.ParserDepth
/-!
# C83: using units under Python's recursion limit

`Frames.f k` is what `f` does with `k` nested calls left.
-/

namespace Verif
open Spec ParserTable
set_option maxRecDepth 100000

/-- **C83.** For every unit `dimensionality()` needs some number of nested calls: with as many it does what it does without limit, with
fewer it raises `RecursionError`; and that number is at most the number of definitions the unit runs through, twice the depth
of the deepest of them, and 3. -/
theorem C83_dimensionality (r : Ref) : Needs (Frames.dims r) r.dims (r.chain + 2 * r.deepest + 3) := Frames.needs_dims r

/-- **C83.** … and `is_time_unit()` one more; … -/
theorem C83_is_time_unit (r : Ref) : Needs (Frames.isTimeUnit r) r.isTimeUnit (r.chain + 2 * r.deepest + 4) := Frames.needs_isTimeUnit r

/-- **C83.** … `str(unit)` needs its depth and 2 more; … -/
theorem C83_str (r : Ref) : Needs (Frames.unitStr r) (.ok r.str) (r.deepest + 2) := Frames.needs_unitStr r

/-- **C83.** … and `expanded()` of a unit or a date twice the definitions and their depth, or the depth of what it returns. -/
theorem C83_expanded (x : UObj) : Needs (Frames.expanded x) x.expanded
    (max (2 * x.ref.chain + 2 * x.ref.deepest + 2) (x.ref.unfolded + 1) + 2) := Frames.needs_expanded x

/-- **C83.** What comparing and converting start with needs twice as much of the latter. -/
theorem C83_symbolic_definition (r : Ref) : Needs (Frames.symbolic r) (r.expand >>= fun e => e.split true)
    (max (2 * r.chain + 2 * r.deepest + 2) (2 * r.unfolded + 2) + 1) := Frames.needs_symbolic r

/-- **C83.** Making the unit or date of an expression whose words are looked up: the same, and twice its depth. -/
theorem C83_made (e : Node) (refs : List (Str × Ref)) : Needs (Frames.unitFromExpr e refs) (unitFromExpr e refs)
    (2 * e.depth + Ref.chainAll refs + 2 * Ref.deepestAll refs + 9) := Frames.needs_unitFromExpr e refs

/-- **C83.** Finding the words of an expression. -/
theorem C83_identifiers (e : Node) : Needs (Frames.identifiers e) (.ok e.identifiers) (2 * e.depth + 3) := Frames.needs_identifiers e

/-- **C83.** Load the shipped database and use it in any way; take any text that `unit()` accepts, and any recursion limit of 222 or
more under which the text can be parsed at all.  Under that limit the unit can be made, its dimensionality asked, and the unit
be expanded and split for comparing and converting: the parser needs more nested calls than all that follows. -/
theorem C83_shipped {A : Atn} (hA : deserialize parserAtnData = some A) (recover : PSim.Recover)
    {lexer : Caches} {parser : List PSim.PDfa} (hl : CacheHistory lexer) (hp : PSim.ParserHistory A parser)
    (strict : Bool) (o q : List Str → List Str) (ho : ∀ l, (o l).Perm l) (hq : ∀ l, (q l).Perm l)
    (s : System) (hs : parseSystem strict q Db.unitSystem = .ok s) (hist : List Query) (lookups : Nat) (t : Str) (x : UObj)
    (hx : (System.unit ⟨parse, o⟩ lookups t (after ⟨parse, o⟩ hist s)).1 = .ok x) (limit : Nat) (hlimit : 222 ≤ limit)
    (lexer' : Caches) (parser' : List PSim.PDfa) (e : Node)
    (he : PSim.generatedParseLim limit recover t lexer parser = some (.ok e, lexer', parser')) :
    Frames.identifiers e limit = .ok e.identifiers ∧
    (∃ refs, unitFromExpr e refs = .ok x ∧ Frames.unitFromExpr e refs limit = .ok x) ∧
    Frames.dims x.ref limit = x.ref.dims ∧ Frames.isTimeUnit x.ref limit = x.ref.isTimeUnit ∧
    Frames.unitStr x.ref limit = .ok x.ref.str ∧ Frames.expanded x limit = x.expanded ∧
    Frames.symbolic x.ref limit = (x.ref.expand >>= fun e => e.split true) := by
  obtain ⟨need, _, h2, h3⟩ := PSim.C75_threshold hA recover t
  obtain ⟨l', p', h⟩ := h3 limit hl hp
  rw [he] at h
  have h := congrArg Prod.fst (Option.some.inj h)
  dsimp only at h
  have hn : need ≤ limit := by
    by_cases hn : need ≤ limit
    · exact hn
    · rw [if_neg hn] at h; cases h
  rw [if_pos hn] at h
  have hd := h2 e h.symm
  obtain ⟨pf, hpf⟩ : ∃ pf, pf = parse := ⟨_, rfl⟩
  rw [← hpf] at hx h
  obtain ⟨e', refs, he', hu, hrefs, c1, c2, c3⟩ := Db.unit_shallow hpf ho hq hs hx
  rw [← h] at he'
  obtain rfl := Except.ok.inj he'
  obtain ⟨a1, a2, _⟩ := Db.shallowAll hrefs
  refine ⟨(C83_identifiers e).enough (by omega), ⟨refs, hu, ?_⟩, (C83_dimensionality _).enough (by omega),
    (C83_is_time_unit _).enough (by omega), (C83_str _).enough (by omega), (C83_expanded _).enough (by omega),
    (C83_symbolic_definition _).enough (by omega)⟩
  rw [(C83_made e refs).enough (by omega), hu]

/-- what `unit("xx…x")` returns after the session `deepSession n` -/
def deepResult (n : Nat) : Ref := .unit none (.ident (deepName n)) [(deepName n, deepUnit n)]

/-- **C83**, the other side. Define `xx` as `2·x`, `xxx` as `2·xx` and so on, `n` times, using each unit once as soon as it is defined
(so that no lookup goes deeper than two levels): the last one is made within 8 nested calls, and it is a perfectly good unit,
but its `dimensionality()` raises `RecursionError` whenever no more than `n` calls are left. -/
theorem C83_chains (o : List Str → List Str) (ho : ∀ l, (o l).Perm l) (n : Nat) :
    (System.unit ⟨parse, o⟩ 2 (deepName n) (live ⟨parse, o⟩ (deepSession n) System.empty)).1 = .ok (.unit (deepResult n)) ∧
    Frames.unitFromExpr (.ident (deepName n)) [(deepName n, deepUnit n)] 8 = .ok (.unit (deepResult n)) ∧
    (∃ b, (deepResult n).dims = .ok [(b, 1)] ∧ b.ref = c!"x") ∧
    ∀ k ≤ n, Frames.dims (deepResult n) k = .error .recursionError := by
  obtain ⟨pf, hpf⟩ : ∃ pf, pf = parse := ⟨_, rfl⟩
  rw [← hpf]
  have h1 := deep_unit ⟨pf, o⟩ hpf ho 1 n _ (deepUnit n) (deep_session ⟨pf, o⟩ hpf ho n).last
  have h2 : Frames.unitFromExpr (.ident (deepName n)) [(deepName n, deepUnit n)] 8 = .ok (.unit (deepResult n)) := by
    simp [Frames.unitFromExpr, Frames.mkUnit, Frames.calls, Frames.normalise, bind, Except.bind, deepResult]
  refine ⟨congrArg Prod.fst h1, h2, ⟨⟨deepName 0, false, false, onlyName (deepName 0)⟩, ?_, rfl⟩, fun k hk => ?_⟩
  · have h := deep_dims_ok n
    have hg : (deepResult n).dims? = .ok (some [(⟨deepName 0, false, false, onlyName (deepName 0)⟩, 1)]) := by
      rw [deepResult, Ref.dims?]
      simp only [Verif.unitDims, Node.split, Node.dimCount, bind, Except.bind, Verif.dimsLoop, Ref.dimsList, Dict.get_cons, if_pos, h]
      rfl
    rw [Ref.dims, hg]; rfl
  · have h : Frames.dims? (deepResult n) k = .error .recursionError := by
      cases k with
      | zero => rfl
      | succ k => exact dims_only rfl rfl (deep_dims n k (by omega))
    show (Frames.dims? (deepResult n) k >>= fun x => _) = _
    rw [h]; rfl

/-- **C83 (refuted).** A unit that `unit()` returns without going deep can be used without going deep: no recursion limit is enough for
all systems, even if every lookup ever made goes no deeper than two levels. -/
theorem C83_made_is_usable_refuted (o : List Str → List Str) (ho : ∀ l, (o l).Perm l) :
    ¬ ∃ limit, ∀ (ts : List Step) (text : Str) (r : Ref), (∀ l w, Step.query (.unit l w) ∈ ts → l ≤ 2) →
      (∀ l w, Step.query (.lookup l w) ∉ ts) →
      (System.unit ⟨parse, o⟩ 2 text (live ⟨parse, o⟩ ts System.empty)).1 = .ok (.unit r) → Frames.dims r limit = r.dims := by
  rintro ⟨limit, h⟩
  obtain ⟨h1, _, ⟨b, h2, _⟩, h3⟩ := C83_chains o ho limit
  have hq : ∀ n, (∀ l w, Step.query (.unit l w) ∈ deepSession n → l ≤ 2) ∧ ∀ l w, Step.query (.lookup l w) ∉ deepSession n := by
    intro n
    induction n with
    | zero => simp [deepSession]
    | succ n ih =>
      refine ⟨fun l w hm => ?_, fun l w hm => ?_⟩
      · rw [deepSession, List.mem_append] at hm
        rcases hm with hm | hm
        · exact ih.1 l w hm
        · simp at hm; omega
      · rw [deepSession, List.mem_append] at hm
        rcases hm with hm | hm
        · exact ih.2 l w hm
        · simp at hm
  have := h (deepSession limit) _ _ (hq limit).1 (hq limit).2 h1
  rw [h3 limit (Nat.le_refl _), h2] at this
  cases this

/-- the third unit of the session: three definitions, none deeper than one operation; 6 calls are not enough for its dimensionality,
7 are -/
example : (deepUnit 2).chain = 2 ∧ (deepUnit 2).deepest = 1 ∧ (deepUnit 2).unfolded = 2 ∧
    (deepUnit 2).dims.isOk = true ∧ (Frames.dims (deepUnit 2) 6).isOk = false ∧ (Frames.dims (deepUnit 2) 7).isOk = true := by
  decide +kernel

end Verif

import Verif.Lemmas.Equality
import Verif.Props.Convert
/-!
# C23–C27, C42–C44: dates, equality, basis units, superscripts, expansion
-/

namespace Verif

/-! ## C23 -/

theorem constructed_uses {r x : Ref} (h : Constructed r) (hu : Uses x r) : Constructed x := by
  induction hu with
  | here => exact h
  | unit hm _ ih =>
    cases h with
    | unit hr hk =>
      obtain ⟨h1, _⟩ := mkUnit_iff.1 hk
      cases h1
      exact ih (hr _ _ hm)

/-- **C23.** No unit object contains a date: wherever a shift occurs in the definition of a unit (or of any
unit it refers to, at any depth) it is by a number, and what is shifted is not a time unit; nor does any
uninterpreted timestamp occur. -/
theorem C23_no_nested_date {r : Ref} (hr : Constructed r) {names : Option UnitReference} {e : Node}
    {refs : List (Str × Ref)} (hu : Uses (.unit names e refs) r) :
    (∀ t f, Occurs (.shift t f) e → (∃ v raw, f = .number v raw) ∧ (Ref.unit none t refs).isTimeUnit = .ok false) ∧
    ∀ raw, ¬ Occurs (.unhandled raw) e := by
  have h := constructed_uses hr hu
  cases h with
  | unit hr hk =>
    obtain ⟨h1, h2⟩ := mkUnit_iff.1 hk
    cases h1
    exact h2

/-- **C23.** The constructor accepts exactly the definitions without nested dates, and stores them as given. -/
theorem C23_constructor_accepts_exactly (names : Option UnitReference) (e : Node) (refs : List (Str × Ref)) (r : Ref) :
    mkUnit names e refs = .ok r ↔ r = .unit names e refs ∧
      (∀ t f, Occurs (.shift t f) e → (∃ v raw, f = .number v raw) ∧ (Ref.unit none t refs).isTimeUnit = .ok false) ∧
      ∀ raw, ¬ Occurs (.unhandled raw) e := mkUnit_iff

theorem constructed_hereditary : Hereditary Constructed where
  pre := .pre
  unit := by
    intro names e refs hid hadm hr
    exact Constructed.unit (fun n x h => hr (n, x) h) (mkUnit_iff.2 ⟨rfl, hadm⟩)

/-- **C23.** Every unit the system ever returns — after any history of additions and lookups, for any spelling or
expression — is built by the constructors, so `C23_no_nested_date` applies to it (and, for a date unit, to its
time unit). -/
theorem C23_system_returns_constructed (env : Env) (hord : ∀ l x, x ∈ env.order l ↔ x ∈ l) (s : System)
    (hs : Spec.BuiltFrom Constructed env s) (fuel : Nat) (text : Str) :
    (∀ r, (unitByNameOrSymbol env fuel text s).1 = .ok r → Constructed r) ∧
    (∀ r, (System.unit env fuel text s).1 = .ok (.unit r) → Constructed r) ∧
    (∀ u ref, (System.unit env fuel text s).1 = .ok (.date u ref) → Constructed u) := by
  have hall := builtFrom_all constructed_hereditary hord hs
  have hu := (keeps_unit constructed_hereditary hord fuel text s hall).2
  exact ⟨(keeps_lookup constructed_hereditary hord fuel text s hall).2, fun r h => hu _ h, fun u ref h => hu _ h⟩

theorem Demo.builtFrom {P : Ref → Prop} (hP : ∀ b, P (.basis b)) : Spec.BuiltFrom P Demo.env Demo.sys := by
  have basis : ∀ {s : System}, Spec.BuiltFrom P Demo.env s → ∀ b, Spec.BuiltFrom P Demo.env (Demo.addBasis b s) :=
    fun h b => .addUnit (.basis b) false (hP b) h
  have lazy' : ∀ {s : System}, Spec.BuiltFrom P Demo.env s → ∀ d ref, Spec.BuiltFrom P Demo.env (Demo.addLazy d ref s) := by
    intro s h d ref
    exact .addLazy s.heap.length false (by simp [System.alloc]) (.newLazy d ref h)
  exact lazy' (lazy' (lazy' (basis (basis (basis (basis
      (.addPrefix Demo.milli (.addPrefix Demo.kilo .empty)) Demo.metre) Demo.second) Demo.kelvin) Demo.radian) _ _) _ _) _ _

/-- the demo system satisfies the hypotheses; `celsius` is found (a numeric shift) and a nested date is refused -/
example : Spec.BuiltFrom Constructed Demo.env Demo.sys ∧ (∀ l x, x ∈ Demo.env.order l ↔ x ∈ l) ∧
    ((unitByNameOrSymbol Demo.env 5 c!"celsius" Demo.sys).1).toOption.isSome ∧
    (System.unit Demo.env 5 c!"(s @ 2000-01-01) m" Demo.sys).1 = .error .refusingDates :=
  ⟨Demo.builtFrom .basis, fun _ _ => Iff.rfl, by decide +kernel, by decide +kernel⟩

/-! ## C24 -/

/-- `unit(text)` is a date unit: the parsed expression is `t @ reference`, `t` makes a valid unit, and that unit
is a time unit. -/
def IsDateUnit (e : Node) (refs : List (Str × Ref)) (u : Ref) (ref : Option Str) : Prop :=
  ∃ t f, e = .shift t f ∧ mkUnit none t refs = .ok u ∧ u.isTimeUnit = .ok true ∧ f.rawText = some ref

theorem mkUnit_shift_ok {t f : Node} {refs : List (Str × Ref)} {u : Ref} (h : mkUnit none (.shift t f) refs = .ok u) :
    mkUnit none t refs = .ok (.unit none t refs) ∧ (Ref.unit none t refs).isTimeUnit = .ok false := by
  obtain ⟨_, h1⟩ := mkUnit_iff.1 h
  have h2 := adm_iff.2 h1
  exact ⟨mkUnit_iff.2 ⟨rfl, adm_iff.1 h2.1⟩, h2.2.2⟩

/-- **C24.** Building a unit from a parsed expression gives a date unit exactly for a top-level shift of a time
unit — with the reference text as written — and otherwise exactly what the `Unit` constructor gives. -/
theorem C24_date_unit_iff (e : Node) (refs : List (Str × Ref)) :
    (∀ u ref, unitFromExpr e refs = .ok (.date u ref) ↔ IsDateUnit e refs u ref) ∧
    (∀ r, unitFromExpr e refs = .ok (.unit r) ↔ mkUnit none e refs = .ok r) := by
  have plainD : ∀ u ref, (do let r ← mkUnit none e refs; .ok (UObj.unit r) : Py UObj) ≠ .ok (.date u ref) := by
    intro u ref h
    cases hm : mkUnit none e refs with
    | error x => rw [hm] at h; cases h
    | ok r => rw [hm] at h; cases h
  have plainU : ∀ r, (do let r ← mkUnit none e refs; .ok (UObj.unit r) : Py UObj) = .ok (.unit r) ↔
      mkUnit none e refs = .ok r := by
    intro r
    cases hm : mkUnit none e refs with
    | error x => constructor <;> intro h <;> cases h
    | ok r' => constructor <;> intro h <;> cases h <;> rfl
  have other : (∀ t f, e ≠ .shift t f) → unitFromExpr e refs = (do let r ← mkUnit none e refs; .ok (UObj.unit r)) := by
    intro h
    cases e <;> first | rfl | exact absurd rfl (h _ _)
  by_cases hsh : ∃ t f, e = .shift t f
  · obtain ⟨t, f, rfl⟩ := hsh
    simp only [unitFromExpr]
    cases hm : mkUnit none t refs with
    | error x =>
      constructor
      · intro u ref
        constructor
        · intro h; cases h
        · rintro ⟨t', f', h1, h2, _⟩
          cases h1; rw [hm] at h2; cases h2
      · intro r
        constructor
        · intro h; cases h
        · intro h
          have := (mkUnit_shift_ok h).1
          rw [hm] at this; cases this
    | ok su =>
      simp only [bind, Except.bind]
      cases ht : su.isTimeUnit with
      | error x =>
        constructor
        · intro u ref
          constructor
          · intro h; cases h
          · rintro ⟨t', f', h1, h2, h3, _⟩
            cases h1; rw [hm] at h2; cases h2; rw [ht] at h3; cases h3
        · intro r
          constructor
          · intro h; cases h
          · intro h
            obtain ⟨h1, h2⟩ := mkUnit_shift_ok h
            rw [hm] at h1; cases h1; rw [ht] at h2; cases h2
      | ok b =>
        cases b with
        | false =>
          simp only [Bool.false_eq_true, if_false]
          refine ⟨fun u ref => ?_, plainU⟩
          constructor
          · intro h; exact absurd h (plainD u ref)
          · rintro ⟨t', f', h1, h2, h3, _⟩
            cases h1; rw [hm] at h2; cases h2; rw [ht] at h3; cases h3
        | true =>
          simp only [if_true]
          have hd : ∀ raw, mkDate su raw = .ok (.date su raw) := by
            intro raw; unfold mkDate; rw [ht]; rfl
          constructor
          · intro u ref
            constructor
            · intro h
              refine ⟨t, f, rfl, ?_⟩
              cases f with
              | number v raw => simp only [hd] at h; cases h; exact ⟨hm, ht, rfl⟩
              | unhandled raw => simp only [hd] at h; cases h; exact ⟨hm, ht, rfl⟩
              | _ => cases h
            · rintro ⟨t', f', h1, h2, h3, h4⟩
              cases h1
              rw [hm] at h2; cases h2
              cases f with
              | number v raw => cases h4; exact hd _
              | unhandled raw => cases h4; exact hd _
              | _ => cases h4
          · intro r
            constructor
            · intro h
              cases f with
              | number v raw => simp only [hd] at h; cases h
              | unhandled raw => simp only [hd] at h; cases h
              | _ => cases h
            · intro h
              obtain ⟨h1, h2⟩ := mkUnit_shift_ok h
              rw [hm] at h1; cases h1; rw [ht] at h2; cases h2
  · have hs : ∀ t f, e ≠ .shift t f := fun t f h => hsh ⟨t, f, h⟩
    rw [other hs]
    refine ⟨fun u ref => ⟨fun h => absurd h (plainD u ref), ?_⟩, plainU⟩
    rintro ⟨t, f, h, _⟩
    exact absurd h (hs t f)

/-- **C24.** …in particular for every text given to `UnitSystem.unit`. -/
theorem C24_unit_returns_date_iff (env : Env) (fuel : Nat) (text : Str) (s : System) (u : Ref) (ref : Option Str) :
    (System.unit env fuel text s).1 = .ok (.date u ref) ↔
      ∃ e refs s', env.parse text = .ok e ∧
        lookupAll (unitByNameOrSymbol env fuel) (env.order e.identifiers) s = (.ok refs, s') ∧
        IsDateUnit e refs u ref := by
  unfold System.unit
  cases hp : env.parse text with
  | error x =>
    constructor
    · intro h; cases h
    · rintro ⟨e, refs, s', h, _⟩; cases h
  | ok e =>
    simp only
    cases hl : lookupAll (unitByNameOrSymbol env fuel) (env.order e.identifiers) s with
    | mk res s1 =>
      cases res with
      | error x =>
        constructor
        · intro h; cases h
        · rintro ⟨e', refs, s', h, h', _⟩; cases h; rw [hl] at h'; cases h'
      | ok refs =>
        simp only
        rw [(C24_date_unit_iff e refs).1 u ref]
        constructor
        · intro h; exact ⟨e, refs, s1, rfl, hl, h⟩
        · rintro ⟨e', refs', s', h, h', hd⟩; cases h; rw [hl] at h'; cases h'; exact hd

/-- **C24.** A unit is a time unit exactly when its dimensionality is the first power of one time basis unit and nothing else. -/
theorem C24_time_unit_iff (names : Option UnitReference) (e : Node) (refs : List (Str × Ref)) :
    (Ref.unit names e refs).isTimeUnit = .ok true ↔
      ∃ d b, (Ref.unit names e refs).dims = .ok d ∧ (b, 1) ∈ d ∧ b.isTime = true ∧
        ∀ n, Dims.power n d = if n = b.ref then 1 else 0 := by
  rw [isTime_unit]
  constructor
  · rintro ⟨d, hd, ht⟩
    unfold Dims.isTime at ht
    split at ht
    · rename_i b v
      simp only [Bool.and_eq_true, beq_iff_eq] at ht
      obtain ⟨h1, rfl⟩ := ht
      refine ⟨_, b, by rw [dims_unit]; exact hd, List.mem_singleton.2 rfl, h1, ?_⟩
      intro n
      simp only [Dims.power, Dims.get?]
      by_cases h : b.ref = n
      · rw [if_pos h, if_pos h.symm]; rfl
      · rw [if_neg h, if_neg (fun h' => h h'.symm)]; rfl
    · cases ht
  · rintro ⟨d, b, hd, hm, hb, hp⟩
    obtain ⟨hn, hz⟩ := dims_wf hd
    rw [dims_unit] at hd
    refine ⟨d, hd, ?_⟩
    have key : ∀ c ∈ d, c.1.ref = b.ref := by
      intro c hc
      apply Classical.byContradiction
      intro hne
      have := hp c.1.ref
      rw [if_neg hne, Dims.power, Dims.get?_of_mem hn hc] at this
      exact hz c hc this
    have hlen : d = [(b, 1)] := by
      match d, hn, hm, key with
      | [x], _, hm, _ => rw [List.mem_singleton.1 hm]
      | x :: y :: d, hn, _, key =>
        exfalso
        have h1 := key x (by simp)
        have h2 := key y (by simp)
        have hn := List.nodup_cons.1 (show (x.1.ref :: y.1.ref :: d.map fun q => q.1.ref).Nodup from hn)
        exact hn.1 (by rw [h1, h2]; exact List.mem_cons_self ..)
    rw [hlen]
    simp [Dims.isTime, hb]

/-- `s` is a time unit, `s^2` is not -/
example : ((Ref.unit none (.ident c!"s") Demo.refs).isTimeUnit,
    (Ref.unit none (.raise (.ident c!"s") (.number (.int 2) none)) Demo.refs).isTimeUnit) = (.ok true, .ok false) := by
  decide +kernel

/-- `hours since 2000-01-01`: a date unit with the text as written; `K @ 273.15`: a unit -/
example : (∃ u, (System.unit Demo.env 5 c!"hours since 2000-01-01" Demo.sys).1 = .ok (.date u (some c!"2000-01-01"))) ∧
    (∃ r, (System.unit Demo.env 5 c!"K @ 273.15" Demo.sys).1 = .ok (.unit r)) := by
  have h1 : ((System.unit Demo.env 5 c!"hours since 2000-01-01" Demo.sys).1.toOption.elim none
    (fun o => match o with | .date _ r => r | _ => none)) = some c!"2000-01-01" := by decide +kernel
  have h2 : ((System.unit Demo.env 5 c!"K @ 273.15" Demo.sys).1.toOption.elim false
    (fun o => match o with | .date _ r => false | _ => true)) = true := by decide +kernel
  constructor
  · revert h1
    cases (System.unit Demo.env 5 c!"hours since 2000-01-01" Demo.sys).1 with
    | error e => intro h; cases h
    | ok o => cases o with
      | unit r => intro h; cases h
      | date u r => intro h; exact ⟨u, by simp only [Except.toOption, Option.elim] at h; rw [h]⟩
  · revert h2
    cases (System.unit Demo.env 5 c!"K @ 273.15" Demo.sys).1 with
    | error e => intro h; cases h
    | ok o => cases o with
      | unit r => intro _; exact ⟨r, rfl⟩
      | date u r => intro h; cases h

/-! ## C25 -/

/-- **C25.** `is_convertible_to` is `False` whenever either side is a date unit. -/
theorem C25_date_never_convertible (u : Ref) (ref : Option Str) (b : UObj) (r : Ref) :
    (UObj.date u ref).isConvertibleTo b = .ok false ∧ (UObj.unit r).isConvertibleTo (.date u ref) = .ok false :=
  ⟨rfl, rfl⟩

/-- **C25.** `Converter` treats a date unit as its time unit: the reference date has no influence whatever. -/
theorem C25_converter_ignores_reference (u : Ref) (ref : Option Str) (b : UObj) (x : ℝ) :
    convert (.date u ref) b x = convert (.unit u) b x ∧ convert b (.date u ref) x = convert b (.unit u) x :=
  ⟨rfl, rfl⟩

/-- **C25 (refuted).** `Converter` refuses what `is_convertible_to` denies: false for dates. `hours since A` converts
to `s since B` although the package says they are not convertible, and the dates `A`, `B` are ignored. -/
theorem C25_converter_refuses_dates_refuted :
    ¬ ∀ a b : UObj, a.isConvertibleTo b = .ok false → ∀ x v, convert a b x ≠ .ok v := by
  intro h
  refine h (.date (Demo.u (.mul (Demo.int 3600) (.ident c!"s"))) (some c!"2000-01-01"))
    (.date Demo.s (some c!"1970-01-01")) rfl 1 3600 ?_
  rw [convert_runs (ops := [.scale ⟨3600, []⟩]) (ops' := [.scale ⟨3600, []⟩])
    (by decide +kernel) (by decide +kernel) (by decide +kernel)]
  simp [runOps, COp.run, bind, Except.bind]

/-! ## C26 -/

/-- **C26.** A unit equals itself. -/
theorem C26_eq_refl (a : Ref) : Ref.eq a a = .ok true := by simp [Ref.eq]

/-- **C26.** `a == b` and `b == a` give the same answer, and one raises exactly when the other does. -/
theorem C26_eq_symm (a b : Ref) :
    (∀ r, Ref.eq a b = .ok r ↔ Ref.eq b a = .ok r) ∧ ((∃ e, Ref.eq a b = .error e) ↔ ∃ e, Ref.eq b a = .error e) := by
  unfold Ref.eq
  by_cases h : b.defn.str = a.defn.str
  · rw [if_pos h, if_pos h.symm]; exact ⟨fun _ => Iff.rfl, Iff.rfl⟩
  · rw [if_neg h, if_neg fun h' => h h'.symm]
    cases ha : a.symDef with
    | error x =>
      cases hb : b.symDef with
      | error y =>
        refine ⟨fun r => ⟨fun h => ?_, fun h => ?_⟩, ⟨fun _ => ⟨y, rfl⟩, fun _ => ⟨x, rfl⟩⟩⟩ <;> cases h
      | ok q =>
        refine ⟨fun r => ⟨fun h => ?_, fun h => ?_⟩, ⟨fun _ => ⟨x, rfl⟩, fun _ => ⟨x, rfl⟩⟩⟩ <;> cases h
    | ok p =>
      cases hb : b.symDef with
      | error y =>
        refine ⟨fun r => ⟨fun h => ?_, fun h => ?_⟩, ⟨fun _ => ⟨y, rfl⟩, fun _ => ⟨y, rfl⟩⟩⟩ <;> cases h
      | ok q =>
        obtain ⟨ta, da⟩ := p
        obtain ⟨tb, db⟩ := q
        simp only [bind, Except.bind]
        rw [Mono.beq_symm, transEq_symm]
        exact ⟨fun _ => Iff.rfl, Iff.rfl⟩

/-! ## C27 -/

/-- **C27.** If two units whose definitions print differently are equal, they have the same power of every basis
unit and converting between them changes nothing. -/
theorem C27_equal_units_interchangeable {a b : Ref} {d1 d2 : Dims} (ha : UnitWithDims a d1) (hb : UnitWithDims b d2)
    (haa : ∀ s, Affine s a) (hab : ∀ s, Affine s b) (hc : Constructible (.unit a) (.unit b))
    (hne : a.str ≠ b.str) (heq : Ref.eq a b = .ok true) :
    (∀ s, Dims.power s d1 = Dims.power s d2) ∧ ∀ x, convert (.unit a) (.unit b) x = .ok x := by
  obtain ⟨⟨n1, e1, r1, rfl⟩, h1⟩ := ha
  obtain ⟨⟨n2, e2, r2, rfl⟩, h2⟩ := hb
  obtain ⟨ta, da, tb, db, sa, sb, hd, ht⟩ := eq_true_inv (a := .unit n1 e1 r1) (b := .unit n2 e2 r2) hne heq
  obtain ⟨ops, hops⟩ := hc
  obtain ⟨fd, td, σ, f1, f2, f3, f4, f5, _⟩ := build_facts hops
  have ga := obj_symDef_good (u := .unit _) sa
  have gb := obj_symDef_good (u := .unit _) sb
  obtain ⟨hco, hex⟩ := (Mono.beq_iff ga.2 gb.2).1 hd
  have cb : db.coef ≠ 0 := by
    obtain ⟨t, d, s1, s2⟩ := f5
    change Ref.symDef _ = _ at s1
    rw [sb] at s1; cases s1; exact s2
  have ca : da.coef ≠ 0 := by rw [hco]; exact cb
  obtain ⟨a1, a2⟩ := affine_exp haa sa ca h1
  obtain ⟨b1, b2⟩ := affine_exp hab sb cb h2
  have hpow : ∀ s, Dims.power s d1 = Dims.power s d2 := fun s => by rw [← a2, ← b2, hex]
  refine ⟨hpow, fun x => ?_⟩
  have w1 := dimObj_of ⟨⟨n1, e1, r1, rfl⟩, h1⟩
  have w2 := dimObj_of ⟨⟨n2, e2, r2, rfl⟩, h2⟩
  have hl : Link (.dimensionality d1) (.dimensionality d2) true := (link_proper w1.2 w2.2 true).2 hpow
  rw [convert_iff w1.1 w1.2 w2.1 hl ⟨ta, da, sa, ca⟩ ⟨tb, db, sb, cb⟩]
  refine ⟨_, _, _, _, (base_iff_of_symFree (a := .unit _) sa ca a1 x _ _).2 ⟨rfl, rfl⟩,
    (base_iff_of_symFree (a := .unit _) sb cb b1 x _ _).2 ⟨rfl, rfl⟩, ?_, ?_⟩
  · rw [undoAll_transEq (nz_of_good ga.1) (nz_of_good gb.1) ht, hco]
  · funext s; exact (hex s).symm

/-- `m/s` and `m s^-1` print differently and are equal -/
example : Ref.eq (Demo.u (.div (.ident c!"m") (.ident c!"s")))
      (Demo.u (.mul (.ident c!"m") (.raise (.ident c!"s") (Demo.int (-1))))) = .ok true ∧
    (Demo.u (.div (.ident c!"m") (.ident c!"s"))).str ≠
      (Demo.u (.mul (.ident c!"m") (.raise (.ident c!"s") (Demo.int (-1))))).str ∧
    Constructible (.unit (Demo.u (.div (.ident c!"m") (.ident c!"s"))))
      (.unit (Demo.u (.mul (.ident c!"m") (.raise (.ident c!"s") (Demo.int (-1)))))) ∧
    (∀ s, Affine s (Demo.u (.mul (.ident c!"m") (.raise (.ident c!"s") (Demo.int (-1)))))) :=
  ⟨by decide +kernel, by decide +kernel, ⟨[.scale ⟨1, []⟩], by decide +kernel⟩,
   fun s => .linear (Demo.linear (e := .mul (.ident c!"m") (.raise (.ident c!"s") (Demo.int (-1))))
     ⟨trivial, trivial, -1, none, rfl⟩ s)⟩

/-- **C27.** Conversely equality misses nothing for units without shifts and logarithms: same powers and a
conversion factor of one make them equal. -/
theorem C27_interchangeable_units_equal {a b : Ref} {d1 d2 : Dims} (ha : UnitWithDims a d1) (hb : UnitWithDims b d2)
    (haa : LinearUnit a) (hab : LinearUnit b) (hpow : ∀ s, Dims.power s d1 = Dims.power s d2)
    (h : convert (.unit a) (.unit b) 1 = .ok 1) : Ref.eq a b = .ok true := by
  obtain ⟨ops, hops⟩ := convert_built h
  obtain ⟨fd, td, σ, f1, f2, f3, f4, ⟨tb, db, sb, cb⟩, ta, da, sa⟩ := build_facts hops
  have ga := obj_symDef_good sa
  have gb := obj_symDef_good sb
  have w1 := dimObj_of ha
  have w2 := dimObj_of hb
  have hl : Link (.dimensionality d1) (.dimensionality d2) true := (link_proper w1.2 w2.2 true).2 hpow
  have ta0 := linearUnit_symDef haa sa
  have tb0 := linearUnit_symDef hab sb
  subst ta0; subst tb0
  have ca : da.coef ≠ 0 := by
    intro h0
    obtain ⟨fd', td', t1, d1', t2, d2', t1i, link, τ, o1, o2, o3, o4, o5, o6, o7, o8, o9⟩ := build_ops hops
    rw [w1.1] at o1; cases o1
    rw [w2.1] at o3; cases o3
    have := link_unique hl o4
    subst this
    rw [sa] at o5; cases o5
    rw [sb] at o6; cases o6
    cases o7
    obtain ⟨k, k1, rfl⟩ := o9
    have k2 := (Mono.div_spec ga.2 gb.2 k1).2.1
    have k3 : k.coef = 0 := by rw [k2, h0]; simp
    have hops' : ops = [.scale k] := o8
    subst hops'
    unfold convert at h
    rw [hops] at h
    change (if (List.any [COp.scale (Mono.mul ⟨1, []⟩ k)] COp.hasSymbol) then _ else _ : Py ℝ) = _ at h
    split at h
    · cases h
    · rename_i hsy
      simp only [List.any, COp.hasSymbol, Bool.or_false, Bool.not_eq_true, Bool.not_eq_false', List.isEmpty_iff] at hsy
      simp only [runOps, COp.run, hsy, if_true, Mono.coef_mul, k3] at h
      simp [bind, Except.bind] at h
  obtain ⟨q, E, q', E', b1, b2, hq, hE⟩ := (convert_iff w1.1 w1.2 w2.1 hl ⟨_, da, sa, ca⟩ ⟨_, db, sb, cb⟩ 1 1).1 h
  have sf : SymFree [] := fun m hm => by cases hm
  obtain ⟨rfl, rfl⟩ := (base_iff_of_symFree sa ca sf 1 q E).1 b1
  obtain ⟨rfl, rfl⟩ := (base_iff_of_symFree sb cb sf 1 q' E').1 b2
  refine eq_of_symDef sa sb ⟨(Mono.beq_iff ga.2 gb.2).2 ⟨?_, fun s => (congrFun hE s).symm⟩, transEq_nil⟩
  simp only [undoAll, one_mul] at hq
  exact_mod_cast hq.symm

/-- **C27 (refuted).** Equal units are interchangeable: false. `m/(s s)` and `m/s s` print alike, so they are
equal although one is an acceleration and the other a length; and `(m s)^2 == m s^2`. -/
theorem C27_equal_units_interchangeable_refuted :
    ¬ ∀ a b : Ref, Ref.eq a b = .ok true → (UObj.unit a).isConvertibleTo (.unit b) = .ok true := by
  intro h
  have := h (Demo.u (.div (.ident c!"m") (.mul (.ident c!"s") (.ident c!"s"))))
    (Demo.u (.mul (.div (.ident c!"m") (.ident c!"s")) (.ident c!"s"))) (by decide +kernel)
  revert this
  decide +kernel

/-- both spellings of the counterexample are what the parser makes of the texts -/
example : parse c!"m/(s s)" = .ok (.div (.ident c!"m") (.mul (.ident c!"s") (.ident c!"s"))) ∧
    parse c!"m/s s" = .ok (.mul (.div (.ident c!"m") (.ident c!"s")) (.ident c!"s")) := by
  decide +kernel

/-- **C27 (refuted).** Unit equality is transitive: false. `m s^-2 == m/(s s)` (same meaning),
`m/(s s) == m/s s` (same text), but `m s^-2 != m/s s`. -/
theorem C27_eq_transitive_refuted :
    ¬ ∀ a b c : Ref, Ref.eq a b = .ok true → Ref.eq b c = .ok true → Ref.eq a c = .ok true := by
  intro h
  have := h (Demo.u (.mul (.ident c!"m") (.raise (.ident c!"s") (Demo.int (-2)))))
    (Demo.u (.div (.ident c!"m") (.mul (.ident c!"s") (.ident c!"s"))))
    (Demo.u (.mul (.div (.ident c!"m") (.ident c!"s")) (.ident c!"s"))) (by decide +kernel) (by decide +kernel)
  revert this
  decide +kernel

/-! ## C42 -/

/-- **C42 (refuted).** A basis unit object can be used like the unit parsed from its name: false. Whatever the other
unit is, asking a (non-dimensionless) basis unit object whether it converts to it raises `AttributeError`, so does
building a converter from it; the other way round the answer is `False` even for the very same unit. -/
theorem C42_basis_objects_are_not_units (b : Basis) (hb : b.dimensionless = false) {v : Ref} {d : Dims}
    (hv : UnitWithDims v d) :
    (UObj.unit (.basis b)).isConvertibleTo (.unit v) = .error .attributeError ∧
    (UObj.unit v).isConvertibleTo (.unit (.basis b)) = .ok false ∧
    Converter.build (.unit (.basis b)) (.unit v) = .error .attributeError ∧
    Converter.build (.unit v) (.unit (.basis b)) = .error .incompatible := by
  have hd := (dimObj_of hv).1
  change v.dimObj = _ at hd
  have hbd : (Ref.basis b).dimObj = .ok (.dict [(b, 1)]) := by simp [Ref.dimObj, hb]
  refine ⟨?_, ?_, ?_, ?_⟩
  · simp only [UObj.isConvertibleTo, hd, hbd, bind, Except.bind, DimObj.eq]; rfl
  · simp only [UObj.isConvertibleTo, hd, hbd, bind, Except.bind, DimObj.eq, DimObj.inverted]; simp
  · simp only [Converter.build, UObj.dimObj, hd, hbd, bind, Except.bind]; rfl
  · simp only [Converter.build, UObj.dimObj, hd, hbd, bind, Except.bind, DimObj.inverted, DimObj.eq]; simp

example : UnitWithDims Demo.m [(Demo.metre, 1)] ∧ Demo.metre.dimensionless = false :=
  ⟨⟨⟨_, _, _, rfl⟩, by decide +kernel⟩, rfl⟩

/-! ## C43 -/

/-- **C43 (refuted).** A superscript exponent means the same as an ASCII one: false. The parser keeps the exponent of
`m²` as text, and the dimensionality of any unit (that is not dimensionless) with such an exponent is a `TypeError`. -/
theorem C43_superscript_dimensionality_raises (names : Option UnitReference) (refs : List (Str × Ref)) (n s : Str)
    (raw : Option Str) {r : Ref} {d : Dims} (hr : Dict.get n refs = some r) (hd : r.dims = .ok d) (hne : d ≠ []) :
    (Ref.unit names (.raise (.ident n) (.number (.str s) raw)) refs).dims = .error .typeError := by
  have hg : Dict.get n (Ref.dimsList refs) = some (.ok (some d)) := by
    rw [get_dimsList, hr]
    cases hdd : r.dims? with
    | error x => simp only [Ref.dims, hdd] at hd; cases hd
    | ok o =>
      simp only [Ref.dims, hdd] at hd
      cases o with
      | none => cases hd
      | some d' => cases hd; simp [hdd]
  rw [dims_unit]
  cases d with
  | nil => exact absurd rfl hne
  | cons q d =>
    obtain ⟨b, k⟩ := q
    simp only [defnDims, unitDims, Node.split, Node.dimCount, dimScale, Num.asPyVal, PyVal.mul, dimsLoop, hg, dimsAddAll,
      PyVal.add, bind, Except.bind, Option.isSome, Bool.false_eq_true, if_false]

/-- the ASCII spelling is fine, and this is what the two texts parse to -/
theorem C43_superscript_refuted :
    parse c!"m²" = .ok (.raise (.ident c!"m") (.number (.str c!"2") (some c!"2"))) ∧
    (Demo.u (.raise (.ident c!"m") (.number (.str c!"2") (some c!"2")))).dims = .error .typeError ∧
    parse c!"m^2" = .ok (.raise (.ident c!"m") (.number (.int 2) (some c!"2"))) ∧
    (Demo.u (.raise (.ident c!"m") (.number (.int 2) (some c!"2")))).dims = .ok [(Demo.metre, 2)] := by
  decide +kernel

/-! ## C44 -/

theorem mem_substitute {subs : Dict Str Node} {x : Str} (n : Node) (h : x ∈ (n.substitute subs).identifiers) :
    ∃ k ∈ n.identifiers, (∃ e, Dict.get k subs = some e ∧ x ∈ e.identifiers) ∨ (Dict.get k subs = none ∧ x = k) := by
  induction n with
  | number v r => cases h
  | unhandled r => cases h
  | ident k =>
    simp only [Node.substitute] at h
    cases hk : Dict.get k subs with
    | some e => rw [hk] at h; exact ⟨k, by simp [Node.identifiers], Or.inl ⟨e, hk, h⟩⟩
    | none => rw [hk] at h; simp [Node.identifiers] at h; exact ⟨k, by simp [Node.identifiers], Or.inr ⟨hk, h⟩⟩
  | log fn t ih =>
    simp only [Node.substitute, Node.identifiers, mem_setUnion, List.not_mem_nil, false_or] at h ⊢
    exact ih h
  | mul l r hl hr | div l r hl hr | raise l r hl hr | shift l r hl hr =>
    simp only [Node.substitute, Node.identifiers, mem_setUnion, List.not_mem_nil, false_or] at h ⊢
    rcases h with h | h
    · obtain ⟨k, hk, h'⟩ := hl h; exact ⟨k, Or.inl hk, h'⟩
    · obtain ⟨k, hk, h'⟩ := hr h; exact ⟨k, Or.inr hk, h'⟩

/-- **C44.** The expanded form of a unit mentions only reference names of basis units the unit is built from. -/
theorem C44_expansion_reaches_basis {r : Ref} (hr : WellBuilt r) {e : Node} (he : r.expand = .ok e) :
    ∀ n ∈ e.identifiers, ∃ b, Below b r ∧ n = b.ref := by
  induction hr generalizing e with
  | basis b =>
    cases he
    intro n hn
    simp [Node.identifiers] at hn
    exact ⟨b, .basis, hn⟩
  | pre p =>
    obtain ⟨d, raw, rfl⟩ := expand_pre_number he
    intro n hn; cases hn
  | unit names defn refs hid hadm hrefs ih =>
    obtain ⟨es, h1, rfl⟩ := expand_unit he
    intro n hn
    obtain ⟨k, hk, h | h⟩ := mem_substitute defn hn
    · obtain ⟨e, h2, h3⟩ := h
      have hkk := hid k hk
      rw [← Dict.get_isSome_iff] at hkk
      obtain ⟨x, hx⟩ := Option.isSome_iff_exists.1 hkk
      obtain ⟨e', h4, h5⟩ := get_expandList h1 hx
      rw [h2] at h5; cases h5
      obtain ⟨b, hb, hn'⟩ := ih k x hx h4 n h3
      exact ⟨b, .unit hk hx hb, hn'⟩
    · have hkk := hid k hk
      rw [← Dict.get_isSome_iff] at hkk
      obtain ⟨x, hx⟩ := Option.isSome_iff_exists.1 hkk
      obtain ⟨e', h4, h5⟩ := get_expandList h1 hx
      rw [h.1] at h5; cases h5

/-- **C44.** Every unit the system returns, after any history, is of that kind. -/
theorem C44_system_returns_wellBuilt (env : Env) (hord : ∀ l x, x ∈ env.order l ↔ x ∈ l) (s : System)
    (hs : Spec.BuiltFrom WellBuilt env s) (fuel : Nat) (text : Str) :
    (∀ r, (unitByNameOrSymbol env fuel text s).1 = .ok r → WellBuilt r) ∧
    (∀ r, (System.unit env fuel text s).1 = .ok (.unit r) → WellBuilt r) := by
  have hall := builtFrom_all wellBuilt_hereditary hord hs
  exact ⟨(keeps_lookup wellBuilt_hereditary hord fuel text s hall).2,
    fun r h => (keeps_unit wellBuilt_hereditary hord fuel text s hall).2 _ h⟩

mutual
theorem expand_total : (r : Ref) → (∀ p, Uses (.pre p) r → ∃ d, Dec.parse p.value = .ok d) → ∃ e, r.expand = .ok e
  | .basis b, _ => ⟨_, rfl⟩
  | .pre p, h => by
    obtain ⟨d, hd⟩ := h p .here
    refine ⟨.number (.dec d) (some p.value), ?_⟩
    simp only [Ref.expand, Prefix.expand, hd]; rfl
  | .unit names defn refs, h => by
    obtain ⟨es, h1⟩ := expandList_total' refs (fun p n x hx hu => h p (.unit hx hu))
    refine ⟨defn.substitute es, ?_⟩
    rw [Ref.expand, h1]; rfl
theorem expandList_total' : (l : List (Str × Ref)) →
    (∀ p n x, (n, x) ∈ l → Uses (.pre p) x → ∃ d, Dec.parse p.value = .ok d) → ∃ es, Ref.expandList l = .ok es
  | [], _ => ⟨[], rfl⟩
  | (n, r) :: l, h => by
    obtain ⟨e, h1⟩ := expand_total r (fun p hu => h p n r (List.mem_cons_self ..) hu)
    obtain ⟨es, h2⟩ := expandList_total' l (fun p n x hx hu => h p n x (List.mem_cons_of_mem _ hx) hu)
    refine ⟨(n, e) :: es, ?_⟩
    simp only [Ref.expandList, h1, h2, bind, Except.bind]
end

/-- **C44.** Expansion never fails, as long as the prefixes used have numeric values. -/
theorem C44_expansion_total (r : Ref) (hp : ∀ p, Uses (.pre p) r → ∃ d, Dec.parse p.value = .ok d) :
    ∃ e, r.expand = .ok e := expand_total r hp

example : Spec.BuiltFrom WellBuilt Demo.env Demo.sys ∧
    (do let r ← (unitByNameOrSymbol Demo.env 5 c!"kilohour" Demo.sys).1; (UObj.unit r).expanded) =
      .ok c!"1E+3·60·60·second" := ⟨Demo.builtFrom .basis, by decide +kernel⟩

end Verif

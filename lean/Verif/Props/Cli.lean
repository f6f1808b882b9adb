import Verif.Model.Cli
import Verif.Props.Print
import Verif.Props.Parser
import Verif.Props.ShippedUnits
import Verif.Lemmas.DictText
/-!
# C58, C59: the command line; comparing a dimensionality with a dict of names
-/

namespace Verif
open Spec

/-! ## C59 -/

/-- the name form of a dimensionality: names are distinct, and the entries are the non-zero powers -/
theorem nameForm_power {r : Ref} {d : Dims} (h : r.dims = .ok d) : Dict.Nodup d.nameForm ∧
    ∀ n v, Dict.get n d.nameForm = some v ↔ (Dims.power n d = v ∧ v ≠ 0) := by
  obtain ⟨hd, hz⟩ := dims_wf h
  have hget : ∀ n, Dict.get n d.nameForm = Dims.get? n d := by
    intro n
    unfold Dims.nameForm
    clear hd hz h
    induction d with
    | nil => rfl
    | cons q d ih =>
      rw [List.map_cons, Dict.get_cons, ih]
      obtain ⟨b, v⟩ := q
      rfl
  have hnf : Dict.Nodup d.nameForm := by
    unfold Dict.Nodup Dict.keys Dims.nameForm
    rw [List.map_map]; exact hd
  have hpow : ∀ n v, Dict.get n d.nameForm = some v ↔ (Dims.power n d = v ∧ v ≠ 0) := by
    intro n v
    rw [hget]
    unfold Dims.power
    constructor
    · intro hv
      rw [hv]
      obtain ⟨b, rfl, hm⟩ := Dims.get?_eq_some hv
      exact ⟨rfl, hz _ hm⟩
    · rintro ⟨h1, h2⟩
      cases hx : Dims.get? n d with
      | none => rw [hx] at h1; exact absurd h1.symm h2
      | some w => rw [hx] at h1; simp only [Option.getD_some] at h1; rw [h1]
  exact ⟨hnf, hpow⟩

/-- **C59.** For every unit, `unit.dimensionality() == {name: order, …}` exactly when the dict lists the basis units of non-zero
power with their powers, and no other key (in particular no key with order 0). -/
theorem C59_dimensionality_equals_dict (r : Ref) (d : Dims) (h : r.dims = .ok d) (other : List (Str × Int)) (hn : Dict.Nodup other) :
    d.eqDict other = true ↔ ∀ n v, Dict.get n other = some v ↔ (Dims.power n d = v ∧ v ≠ 0) := by
  obtain ⟨hnf, hpow⟩ := nameForm_power h
  unfold Dims.eqDict Dict.pyEq
  rw [Bool.and_eq_true, beq_iff_eq, List.all_eq_true]
  constructor
  · rintro ⟨hlen, hall⟩ n v
    rw [← hpow]
    have hsub : ∀ n v, Dict.get n d.nameForm = some v → Dict.get n other = some v := by
      intro n v hv
      have := hall _ (Dict.get_mem hv)
      simpa using this
    have hkeys : ∀ k, k ∈ Dict.keys other → k ∈ Dict.keys d.nameForm := by
      have h1 : (Dict.keys d.nameForm) ⊆ Dict.keys other := by
        intro k hk
        rw [← Dict.get_isSome_iff] at hk ⊢
        obtain ⟨v, hv⟩ := Option.isSome_iff_exists.1 hk
        rw [hsub k v hv]; rfl
      have h2 : (Dict.keys other).length ≤ (Dict.keys d.nameForm).length := by
        unfold Dict.keys; rw [List.length_map, List.length_map]; omega
      have hperm := (List.subperm_of_subset hnf h1).perm_of_length_le h2
      exact fun k hk => hperm.mem_iff.2 hk
    constructor
    · intro hv
      have hk := hkeys n (by rw [← Dict.get_isSome_iff, hv]; rfl)
      rw [← Dict.get_isSome_iff] at hk
      obtain ⟨w, hw⟩ := Option.isSome_iff_exists.1 hk
      have := hsub n w hw
      rw [hv] at this; cases this; exact hw
    · exact hsub n v
  · intro hall
    have heq : ∀ n, Dict.get n d.nameForm = Dict.get n other := by
      intro n
      cases hx : Dict.get n d.nameForm with
      | some v => exact ((hall n v).2 ((hpow n v).1 hx)).symm
      | none =>
        cases hy : Dict.get n other with
        | none => rfl
        | some v => rw [(hpow n v).2 ((hall n v).1 hy)] at hx; cases hx
    constructor
    · have hmem : ∀ k, k ∈ Dict.keys d.nameForm ↔ k ∈ Dict.keys other := by
        intro k; rw [← Dict.get_isSome_iff, ← Dict.get_isSome_iff, heq]
      have := ((List.perm_ext_iff_of_nodup hnf hn).2 hmem).length_eq
      unfold Dict.keys at this
      rwa [List.length_map, List.length_map] at this
    · intro q hq
      have : Dict.get q.1 d.nameForm = some q.2 := Dict.get_of_mem_nodup hnf hq
      rw [← heq, this]; simp

example : (Demo.u (.div (.ident c!"m") (.ident c!"s"))).dims = .ok [(Demo.metre, 1), (Demo.second, -1)] ∧
    Dims.eqDict [(Demo.metre, 1), (Demo.second, -1)] [(c!"second", -1), (c!"metre", 1)] = true ∧
    Dims.eqDict [(Demo.metre, 1)] [(c!"metre", 1), (c!"second", 0)] = false := by decide +kernel

/-- **C59.** The text of a dimensionality is that of a dict with one entry for each basis unit of non-zero power, its power, and no other. -/
theorem C59_text (r : Ref) (d : Dims) (h : r.dims = .ok d) (t : Str) (ht : (DimObj.dimensionality d).str = .ok t) :
    ∃ l : List (Str × Int), (l.map Prod.fst).Nodup ∧ (∀ n v, (n, v) ∈ l ↔ (Dims.power n d = v ∧ v ≠ 0)) ∧ ShowsDict t l := by
  obtain ⟨hnf, hpow⟩ := nameForm_power h
  simp only [DimObj.str, bind, Except.bind] at ht
  cases hi : reprItems d.nameForm with
  | error e => rw [hi] at ht; cases ht
  | ok is =>
    rw [hi] at ht; cases ht
    refine ⟨d.nameForm, hnf, fun n v => ?_, is, (reprItems_shows hi).1, by rw [joinComma_eq]; simp⟩
    rw [← hpow]
    exact ⟨Dict.get_of_mem_nodup hnf, Dict.get_mem⟩

/-- **C59.** It exists (in the model, which does not have the escapes of `repr`) when the names are plain: printable ASCII without
quote and backslash. -/
theorem C59_text_of_plain_names (r : Ref) (d : Dims) (h : r.dims = .ok d) (hp : ∀ n, Dims.power n d ≠ 0 → PlainName n) :
    ∃ t, (DimObj.dimensionality d).str = .ok t := by
  obtain ⟨hnf, hpow⟩ := nameForm_power h
  obtain ⟨is, hi⟩ := reprItems_total (l := d.nameForm) fun q hq => hp _ (by
    obtain ⟨h1, h2⟩ := (hpow q.1 q.2).1 (Dict.get_of_mem_nodup hnf hq)
    rw [h1]; exact h2)
  exact ⟨'{' :: joinComma is ++ c!"}", by simp only [DimObj.str, hi, bind, Except.bind]⟩

/-- **C59.** Two units whose dimensionalities are written alike have the same dimensionality. -/
theorem C59_text_determines (r r' : Ref) (d d' : Dims) (h : r.dims = .ok d) (h' : r'.dims = .ok d') (t : Str)
    (ht : (DimObj.dimensionality d).str = .ok t) (ht' : (DimObj.dimensionality d').str = .ok t) (n : Str) :
    Dims.power n d = Dims.power n d' := by
  obtain ⟨-, hpow⟩ := nameForm_power h
  obtain ⟨-, hpow'⟩ := nameForm_power h'
  simp only [DimObj.str, bind, Except.bind] at ht ht'
  cases hi : reprItems d.nameForm with
  | error e => rw [hi] at ht; cases ht
  | ok is =>
    cases hi' : reprItems d'.nameForm with
    | error e => rw [hi'] at ht'; cases ht'
    | ok is' =>
      rw [hi] at ht; cases ht
      rw [hi'] at ht'
      have e := Except.ok.inj ht'
      obtain ⟨s1, p1⟩ := reprItems_shows hi
      obtain ⟨s2, p2⟩ := reprItems_shows hi'
      have hn : d.nameForm = d'.nameForm := showsDict_unique (fun q hq hc => (p1 q hq _ hc).2.2.1 rfl) (fun q hq hc => (p2 q hq _ hc).2.2.1 rfl)
        ⟨is, s1, rfl⟩ ⟨is', s2, by rw [← joinComma_eq, ← joinComma_eq]; simpa using e.symm⟩
      by_cases hz : Dims.power n d = 0
      · rw [hz]
        by_contra hz'
        have := (hpow' n _).2 ⟨rfl, fun h => hz' h.symm⟩
        rw [← hn] at this
        exact hz' (((hpow n _).1 this).1.symm.trans hz).symm
      · have := (hpow n _).2 ⟨rfl, hz⟩
        rw [hn] at this
        exact ((hpow' n _).1 this).1.symm

example : (Demo.u (.div (.ident c!"m") (.ident c!"s"))).dims = .ok [(Demo.metre, 1), (Demo.second, -1)] ∧
    (DimObj.dimensionality [(Demo.metre, 1), (Demo.second, -1)]).str = .ok c!"{'metre': 1, 'second': -1}" := by decide +kernel

/-! ## C58 -/

/-- **C58.** `conversion-expr`: once both units are read (with a dimensionality each), it says that the conversion is impossible, on one
line with both units, and exits with status 1 exactly when `is_convertible_to` is False; it exits with status 0 exactly when the
converter can be constructed. -/
theorem C58_conversion_expr (env : Env) (fuel : Nat) (t1 t2 : Str) (s s1 : System) (a b : Ref) (d1 d2 : Dims)
    (h1 : System.unit env fuel t1 s = (.ok (.unit a), s1)) (h2 : (System.unit env fuel t2 s1).1 = .ok (.unit b))
    (ha : UnitWithDims a d1) (hb : UnitWithDims b d2) :
    ((conversionExpr env fuel t1 t2 s).status = .ok 1 ↔ (UObj.unit a).isConvertibleTo (.unit b) = .ok false) ∧
    ((conversionExpr env fuel t1 t2 s).status = .ok 1 → (conversionExpr env fuel t1 t2 s).lines =
      [[some c!"It is not possible to convert from \"", some a.str, some c!"\" to \"", some b.str, some c!"\""]]) ∧
    ((conversionExpr env fuel t1 t2 s).status = .ok 0 ↔ Constructible (.unit a) (.unit b)) := by
  have hc := C15_incompatible_iff_not_convertible ha hb
  unfold conversionExpr
  simp only [h1, h2]
  cases hx : Converter.build (.unit a) (.unit b) with
  | ok ops =>
    refine ⟨⟨fun h => (by cases h), fun h => ?_⟩, fun h => (by cases h), ⟨fun _ => ⟨ops, hx⟩, fun _ => rfl⟩⟩
    rw [← hc, hx] at h; cases h
  | error e =>
    by_cases he : e = .incompatible
    · subst he
      rw [show convReport (.unit a) (.unit b) (.error .incompatible) = ⟨[notPossible (.unit a) (.unit b)], .ok 1⟩ from rfl]
      refine ⟨⟨fun _ => hc.1 hx, fun _ => rfl⟩, fun _ => rfl, ⟨fun h => (by cases h), fun ⟨o, ho⟩ => ?_⟩⟩
      rw [hx] at ho; cases ho
    · rw [show convReport (.unit a) (.unit b) (.error e) = ⟨[], .error e⟩ by simp only [convReport, if_neg he]]
      refine ⟨⟨fun h => (by cases h), fun h => ?_⟩, fun h => (by cases h), ⟨fun h => (by cases h), fun ⟨o, ho⟩ => ?_⟩⟩
      · rw [← hc, hx] at h; cases h; exact absurd rfl he
      · rw [hx] at ho; cases ho

/-- **C58** on the shipped database, as the command loads it: for two spellings of the table, `conversion-expr` fails with status 1
exactly when the dimensionalities of the table are neither equal nor opposite, and succeeds with status 0 otherwise; it never ends in a
traceback. -/
theorem C58_shipped (strict : Bool) (o q : List Str → List Str) (ho : ∀ l, (o l).Perm l) (hq : ∀ l, (q l).Perm l)
    (s : System) (hs : parseSystem strict q Db.unitSystem = .ok s) (limit : Nat) (hlim : 9 ≤ limit)
    (u v : ShippedUnit) (hu : u ∈ shipped) (hv : v ∈ shipped) (n k : Str) (hn : n ∈ u.spellings) (hk : k ∈ v.spellings)
    (n1 : n ∉ Db.unusable) (n2 : n ∉ Db.mmHg) (n3 : n ∉ Db.untypeable)
    (k1 : k ∉ Db.unusable) (k2 : k ∉ Db.mmHg) (k3 : k ∉ Db.untypeable) :
    (((∀ b, u.dim b = v.dim b) ∨ (∀ b, u.dim b = - v.dim b)) → (conversionExpr ⟨parse, o⟩ limit n k s).status = .ok 0) ∧
    ((¬ ∀ b, u.dim b = v.dim b) → (¬ ∀ b, u.dim b = - v.dim b) → conversionExpr ⟨parse, o⟩ limit n k s =
      ⟨[[some c!"It is not possible to convert from \"", some n, some c!"\" to \"", some k, some c!"\""]], .ok 1⟩) := by
  obtain ⟨pf, hpf⟩ : ∃ pf, pf = parse := ⟨_, rfl⟩
  rw [← hpf]
  obtain ⟨a, ha, ra⟩ := Db.unit_row hpf ho hq hs hu hn n1 n2 n3 [] limit hlim
  obtain ⟨b, hb, rb⟩ := Db.unit_row hpf ho hq hs hv hk k1 k2 k3 [.unit limit n] limit hlim
  have hA : System.unit ⟨pf, o⟩ limit n s =
      (.ok (.unit (.unit none (.ident n) [(n, a)])), (System.unit ⟨pf, o⟩ limit n s).2) := Prod.ext ha rfl
  change (System.unit ⟨pf, o⟩ limit k (System.unit ⟨pf, o⟩ limit n s).2).1 = _ at hb
  obtain ⟨d1, w1, p1⟩ := row_unit ra ⟨_, _, _, rfl⟩
  obtain ⟨d2, w2, p2⟩ := row_unit rb ⟨_, _, _, rfl⟩
  obtain ⟨o1, q1⟩ := dimObj_of w1
  obtain ⟨o2, q2⟩ := dimObj_of w2
  have hrun : conversionExpr ⟨pf, o⟩ limit n k s = convReport (.unit (.unit none (.ident n) [(n, a)]))
      (.unit (.unit none (.ident k) [(k, b)])) (Converter.build (.unit (.unit none (.ident n) [(n, a)]))
        (.unit (.unit none (.ident k) [(k, b)]))) := by
    unfold conversionExpr
    rw [hA]
    simp only [hb]
  rw [hrun]
  have hlinkT : Link (.dimensionality d1) (.dimensionality d2) true ↔ ∀ b, u.dim b = v.dim b := by
    rw [link_proper q1 q2]; simp only [DimObj.power, DimObj.items, p1, p2]
  have hlinkF : Link (.dimensionality d1) (.dimensionality d2) false ↔ (¬ ∀ b, u.dim b = v.dim b) ∧ ∀ b, u.dim b = - v.dim b := by
    rw [link_proper q1 q2]; simp only [DimObj.power, DimObj.items, p1, p2]
  constructor
  · intro h
    have hl : ∃ σ, Link (.dimensionality d1) (.dimensionality d2) σ := by
      by_cases h0 : ∀ b, u.dim b = v.dim b
      · exact ⟨true, hlinkT.2 h0⟩
      · exact ⟨false, hlinkF.2 ⟨h0, h.resolve_left h0⟩⟩
    obtain ⟨σ, hl⟩ := hl
    obtain ⟨ops, hops⟩ := build_total o1 q1 o2 hl (row_nonzero ra (Db.row_factor hu)) (row_nonzero rb (Db.row_factor hv))
    rw [hops]; rfl
  · intro h1 h2
    rw [(build_incompatible_iff o1 q1 o2).2 ⟨fun h => h1 (hlinkT.1 h), fun h => h2 (hlinkF.1 h).2⟩]
    rfl

/-- **C58 (refuted).** For dates the command offers a conversion that `is_convertible_to` denies. -/
theorem C58_dates_refuted :
    (do let a ← (System.unit Demo.env 5 c!"hours since 2000-01-01" Demo.sys).1
        let b ← (System.unit Demo.env 5 c!"s since 1970-01-01" Demo.sys).1
        a.isConvertibleTo b) = .ok false ∧
    (conversionExpr Demo.env 5 c!"hours since 2000-01-01" c!"s since 1970-01-01" Demo.sys).status = .ok 0 := by
  decide +kernel

theorem joinComma_nil {l : List Str} (h : ∀ x ∈ l, x ≠ []) : joinComma l = [] ↔ l = [] := by
  match l with
  | [] => simp [joinComma]
  | [x] => simp [joinComma, h x (by simp)]
  | x :: y :: l => simp [joinComma]

theorem reprItems_spec : ∀ {l : List (Str × Int)} {r : List Str}, reprItems l = .ok r → r.length = l.length ∧ ∀ x ∈ r, x ≠ []
  | [], r, h => by cases h; exact ⟨rfl, fun x hx => by cases hx⟩
  | (n, v) :: l, r, h => by
    unfold reprItems at h
    cases h1 : pyRepr n with
    | error e => rw [h1] at h; cases h
    | ok k =>
      cases h2 : reprItems l with
      | error e => rw [h1, h2] at h; cases h
      | ok rest =>
        rw [h1, h2] at h
        cases h
        obtain ⟨g1, g2⟩ := reprItems_spec h2
        refine ⟨by simp [g1], fun x hx => ?_⟩
        rcases List.mem_cons.1 hx with rfl | hx
        · simp
        · exact g2 x hx

/-- **C58.** `explain-unit` on a text of a unit: if it ends well, it prints three lines: the normalised text, what `expanded()`
returns, and a dimensionality, which is `{}` exactly when the unit is dimensionless, and shows each basis unit's non-zero power. -/
theorem C58_explain_unit (o : List Str → List Str) (fuel : Nat) (text : Str) (s : System) (r : Ref)
    (h : (System.unit ⟨parse, o⟩ fuel text s).1 = .ok (.unit r)) (hok : (explainUnit ⟨parse, o⟩ fuel text s).status = .ok 0) :
    ∃ t x d, normalizeText text = .ok t ∧ (UObj.unit r).expanded = .ok x ∧
      (explainUnit ⟨parse, o⟩ fuel text s).lines =
        [[some c!"Unit: ", some t], [some c!"In basis form: ", some x], [some c!"Dimensionality: ", some d]] ∧
      (d = c!"{}" ↔ (UObj.unit r).isDimensionless = .ok true) ∧
      ∃ (D : Dims) (l : List (Str × Int)), r.dims = .ok D ∧ (l.map Prod.fst).Nodup ∧ (∀ n v, (n, v) ∈ l ↔ (Dims.power n D = v ∧ v ≠ 0)) ∧
        ShowsDict d l := by
  have hr : ∃ e refs, parse text = .ok e ∧ r = .unit none e refs := by
    unfold System.unit at h
    cases hp : parse text with
    | error e => simp only [hp] at h; cases h
    | ok e =>
      simp only [hp] at h
      cases hl : lookupAll (unitByNameOrSymbol ⟨parse, o⟩ fuel) (o e.identifiers) s with
      | mk q s1 =>
        simp only [hl] at h
        cases q with
        | error x => cases h
        | ok refs =>
          simp only at h
          have := (mkUnit_iff.1 (((C24_date_unit_iff e refs).2 r).1 h)).1
          exact ⟨e, refs, rfl, this⟩
  obtain ⟨e, refs, hp, rfl⟩ := hr
  unfold explainUnit at hok ⊢
  simp only [h] at hok ⊢
  cases hx : (UObj.unit (Ref.unit none e refs)).expanded with
  | error x => rw [hx] at hok; cases hok
  | ok x =>
    rw [hx] at hok
    simp only at hok ⊢
    cases hd : (Ref.unit none e refs).dims with
    | error x => simp only [UObj.dimObj, Ref.dimObj, hd, bind, Except.bind] at hok; cases hok
    | ok d =>
      simp only [UObj.dimObj, Ref.dimObj, hd, bind, Except.bind] at hok ⊢
      cases hs : DimObj.str (.dimensionality d) with
      | error x => rw [hs] at hok; cases hok
      | ok t =>
        refine ⟨e.str, x, t, by simp only [normalizeText, hp, bind, Except.bind], rfl, rfl, ?_, ?_⟩
        rotate_left
        · obtain ⟨l, hl⟩ := C59_text _ d hd t hs
          exact ⟨d, l, rfl, hl⟩
        unfold DimObj.str at hs
        cases hi : reprItems d.nameForm with
        | error x => simp only [hi, bind, Except.bind] at hs; cases hs
        | ok items =>
          simp only [hi, bind, Except.bind] at hs
          cases hs
          obtain ⟨g1, g2⟩ := reprItems_spec hi
          rw [show ('{' :: joinComma items ++ c!"}" = c!"{}") ↔ joinComma items = [] by
            constructor
            · intro h
              have := congrArg List.length h
              simp at this
              exact this
            · intro h; rw [h]; rfl]
          rw [joinComma_nil g2, ← List.length_eq_zero_iff, g1]
          simp only [UObj.isDimensionless, hd, bind, Except.bind, Dims.nameForm, List.length_map, List.length_eq_zero_iff,
            Except.ok.injEq, List.isEmpty_iff]

example : (explainUnit Demo.env 5 c!"km / h" Demo.sys) =
    ⟨[[some c!"Unit: ", some c!"km/h"], [some c!"In basis form: ", some c!"1E+3·metre/60·60·second"],
      [some c!"Dimensionality: ", some c!"{'metre': 1, 'second': -1}"]], .ok 0⟩ := by decide +kernel

/-- the superscript defect (C43) at the command line: two lines, then a traceback -/
example : (explainUnit Demo.env 5 c!"m²" Demo.sys) =
    ⟨[[some c!"Unit: ", some c!"m^2"], [some c!"In basis form: ", some c!"metre^2"]], .error .typeError⟩ := by decide +kernel

example : conversionExpr Demo.env 5 c!"km" c!"s" Demo.sys =
    ⟨[[some c!"It is not possible to convert from \"", some c!"km", some c!"\" to \"", some c!"s", some c!"\""]], .ok 1⟩ := by
  decide +kernel

/-- **C58.** `debug-parser` on a text that parses lists tokens that make up the text without surrounding white space. -/
theorem C58_debug_parser (text : Str) (ts : List Token) (h : debugParser text = .ok ts) :
    (ts.map Token.text).flatten = strip text := by
  unfold debugParser at h
  cases hp : parse text with
  | error e => simp only [hp, bind, Except.bind] at h; cases h
  | ok e => simp only [hp, bind, Except.bind] at h; cases h; exact (C28_lossless _).1

end Verif

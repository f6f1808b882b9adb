import Verif.Lemmas.Rows
/-!
# C53–C55: what the units of the shipped database mean, how they convert and which are equal

The table `Spec.shipped` lists every unit of `udunits2_combined.xml` with its spellings, scale, factor and powers of basis units;
it was computed by a program independent of the model.
-/

namespace Verif
open Spec

namespace Db

theorem row_wf {u : ShippedUnit} (hu : u ∈ shipped) : (⟨u.factor, u.powers⟩ : Mono).WF := by
  have h1 := List.all_eq_true.1 powers_nodup u hu
  have h2 := List.all_eq_true.1 factors_nonzero u hu
  simp only [Bool.and_eq_true, decide_eq_true_eq, List.all_eq_true, bne_iff_ne] at h1 h2
  exact ⟨h1.1, h1.2, fun h => absurd h h2⟩

theorem row_factor {u : ShippedUnit} (hu : u ∈ shipped) : u.factor ≠ 0 := by
  have h2 := List.all_eq_true.1 factors_nonzero u hu
  simpa using h2

theorem skip_iff (n : Str) : skipB n = true ↔ deadB n = true ∨ n ∈ mmHg := by
  unfold skipB
  rw [Bool.or_eq_true, List.any_eq_true]
  constructor
  · rintro (h | ⟨k, hk, he⟩)
    · exact .inl h
    · obtain ⟨m, hm, rfl⟩ := List.mem_map.1 hk
      rw [← enc_inj (Nat.eq_of_beq_eq_true he)]; exact .inr hm
  · rintro (h | hn)
    · exact .inl h
    · exact .inr ⟨enc n, List.mem_map.2 ⟨n, hn, rfl⟩, by simp⟩

theorem mem_withEntries : ∀ (ds : List UnitDecl) (h : Nat) (r : UnitReference) (e : Entry), (r, e) ∈ withEntries h ds →
    ∃ d ∈ ds, declRef d = r
  | [], _, _, _, hd => by cases hd
  | .lazy t r' :: ds, h, r, e, hd => by
    rcases List.mem_cons.1 hd with heq | hd'
    · cases heq; exact ⟨_, List.mem_cons_self .., rfl⟩
    · obtain ⟨d, h1, h2⟩ := mem_withEntries ds _ r e hd'; exact ⟨d, List.mem_cons_of_mem _ h1, h2⟩
  | .basis b :: ds, h, r, e, hd => by
    rcases List.mem_cons.1 hd with heq | hd'
    · cases heq; exact ⟨_, List.mem_cons_self .., rfl⟩
    · obtain ⟨d, h1, h2⟩ := mem_withEntries ds _ r e hd'; exact ⟨d, List.mem_cons_of_mem _ h1, h2⟩

theorem claimed_of_mem {n : Str} {e : Entry} (h : (n, e) ∈ allClaims (withEntries 0 decls)) : Claimed n := by
  unfold allClaims at h
  simp only [List.mem_append, mem_claimsOf] at h
  rcases h with ⟨r, h1, h2⟩ | ⟨r, h1, h2⟩ | ⟨r, h1, h2⟩ | ⟨r, h1, h2⟩ <;>
    obtain ⟨d, hd, rfl⟩ := mem_withEntries _ _ _ _ h1
  · exact ⟨d, hd, .inl (mem_nameKeys_iff.1 h2)⟩
  · exact ⟨d, hd, .inr (.inr (.inl (mem_aliasKeys_iff.1 h2)))⟩
  · exact ⟨d, hd, .inr (.inl h2)⟩
  · exact ⟨d, hd, .inr (.inr (.inr h2))⟩

theorem row_claimed {u : ShippedUnit} (hu : u ∈ shipped) {n : Str} (hn : n ∈ u.spellings) :
    ∃ e, (n, e) ∈ allClaims (withEntries 0 decls) := by
  have h := List.all_eq_true.1 (List.all_eq_true.1 spellings_registered u hu) n hn
  obtain ⟨e, he⟩ := Option.isSome_iff_exists.1 h
  rw [show Db.tree = .ofList (allClaims (withEntries 0 Db.decls)) .leaf from rfl, Tree.find_ofList] at he
  exact ⟨e, Dict.get_mem he⟩

theorem find_foldl (l : List Str) : ∀ (t : Tree Unit) (n : Str),
    ((l.foldl (fun t n => t.insert (enc n) ()) t).find (enc n)).isSome → n ∈ l ∨ (t.find (enc n)).isSome := by
  induction l with
  | nil => intro t n h; exact .inr h
  | cons m l ih =>
    intro t n h
    rw [List.foldl_cons] at h
    rcases ih _ n h with h | h
    · exact .inl (List.mem_cons_of_mem _ h)
    · rw [Tree.find_insert] at h
      split at h
      · rename_i heq; exact .inl (by rw [enc_inj heq]; exact List.mem_cons_self ..)
      · exact .inr h

theorem ordered_spec : ∀ x ∈ ordered, ∃ o, (lazyObjs decls)[x.1]? = some o ∧ o.defn = x.2 := by
  intro x hx
  have := List.all_eq_true.1 ordered_ok x hx
  cases h : (lazyObjs decls)[x.1]? with
  | none => rw [h] at this; cases this
  | some o => rw [h] at this; exact ⟨o, rfl, by simpa using this⟩

/-- the lookup in the fixed registry has the meaning of a row, if the row passes the check -/
theorem spec_lookup_checked {pf : Str → Py Node} (hpf : pf = parse) {o q : List Str → List Str} (ho : ∀ l, (o l).Perm l)
    (hq : ∀ l, (q l).Perm l) {strict : Bool} {s : System} (hs : parseSystem strict q Db.unitSystem = .ok s)
    {u : ShippedUnit} (hwf : (⟨u.factor, u.powers⟩ : Mono).WF) {n : Str} (hf : (tree.find (enc n)).isSome = true)
    (hnd : deadB n = false)
    (hk : spellOk tree pres (views parse) u n = true) :
    ∃ r, Spec.lookup ⟨pf, o⟩ s 9 n = .ok r ∧ r.IsRow u ∧ (u.scale = .linear → r.Straight) := by
  obtain ⟨s0, hl, ht, hp, hh, hpr, hcf⟩ := Db.base
  rcases system_order strict id q (fun _ => .refl _) hq Db.unitSystem Db.free with ⟨e, e2, _⟩ | ⟨s0', s', e2, e3, hsame⟩
  · rw [hl] at e2; cases e2
  rw [hl] at e2; cases e2
  rw [hs] at e3; cases e3
  have hfind : ∃ e, direct s0 n = some e := by
    rw [ht] at hf
    exact Option.isSome_iff_exists.1 hf
  obtain ⟨e', he'⟩ := hfind
  obtain ⟨hw, hb⟩ := Db.wellFounded hpf ht hp hh
  have hgood : ∀ b, e' = .lazy b → rankOf Db.ranks b ≠ 0 ∧ rankOf Db.ranks b < 8 := by
    rintro b rfl
    refine ⟨fun h0 => ?_, ?_⟩
    · unfold deadB at hnd; rw [ht, he'] at hnd; simp [h0] at hnd
    · have := Db.rank_le b; omega
  obtain ⟨r, hr⟩ := spec_lookup_resolves (env := ⟨pf, id⟩) (fun _ => .refl _) hw n e' (.inl he') 8 hgood
  obtain ⟨r2, hr2, hsm⟩ := spec_lookup_same (env1 := ⟨pf, id⟩) (env2 := ⟨pf, o⟩) hsame.sysSame rfl (fun _ => .refl _) ho 9 n r hr
  refine ⟨r2, hr2, ?_⟩
  have hacc : AccOk pf s0 (views pf) := by
    unfold views
    rw [← hp]
    refine evalIds_sound ht ordered .leaf ?_ ?_
    · rw [hh]; exact ordered_spec
    · intro i v h; cases h
  rw [← hpf] at hk
  unfold spellOk at hk
  cases hv : viewSpell tree pres (views pf) n with
  | none => rw [hv] at hk; cases hk
  | some v =>
    rw [hv] at hk
    have hview := viewSpell_sound (s := s0) ht hacc (by rw [hp]; exact hv) 9 r hr
    obtain ⟨d, m, g1, g2, g3, g4, g5⟩ := viewMatches_sound hwf hk hview
    refine ⟨⟨d, m, by rw [← hsm.dims?]; exact g1, g2, (hsm.symDef _).1 g3, g4, g5⟩, fun hl => ?_⟩
    obtain ⟨e, e1, e2⟩ := viewMatches_straight hk hview hl
    exact ⟨e, (hsm.expand e).1 e1, e2⟩

/-- the lookup in the fixed registry has the meaning of the table -/
theorem spec_lookup_row {pf : Str → Py Node} (hpf : pf = parse) {o q : List Str → List Str} (ho : ∀ l, (o l).Perm l)
    (hq : ∀ l, (q l).Perm l) {strict : Bool} {s : System} (hs : parseSystem strict q Db.unitSystem = .ok s)
    {u : ShippedUnit} (hu : u ∈ shipped) {n : Str} (hn : n ∈ u.spellings) (h1 : n ∉ unusable) (h2 : n ∉ mmHg) :
    ∃ r, Spec.lookup ⟨pf, o⟩ s 9 n = .ok r ∧ r.IsRow u ∧ (u.scale = .linear → r.Straight) := by
  obtain ⟨e, he⟩ := row_claimed hu hn
  have hdead := Db.dead_iff he
  have hnd : deadB n = false := by
    rw [Bool.eq_false_iff]; exact fun h => h1 (hdead.1 h)
  have h := List.all_eq_true.1 (List.all_eq_true.1 spellings_registered u hu) n hn
  refine spec_lookup_checked hpf ho hq hs (row_wf hu) h hnd ?_
  have hrow := List.all_eq_true.1 rows_ok u hu
  unfold rowOk at hrow
  have hrow' := List.all_eq_true.1 hrow n hn
  rw [Bool.or_eq_true] at hrow'
  rcases hrow' with hk | hk
  · rcases (skip_iff n).1 hk with h | h
    · rw [hnd] at h; cases h
    · exact absurd h h2
  · exact hk

theorem spec_unit_ident {pf : Str → Py Node} {o : List Str → List Str} (ho : ∀ l, (o l).Perm l) {s : System} {n : Str} {d : Nat}
    {r : Ref} (hp : pf n = .ok (.ident n)) (hr : Spec.lookup ⟨pf, o⟩ s d n = .ok r) :
    Spec.unit ⟨pf, o⟩ s d n = .ok (.unit (.unit none (.ident n) [(n, r)])) := by
  have : o [n] = [n] := List.perm_singleton.1 (ho [n])
  unfold Spec.unit
  simp only [bind, Except.bind, hp, Node.identifiers, this, List.mapM_cons, List.mapM_nil, hr, pure, Except.pure]
  unfold unitFromExpr
  simp only [bind, Except.bind]
  rw [mkUnit_shiftFree none [(n, r)] (.ident n) trivial]

theorem typeable {u : ShippedUnit} (hu : u ∈ shipped) {n : Str} (hn : n ∈ u.spellings) :
    parse n = .ok (.ident n) ↔ n ∉ untypeable := by
  have h := List.all_eq_true.1 (List.all_eq_true.1 typeable_ok u hu) n hn
  rw [beq_iff_eq] at h
  have h2 : isIdentB (parse n) n = true ↔ parse n = .ok (.ident n) := by
    unfold isIdentB
    split
    · rename_i m hm
      rw [hm]
      constructor
      · intro he; rw [enc_inj (Nat.eq_of_beq_eq_true he)]
      · intro he; cases he; simp
    · rename_i hne
      constructor
      · intro h; cases h
      · intro h; exact absurd h (hne n)
  rw [← h2, h, Bool.not_eq_true', Bool.eq_false_iff, ne_eq, not_iff_not, List.any_eq_true]
  constructor
  · rintro ⟨k, hk, he⟩
    obtain ⟨m, hm, rfl⟩ := List.mem_map.1 hk
    rw [← enc_inj (Nat.eq_of_beq_eq_true he)]; exact hm
  · intro hm; exact ⟨enc n, List.mem_map.2 ⟨n, hm, rfl⟩, by simp⟩

/-- `unit(n)` for a spelling of the table -/
theorem unit_row {pf : Str → Py Node} (hpf : pf = parse) {o q : List Str → List Str} (ho : ∀ l, (o l).Perm l)
    (hq : ∀ l, (q l).Perm l) {strict : Bool} {s : System} (hs : parseSystem strict q Db.unitSystem = .ok s)
    {u : ShippedUnit} (hu : u ∈ shipped) {n : Str} (hn : n ∈ u.spellings) (h1 : n ∉ unusable) (h2 : n ∉ mmHg) (h3 : n ∉ untypeable)
    (hist : List Query) (limit : Nat) (hlim : 9 ≤ limit) :
    ∃ r, (System.unit ⟨pf, o⟩ limit n (after ⟨pf, o⟩ hist s)).1 = .ok (.unit (.unit none (.ident n) [(n, r)])) ∧
      (Ref.unit none (.ident n) [(n, r)]).IsRow u := by
  obtain ⟨r, hr, hrow, _⟩ := spec_lookup_row hpf ho hq hs hu hn h1 h2
  obtain ⟨s', hs', hpr', hcf', _⟩ := C38_shipped_database_loads strict q hq
  rw [hs] at hs'; cases hs'
  have hp : pf n = .ok (.ident n) := by rw [hpf]; exact (typeable hu hn).2 h3
  have hsp := spec_unit_ident ho hp hr
  refine ⟨r, ?_, isRow_ident hrow none n⟩
  have hsim := (sim_unit hcf' limit n _ (inv_after hcf' hist (Inv.init ⟨pf, o⟩ hpr'))).2.2
  have := Le.trans (spec_unit_mono ⟨pf, o⟩ s n hlim) hsim
  simp only [hsp] at this
  exact this.ok

end Db

/-- **C53.** Load the shipped database in any way and use it in any way: every spelling of the table — apart from the 22 that never
resolve and the 8 of the torr — resolves to a unit with the dimensionality, the scale, the factor and the basis-unit powers of the
table. -/
theorem C53_shipped_units (strict : Bool) (o q : List Str → List Str) (ho : ∀ l, (o l).Perm l) (hq : ∀ l, (q l).Perm l)
    (s : System) (hs : parseSystem strict q Db.unitSystem = .ok s) (hist : List Query) (limit : Nat) (hlim : 9 ≤ limit)
    (u : ShippedUnit) (hu : u ∈ shipped) (n : Str) (hn : n ∈ u.spellings) (h1 : n ∉ Db.unusable) (h2 : n ∉ Db.mmHg) :
    ∃ r d m, (unitByNameOrSymbol ⟨parse, o⟩ limit n (after ⟨parse, o⟩ hist s)).1 = .ok r ∧
      r.dims = .ok d ∧ (∀ b, Dims.power b d = u.dim b) ∧
      r.symDef = .ok (scaleOps u.scale, m) ∧ m.coef = u.factor ∧ ∀ b, m.exp b = u.power b := by
  obtain ⟨pf, hpf⟩ : ∃ pf, pf = parse := ⟨_, rfl⟩
  rw [← hpf]
  obtain ⟨r, hr, ⟨d, m, g1, g2, g3, g4, g5⟩, _⟩ := Db.spec_lookup_row hpf ho hq hs hu hn h1 h2
  obtain ⟨s', hs', hpr', hcf', _⟩ := C38_shipped_database_loads strict q hq
  rw [hs] at hs'; cases hs'
  refine ⟨r, d, m, ?_, dims_of_some g1, g2, g3, g4, g5⟩
  rw [(C05_lookup_refines_fixed_registry ⟨pf, o⟩ s hpr' hcf' hist limit n).1 9 hlim (by rw [hr]; simp), hr]

namespace Db
/-- what the code makes of the torr -/
def torr : ShippedUnit := ⟨mmHg, .linear, 26664477483/200000, [(c!"kilogram", 1), (c!"second", -2)]⟩
theorem torr_ok : (mmHg.all fun n => (tree.find (enc n)).isSome && !deadB n && spellOk tree pres (views parse) torr n) = true := by decide +kernel
theorem torr_wf : (⟨torr.factor, torr.powers⟩ : Mono).WF :=
  ⟨by show (torr.powers.map (·.1)).Nodup; decide +kernel, by decide +kernel, fun h => by
    exact absurd (show torr.factor = 0 from h) (by decide +kernel)⟩
theorem torr_find : shipped.any (fun u => decide (u.spellings = mmHg ∧ u.factor = 26664477483/200000000 ∧
    u.powers = [(c!"meter", -1), (c!"second", -2), (c!"kilogram", 1)])) = true := by decide +kernel
end Db

/-- **C53** (refuted for the torr). The database defines the torr as `mm Hg`, a pressure: the table has 133.322387415 kg/(m s²).  But
the code reads `mm` as m² (see C14), so each of its eight spellings resolves to a unit of dimension kg/s², 133322.387415 of
them. -/
theorem C53_torr_refuted (strict : Bool) (o q : List Str → List Str) (ho : ∀ l, (o l).Perm l) (hq : ∀ l, (q l).Perm l)
    (s : System) (hs : parseSystem strict q Db.unitSystem = .ok s) (hist : List Query) (limit : Nat) (hlim : 9 ≤ limit)
    (n : Str) (hn : n ∈ Db.mmHg) :
    (∃ u ∈ shipped, u.spellings = Db.mmHg ∧ u.dim c!"meter" = -1 ∧ u.factor = 133.322387415) ∧
    ∃ r d m, (unitByNameOrSymbol ⟨parse, o⟩ limit n (after ⟨parse, o⟩ hist s)).1 = .ok r ∧ r.dims = .ok d ∧
      Dims.power c!"meter" d = 0 ∧ r.symDef = .ok ([], m) ∧ m.coef = 133322.387415 := by
  constructor
  · obtain ⟨u, hu, h⟩ := List.any_eq_true.1 Db.torr_find
    obtain ⟨h1, h2, h3⟩ := of_decide_eq_true h
    refine ⟨u, hu, h1, ?_, ?_⟩
    · unfold ShippedUnit.dim ShippedUnit.power; rw [h3]; decide +kernel
    · rw [h2]; norm_num
  · obtain ⟨pf, hpf⟩ : ∃ pf, pf = parse := ⟨_, rfl⟩
    rw [← hpf]
    have hk := List.all_eq_true.1 Db.torr_ok n hn
    simp only [Bool.and_eq_true, Bool.not_eq_true'] at hk
    obtain ⟨r, hr, ⟨d, m, g1, g2, g3, g4, g5⟩, _⟩ := Db.spec_lookup_checked (u := Db.torr) hpf ho hq hs
      Db.torr_wf hk.1.1 hk.1.2 hk.2
    obtain ⟨s', hs', hpr', hcf', _⟩ := C38_shipped_database_loads strict q hq
    rw [hs] at hs'; cases hs'
    refine ⟨r, d, m, ?_, dims_of_some g1, ?_, g3, ?_⟩
    · rw [(C05_lookup_refines_fixed_registry ⟨pf, o⟩ s hpr' hcf' hist limit n).1 9 hlim (by rw [hr]; simp), hr]
    · rw [g2]; decide +kernel
    · rw [g4]; show (26664477483/200000 : Rat) = _; norm_num

/-- **C53**, completeness of the table: every spelling declared in the shipped database is in the table, or is one of the 22 that
never resolve. -/
theorem C53_table_complete (n : Str) (hn : Db.Claimed n) (h1 : n ∉ Db.unusable) : ∃ u ∈ shipped, n ∈ u.spellings := by
  obtain ⟨e, he⟩ := Db.claimed_mem hn
  have h := List.all_eq_true.1 Db.table_covers _ he
  rw [Bool.or_eq_true] at h
  rcases h with h | h
  · exact absurd ((Db.dead_iff he).1 h) h1
  · unfold Db.tableKeys at h
    rcases Db.find_foldl _ _ n h with h | h
    · exact List.mem_flatMap.1 h
    · cases h

/-- **C53**, soundness of the table's spellings: they are all declared, and those outside a list of 37 can be typed: as a unit text
they are read as one identifier. -/
theorem C53_spellings_typeable (u : ShippedUnit) (hu : u ∈ shipped) (n : Str) (hn : n ∈ u.spellings) :
    Db.Claimed n ∧ (parse n = .ok (.ident n) ↔ n ∉ Db.untypeable) := by
  obtain ⟨e, he⟩ := Db.row_claimed hu hn
  exact ⟨Db.claimed_of_mem he, Db.typeable hu hn⟩

/-- **C54.** `unit(n)` and `unit(k)` for two spellings of the table, on two loads of the shipped database used in any way.
* If their powers of basis units (radian included) are equal, `x` converts to `y` exactly when they are the same quantity.
* If the powers are opposite and the dimensionalities not equal, exactly when the quantities are reciprocal.
* If the dimensionalities are equal or opposite but the powers of the radian do not match, every conversion is a `NameError`.
* Otherwise the converter cannot be built: `IncompatibleUnitsError`. -/
theorem C54_shipped_conversions (strict strict' : Bool) (o q o' q' : List Str → List Str) (ho : ∀ l, (o l).Perm l)
    (hq : ∀ l, (q l).Perm l) (ho' : ∀ l, (o' l).Perm l) (hq' : ∀ l, (q' l).Perm l)
    (s s' : System) (hs : parseSystem strict q Db.unitSystem = .ok s) (hs' : parseSystem strict' q' Db.unitSystem = .ok s')
    (hist hist' : List Query) (limit limit' : Nat) (hlim : 9 ≤ limit) (hlim' : 9 ≤ limit')
    (u v : ShippedUnit) (hu : u ∈ shipped) (hv : v ∈ shipped) (n k : Str) (hn : n ∈ u.spellings) (hk : k ∈ v.spellings)
    (n1 : n ∉ Db.unusable) (n2 : n ∉ Db.mmHg) (n3 : n ∉ Db.untypeable)
    (k1 : k ∉ Db.unusable) (k2 : k ∉ Db.mmHg) (k3 : k ∉ Db.untypeable) :
    ∃ A B, (System.unit ⟨parse, o⟩ limit n (after ⟨parse, o⟩ hist s)).1 = .ok A ∧
      (System.unit ⟨parse, o'⟩ limit' k (after ⟨parse, o'⟩ hist' s')).1 = .ok B ∧
      ((∀ b, u.power b = v.power b) → ∀ x y : ℝ, convert A B x = .ok y ↔ v.quantity y = u.quantity x) ∧
      ((∀ b, v.power b = - u.power b) → (¬ ∀ b, u.dim b = v.dim b) →
        ∀ x y : ℝ, convert A B x = .ok y ↔ u.quantity x ≠ 0 ∧ v.quantity y = (u.quantity x)⁻¹) ∧
      ((∀ b, u.dim b = v.dim b) → (¬ ∀ b, u.power b = v.power b) → ∀ x, convert A B x = .error .nameError) ∧
      ((¬ ∀ b, u.dim b = v.dim b) → (∀ b, u.dim b = - v.dim b) → (¬ ∀ b, v.power b = - u.power b) →
        ∀ x, convert A B x = .error .nameError) ∧
      ((¬ ∀ b, u.dim b = v.dim b) → (¬ ∀ b, u.dim b = - v.dim b) → ∀ x, convert A B x = .error .incompatible) := by
  obtain ⟨pf, hpf⟩ : ∃ pf, pf = parse := ⟨_, rfl⟩
  rw [← hpf]
  obtain ⟨a, ha, ra⟩ := Db.unit_row hpf ho hq hs hu hn n1 n2 n3 hist limit hlim
  obtain ⟨b, hb, rb⟩ := Db.unit_row hpf ho' hq' hs' hv hk k1 k2 k3 hist' limit' hlim'
  have fu := Db.row_factor hu
  have fv := Db.row_factor hv
  have dimOf : ∀ {w z : ShippedUnit}, (∀ b, w.power b = z.power b) → ∀ b, w.dim b = z.dim b := by
    intro w z h b; unfold ShippedUnit.dim; rw [h]
  refine ⟨_, _, ha, hb, ?_, ?_, ?_, ?_, ?_⟩
  · intro h x y
    rw [convert_row (σ := true) ra rb ⟨_, _, _, rfl⟩ ⟨_, _, _, rfl⟩ fu fv (dimOf h)]
    exact ⟨fun h => h.1, fun h' => ⟨h', funext fun b => (h b).symm⟩⟩
  · intro h h' x y
    rw [convert_row (σ := false) ra rb ⟨_, _, _, rfl⟩ ⟨_, _, _, rfl⟩ fu fv
      ⟨h', fun b => by unfold ShippedUnit.dim; rw [h]; split <;> simp⟩]
    exact ⟨fun h => ⟨h.1, h.2.1⟩, fun h' => ⟨h'.1, h'.2, funext h⟩⟩
  · intro h h' x
    exact convert_row_leftover (σ := true) ra rb ⟨_, _, _, rfl⟩ ⟨_, _, _, rfl⟩ fu fv h
      (fun he => h' fun b => congrFun he b) x
  · intro h1 h2 h3 x
    exact convert_row_leftover (σ := false) ra rb ⟨_, _, _, rfl⟩ ⟨_, _, _, rfl⟩ fu fv ⟨h1, h2⟩
      (fun he => h3 fun b => congrFun he b) x
  · intro h1 h2 x
    obtain ⟨d1, w1, p1⟩ := row_unit ra ⟨_, _, _, rfl⟩
    obtain ⟨d2, w2, p2⟩ := row_unit rb ⟨_, _, _, rfl⟩
    obtain ⟨o1, q1⟩ := dimObj_of w1
    obtain ⟨o2, q2⟩ := dimObj_of w2
    have : Converter.build (.unit (.unit none (.ident n) [(n, a)])) (.unit (.unit none (.ident k) [(k, b)])) = .error .incompatible := by
      rw [build_incompatible_iff o1 q1 o2, link_proper q1 q2, link_proper q1 q2]
      simp only [DimObj.power, DimObj.items, p1, p2]
      exact ⟨h1, fun h => h2 h.2⟩
    unfold convert
    simp only [bind, Except.bind, this]

theorem scaleOps_eq {a b : Scale} (ha : ∀ q, a = .offset q → q ≠ 0) (hb : ∀ q, b = .offset q → q ≠ 0) :
    transEq (scaleOps a) (scaleOps b) = true ↔ a = b := by
  cases a with
  | offset p =>
    have hp := ha p rfl
    cases b with
    | offset q => simp [scaleOps, transEq, canonT, transEq.go, hp, hb q rfl, TOp.beq]
    | _ => simp [scaleOps, transEq, canonT, transEq.go, hp, TOp.beq]
  | _ =>
    cases b with
    | offset q => simp [scaleOps, transEq, canonT, transEq.go, hb q rfl, TOp.beq]
    | _ => simp [scaleOps, transEq, canonT, transEq.go, TOp.beq]

namespace Db
/-- no offset of the table is zero -/
theorem offsets_nonzero : (shipped.all fun u => match u.scale with
    | .offset q => decide (q ≠ 0)
    | _ => true) = true := by decide +kernel

theorem offset_ne {u : ShippedUnit} (hu : u ∈ shipped) (q : Rat) (h : u.scale = .offset q) : q ≠ 0 := by
  have := List.all_eq_true.1 offsets_nonzero u hu
  simp only [h, decide_eq_true_eq] at this
  exact this

/-- a spelling belongs to one row -/
theorem spellings_distinct : distinctB ((shipped.flatMap ShippedUnit.spellings).map enc) .leaf = true := by decide +kernel

theorem row_unique {u v : ShippedUnit} (hu : u ∈ shipped) (hv : v ∈ shipped) {n : Str} (h1 : n ∈ u.spellings) (h2 : n ∈ v.spellings) :
    u = v := by
  have hd := (distinctB_sound _ _ spellings_distinct).1
  generalize shipped = l at hd hu hv
  induction l with
  | nil => cases hu
  | cons w l ih =>
    rw [List.flatMap_cons, List.nodup_append] at hd
    rcases List.mem_cons.1 hu with rfl | hu' <;> rcases List.mem_cons.1 hv with rfl | hv'
    · rfl
    · exact absurd rfl (hd.2.2 n h1 n (List.mem_flatMap.2 ⟨v, hv', h2⟩))
    · exact absurd rfl (hd.2.2 n h2 n (List.mem_flatMap.2 ⟨u, hu', h1⟩))
    · exact ih hd.2.1 hu' hv'
end Db

/-- **C55.** `unit(n) == unit(k)` for two spellings of the table, on two loads of the shipped database used in any way: true exactly
when scale, factor and all powers (radian included) agree, and it never raises. -/
theorem C55_shipped_equality (strict strict' : Bool) (o q o' q' : List Str → List Str) (ho : ∀ l, (o l).Perm l)
    (hq : ∀ l, (q l).Perm l) (ho' : ∀ l, (o' l).Perm l) (hq' : ∀ l, (q' l).Perm l)
    (s s' : System) (hs : parseSystem strict q Db.unitSystem = .ok s) (hs' : parseSystem strict' q' Db.unitSystem = .ok s')
    (hist hist' : List Query) (limit limit' : Nat) (hlim : 9 ≤ limit) (hlim' : 9 ≤ limit')
    (u v : ShippedUnit) (hu : u ∈ shipped) (hv : v ∈ shipped) (n k : Str) (hn : n ∈ u.spellings) (hk : k ∈ v.spellings)
    (n1 : n ∉ Db.unusable) (n2 : n ∉ Db.mmHg) (n3 : n ∉ Db.untypeable)
    (k1 : k ∉ Db.unusable) (k2 : k ∉ Db.mmHg) (k3 : k ∉ Db.untypeable) :
    ∃ a b eq, (System.unit ⟨parse, o⟩ limit n (after ⟨parse, o⟩ hist s)).1 = .ok (.unit a) ∧
      (System.unit ⟨parse, o'⟩ limit' k (after ⟨parse, o'⟩ hist' s')).1 = .ok (.unit b) ∧ Ref.eq a b = .ok eq ∧
      (eq = true ↔ u.scale = v.scale ∧ u.factor = v.factor ∧ ∀ x, u.power x = v.power x) := by
  obtain ⟨pf, hpf⟩ : ∃ pf, pf = parse := ⟨_, rfl⟩
  rw [← hpf]
  obtain ⟨a, ha, ra⟩ := Db.unit_row hpf ho hq hs hu hn n1 n2 n3 hist limit hlim
  obtain ⟨b, hb, rb⟩ := Db.unit_row hpf ho' hq' hs' hv hk k1 k2 k3 hist' limit' hlim'
  unfold Ref.eq
  by_cases hnk : (Ref.unit none (.ident k) [(k, b)]).defn.str = (Ref.unit none (.ident n) [(n, a)]).defn.str
  · refine ⟨_, _, true, ha, hb, by rw [if_pos hnk], ?_⟩
    have : k = n := hnk
    subst this
    rw [Db.row_unique hu hv hn hk]
    simp
  · obtain ⟨d, m, g1, g2, g3, g4, g5⟩ := ra
    obtain ⟨d', m', f1, f2, f3, f4, f5⟩ := rb
    refine ⟨_, _, m.beq m' && transEq (scaleOps u.scale) (scaleOps v.scale), ha, hb, ?_, ?_⟩
    · rw [if_neg hnk]
      simp only [bind, Except.bind, g3, f3]
    · rw [Bool.and_eq_true, scaleOps_eq (Db.offset_ne hu) (Db.offset_ne hv),
        Mono.beq_iff (obj_symDef_good (u := .unit _) g3).2 (obj_symDef_good (u := .unit _) f3).2, g4, f4]
      simp only [g5, f5]
      exact ⟨fun h => ⟨h.2, h.1.1, h.1.2⟩, fun h => ⟨⟨h.2.1, h.2.2⟩, h.1⟩⟩

/-! ## Non-vacuity -/

namespace Db
/-- the row of a spelling -/
def rowOf (n : Str) : Option ShippedUnit := shipped.find? fun u => (u.spellings.map enc).any fun k => Nat.beq k (enc n)

theorem rowOf_mem {n : Str} {u : ShippedUnit} (h : rowOf n = some u) : u ∈ shipped ∧ n ∈ u.spellings := by
  refine ⟨List.mem_of_find?_eq_some h, ?_⟩
  have := List.find?_some h
  obtain ⟨k, hk, he⟩ := List.any_eq_true.1 this
  obtain ⟨m, hm, rfl⟩ := List.mem_map.1 hk
  rw [← enc_inj (Nat.eq_of_beq_eq_true he)]; exact hm
end Db

/-- °F and °C: the hypotheses of the direct case of C54; the quantities are `(x + 459.67) · 5/9` and `y + 273.15`. -/
example : ∃ u ∈ shipped, ∃ v ∈ shipped, c!"°F" ∈ u.spellings ∧ c!"degree_Celsius" ∈ v.spellings ∧
    c!"°F" ∉ Db.unusable ∧ c!"°F" ∉ Db.mmHg ∧ c!"°F" ∉ Db.untypeable ∧
    c!"degree_Celsius" ∉ Db.unusable ∧ c!"degree_Celsius" ∉ Db.mmHg ∧ c!"degree_Celsius" ∉ Db.untypeable ∧
    (∀ b, u.power b = v.power b) ∧ (∀ x, u.quantity x = (x + 459.67) * (5/9)) ∧ (∀ y, v.quantity y = y + 273.15) := by
  have h1 : Db.rowOf c!"°F" = some ⟨[c!"fahrenheit", c!"fahrenheits", c!"degree_fahrenheit", c!"degrees_fahrenheit", c!"degreeF",
      c!"degreesF", c!"degree_F", c!"degrees_F", c!"degF", c!"degsF", c!"deg_F", c!"degs_F", c!"°F", c!"℉"],
      .offset (45967/100), 5/9, [(c!"kelvin", 1)]⟩ := by decide +kernel
  have h2 : Db.rowOf c!"degree_Celsius" = some ⟨[c!"degree_Celsius", c!"degrees_Celsius", c!"°C"], .offset (5463/20), 1, [(c!"kelvin", 1)]⟩ := by
    decide +kernel
  obtain ⟨m1, n1⟩ := Db.rowOf_mem h1
  obtain ⟨m2, n2⟩ := Db.rowOf_mem h2
  refine ⟨_, m1, _, m2, n1, n2, by decide +kernel, by decide +kernel, by decide +kernel, by decide +kernel, by decide +kernel,
    by decide +kernel, fun _ => rfl, ?_, ?_⟩
  · intro x; simp only [ShippedUnit.quantity, Scale.value]; norm_num
  · intro x; simp only [ShippedUnit.quantity, Scale.value]; norm_num

end Verif

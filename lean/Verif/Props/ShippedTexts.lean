import Verif.Lemmas.Readings
/-!
# C60, C61: prefixed units and unit texts over the shipped database

`Spec.Denotes` says on paper what a parsed text means, from the table of units and the table of prefixes.
-/

namespace Verif
open Spec (ShippedUnit Scale Reading Spells UnitProduct Denotes evalQ direct Same Query after dimOf withEntries shipped prefixTable)

namespace Db

theorem lookup_after {pf : Str → Py Node} {o q : List Str → List Str} (hq : ∀ l, (q l).Perm l) {strict : Bool} {s : System}
    (hs : parseSystem strict q Db.unitSystem = .ok s) {n : Str} {r : Ref} (h : Spec.lookup ⟨pf, o⟩ s 9 n = .ok r)
    (hist : List Query) (limit : Nat) (hlim : 9 ≤ limit) :
    (unitByNameOrSymbol ⟨pf, o⟩ limit n (after ⟨pf, o⟩ hist s)).1 = .ok r := by
  obtain ⟨s', hs', hpr', hcf', _⟩ := C38_shipped_database_loads strict q hq
  rw [hs] at hs'
  have e := Except.ok.inj hs'
  subst e
  rw [(C05_lookup_refines_fixed_registry ⟨pf, o⟩ s hpr' hcf' hist limit n).1 9 hlim (by rw [h]; simp), h]

/-- a prefixed spelling, in any load and any order of the sets: the two lookups, and the same unit as in the order of the file -/
theorem prefixed_lookup {pf : Str → Py Node} (hpf : pf = parse) {o q : List Str → List Str} (ho : ∀ l, (o l).Perm l)
    (hq : ∀ l, (q l).Perm l) {strict : Bool} {s : System} (hs : parseSystem strict q Db.unitSystem = .ok s)
    {p n : Str} {v : Rat} {u : ShippedUnit} (hp : (p, v) ∈ prefixTable) (hu : Spells n u) (hcl : ¬ Claimed (p ++ n))
    (e1 : (p, n) ≠ (c!"d", c!"au")) (e2 : (p, n) ≠ (c!"d", c!"at")) :
    ∃ r pre r', r.IsRow u ∧ (u.scale = .linear → r.Straight) ∧ v ≠ 0 ∧ preRat pre = some v ∧
      Spec.lookup ⟨pf, o⟩ s 9 (p ++ n) = .ok r' ∧
      Same (.unit none (.mul (.ident p) (.ident n)) (Dict.set n r (Dict.set p (.pre pre) []))) r' := by
  obtain ⟨s0, hl, ht, hpp, hh, hpr, hcf⟩ := Db.base
  have hs0 := hl strict
  rcases system_order strict id q (fun _ => .refl _) hq Db.unitSystem Db.free with ⟨e, x1, _⟩ | ⟨s0', s', x1, x2, hsame⟩
  · rw [hl] at x1; cases x1
  rw [hl] at x1
  have x1' := Except.ok.inj x1
  subst x1'
  rw [hs] at x2
  have x2' := Except.ok.inj x2
  subst x2'
  obtain ⟨hu, hn, h1, h2⟩ := hu
  obtain ⟨r, hr, hrow, hstr⟩ := spec_lookup_row hpf (o := id) (fun _ => .refl _) (fun _ => .refl _) hs0 hu hn h1 h2
  obtain ⟨hv, pre, hpre, hval⟩ := prefix_mem hp
  have hlook := lookup_split (pf := pf) ht hpp hpre hu hn hr hcl e1 e2
  obtain ⟨r', a1, a2⟩ := spec_lookup_same (env1 := ⟨pf, id⟩) (env2 := ⟨pf, o⟩) hsame.sysSame rfl (fun _ => .refl _) ho 9 _ _ hlook
  exact ⟨r, pre, r', hrow, hstr, hv, hval, a1, a2⟩

theorem au_at : ([c!"au", c!"at"].all fun k => (shipped.find? fun u => (u.spellings.map enc).any fun j => Nat.beq j (enc k)).any fun u =>
    decide (u.scale = .linear)) = true := by decide +kernel

theorem au_at_linear (k : Str) (hk : k ∈ [c!"au", c!"at"]) : ∃ w, (w ∈ shipped ∧ k ∈ w.spellings) ∧ w.scale = .linear := by
  have h := List.all_eq_true.1 au_at k hk
  obtain ⟨w, h1, h2⟩ := Option.any_eq_true _ _ |>.1 h
  exact ⟨w, rowOf_mem h1, of_decide_eq_true h2⟩

end Db

/-! ## C60: prefixed units -/

/-- **C60.** Load the shipped database in any way and use it in any way: a prefix followed by a spelling of a unit that is a multiple
of basis units resolves to that unit times the prefix.  Not covered: spellings that are registered themselves (`Pa`, `min`),
`mm`-like spellings that repeat the prefix, `dau` and `dat`, and the spellings C53 leaves out. -/
theorem C60_prefixed_units (strict : Bool) (o q : List Str → List Str) (ho : ∀ l, (o l).Perm l) (hq : ∀ l, (q l).Perm l)
    (s : System) (hs : parseSystem strict q Db.unitSystem = .ok s) (hist : List Query) (limit : Nat) (hlim : 9 ≤ limit)
    (p : Str) (v : Rat) (hp : (p, v) ∈ prefixTable) (u : ShippedUnit) (n : Str) (hn : Spells n u) (hl : u.scale = .linear)
    (hpn : p ≠ n) (hc : ¬ Db.Claimed (p ++ n)) (e1 : (p, n) ≠ (c!"d", c!"au")) (e2 : (p, n) ≠ (c!"d", c!"at")) :
    ∃ r d m, (unitByNameOrSymbol ⟨parse, o⟩ limit (p ++ n) (after ⟨parse, o⟩ hist s)).1 = .ok r ∧
      r.dims = .ok d ∧ (∀ b, Dims.power b d = u.dim b) ∧
      r.symDef = .ok ([], m) ∧ m.coef = v * u.factor ∧ ∀ b, m.exp b = u.power b := by
  obtain ⟨pf, hpf⟩ : ∃ pf, pf = parse := ⟨_, rfl⟩
  rw [← hpf]
  obtain ⟨r, hr, ⟨d, m, g1, g2, g3, g4, g5⟩, _⟩ := Db.lookup_reading hpf ho hq hs (.prefixed hp hn hl hpn hc e1 e2)
  exact ⟨r, d, m, Db.lookup_after hq hs hr hist limit hlim, dims_of_some g1, g2, g3, g4, g5⟩

/-- **C60** (refuted for repeated prefixes). If the prefix and the unit are spelled alike (`mm`, `hh`, `TT`, …), the spelling resolves
to the square of the unit. -/
theorem C60_repeated_prefix_refuted (strict : Bool) (o q : List Str → List Str) (ho : ∀ l, (o l).Perm l) (hq : ∀ l, (q l).Perm l)
    (s : System) (hs : parseSystem strict q Db.unitSystem = .ok s) (hist : List Query) (limit : Nat) (hlim : 9 ≤ limit)
    (p : Str) (v : Rat) (hp : (p, v) ∈ prefixTable) (u : ShippedUnit) (hn : Spells p u) (hl : u.scale = .linear)
    (hc : ¬ Db.Claimed (p ++ p)) :
    ∃ r d m, (unitByNameOrSymbol ⟨parse, o⟩ limit (p ++ p) (after ⟨parse, o⟩ hist s)).1 = .ok r ∧
      r.dims = .ok d ∧ (∀ b, Dims.power b d = 2 * u.dim b) ∧
      r.symDef = .ok ([], m) ∧ m.coef = u.factor * u.factor ∧ ∀ b, m.exp b = 2 * u.power b := by
  obtain ⟨pf, hpf⟩ : ∃ pf, pf = parse := ⟨_, rfl⟩
  rw [← hpf]
  have ne : ∀ a b : Str, a ≠ b → (p, p) ≠ (a, b) := by
    intro a b h h'
    exact h ((Prod.mk.inj h').1.symm.trans (Prod.mk.inj h').2)
  obtain ⟨r, pre, r', h1, h2, _, _, h3, h4⟩ := Db.prefixed_lookup hpf ho hq hs hp hn hc (ne _ _ (by decide)) (ne _ _ (by decide))
  have hset : Dict.set p r (Dict.set p (.pre pre) []) = [(p, r)] := by simp [Dict.set]
  rw [hset] at h4
  have hg : Dict.get p [(p, r)] = some r := by rw [Dict.get_cons, if_pos rfl]
  obtain ⟨hlp, hdp⟩ := lin_product (refs := [(p, r)]) (e := .mul (.ident p) (.ident p))
    (c := fun _ => u.factor) (P := fun _ b => u.power b) (D := fun _ b => u.dim b) ⟨trivial, trivial⟩
    (by
      intro k a hka
      rw [List.mem_singleton] at hka
      cases hka
      exact ⟨by simp [countedIds], hg⟩)
    (by
      intro k hk
      simp only [countedIds, List.cons_append, List.nil_append, List.mem_cons, List.not_mem_nil, or_false, or_self] at hk
      subst hk
      exact ⟨r, hg, lin_of_row h1 hl (h2 hl) (Db.row_factor hn.1)⟩) none
  obtain ⟨w, ⟨d, m, g1, g2, g3, g4, g5⟩, w2, w3, w4, w5, w6⟩ := row_of_lin hlp hdp (by
    intro b
    simp only [degree]
    unfold ShippedUnit.dim
    split <;> simp)
  refine ⟨r', d, m, Db.lookup_after hq hs h3 hist limit hlim, dims_of_some (by rw [← h4.dims?]; exact g1), ?_, (h4.symDef _).1 ?_, ?_, ?_⟩
  · intro b
    rw [g2]
    unfold ShippedUnit.dim
    rw [w6]
    simp only [degree]
    split <;> simp [two_mul]
  · rw [g3, w3]; rfl
  · rw [g4, w4]; rfl
  · intro b; rw [g5, w6]; simp only [degree]; rw [two_mul]

/-- splitting below the root forgets a shift and is the same otherwise -/
theorem split_false {e : Node} (h : ∀ u f, e ≠ .shift u f) : e.split false = e.split true := by
  cases e with
  | shift u f => exact absurd rfl (h u f)
  | _ => rfl

theorem ops_noSub {t : Trans} {L : List TOp} : ∀ {e : Node} {b : Node}, e.split false = .ok (some t, b) → t.ops = .ok L →
    ∀ q, TOp.sub q ∉ L := by
  intro e
  induction e generalizing t L with
  | number v r => intro b h; cases h
  | ident n => intro b h; cases h
  | unhandled r => intro b h; cases h
  | shift u f hu hf =>
    intro b h ho
    simp only [Node.split, bind, Except.bind] at h
    cases h1 : u.split false with
    | error x => rw [h1] at h; cases h
    | ok y =>
      obtain ⟨t1, d1⟩ := y
      rw [h1] at h
      cases h
      cases t1 with
      | none => cases ho; simp
      | some t1 => exact hu h1 ho
  | raise l r hl hr =>
    intro b h ho
    simp only [Node.split, bind, Except.bind] at h
    cases h1 : l.split false with
    | error x => rw [h1] at h; cases h
    | ok y =>
      obtain ⟨t1, d1⟩ := y
      cases h2 : r.split false with
      | error x => rw [h1, h2] at h; cases h
      | ok z =>
        obtain ⟨t2, d2⟩ := z
        rw [h1, h2] at h
        simp only at h
        split at h
        · cases h
        · cases h; exact hl h1 ho
  | mul l r hl hr =>
    intro b h ho
    simp only [Node.split, bind, Except.bind] at h
    cases h1 : l.split false with
    | error x => rw [h1] at h; cases h
    | ok y =>
      obtain ⟨t1, d1⟩ := y
      cases h2 : r.split false with
      | error x => rw [h1, h2] at h; cases h
      | ok z =>
        obtain ⟨t2, d2⟩ := z
        rw [h1, h2] at h
        cases t1 with
        | none =>
          cases t2 with
          | none => cases h
          | some t2 =>
            cases h
            simp only [Trans.ops, bind, Except.bind] at ho
            cases g1 : d1.toMono with
            | error x => rw [g1] at ho; cases ho
            | ok m =>
              cases g2 : t2.ops with
              | error x => rw [g1, g2] at ho; cases ho
              | ok w =>
                rw [g1, g2] at ho
                cases g3 : TOp.mkScale m with
                | error x => simp only [g3] at ho; cases ho
                | ok op =>
                  simp only [g3] at ho
                  unfold TOp.mkScale at g3
                  split at g3
                  · cases g3
                  · cases g3; cases ho
                    intro q hq
                    rcases List.mem_append.1 hq with hq | hq
                    · exact hr h2 g2 q hq
                    · rw [List.mem_singleton] at hq; cases hq
        | some t1 =>
          cases t2 with
          | some t2 => cases h
          | none =>
            cases h
            simp only [Trans.ops, bind, Except.bind] at ho
            cases g2 : t1.ops with
            | error x => rw [g2] at ho; cases ho
            | ok w =>
              cases g1 : d2.toMono with
              | error x => rw [g1, g2] at ho; cases ho
              | ok m =>
                rw [g1, g2] at ho
                cases g3 : TOp.mkScale m with
                | error x => simp only [g3] at ho; cases ho
                | ok op =>
                  simp only [g3] at ho
                  unfold TOp.mkScale at g3
                  split at g3
                  · cases g3
                  · cases g3; cases ho
                    intro q hq
                    rcases List.mem_append.1 hq with hq | hq
                    · exact hl h1 g2 q hq
                    · rw [List.mem_singleton] at hq; cases hq
  | div l r hl hr =>
    intro b h ho
    simp only [Node.split, bind, Except.bind] at h
    cases h1 : l.split false with
    | error x => rw [h1] at h; cases h
    | ok y =>
      obtain ⟨t1, d1⟩ := y
      cases h2 : r.split false with
      | error x => rw [h1, h2] at h; cases h
      | ok z =>
        obtain ⟨t2, d2⟩ := z
        rw [h1, h2] at h
        cases t1 with
        | none => cases h; exact hr h2 ho
        | some t1 =>
          cases t2 with
          | some t2 => cases h
          | none => cases h; exact hl h1 ho
  | log fn u hu =>
    intro b h ho
    simp only [Node.split, bind, Except.bind] at h
    cases h1 : u.split false with
    | error x => rw [h1] at h; cases h
    | ok y =>
      obtain ⟨t1, d1⟩ := y
      rw [h1] at h
      cases h
      simp only [Trans.ops, bind, Except.bind] at ho
      cases g1 : logBase fn with
      | error x => rw [g1] at ho; cases ho
      | ok bb =>
        cases g2 : (Trans.orValue t1).ops with
        | error x => rw [g1, g2] at ho; cases ho
        | ok w =>
          rw [g1, g2] at ho
          cases ho
          intro q hq
          rcases List.mem_append.1 hq with hq | hq
          · cases t1 with
            | none => cases g2; cases hq
            | some t1 => exact hu h1 g2 q hq
          · rw [List.mem_singleton] at hq; cases hq

/-- what is left of a scale under a prefix: the code forgets the offset -/
def underPrefix : Scale → List TOp
  | .offset _ => []
  | σ => scaleOps σ

theorem split_under {e : Node} {σ : Scale} {m : Mono} (h : e.symDef = .ok (scaleOps σ, m)) (hσ : σ ≠ .linear) :
    ∃ t b, e.split false = .ok (some t, b) ∧ t.ops = .ok (underPrefix σ) ∧ b.toMono = .ok m := by
  obtain ⟨ot, b, h1, h2, h3⟩ := symDef_iff.1 h
  by_cases hs : ∃ u f, e = .shift u f
  · obtain ⟨u, f, rfl⟩ := hs
    simp only [Node.split, bind, Except.bind] at h1 ⊢
    cases g : u.split false with
    | error x => rw [g] at h1; cases h1
    | ok y =>
      obtain ⟨t1, d1⟩ := y
      rw [g] at h1
      cases h1
      refine ⟨_, _, rfl, ?_, h3⟩
      simp only [opsOf, Trans.ops, bind, Except.bind] at h2
      cases g1 : (Trans.orValue t1).ops with
      | error x => rw [g1] at h2; cases h2
      | ok l =>
        rw [g1] at h2
        cases f with
        | number v raw =>
          simp only at h2
          cases hv : v.toRat with
          | error x => rw [hv] at h2; cases h2
          | ok q =>
            rw [hv] at h2
            have h2' : l ++ [TOp.sub q] = scaleOps σ := Except.ok.inj h2
            cases σ with
            | linear => exact absurd rfl hσ
            | offset p =>
              have := List.append_inj_left' (t₂ := [TOp.sub p]) (s₂ := []) h2' rfl
              rw [this]; rfl
            | _ => 
              have := List.append_inj_right' (t₂ := [_]) (s₂ := []) h2' rfl
              cases this
        | _ => cases h2
  · have hne : ∀ u f, e ≠ .shift u f := fun u f h => hs ⟨u, f, h⟩
    rw [split_false hne, h1]
    cases ot with
    | none => cases σ <;> first | exact absurd rfl hσ | cases h2
    | some t =>
      refine ⟨t, b, rfl, ?_, h3⟩
      have h2' : t.ops = .ok (scaleOps σ) := h2
      cases σ with
      | linear => exact absurd rfl hσ
      | offset p => exact absurd (List.mem_singleton.2 rfl) (ops_noSub (by rw [split_false hne, h1]) h2' p)
      | _ => exact h2'

/-- a prefix in front of a unit with an offset or a logarithm -/
theorem prefixed_scale {p n : Str} {pre : Prefix} {v : Rat} {r : Ref} {u : ShippedUnit} (hpn : p ≠ n) (hv : v ≠ 0)
    (hpre : Db.preRat pre = some v) (h : r.IsRow u) (hσ : u.scale ≠ .linear) :
    ∃ d m, (Ref.unit none (.mul (.ident p) (.ident n)) [(p, .pre pre), (n, r)]).dims? = .ok (some d) ∧
      (∀ b, Dims.power b d = u.dim b) ∧ m.coef = u.factor ∧ (∀ b, m.exp b = u.power b) ∧
      (Ref.unit none (.mul (.ident p) (.ident n)) [(p, .pre pre), (n, r)]).symDef =
        .ok (underPrefix u.scale ++ [.scale (Mono.ofRat v)], m) := by
  obtain ⟨d, m, g1, g2, g3, g4, g5⟩ := h
  have hgp : Dict.get p [(p, Ref.pre pre), (n, r)] = some (.pre pre) := by rw [Dict.get_cons, if_pos rfl]
  have hgn : Dict.get n [(p, Ref.pre pre), (n, r)] = some r := by
    rw [Dict.get_cons, if_neg (fun h => hpn (by simpa using h)), Dict.get_cons, if_pos rfl]
  obtain ⟨ep, mp, q1, q2, q3, q4, q5, q6, _⟩ := Db.pre_lin hpre hv
  have hpow : ∀ x, ∃ d, (Ref.unit none (.mul (.ident p) (.ident n)) [(p, .pre pre), (n, r)]).dims = .ok d ∧
      Dims.power x d = u.dim x := by
    intro x
    obtain ⟨d', e1, e2⟩ := C09_dimensionality_is_degree none [(p, .pre pre), (n, r)] (.mul (.ident p) (.ident n)) ⟨trivial, trivial⟩ x
      (fun k => if k = p then 0 else u.dim x) (by
        intro k hk
        simp only [countedIds, List.cons_append, List.nil_append, List.mem_cons, List.not_mem_nil, or_false] at hk
        rcases hk with rfl | rfl
        · exact ⟨_, hgp, .inl ⟨⟨pre, rfl⟩, by simp⟩⟩
        · refine ⟨_, hgn, .inr ⟨d, dims_of_some g1, ?_⟩⟩
          rw [if_neg (fun h => hpn h.symm), g2])
    refine ⟨d', e1, ?_⟩
    rw [e2]
    have : n ≠ p := fun h => hpn h.symm
    simp [degree, this]
  obtain ⟨d', d1, _⟩ := hpow []
  have hds : (Ref.unit none (.mul (.ident p) (.ident n)) [(p, .pre pre), (n, r)]).dims? = .ok (some d') := by
    unfold Ref.dims at d1
    cases hx : (Ref.unit none (.mul (.ident p) (.ident n)) [(p, .pre pre), (n, r)]).dims? with
    | error e => rw [hx] at d1; cases d1
    | ok q => cases q with
      | none => rw [hx] at d1; cases d1
      | some d2 => rw [hx] at d1; cases d1; rfl
  refine ⟨d', m, hds, fun b => ?_, g4, g5, ?_⟩
  · obtain ⟨d2, e1, e2⟩ := hpow b
    rw [d1] at e1; cases e1; exact e2
  · have g3' := g3
    unfold Ref.symDef at g3'
    cases hx : r.expand with
    | error x => rw [hx] at g3'; cases g3'
    | ok e =>
      rw [hx] at g3'
      obtain ⟨t, b, s1, s2, s3⟩ := split_under (show e.symDef = _ from g3') hσ
      have hexp : (Ref.unit none (.mul (.ident p) (.ident n)) [(p, .pre pre), (n, r)]).expand = .ok (.mul ep e) := by
        rw [Ref.expand, Ref.expandList, Ref.expandList, Ref.expandList]
        simp only [bind, Except.bind, q1, hx]
        simp [Node.substitute, Dict.get_cons, hpn]
      unfold Ref.symDef
      rw [hexp]
      change (Node.mul ep e).symDef = _
      rw [symDef_iff]
      unfold Db.preRat at hpre
      cases hd : Dec.parse pre.value with
      | error x => rw [hd] at hpre; cases hpre
      | ok dd =>
        rw [hd] at hpre
        have hdv : dd.toRat = v := Option.some.inj hpre
        rw [Ref.expand, Prefix.expand] at q1
        simp only [hd, bind, Except.bind] at q1
        cases q1
        refine ⟨some (.mulL (.number (.dec dd) (some pre.value)) t), b, ?_, ?_, s3⟩
        · simp only [Node.split, bind, Except.bind, s1]
        · simp only [opsOf, Trans.ops, bind, Except.bind, Node.toMono, Num.toRat, s2, hdv, TOp.mkScale]
          have : (Mono.ofRat v).coef ≠ 0 := hv
          simp only [if_neg this]

/-- **C60** (refuted for logarithmic and offset units). Under a prefix of value `v` they are divided by `v` instead of multiplied, and
the offset is forgotten: 30 dBm convert to 300 Bm, and 1 m°C to 726.85 °C (1000 K). -/
theorem C60_prefixed_scales_refuted (strict : Bool) (o q : List Str → List Str) (ho : ∀ l, (o l).Perm l) (hq : ∀ l, (q l).Perm l)
    (s : System) (hs : parseSystem strict q Db.unitSystem = .ok s) (hist : List Query) (limit : Nat) (hlim : 9 ≤ limit)
    (p : Str) (v : Rat) (hp : (p, v) ∈ prefixTable) (u : ShippedUnit) (n : Str) (hn : Spells n u) (hσ : u.scale ≠ .linear)
    (hpn : p ≠ n) (hc : ¬ Db.Claimed (p ++ n)) :
    ∃ A B, (unitByNameOrSymbol ⟨parse, o⟩ limit (p ++ n) (after ⟨parse, o⟩ hist s)).1 = .ok A ∧
      (unitByNameOrSymbol ⟨parse, o⟩ limit n (after ⟨parse, o⟩ hist s)).1 = .ok B ∧
      ((∀ z, u.scale ≠ .offset z) → ∀ x y : ℝ, convert (.unit A) (.unit B) x = .ok y ↔ y = x / v) ∧
      (∀ z, u.scale = .offset z → ∀ x y : ℝ, convert (.unit A) (.unit B) x = .ok y ↔ y + z = x / v) := by
  obtain ⟨pf, hpf⟩ : ∃ pf, pf = parse := ⟨_, rfl⟩
  rw [← hpf]
  have hlin : ∀ k : Str, k ∈ [c!"au", c!"at"] → n ≠ k := by
    intro k hk hnk
    obtain ⟨w, w1, w2⟩ := Db.au_at_linear k hk
    exact hσ (by rw [Db.row_unique hn.1 w1.1 hn.2.1 (hnk ▸ w1.2)]; exact w2)
  have e1 : (p, n) ≠ (c!"d", c!"au") := fun h => hlin _ (by simp) (Prod.mk.inj h).2
  have e2 : (p, n) ≠ (c!"d", c!"at") := fun h => hlin _ (by simp) (Prod.mk.inj h).2
  obtain ⟨r, pre, r', h1, h2, hv, hpre, h3, h4⟩ := Db.prefixed_lookup hpf ho hq hs hp hn hc e1 e2
  obtain ⟨B, k1, k2, _⟩ := Db.spec_lookup_row hpf ho hq hs hn.1 hn.2.1 hn.2.2.1 hn.2.2.2
  have hset : Dict.set n r (Dict.set p (.pre pre) []) = [(p, .pre pre), (n, r)] := by simp [Dict.set, hpn]
  rw [hset] at h4
  obtain ⟨d, m, f1, f2, f3, f4, f5⟩ := prefixed_scale hpn hv hpre h1 hσ
  rw [h4.dims?] at f1
  have f5' := (h4.symDef _).1 f5
  have hA : ∃ a b c, r' = .unit a b c := by
    cases r' with
    | basis b => exact absurd h4 (by rintro ⟨⟩)
    | pre b => exact absurd h4 (by rintro ⟨⟩)
    | unit a b c => exact ⟨a, b, c, rfl⟩
  have hB : ∃ a b c, B = .unit a b c := by
    obtain ⟨d, m, z1, z2, z3, _⟩ := k2
    cases B with
    | basis b =>
      exfalso
      have : (Ref.basis b).symDef = .ok ([], ⟨1, [(b.ref, 1)]⟩) := by
        unfold Ref.symDef; rw [Ref.expand]; rfl
      rw [this] at z3
      have := (Prod.mk.inj (Except.ok.inj z3)).1
      cases hs : u.scale <;> rw [hs] at this <;> first | exact hσ hs | cases this
    | pre b => rw [Ref.dims?] at z1; cases z1
    | unit a b c => exact ⟨a, b, c, rfl⟩
  obtain ⟨o1, q1⟩ := dimObj_of (⟨hA, dims_of_some f1⟩ : UnitWithDims r' d)
  obtain ⟨d2, w2, p2⟩ := row_unit k2 hB
  obtain ⟨o2, q2⟩ := dimObj_of w2
  have hl : Link (.dimensionality d) (.dimensionality d2) true := by
    rw [link_proper q1 q2]
    intro b
    simp only [DimObj.power, DimObj.items, f2, p2]
  have fu := Db.row_factor hn.1
  have fu' : (u.factor : ℝ) ≠ 0 := by exact_mod_cast fu
  have hnz : NonZero (.unit r') := ⟨_, m, f5', by rw [f3]; exact fu⟩
  have hsf : SymFree (underPrefix u.scale ++ [.scale (Mono.ofRat v)]) := by
    intro m' hm'
    rcases List.mem_append.1 hm' with hm' | hm'
    · exfalso
      cases hs : u.scale <;> rw [hs] at hm' <;> simp [underPrefix, scaleOps] at hm'
    · rw [List.mem_singleton] at hm'; cases hm'; rfl
  have key : ∀ x y : ℝ, convert (.unit r') (.unit B) x = .ok y ↔
      u.quantity y = undoAll (underPrefix u.scale) (x / v) * u.factor := by
    intro x y
    rw [convert_iff o1 q1 o2 hl hnz (row_nonzero k2 fu)]
    have hu : undoAll (underPrefix u.scale ++ [.scale (Mono.ofRat v)]) x = undoAll (underPrefix u.scale) (x / v) := by
      cases u.scale <;> rfl
    constructor
    · rintro ⟨q, E, q', E', b1, b2, hr, _⟩
      obtain ⟨rfl, _⟩ := (base_iff_of_symFree (a := .unit r') f5' (by rw [f3]; exact fu) hsf _ _ _).1 b1
      obtain ⟨rfl, _⟩ := (row_base k2 fu _ _ _).1 b2
      rw [hr, f3, hu]
    · intro h
      refine ⟨_, _, _, _, (base_iff_of_symFree (a := .unit r') f5' (by rw [f3]; exact fu) hsf x _ _).2 ⟨rfl, rfl⟩,
        (row_base k2 fu y _ _).2 ⟨rfl, rfl⟩, ?_, ?_⟩
      · rw [h, f3, hu]
      · funext b; exact (f4 b).symm
  refine ⟨r', B, Db.lookup_after hq hs h3 hist limit hlim, Db.lookup_after hq hs k1 hist limit hlim, ?_, ?_⟩
  · intro hz x y
    rw [key]
    unfold ShippedUnit.quantity
    rw [mul_left_inj' fu']
    cases hs : u.scale with
    | linear => exact absurd hs hσ
    | offset z => exact absurd hs (hz z)
    | log10 =>
      simp only [Scale.value, underPrefix, scaleOps, undoAll, TOp.undo, logBaseReal]
      rw [show ((10 : Nat) : ℝ) = 10 by norm_num, Real.rpow_right_inj (by norm_num) (by norm_num)]
    | log2 =>
      simp only [Scale.value, underPrefix, scaleOps, undoAll, TOp.undo, logBaseReal]
      rw [show ((2 : Nat) : ℝ) = 2 by norm_num, Real.rpow_right_inj (by norm_num) (by norm_num)]
    | ln =>
      simp only [Scale.value, underPrefix, scaleOps, undoAll, TOp.undo, logBaseReal]
      rw [Real.exp_one_rpow, Real.exp_eq_exp]
  · intro z hz x y
    rw [key]
    unfold ShippedUnit.quantity
    rw [mul_left_inj' fu', hz]
    rfl

/-! ## C61: unit texts -/

/-- **C61.** Load the shipped database in any way and use it in any way.  A text that parses to an expression with a meaning on paper
— a spelling; a product, quotient or power of spellings and numbers; an offset or logarithm of one — is accepted, and the unit has
that meaning. -/
theorem C61_text_meaning (strict : Bool) (o q : List Str → List Str) (ho : ∀ l, (o l).Perm l) (hq : ∀ l, (q l).Perm l)
    (s : System) (hs : parseSystem strict q Db.unitSystem = .ok s) (hist : List Query) (limit : Nat) (hlim : 9 ≤ limit)
    (text : Str) (e : Node) (hp : parse text = .ok e) (σ : Scale) (c : Rat) (P : Str → Int) (h : Denotes e σ c P) :
    ∃ r d m, (System.unit ⟨parse, o⟩ limit text (after ⟨parse, o⟩ hist s)).1 = .ok (.unit r) ∧
      r.dims = .ok d ∧ (∀ b, Dims.power b d = dimOf P b) ∧
      r.symDef = .ok (scaleOps σ, m) ∧ m.coef = c ∧ c ≠ 0 ∧ ∀ b, m.exp b = P b := by
  obtain ⟨pf, hpf⟩ : ∃ pf, pf = parse := ⟨_, rfl⟩
  rw [← hpf]
  rw [← hpf] at hp
  obtain ⟨refs, u, h1, ⟨d, m, g1, g2, g3, g4, g5⟩, u1, u2, u3, u4⟩ := Db.unit_text hpf ho hq hs hp h hist limit hlim
  refine ⟨_, d, m, h1, dims_of_some g1, fun b => ?_, by rw [g3, u1], by rw [g4, u2], u3, fun b => by rw [g5, u4]⟩
  rw [g2]; unfold ShippedUnit.dim dimOf; rw [u4]

/-- **C61**, dates: `u since d` (or `u @ d`) where `u` denotes a multiple of the second is a date unit with that unit and the
reference as written. -/
theorem C61_date_text (strict : Bool) (o q : List Str → List Str) (ho : ∀ l, (o l).Perm l) (hq : ∀ l, (q l).Perm l)
    (s : System) (hs : parseSystem strict q Db.unitSystem = .ok s) (hist : List Query) (limit : Nat) (hlim : 9 ≤ limit)
    (text : Str) (e f : Node) (hp : parse text = .ok (.shift e f)) (c : Rat) (P : Str → Int) (h : Denotes e .linear c P)
    (hd : ∀ b, dimOf P b = if b = c!"second" then 1 else 0)
    (ref : Option Str) (hf : (∃ v, f = .number v ref) ∨ ∃ raw, ref = some raw ∧ f = .unhandled raw) :
    ∃ r d m, (System.unit ⟨parse, o⟩ limit text (after ⟨parse, o⟩ hist s)).1 = .ok (.date r ref) ∧
      r.dims = .ok d ∧ (∀ b, Dims.power b d = if b = c!"second" then 1 else 0) ∧
      r.symDef = .ok ([], m) ∧ m.coef = c ∧ c ≠ 0 ∧ ∀ b, m.exp b = P b := by
  obtain ⟨pf, hpf⟩ : ∃ pf, pf = parse := ⟨_, rfl⟩
  rw [← hpf]
  rw [← hpf] at hp
  obtain ⟨refs, u, h1, ⟨d, m, g1, g2, g3, g4, g5⟩, u1, u2, u3, u4⟩ := Db.date_text hpf ho hq hs hp h hf hd hist limit hlim
  refine ⟨_, d, m, h1, dims_of_some g1, fun b => ?_, by rw [g3, u1]; rfl, by rw [g4, u2], u3, fun b => by rw [g5, u4]⟩
  rw [g2, ← hd b]; unfold ShippedUnit.dim dimOf; rw [u4]

/-- **C61**, conversions between any two texts that have a meaning, on two loads of the database used in any way.  `x` of the first
text is the quantity `σ.value x * c` of the product of basis units `P`, `y` of the second `σ'.value y * c'` of `P'`.
* Equal powers: `x` converts to `y` exactly when they are the same quantity.
* Opposite powers and dimensionalities not equal: exactly when the quantities are reciprocal.
* Dimensionalities equal or opposite but the powers of the radian do not match: `NameError`.
* Otherwise: `IncompatibleUnitsError`. -/
theorem C61_text_conversions (strict strict' : Bool) (o q o' q' : List Str → List Str) (ho : ∀ l, (o l).Perm l)
    (hq : ∀ l, (q l).Perm l) (ho' : ∀ l, (o' l).Perm l) (hq' : ∀ l, (q' l).Perm l)
    (s s' : System) (hs : parseSystem strict q Db.unitSystem = .ok s) (hs' : parseSystem strict' q' Db.unitSystem = .ok s')
    (hist hist' : List Query) (limit limit' : Nat) (hlim : 9 ≤ limit) (hlim' : 9 ≤ limit')
    (text text' : Str) (e e' : Node) (hp : parse text = .ok e) (hp' : parse text' = .ok e')
    (σ σ' : Scale) (c c' : Rat) (P P' : Str → Int) (h : Denotes e σ c P) (h' : Denotes e' σ' c' P') :
    ∃ A B, (System.unit ⟨parse, o⟩ limit text (after ⟨parse, o⟩ hist s)).1 = .ok A ∧
      (System.unit ⟨parse, o'⟩ limit' text' (after ⟨parse, o'⟩ hist' s')).1 = .ok B ∧
      ((∀ b, P b = P' b) → ∀ x y : ℝ, convert A B x = .ok y ↔ σ'.value y * c' = σ.value x * c) ∧
      ((∀ b, P' b = - P b) → (¬ ∀ b, dimOf P b = dimOf P' b) →
        ∀ x y : ℝ, convert A B x = .ok y ↔ σ.value x * c ≠ 0 ∧ σ'.value y * c' = (σ.value x * c)⁻¹) ∧
      ((∀ b, dimOf P b = dimOf P' b) → (¬ ∀ b, P b = P' b) → ∀ x, convert A B x = .error .nameError) ∧
      ((¬ ∀ b, dimOf P b = dimOf P' b) → (∀ b, dimOf P b = - dimOf P' b) → (¬ ∀ b, P' b = - P b) →
        ∀ x, convert A B x = .error .nameError) ∧
      ((¬ ∀ b, dimOf P b = dimOf P' b) → (¬ ∀ b, dimOf P b = - dimOf P' b) → ∀ x, convert A B x = .error .incompatible) := by
  obtain ⟨pf, hpf⟩ : ∃ pf, pf = parse := ⟨_, rfl⟩
  rw [← hpf]
  rw [← hpf] at hp hp'
  obtain ⟨refs, u, ha, ra, u1, u2, u3, u4⟩ := Db.unit_text hpf ho hq hs hp h hist limit hlim
  obtain ⟨refs', v, hb, rb, v1, v2, v3, v4⟩ := Db.unit_text hpf ho' hq' hs' hp' h' hist' limit' hlim'
  have fu : u.factor ≠ 0 := by rw [u2]; exact u3
  have fv : v.factor ≠ 0 := by rw [v2]; exact v3
  have hqu : ∀ x, u.quantity x = σ.value x * c := fun x => by unfold ShippedUnit.quantity; rw [u1, u2]
  have hqv : ∀ x, v.quantity x = σ'.value x * c' := fun x => by unfold ShippedUnit.quantity; rw [v1, v2]
  have du : ∀ b, u.dim b = dimOf P b := fun b => by unfold ShippedUnit.dim dimOf; rw [u4]
  have dv : ∀ b, v.dim b = dimOf P' b := fun b => by unfold ShippedUnit.dim dimOf; rw [v4]
  refine ⟨_, _, ha, hb, ?_, ?_, ?_, ?_, ?_⟩
  · intro h x y
    rw [convert_row (σ := true) ra rb ⟨_, _, _, rfl⟩ ⟨_, _, _, rfl⟩ fu fv
      (fun b => by rw [du, dv]; unfold dimOf; rw [h]), hqu, hqv]
    exact ⟨fun h => h.1, fun h' => ⟨h', funext fun b => by rw [u4, v4, h]⟩⟩
  · intro h h' x y
    rw [convert_row (σ := false) ra rb ⟨_, _, _, rfl⟩ ⟨_, _, _, rfl⟩ fu fv
      ⟨fun g => h' fun b => by rw [← du, ← dv, g], fun b => by rw [du, dv]; unfold dimOf; rw [h]; split <;> simp⟩, hqu, hqv]
    exact ⟨fun h => ⟨h.1, h.2.1⟩, fun h' => ⟨h'.1, h'.2, funext fun b => by rw [u4, v4, h]⟩⟩
  · intro h h' x
    exact convert_row_leftover (σ := true) ra rb ⟨_, _, _, rfl⟩ ⟨_, _, _, rfl⟩ fu fv (fun b => by rw [du, dv, h])
      (fun he => h' fun b => by rw [← u4, ← v4, he]) x
  · intro h1 h2 h3 x
    exact convert_row_leftover (σ := false) ra rb ⟨_, _, _, rfl⟩ ⟨_, _, _, rfl⟩ fu fv
      ⟨fun g => h1 fun b => by rw [← du, ← dv, g], fun b => by rw [du, dv, h2]⟩
      (fun he => h3 fun b => by rw [← u4, ← v4, he]) x
  · intro h1 h2 x
    obtain ⟨d1, w1, p1⟩ := row_unit ra ⟨_, _, _, rfl⟩
    obtain ⟨d2, w2, p2⟩ := row_unit rb ⟨_, _, _, rfl⟩
    obtain ⟨o1, q1⟩ := dimObj_of w1
    obtain ⟨o2, q2⟩ := dimObj_of w2
    have : Converter.build (.unit (.unit none e refs)) (.unit (.unit none e' refs')) = .error .incompatible := by
      rw [build_incompatible_iff o1 q1 o2, link_proper q1 q2, link_proper q1 q2]
      simp only [DimObj.power, DimObj.items, p1, p2, du, dv]
      exact ⟨h1, fun h => h2 h.2⟩
    unfold convert
    simp only [bind, Except.bind, this]

/-- **C61**, equality of any two texts that have a meaning (an offset of zero aside): it never raises, and it is true exactly when the
two expressions print alike, or scale, factor and all powers agree. -/
theorem C61_text_equality (strict strict' : Bool) (o q o' q' : List Str → List Str) (ho : ∀ l, (o l).Perm l)
    (hq : ∀ l, (q l).Perm l) (ho' : ∀ l, (o' l).Perm l) (hq' : ∀ l, (q' l).Perm l)
    (s s' : System) (hs : parseSystem strict q Db.unitSystem = .ok s) (hs' : parseSystem strict' q' Db.unitSystem = .ok s')
    (hist hist' : List Query) (limit limit' : Nat) (hlim : 9 ≤ limit) (hlim' : 9 ≤ limit')
    (text text' : Str) (e e' : Node) (hp : parse text = .ok e) (hp' : parse text' = .ok e')
    (σ σ' : Scale) (c c' : Rat) (P P' : Str → Int) (h : Denotes e σ c P) (h' : Denotes e' σ' c' P')
    (hz : σ ≠ .offset 0) (hz' : σ' ≠ .offset 0) :
    ∃ a b eq, (System.unit ⟨parse, o⟩ limit text (after ⟨parse, o⟩ hist s)).1 = .ok (.unit a) ∧
      (System.unit ⟨parse, o'⟩ limit' text' (after ⟨parse, o'⟩ hist' s')).1 = .ok (.unit b) ∧ Ref.eq a b = .ok eq ∧
      (eq = true ↔ a.str = b.str ∨ (σ = σ' ∧ c = c' ∧ ∀ x, P x = P' x)) := by
  obtain ⟨pf, hpf⟩ : ∃ pf, pf = parse := ⟨_, rfl⟩
  rw [← hpf]
  rw [← hpf] at hp hp'
  obtain ⟨refs, u, ha, ra, u1, u2, u3, u4⟩ := Db.unit_text hpf ho hq hs hp h hist limit hlim
  obtain ⟨refs', v, hb, rb, v1, v2, v3, v4⟩ := Db.unit_text hpf ho' hq' hs' hp' h' hist' limit' hlim'
  unfold Ref.eq
  by_cases hnk : (Ref.unit none e' refs').defn.str = (Ref.unit none e refs).defn.str
  · refine ⟨_, _, true, ha, hb, by rw [if_pos hnk], ?_⟩
    exact ⟨fun _ => .inl hnk.symm, fun _ => rfl⟩
  · obtain ⟨d, m, g1, g2, g3, g4, g5⟩ := ra
    obtain ⟨d', m', f1, f2, f3, f4, f5⟩ := rb
    refine ⟨_, _, m.beq m' && transEq (scaleOps u.scale) (scaleOps v.scale), ha, hb, ?_, ?_⟩
    · rw [if_neg hnk]
      simp only [bind, Except.bind, g3, f3]
    · rw [Bool.and_eq_true, scaleOps_eq (by rw [u1]; rintro q rfl rfl; exact hz rfl) (by rw [v1]; rintro q rfl rfl; exact hz' rfl),
        Mono.beq_iff (obj_symDef_good (u := .unit _) g3).2 (obj_symDef_good (u := .unit _) f3).2, g4, f4, u1, v1, u2, v2]
      simp only [g5, f5, u4, v4]
      constructor
      · rintro ⟨⟨h1, h2⟩, h3⟩; exact .inr ⟨h3, h1, h2⟩
      · rintro (h | ⟨h1, h2, h3⟩)
        · exact absurd h.symm hnk
        · exact ⟨⟨h2, h3⟩, h1⟩

/-! ## Non-vacuity -/

namespace Db
theorem not_claimed {n : Str} (h : tree.find (enc n) = none) : ¬ Claimed n := by
  intro hc
  obtain ⟨e, he⟩ := claimed_mem hc
  rw [show Db.tree = .ofList (allClaims (withEntries 0 Db.decls)) .leaf from rfl, Tree.find_ofList] at h
  cases hg : Dict.get n (allClaims (withEntries 0 decls)) with
  | none => exact ((Dict.get_eq_none_iff _ _).1 hg) (List.mem_map.2 ⟨_, he, rfl⟩)
  | some x => rw [hg] at h; cases h

def metre : ShippedUnit := ⟨[c!"meter", c!"meters", c!"metre", c!"metres", c!"m"], .linear, 1, [(c!"meter", 1)]⟩
def second : ShippedUnit := ⟨[c!"second", c!"seconds", c!"s"], .linear, 1, [(c!"second", 1)]⟩
def hour : ShippedUnit := ⟨[c!"hour", c!"hours", c!"h", c!"hr"], .linear, 3600, [(c!"second", 1)]⟩
def watt : ShippedUnit := ⟨[c!"watt", c!"watts", c!"W"], .linear, 1, [(c!"meter", 2), (c!"kilogram", 1), (c!"second", -3)]⟩
def Bm : ShippedUnit := ⟨[c!"Bm"], .log10, 1/1000, [(c!"meter", 2), (c!"kilogram", 1), (c!"second", -3)]⟩

theorem power_one (l : List Str) (σ : Scale) (c : Rat) (k b : Str) (i : Int) :
    ShippedUnit.power ⟨l, σ, c, [(k, i)]⟩ b = if b = k then i else 0 := by
  unfold ShippedUnit.power
  by_cases h : b = k
  · rw [if_pos h, h]; simp [Dict.get_cons]
  · rw [if_neg h, Dict.get_cons, if_neg (fun h' => h h'.symm)]; rfl

theorem spells_m : Spells c!"m" metre :=
  have h := rowOf_mem (show rowOf c!"m" = some metre by decide +kernel)
  ⟨h.1, h.2, by decide +kernel, by decide +kernel⟩
theorem spells_s : Spells c!"s" second :=
  have h := rowOf_mem (show rowOf c!"s" = some second by decide +kernel)
  ⟨h.1, h.2, by decide +kernel, by decide +kernel⟩
theorem spells_h : Spells c!"h" hour :=
  have h := rowOf_mem (show rowOf c!"h" = some hour by decide +kernel)
  ⟨h.1, h.2, by decide +kernel, by decide +kernel⟩
theorem spells_hours : Spells c!"hours" hour :=
  have h := rowOf_mem (show rowOf c!"hours" = some hour by decide +kernel)
  ⟨h.1, h.2, by decide +kernel, by decide +kernel⟩
theorem spells_W : Spells c!"W" watt :=
  have h := rowOf_mem (show rowOf c!"W" = some watt by decide +kernel)
  ⟨h.1, h.2, by decide +kernel, by decide +kernel⟩
theorem spells_Bm : Spells c!"Bm" Bm :=
  have h := rowOf_mem (show rowOf c!"Bm" = some Bm by decide +kernel)
  ⟨h.1, h.2, by decide +kernel, by decide +kernel⟩

/-- `km` -/
theorem reads_km : Reading c!"km" ⟨[], .linear, 1000 * 1, [(c!"meter", 1)]⟩ :=
  .prefixed (p := c!"k") (n := c!"m") (v := 1000) (u := metre) (by decide +kernel) spells_m rfl (by decide)
    (not_claimed (by decide +kernel)) (by decide) (by decide)

/-- `mW` -/
theorem reads_mW : Reading c!"mW" ⟨[], .linear, 1/1000 * 1, [(c!"meter", 2), (c!"kilogram", 1), (c!"second", -3)]⟩ :=
  .prefixed (p := c!"m") (n := c!"W") (v := 1/1000) (u := watt) (by decide +kernel) spells_W rfl (by decide)
    (not_claimed (by decide +kernel)) (by decide) (by decide)

/-- `km/h` -/
theorem denotes_kmh : Denotes (.div (.ident c!"km") (.ident c!"h")) .linear (5/18)
    (fun b => (if b = c!"meter" then 1 else 0) - if b = c!"second" then 1 else 0) := by
  have h : Denotes (.div (.ident c!"km") (.ident c!"h")) .linear _ _ :=
    .product (unit := fun n => if n = c!"km" then ⟨[], .linear, 1000 * 1, [(c!"meter", 1)]⟩ else hour) ⟨trivial, trivial⟩ (by
      intro n hn
      have : n = c!"km" ∨ n = c!"h" := by
        simp only [Node.identifiers, mem_setUnion, List.not_mem_nil, false_or, List.mem_singleton] at hn; exact hn
      rcases this with rfl | rfl
      · exact ⟨reads_km, rfl⟩
      · exact ⟨.plain spells_h, rfl⟩)
  convert h using 1
  · simp [evalQ, hour]; norm_num
  · funext b
    simp [degree, hour, power_one]

/-- `m/s` -/
theorem denotes_ms : Denotes (.div (.ident c!"m") (.ident c!"s")) .linear 1
    (fun b => (if b = c!"meter" then 1 else 0) - if b = c!"second" then 1 else 0) := by
  have h : Denotes (.div (.ident c!"m") (.ident c!"s")) .linear _ _ :=
    .product (unit := fun n => if n = c!"m" then metre else second) ⟨trivial, trivial⟩ (by
      intro n hn
      have : n = c!"m" ∨ n = c!"s" := by
        simp only [Node.identifiers, mem_setUnion, List.not_mem_nil, false_or, List.mem_singleton] at hn; exact hn
      rcases this with rfl | rfl
      · exact ⟨.plain spells_m, rfl⟩
      · exact ⟨.plain spells_s, rfl⟩)
  convert h using 1
  · simp [evalQ, metre, second]
  · funext b
    simp [degree, metre, second, power_one]

/-- `lg(re 1 mW)` -/
theorem denotes_lg : Denotes (.log c!"lg" (.mul (.number (.int 1) (some c!"1")) (.ident c!"mW"))) .log10 (1/1000) watt.power := by
  have h : Denotes (.mul (.number (.int 1) (some c!"1")) (.ident c!"mW")) .linear _ _ :=
    .product (unit := fun _ => ⟨[], .linear, 1/1000 * 1, [(c!"meter", 2), (c!"kilogram", 1), (c!"second", -3)]⟩)
      ⟨⟨1, rfl, by decide⟩, trivial⟩ (by
      intro n hn
      have : n = c!"mW" := by
        simp only [Node.identifiers, mem_setUnion, List.not_mem_nil, false_or, List.mem_singleton] at hn; exact hn
      subst this
      exact ⟨reads_mW, rfl⟩)
  have h' : Denotes (.mul (.number (.int 1) (some c!"1")) (.ident c!"mW")) .linear (1/1000) watt.power := by
    convert h using 1
    · simp [evalQ, Num.toRat]
    · funext b; simp only [degree, zero_add]; rfl
  exact .log h' (by simp)

end Db

/-- 36 km/h = 10 m/s: `km/h` converts to `m/s` with the factor 5/18, on any two loads of the database with any histories. -/
example (strict strict' : Bool) (o q o' q' : List Str → List Str) (ho : ∀ l, (o l).Perm l)
    (hq : ∀ l, (q l).Perm l) (ho' : ∀ l, (o' l).Perm l) (hq' : ∀ l, (q' l).Perm l)
    (s s' : System) (hs : parseSystem strict q Db.unitSystem = .ok s) (hs' : parseSystem strict' q' Db.unitSystem = .ok s')
    (hist hist' : List Query) :
    ∃ A B, (System.unit ⟨parse, o⟩ 1000 c!"km/h" (after ⟨parse, o⟩ hist s)).1 = .ok A ∧
      (System.unit ⟨parse, o'⟩ 1000 c!"m/s" (after ⟨parse, o'⟩ hist' s')).1 = .ok B ∧
      ∀ x y : ℝ, convert A B x = .ok y ↔ y = x * (5/18) := by
  obtain ⟨A, B, h1, h2, h3, _⟩ := C61_text_conversions strict strict' o q o' q' ho hq ho' hq' s s' hs hs' hist hist' 1000 1000
    (by norm_num) (by norm_num) c!"km/h" c!"m/s" _ _ (by decide +kernel) (by decide +kernel) _ _ _ _ _ _ Db.denotes_kmh Db.denotes_ms
  refine ⟨A, B, h1, h2, fun x y => ?_⟩
  rw [h3 (fun _ => rfl) x y]
  simp [Scale.value]

/-- `lg(re 1 mW)` and `Bm` are equal units. -/
example (o q : List Str → List Str) (ho : ∀ l, (o l).Perm l) (hq : ∀ l, (q l).Perm l)
    (s : System) (hs : parseSystem true q Db.unitSystem = .ok s) :
    ∃ a b, (System.unit ⟨parse, o⟩ 1000 c!"lg(re 1 mW)" s).1 = .ok (.unit a) ∧
      (System.unit ⟨parse, o⟩ 1000 c!"Bm" s).1 = .ok (.unit b) ∧ Ref.eq a b = .ok true := by
  obtain ⟨a, b, eq, h1, h2, h3, h4⟩ := C61_text_equality true true o q o q ho hq ho hq s s hs hs [] [] 1000 1000
    (by norm_num) (by norm_num) c!"lg(re 1 mW)" c!"Bm" _ _ (by decide +kernel) (by decide +kernel) _ _ _ _ _ _
    Db.denotes_lg (.spelling (.plain Db.spells_Bm)) (by simp) (by simp [Db.Bm])
  exact ⟨a, b, h1, h2, by rw [h3, h4.2 (.inr ⟨rfl, rfl, fun _ => rfl⟩)]⟩

/-- `hours since 2000-01-01`: the hypotheses of the date case. -/
example : ∃ e f, parse c!"hours since 2000-01-01" = .ok (.shift e f) ∧ Denotes e .linear 3600 Db.hour.power ∧
    f = .unhandled c!"2000-01-01" ∧ ∀ b, dimOf Db.hour.power b = if b = c!"second" then 1 else 0 := by
  refine ⟨_, _, by decide +kernel, .spelling (.plain Db.spells_hours), rfl, fun b => ?_⟩
  by_cases h : b = c!"second"
  · subst h; decide
  · rw [if_neg h]
    unfold dimOf ShippedUnit.power Db.hour
    split
    · rfl
    · rw [Dict.get_cons, if_neg (fun h' => h (by simpa using h'.symm))]; rfl

/-- `hh` and `dBm`: the hypotheses of the two refuted cases of C60. -/
example : (c!"h", (100 : Rat)) ∈ prefixTable ∧ Spells c!"h" Db.hour ∧ Db.hour.scale = .linear ∧ ¬ Db.Claimed (c!"h" ++ c!"h") ∧
    (c!"d", (1/10 : Rat)) ∈ prefixTable ∧ Spells c!"Bm" Db.Bm ∧ Db.Bm.scale = .log10 ∧ ¬ Db.Claimed (c!"d" ++ c!"Bm") :=
  ⟨by decide +kernel, Db.spells_h, rfl, Db.not_claimed (by decide +kernel), by decide +kernel, Db.spells_Bm, rfl,
    Db.not_claimed (by decide +kernel)⟩

end Verif

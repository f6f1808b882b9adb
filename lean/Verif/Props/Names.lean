import Verif.Lemmas.Names
import Verif.Lemmas.RenamingEq
import Verif.Props.Demo
/-!
# C81: what units are called does not matter
-/

namespace Verif

/-- **C81**, questions about units: after a renaming that keeps different names different, a unit has the same powers
of the (renamed) basis units, is dimensionless, a time unit and convertible exactly when it was, and its expansion is
the renamed expansion; and what raised an error raises the same one. -/
theorem C81_names_do_not_matter (φ : Str → Str) (h : KeepsApart φ) (a b : UObj) (r : Ref) :
    (a.rename φ).isConvertibleTo (b.rename φ) = a.isConvertibleTo b ∧
    (a.rename φ).isDimensionless = a.isDimensionless ∧
    (r.rename φ).isTimeUnit = r.isTimeUnit ∧
    (r.rename φ).dims = r.dims.map (Dims.rename φ) ∧
    (∀ d s, r.dims = .ok d → Dims.power (φ s) (d.rename φ) = Dims.power s d) ∧
    (r.rename φ).expand = r.expand.map (Node.rename φ) :=
  ⟨isConvertibleTo_rename h a b, isDimensionless_rename h a, isTimeUnit_rename h r, dims_rename h r,
    fun d s _ => dims_power_rename h s d, expand_rename h r⟩

/-- a renaming that gives no unit a name the Converter uses itself -/
def AvoidsOwn (φ : Str → Str) : Prop := ∀ s, φ s ∉ ownNames

theorem mapKeys_avoids {φ : Str → Str} (ha : AvoidsOwn φ) {ν : Type} (d : Dict Str ν) : ∀ q ∈ mapKeys φ d, q.1 ∉ ownNames := by
  intro q hq
  obtain ⟨p, _, rfl⟩ := List.mem_map.1 hq
  exact ha _

/-- **C81**, conversions: with names that the Converter does not use itself, a conversion has the result that the units
have under any other such names, for every value, errors included. -/
theorem C81_conversions_do_not_depend_on_names (φ : Str → Str) (h : KeepsApart φ) (ha : AvoidsOwn φ) (a b : UObj) (x : ℝ) :
    convertNamed (a.rename φ) (b.rename φ) x = convert a b x := by
  rw [← convert_rename h a b x]
  have hops := build_rename h a b
  have h1 := uSymDef_rename h a
  have h2 := uSymDef_rename h b
  unfold convertNamed convert
  rw [hops]
  cases hb : Converter.build a b with
  | error e => rfl
  | ok ops =>
    have hsym : ∃ p q, a.symDef = .ok p ∧ b.symDef = .ok q := by
      unfold Converter.build at hb
      simp only [bind, Except.bind] at hb
      cases hp : a.symDef with
      | error e =>
        exfalso
        rw [hp] at hb
        repeat' (split at hb)
        all_goals first | (cases hb; done) | (simp_all; done)
      | ok p =>
        cases hq : b.symDef with
        | error e =>
          exfalso
          rw [hp, hq] at hb
          repeat' (split at hb)
          all_goals first | (cases hb; done) | (simp_all; done)
        | ok q => exact ⟨p, q, rfl, rfl⟩
    obtain ⟨p, q, hp, hq⟩ := hsym
    rw [hp] at h1
    rw [hq] at h2
    simp only [bind, Except.bind, Except.map, h1, h2]
    have hm : ((renameSym φ p).1 ++ (renameSym φ q).1).any (TOp.mentions ownNames) = false := by
      rw [List.any_eq_false]
      intro op hop
      simp only [renameSym, ← List.map_append] at hop
      obtain ⟨op', _, rfl⟩ := List.mem_map.1 hop
      cases op' with
      | scale m =>
        simp only [TOp.rename, TOp.mentions, Mono.rename, List.any_eq_true, not_exists, not_and, decide_eq_true_eq]
        exact mapKeys_avoids ha _
      | _ => simp [TOp.rename, TOp.mentions]
    rw [hm]
    simp only [Bool.false_eq_true, if_false]
    unfold Converter.convert
    have hs := simplifyOps_rename h ops ⟨1, []⟩
    rw [show (⟨1, []⟩ : Mono).rename φ = ⟨1, []⟩ from rfl] at hs
    simp only [bind, Except.bind, hs]
    cases ho : simplifyOps ⟨1, []⟩ ops with
    | error e => rfl
    | ok o =>
      simp only [Except.map]
      have hfree : ValueFree (o.map (COp.rename φ)) := by
        intro m hm q hq e
        obtain ⟨op, _, hop⟩ := List.mem_map.1 hm
        cases op with
        | scale m' =>
          cases hop
          exact mapKeys_avoids ha _ q hq (by rw [e]; exact List.mem_cons_self ..)
        | _ => cases hop
      rw [hasOther_of_free hfree]
      cases hany : (o.map (COp.rename φ)).any COp.hasSymbol with
      | true => rfl
      | false =>
        rw [ho] at hs
        exact runProduct_free hs hany

/-- the factors in the value transformation of a unit are numbers -/
def NumericFactors (u : UObj) : Prop := ∀ t m, u.symDef = .ok (t, m) → ∀ f, TOp.scale f ∈ t → f.exps = []

theorem numeric_mentions {u : UObj} (h : NumericFactors u) {t : List TOp} {m : Mono} (hs : u.symDef = .ok (t, m)) :
    t.any (TOp.mentions ownNames) = false := by
  rw [List.any_eq_false]
  intro op hop
  cases op with
  | scale f => simp [TOp.mentions, h t m hs f hop]
  | _ => simp [TOp.mentions]

/-- **C81**, whatever the names are, those that the Converter uses itself included: a conversion that has a result in
terms of the units' meaning has that result. -/
theorem C81_own_names_are_harmless (a b : UObj) (ha : NumericFactors a) (hb : NumericFactors b) (x v : ℝ)
    (h : convert a b x = .ok v) : convertNamed a b x = .ok v := by
  unfold convert at h
  unfold convertNamed
  cases hbuild : Converter.build a b with
  | error e => rw [hbuild] at h; cases h
  | ok ops =>
    rw [hbuild] at h
    simp only [bind, Except.bind] at h ⊢
    have hsym : ∃ p q, a.symDef = .ok p ∧ b.symDef = .ok q := by
      unfold Converter.build at hbuild
      simp only [bind, Except.bind] at hbuild
      cases hp : a.symDef with
      | error e =>
        exfalso
        rw [hp] at hbuild
        repeat' (split at hbuild)
        all_goals first | (cases hbuild; done) | (simp_all; done)
      | ok p =>
        cases hq : b.symDef with
        | error e =>
          exfalso
          rw [hp, hq] at hbuild
          repeat' (split at hbuild)
          all_goals first | (cases hbuild; done) | (simp_all; done)
        | ok q => exact ⟨p, q, rfl, rfl⟩
    obtain ⟨⟨t1, m1⟩, ⟨t2, m2⟩, hp, hq⟩ := hsym
    rw [hp, hq]
    simp only [List.any_append, numeric_mentions ha hp, numeric_mentions hb hq, Bool.or_false, Bool.false_eq_true, if_false]
    unfold Converter.convert at h
    simp only [bind, Except.bind] at h
    cases ho : simplifyOps ⟨1, []⟩ ops with
    | error e => rw [ho] at h; cases h
    | ok o =>
      rw [ho] at h
      simp only at h ⊢
      cases hany : o.any COp.hasSymbol with
      | true => rw [hany] at h; cases h
      | false =>
        rw [hany] at h
        have hoth : o.any COp.hasOther = false := by
          rw [List.any_eq_false] at hany ⊢
          intro op hop
          have := hany op hop
          cases op with
          | scale m =>
            have he := exps_nil (m := m) (by simpa using this)
            simp [COp.hasOther, he]
          | _ => simp [COp.hasOther]
        rw [hoth]
        simp only [Bool.false_eq_true, if_false] at h ⊢
        rw [runProduct_free ho hany]
        exact h

/-- **C81**, equality: if units can be read back from their printed definitions, and words become words, two units are
equal after a renaming exactly when they were equal before (and raise the same error). -/
theorem C81_equality (φ : Str → Str) (h : KeepsApart φ) (hw : ∀ w, Spec.IdentWord w → Spec.IdentWord (φ w)) (a b : Ref)
    (ha : Spec.Printable .whole a.defn) (hb : Spec.Printable .whole b.defn) (ta : Spec.Tidy a.defn) (tb : Spec.Tidy b.defn) :
    (a.rename φ).eq (b.rename φ) = a.eq b :=
  eq_rename h (str_rename_iff h hw hb ha tb ta)

/-! ## a renaming, and a unit called `value` -/

/-- every name preceded by an x -/
def prefixed_x (s : Str) : Str := 'x' :: s

theorem prefixed_x_ok : KeepsApart prefixed_x ∧ AvoidsOwn prefixed_x := by
  constructor
  · intro a b h
    exact List.tail_eq_of_cons_eq h
  · intro s h
    simp [prefixed_x, ownNames, valueName] at h

theorem prefixed_x_words : ∀ w, Spec.IdentWord w → Spec.IdentWord (prefixed_x w) := by
  intro w h
  refine ⟨by simp [prefixed_x], ?_, by simp [prefixed_x], by simp [prefixed_x], by simp [prefixed_x], by simp [prefixed_x]⟩
  intro c hc
  rcases List.mem_cons.1 hc with rfl | hc
  · show inRanges 'x' Spec.identRanges = true
    decide
  · exact h.2.1 c hc

/-- `m·s` and `s·m` are equal, by their symbolic definitions, and both can be read back -/
example : ∃ a b : Ref, Spec.Printable .whole a.defn ∧ Spec.Printable .whole b.defn ∧ Spec.Tidy a.defn ∧ Spec.Tidy b.defn ∧
    a.defn ≠ b.defn ∧ a.eq b = .ok true := by
  have hm : Spec.IdentWord c!"m" := ⟨by decide, by decide, by decide, by decide, by decide, by decide⟩
  have hs : Spec.IdentWord c!"s" := ⟨by decide, by decide, by decide, by decide, by decide, by decide⟩
  refine ⟨.unit none (.mul (.ident c!"m") (.ident c!"s")) [(c!"m", .basis Demo.metre), (c!"s", .basis Demo.second)],
    .unit none (.mul (.ident c!"s") (.ident c!"m")) [(c!"m", .basis Demo.metre), (c!"s", .basis Demo.second)],
    .product (.mul (.factor (.plain (.ident hm))) (.plain (.ident hs))),
    .product (.mul (.factor (.plain (.ident hs))) (.plain (.ident hm))), ⟨trivial, trivial⟩, ⟨trivial, trivial⟩,
    by decide, by decide +kernel⟩

/-- a basis unit called `value` -/
def valueBasis (dimensionless : Bool) : Basis := ⟨valueName, dimensionless, false, Demo.named valueName c!"values" []⟩

/-- a system with that basis unit -/
def valueSystem (dimensionless : Bool) : System := Demo.addBasis (valueBasis dimensionless) System.empty

/-- what the text `value` means there -/
def valueUnit (dimensionless : Bool) : Ref := .unit none (.ident valueName) [(valueName, .basis (valueBasis dimensionless))]

/-- what the text `3 value` means there -/
def threeValue (dimensionless : Bool) : Ref :=
  .unit none (.mul (.number (.int 3) (some c!"3")) (.ident valueName)) [(valueName, .basis (valueBasis dimensionless))]

/-- what the text `1` means -/
def oneUnit : Ref := .unit none (.number (.int 1) (some c!"1")) []

theorem value_texts : ((valueSystem false).unit Demo.env 5 c!"value").1 = .ok (.unit (valueUnit false)) ∧
    ((valueSystem false).unit Demo.env 5 c!"3 value").1 = .ok (.unit (threeValue false)) ∧
    ((valueSystem true).unit Demo.env 5 c!"value").1 = .ok (.unit (valueUnit true)) ∧
    ((valueSystem true).unit Demo.env 5 c!"1").1 = .ok (.unit oneUnit) := by decide +kernel

/-- a conversion with a result between units of a basis called `value` -/
example : NumericFactors (.unit (threeValue false)) ∧ NumericFactors (.unit (valueUnit false)) ∧
    convert (.unit (threeValue false)) (.unit (valueUnit false)) 5 = .ok 15 := by
  have h1 : (UObj.unit (threeValue false)).symDef = .ok ([], ⟨3, [(valueName, 1)]⟩) := by decide +kernel
  have h2 : (UObj.unit (valueUnit false)).symDef = .ok ([], ⟨1, [(valueName, 1)]⟩) := by decide +kernel
  refine ⟨?_, ?_, ?_⟩
  · intro t m h f hf
    rw [h1] at h; cases h; cases hf
  · intro t m h f hf
    rw [h2] at h; cases h; cases hf
  · have hb : Converter.build (.unit (threeValue false)) (.unit (valueUnit false)) = .ok [.scale ⟨3, []⟩] := by decide +kernel
    have hs : simplifyOps ⟨1, []⟩ [.scale ⟨3, []⟩] = .ok [.scale ⟨3, []⟩] := by decide +kernel
    unfold convert
    rw [hb]
    simp only [bind, Except.bind]
    unfold Converter.convert
    rw [hs]
    simp [bind, Except.bind, COp.hasSymbol, runOps, COp.run]
    norm_num

/-- **C81** is refuted for one name: converting from a *dimensionless* basis unit called `value` to `1` squares the
number; under any other name the same conversion is an error. -/
theorem C81_value_refuted :
    ((valueSystem true).unit Demo.env 5 c!"value").1 = .ok (.unit (valueUnit true)) ∧
    ((valueSystem true).unit Demo.env 5 c!"1").1 = .ok (.unit oneUnit) ∧
    (∀ x : ℝ, convertNamed (.unit (valueUnit true)) (.unit oneUnit) x = .ok (x ^ 2)) ∧
    (∀ (φ : Str → Str), KeepsApart φ → AvoidsOwn φ → ∀ x : ℝ,
      convertNamed (.unit ((valueUnit true).rename φ)) (.unit (oneUnit.rename φ)) x = .error .nameError) := by
  have hb : Converter.build (.unit (valueUnit true)) (.unit oneUnit) = .ok [.scale ⟨1, [(valueName, 1)]⟩] := by decide +kernel
  have hs : simplifyOps ⟨1, []⟩ [.scale ⟨1, [(valueName, 1)]⟩] = .ok [.scale ⟨1, [(valueName, 1)]⟩] := by decide +kernel
  have h1 : (UObj.unit (valueUnit true)).symDef = .ok ([], ⟨1, [(valueName, 1)]⟩) := by decide +kernel
  have h2 : (UObj.unit oneUnit).symDef = .ok ([], ⟨1, []⟩) := by decide +kernel
  refine ⟨value_texts.2.2.1, value_texts.2.2.2, ?_, ?_⟩
  · intro x
    unfold convertNamed
    rw [hb]
    simp only [bind, Except.bind, h1, h2, hs]
    have hl : leadScales 1 1 [.scale ⟨1, [(valueName, 1)]⟩] = (2, 1, []) := by decide +kernel
    have ho : [COp.scale ⟨1, [(valueName, 1)]⟩].any COp.hasOther = false := by decide +kernel
    rw [ho]
    simp only [List.append_nil, List.any_nil, Bool.false_eq_true, if_false]
    unfold runProduct
    rw [hl]
    simp only [powerOf, bind, Except.bind, runNamed]
    norm_num
  · intro φ h ha x
    rw [show UObj.unit ((valueUnit true).rename φ) = (UObj.unit (valueUnit true)).rename φ from rfl,
      show UObj.unit (oneUnit.rename φ) = (UObj.unit oneUnit).rename φ from rfl,
      C81_conversions_do_not_depend_on_names φ h ha]
    unfold convert
    rw [hb]
    simp only [bind, Except.bind]
    unfold Converter.convert
    rw [hs]
    rfl

end Verif

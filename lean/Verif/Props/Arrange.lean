import Verif.Lemmas.ArrangeDb
import Verif.Props.Lookup
import Verif.Props.Database
/-!
# C76: the order in which a system is filled
-/

namespace Verif
open Spec

/-- **C76** (acceptance). If no two registrations declare the same spelling of the same kind, every one of them is accepted,
in whatever order they are made (`NoShared` does not depend on the order: the second theorem). -/
theorem C76_all_accepted (ts : List Step) (h : NoShared ts) (hu : ∀ t ∈ ts, ∀ u, t = .addUnit u → t.names ≠ none) :
    Accepted ts System.empty := by
  have key : ∀ (us ts : List Step) (s : System), Arr.Filled ts s → NoShared (ts ++ us) →
      (∀ t ∈ us, ∀ u, t = .addUnit u → t.names ≠ none) → Accepted us s := by
    intro us
    induction us with
    | nil => intro ts s _ _ _; trivial
    | cons t us ih =>
      intro ts s hf hn hus
      have hs := hf.step t (fun u hu a b ha hb => (List.pairwise_append.1 hn).2.2 u hu t (by simp) a b ha hb)
      refine ⟨?_, ih (ts ++ [t]) _ hs.1 (by rw [List.append_assoc]; exact hn) (fun t ht => hus t (by simp [ht]))⟩
      cases hnm : t.names with
      | some ref => exact hs.2 ref hnm
      | none =>
        cases t with
        | addPrefix p => rfl
        | query q => rfl
        | define d n => cases hnm
        | addUnit u => exact absurd hnm (hus _ (by simp) u rfl)
  exact key ts [] System.empty Arr.Filled.empty h hu

/-- **C76** (acceptance, other orders). -/
theorem C76_all_orders_accepted (ts us : List Step) (hp : ts.Perm us) (h : NoShared ts)
    (hu : ∀ t ∈ ts, ∀ u, t = .addUnit u → t.names ≠ none) : Accepted us System.empty :=
  C76_all_accepted us (Arr.noShared_perm hp h) fun t ht => hu t (hp.mem_iff.2 ht)

/-- **C76.** Fill two systems with the same registrations in two orders, no two of which declare the same spelling of the
same kind; let the prefixes be added in the same order, or let no spelling be readable with two prefixes.  Then every
lookup, after whatever queries on either side, has the same result in both — unless the recursion limit is hit. -/
theorem C76_lookup_any_order (env : Env) (ts us : List Step) (hp : ts.Perm us) (hn : NoShared ts)
    (hpre : prefixesAdded ts = prefixesAdded us ∨ OneReading ts)
    (h1 h2 : List Query) (l1 l2 : Nat) (n : Str)
    (ha : (unitByNameOrSymbol env l1 n (after env h1 (registry ts System.empty))).1 ≠ .error .recursionError)
    (hb : (unitByNameOrSymbol env l2 n (after env h2 (registry us System.empty))).1 ≠ .error .recursionError) :
    (unitByNameOrSymbol env l1 n (after env h1 (registry ts System.empty))).1
      = (unitByNameOrSymbol env l2 n (after env h2 (registry us System.empty))).1 := by
  have f1 := Arr.filled hn
  have f2 := Arr.filled (Arr.noShared_perm hp hn)
  have s1 := (sim_lookup f1.conflictFree l1 n _ (inv_after f1.conflictFree h1 (Inv.init env f1.pristine))).2.1
  have s2 := (sim_lookup f2.conflictFree l2 n _ (inv_after f2.conflictFree h2 (Inv.init env f2.pristine))).2.1
  refine agree (fun _ _ h => Spec.lookup_mono env _ h n) s1 ?_ ha hb
  obtain ⟨F, hF⟩ := s2
  exact ⟨F, by rw [Arr.lookup_perm env hp hn hpre]; exact hF⟩

/-- **C76** for `UnitSystem.unit` on whole expressions. -/
theorem C76_unit_any_order (env : Env) (ts us : List Step) (hp : ts.Perm us) (hn : NoShared ts)
    (hpre : prefixesAdded ts = prefixesAdded us ∨ OneReading ts)
    (h1 h2 : List Query) (l1 l2 : Nat) (text : Str)
    (ha : (System.unit env l1 text (after env h1 (registry ts System.empty))).1 ≠ .error .recursionError)
    (hb : (System.unit env l2 text (after env h2 (registry us System.empty))).1 ≠ .error .recursionError) :
    (System.unit env l1 text (after env h1 (registry ts System.empty))).1
      = (System.unit env l2 text (after env h2 (registry us System.empty))).1 := by
  have f1 := Arr.filled hn
  have f2 := Arr.filled (Arr.noShared_perm hp hn)
  have s1 := (sim_unit f1.conflictFree l1 text _ (inv_after f1.conflictFree h1 (Inv.init env f1.pristine))).2.1
  have s2 := (sim_unit f2.conflictFree l2 text _ (inv_after f2.conflictFree h2 (Inv.init env f2.pristine))).2.1
  refine agree (spec_unit_mono env _ text) s1 ?_ ha hb
  obtain ⟨F, hF⟩ := s2
  exact ⟨F, by rw [Arr.Match.unit env (Arr.lookup_perm env hp hn hpre)]; exact hF⟩

/-- what two systems have in common: all lookups and all expressions, after any queries -/
def SameAnswers (env : Env) (s s' : System) : Prop :=
  ∀ (h1 h2 : List Query) (l1 l2 : Nat) (text : Str),
    ((unitByNameOrSymbol env l1 text (after env h1 s)).1 ≠ .error .recursionError →
      (unitByNameOrSymbol env l2 text (after env h2 s')).1 ≠ .error .recursionError →
      (unitByNameOrSymbol env l1 text (after env h1 s)).1 = (unitByNameOrSymbol env l2 text (after env h2 s')).1) ∧
    ((System.unit env l1 text (after env h1 s)).1 ≠ .error .recursionError →
      (System.unit env l2 text (after env h2 s')).1 ≠ .error .recursionError →
      (System.unit env l1 text (after env h1 s)).1 = (System.unit env l2 text (after env h2 s')).1)

/-- **C76** (documents). Two documents that declare the same prefixes in the same order and the same units in any order, no
two units with a spelling of the same kind in common, both load, and the two systems answer alike. -/
theorem C76_document_order (env : Env) (order : List Str → List Str) (t t' : Tag) (ps : List Prefix) (ds ds' : List UnitDecl)
    (h : Declares order t ps ds) (h' : Declares order t' ps ds') (hp : ds.Perm ds')
    (h1 : Distinct IsName ds) (h2 : Distinct IsSymbol ds) (h3 : Distinct IsAlias ds) (h4 : Distinct IsAliasSymbol ds) :
    ∃ s s', parseSystem false order t = .ok s ∧ parseSystem false order t' = .ok s' ∧ SameAnswers env s s' := by
  have hn : NoShared (Arr.docSteps ps ds) := Arr.docSteps_noShared h1 h2 h3 h4
  have hperm : (Arr.docSteps ps ds).Perm (Arr.docSteps ps ds') := (hp.map Arr.declStep).append_left _
  have hpre : prefixesAdded (Arr.docSteps ps ds) = prefixesAdded (Arr.docSteps ps ds') := by
    rw [Arr.docSteps_prefixes, Arr.docSteps_prefixes]
  exact ⟨_, _, Arr.parseSystem_steps h hn, Arr.parseSystem_steps h' (Arr.noShared_perm hperm hn),
    fun g1 g2 l1 l2 n => ⟨C76_lookup_any_order env _ _ hperm hn (.inl hpre) g1 g2 l1 l2 n,
      C76_unit_any_order env _ _ hperm hn (.inl hpre) g1 g2 l1 l2 n⟩⟩

/-- **C76** (the shipped database). Rearrange the `unit` elements of `udunits2_combined.xml` in any way, and put the
`prefix` elements anywhere among them (in their order): the file still loads, and every lookup and every expression means
what it meant. -/
theorem C76_shipped_file_order (env : Env) (order : List Str → List Str) (t : Tag)
    (hu : (allNamed Db.unitSystem c!"unit").Perm (allNamed t c!"unit"))
    (hpre : allNamed t c!"prefix" = allNamed Db.unitSystem c!"prefix") :
    ∃ s s', parseSystem false order Db.unitSystem = .ok s ∧ parseSystem false order t = .ok s' ∧ SameAnswers env s s' := by
  obtain ⟨d1, d2⟩ := Db.declares
  obtain ⟨ps, e⟩ := Arr.each_prefix_order order d1
  obtain ⟨ds', e', hp⟩ := Arr.each_perm hu d2
  obtain ⟨h1, h2, h3, h4⟩ := Db.distinct
  exact C76_document_order env order Db.unitSystem t ps Db.decls ds' ⟨e, d2⟩ ⟨by rw [hpre]; exact e, e'⟩ hp h1 h2 h3 h4

/-- any order, apart from spellings with two readings that no definition mentions -/
theorem any_order_except (pf : Str → Py Node) (o : List Str → List Str) (hord : ∀ l, (o l).Perm l) {ts us : List Step} (hp : ts.Perm us) (hn : NoShared ts)
    {X : Str → Prop} (ho : Arr.OneExcept ts X) (ha : Arr.Avoids ⟨pf, o⟩ (registry ts System.empty) X) (h1 h2 : List Query) (l1 l2 : Nat) :
    (∀ n, ¬ X n →
      (unitByNameOrSymbol ⟨pf, o⟩ l1 n (after ⟨pf, o⟩ h1 (registry ts System.empty))).1 ≠ .error .recursionError →
      (unitByNameOrSymbol ⟨pf, o⟩ l2 n (after ⟨pf, o⟩ h2 (registry us System.empty))).1 ≠ .error .recursionError →
      (unitByNameOrSymbol ⟨pf, o⟩ l1 n (after ⟨pf, o⟩ h1 (registry ts System.empty))).1
        = (unitByNameOrSymbol ⟨pf, o⟩ l2 n (after ⟨pf, o⟩ h2 (registry us System.empty))).1) ∧
    (∀ text, (∀ e, pf text = .ok e → ∀ n ∈ e.identifiers, ¬ X n) →
      (System.unit ⟨pf, o⟩ l1 text (after ⟨pf, o⟩ h1 (registry ts System.empty))).1 ≠ .error .recursionError →
      (System.unit ⟨pf, o⟩ l2 text (after ⟨pf, o⟩ h2 (registry us System.empty))).1 ≠ .error .recursionError →
      (System.unit ⟨pf, o⟩ l1 text (after ⟨pf, o⟩ h1 (registry ts System.empty))).1
        = (System.unit ⟨pf, o⟩ l2 text (after ⟨pf, o⟩ h2 (registry us System.empty))).1) := by
  have f1 := Arr.filled hn
  have f2 := Arr.filled (Arr.noShared_perm hp hn)
  have hlook := Arr.lookup_except ⟨pf, o⟩ hp hn ho ha
  constructor
  · intro n hX ra rb
    have s1 := (sim_lookup f1.conflictFree l1 n _ (inv_after f1.conflictFree h1 (Inv.init ⟨pf, o⟩ f1.pristine))).2.1
    have s2 := (sim_lookup f2.conflictFree l2 n _ (inv_after f2.conflictFree h2 (Inv.init ⟨pf, o⟩ f2.pristine))).2.1
    refine agree (fun _ _ h => Spec.lookup_mono _ _ h n) s1 ?_ ra rb
    obtain ⟨F, hF⟩ := s2
    exact ⟨F, by rw [hlook F n hX]; exact hF⟩
  · intro text ht ra rb
    have s1 := (sim_unit f1.conflictFree l1 text _ (inv_after f1.conflictFree h1 (Inv.init ⟨pf, o⟩ f1.pristine))).2.1
    have s2 := (sim_unit f2.conflictFree l2 text _ (inv_after f2.conflictFree h2 (Inv.init ⟨pf, o⟩ f2.pristine))).2.1
    refine agree (spec_unit_mono _ _ text) s1 ?_ ra rb
    obtain ⟨F, hF⟩ := s2
    refine ⟨F, ?_⟩
    have : Spec.unit ⟨pf, o⟩ (registry ts System.empty) F text = Spec.unit ⟨pf, o⟩ (registry us System.empty) F text := by
      unfold Spec.unit
      dsimp only
      cases hx : pf text with
      | error e => rfl
      | ok ex =>
        have hm : (o ex.identifiers).mapM (fun n => (do .ok (n, ← Spec.lookup ⟨pf, o⟩ (registry ts System.empty) F n) : Py (Str × Ref)))
            = (o ex.identifiers).mapM (fun n => (do .ok (n, ← Spec.lookup ⟨pf, o⟩ (registry us System.empty) F n) : Py (Str × Ref))) := by
          refine Arr.mapM_congr_mem fun n hn => ?_
          rw [hlook F n (ht ex hx n ((hord _).mem_iff.1 hn))]
        simp only [bind, Except.bind] at hm ⊢
        rw [hm]
    rw [this]
    exact hF

/-- **C76** (the shipped database, prefixes too). Rearrange *all* elements of `udunits2_combined.xml`: the file still loads,
every spelling but `dat` and `dau` means what it meant, and so does every text that uses neither. -/
theorem C76_shipped_any_order (o q : List Str → List Str) (ho : ∀ l, (o l).Perm l) (hq : ∀ l, (q l).Perm l) (t : Tag)
    (hu : (allNamed Db.unitSystem c!"unit").Perm (allNamed t c!"unit"))
    (hpre : (allNamed Db.unitSystem c!"prefix").Perm (allNamed t c!"prefix")) :
    ∃ s s', parseSystem false q Db.unitSystem = .ok s ∧ parseSystem false q t = .ok s' ∧
      ∀ (h1 h2 : List Query) (l1 l2 : Nat),
        (∀ n, ¬ n ∈ [c!"dat", c!"dau"] →
          (unitByNameOrSymbol ⟨parse, o⟩ l1 n (after ⟨parse, o⟩ h1 s)).1 ≠ .error .recursionError →
          (unitByNameOrSymbol ⟨parse, o⟩ l2 n (after ⟨parse, o⟩ h2 s')).1 ≠ .error .recursionError →
          (unitByNameOrSymbol ⟨parse, o⟩ l1 n (after ⟨parse, o⟩ h1 s)).1
            = (unitByNameOrSymbol ⟨parse, o⟩ l2 n (after ⟨parse, o⟩ h2 s')).1) ∧
        (∀ text, (∀ e, parse text = .ok e → ∀ n ∈ e.identifiers, ¬ n ∈ [c!"dat", c!"dau"]) →
          (System.unit ⟨parse, o⟩ l1 text (after ⟨parse, o⟩ h1 s)).1 ≠ .error .recursionError →
          (System.unit ⟨parse, o⟩ l2 text (after ⟨parse, o⟩ h2 s')).1 ≠ .error .recursionError →
          (System.unit ⟨parse, o⟩ l1 text (after ⟨parse, o⟩ h1 s)).1
            = (System.unit ⟨parse, o⟩ l2 text (after ⟨parse, o⟩ h2 s')).1) := by
  obtain ⟨d1, d2⟩ := Db.declares
  obtain ⟨ps', e, pp⟩ := Arr.each_perm hpre (Arr.each_prefix_ordered q d1)
  obtain ⟨ds', e', hp⟩ := Arr.each_perm hu d2
  obtain ⟨k1, k2, k3, k4⟩ := Db.distinct
  have hn : NoShared (Arr.docSteps (Db.prefixes.map (Arr.ordered q)) Db.decls) := Arr.docSteps_noShared k1 k2 k3 k4
  have hperm : (Arr.docSteps (Db.prefixes.map (Arr.ordered q)) Db.decls).Perm (Arr.docSteps ps' ds') :=
    (pp.map _).append (hp.map Arr.declStep)
  have h1 := Arr.shipped_one q hq
  have h2 := Arr.shipped_avoids o ho (Db.prefixes.map (Arr.ordered q))
  have l1 := Arr.parseSystem_steps ⟨Arr.each_prefix_ordered q d1, d2⟩ hn
  have l2 := Arr.parseSystem_steps ⟨e, e'⟩ (Arr.noShared_perm hperm hn)
  have fin := any_order_except parse o ho hperm hn h1 h2
  exact ⟨_, _, l1, l2, fin⟩

/-! ## Orders that matter -/

namespace Demo
def fillDeci : Prefix := ⟨c!"deci", c!"1e-1", [c!"d"]⟩
def fillDeca : Prefix := ⟨c!"deca", c!"1e1", [c!"da"]⟩
/-- a unit whose symbol is `am` -/
def amble : Step := .define c!"7 m" (named c!"amble" c!"ambles" [c!"am"])
def fill1 : List Step := [.addPrefix fillDeci, .addPrefix fillDeca, .addUnit (.basis metre), amble]
def fill2 : List Step := [.addPrefix fillDeca, .addPrefix fillDeci, .addUnit (.basis metre), amble]
def fill3 : List Step := [.addPrefix fillDeci, amble, .addPrefix fillDeca, .addUnit (.basis metre)]

theorem fill1_noShared : NoShared fill1 := by
  have key : Separate metreRef (named c!"amble" c!"ambles" [c!"am"]) := by
    refine ⟨fun k h h' => ?_, fun k h h' => ?_, fun k h h' => ?_, fun k h h' => ?_⟩
    · rw [← mem_nameKeys_iff] at h h'
      have e1 : nameKeys metreRef.name = [c!"metre", c!"metres"] := rfl
      have e2 : nameKeys (named c!"amble" c!"ambles" [c!"am"]).name = [c!"amble", c!"ambles"] := rfl
      rw [e1] at h; rw [e2] at h'
      simp only [List.mem_cons, List.not_mem_nil, or_false] at h h'
      rcases h with rfl | rfl <;> simp at h'
    · have e1 : metreRef.symbols = [c!"m"] := rfl
      have e2 : (named c!"amble" c!"ambles" [c!"am"]).symbols = [c!"am"] := rfl
      rw [e1] at h; rw [e2] at h'
      simp only [List.mem_cons, List.not_mem_nil, or_false] at h h'
      rw [h] at h'; simp at h'
    · obtain ⟨n, hn, _⟩ := h'
      cases hn
    · cases h'
  unfold NoShared fill1
  simp only [List.pairwise_cons, List.mem_cons, List.not_mem_nil, or_false, List.Pairwise.nil, and_true]
  refine ⟨?_, ?_, ?_, ?_⟩
  · intro t _ a b ha; cases ha
  · intro t _ a b ha; cases ha
  · rintro t rfl a b ha hb
    cases ha; cases hb
    exact key
  · intro t ht; cases ht
end Demo

/-- **C76** (refuted). The order in which *prefixes* are added does matter: in one order `dam` is a deci-`am`, in the other
a deca-`m`. -/
theorem C76_prefix_order_refuted :
    ¬ ∀ (ts us : List Step), ts.Perm us → NoShared ts → ∀ (l : Nat) (n : Str),
        (unitByNameOrSymbol Demo.env l n (registry ts System.empty)).1.map Ref.str
          = (unitByNameOrSymbol Demo.env l n (registry us System.empty)).1.map Ref.str := by
  intro h
  exact absurd (h Demo.fill1 Demo.fill2 (.swap _ _ _) Demo.fill1_noShared 5 c!"dam") (by decide +kernel)

/-- **C76** (refuted). Nor is acceptance enough: when two units share an alias every registration is accepted in both orders,
and the unit registered last takes it. -/
theorem C76_unit_order_refuted :
    ¬ ∀ (ts us : List Step), ts.Perm us → prefixesAdded ts = prefixesAdded us → Accepted ts System.empty → Accepted us System.empty →
        ∀ (l : Nat) (n : Str), (unitByNameOrSymbol Demo.env l n (registry ts System.empty)).1.map Ref.str
          = (unitByNameOrSymbol Demo.env l n (registry us System.empty)).1.map Ref.str := by
  intro h
  have := h [.addUnit (.basis Demo.metre), .define c!"2 m" ⟨some ⟨c!"a", none⟩, [], [⟨c!"x", none⟩], []⟩,
      .define c!"3 m" ⟨some ⟨c!"b", none⟩, [], [⟨c!"x", none⟩], []⟩]
    [.addUnit (.basis Demo.metre), .define c!"3 m" ⟨some ⟨c!"b", none⟩, [], [⟨c!"x", none⟩], []⟩,
      .define c!"2 m" ⟨some ⟨c!"a", none⟩, [], [⟨c!"x", none⟩], []⟩]
    ((List.Perm.swap _ _ _).cons _) rfl ⟨by rfl, by rfl, by rfl, trivial⟩ ⟨by rfl, by rfl, by rfl, trivial⟩ 5 c!"x"
  exact absurd this (by decide +kernel)

/-! ## Non-vacuity -/

/-- units before the units they are defined by, prefixes in the same order -/
example : (unitByNameOrSymbol Demo.env 9 c!"dam" (registry Demo.fill3 System.empty)).1
    = (unitByNameOrSymbol Demo.env 7 c!"dam" (after Demo.env [.lookup 9 c!"amble"] (registry Demo.fill1 System.empty))).1 := by
  refine (C76_lookup_any_order Demo.env Demo.fill1 Demo.fill3 ?_ Demo.fill1_noShared (.inl rfl) [.lookup 9 c!"amble"] [] 7 9 c!"dam" ?_ ?_).symm
  · show List.Perm (_ :: _) (_ :: _)
    refine List.Perm.cons _ ?_
    exact (List.perm_append_comm (l₁ := [.addPrefix Demo.fillDeca, .addUnit (.basis Demo.metre)]) (l₂ := [Demo.amble]))
  · intro h
    have h2 := congrArg (fun x : Py Ref => x.map Ref.str) h
    exact absurd h2 (by decide +kernel)
  · intro h
    have h2 := congrArg (fun x : Py Ref => x.map Ref.str) h
    exact absurd h2 (by decide +kernel)

/-- without the unit `am` no spelling has two readings, and the prefixes may come in any order -/
example : OneReading [.addPrefix Demo.fillDeci, .addPrefix Demo.fillDeca, .addUnit (.basis Demo.metre)] := by
  have hD : ∀ k, Declared [.addPrefix Demo.fillDeci, .addPrefix Demo.fillDeca, .addUnit (.basis Demo.metre)] k →
      k ∈ [c!"metre", c!"metres", c!"m", c!"meter", c!"meters"] := by
    rintro k ⟨t, ht, ref, hr, hk⟩
    simp only [List.mem_cons, List.not_mem_nil, or_false] at ht
    rcases ht with rfl | rfl | rfl
    · cases hr
    · cases hr
    · cases hr
      rcases hk with hk | hk | hk | hk
      · have := mem_nameKeys_iff.2 hk
        have e : nameKeys Demo.metreRef.name = [c!"metre", c!"metres"] := rfl
        have : k ∈ [c!"metre", c!"metres"] := e ▸ this
        simp only [List.mem_cons, List.not_mem_nil, or_false] at this ⊢
        rcases this with rfl | rfl <;> simp
      · have := mem_aliasKeys_iff.2 hk
        have e : aliasKeys Demo.metreRef.aliasNames = [c!"meter", c!"meters"] := rfl
        have : k ∈ [c!"meter", c!"meters"] := e ▸ this
        simp only [List.mem_cons, List.not_mem_nil, or_false] at this ⊢
        rcases this with rfl | rfl <;> simp
      · have : k ∈ [c!"m"] := hk
        simp only [List.mem_cons, List.not_mem_nil, or_false] at this ⊢
        subst this; simp
      · cases hk
  intro p hp q hq k l rest rest' hkl heq hr hr' _
  have hps : prefixesAdded [.addPrefix Demo.fillDeci, .addPrefix Demo.fillDeca, .addUnit (.basis Demo.metre)] = [Demo.fillDeci, Demo.fillDeca] := rfl
  rw [hps] at hp hq
  have e1 := hD _ hr
  have e2 := hD _ hr'
  simp only [List.mem_cons, List.not_mem_nil, or_false] at hp hq e1 e2
  have s1 : Demo.fillDeci.symbols = [c!"d"] := rfl
  have s2 : Demo.fillDeca.symbols = [c!"da"] := rfl
  have n1 : Demo.fillDeci.name = c!"deci" := rfl
  have n2 : Demo.fillDeca.name = c!"deca" := rfl
  rcases hp with rfl | rfl <;> rcases hq with rfl | rfl <;> rcases hkl with ⟨rfl, rfl⟩ | ⟨h1, h2⟩
  · exact ⟨rfl, rfl⟩
  · rw [s1, List.mem_singleton] at h1 h2; exact ⟨rfl, by rw [h1, h2]⟩
  · rw [n1, n2] at heq; simp at heq
  · rw [s1, List.mem_singleton] at h1; rw [s2, List.mem_singleton] at h2
    subst h1; subst h2
    rcases e1 with rfl | rfl | rfl | rfl | rfl <;> simp at heq
  · rw [n1, n2] at heq; simp at heq
  · rw [s2, List.mem_singleton] at h1; rw [s1, List.mem_singleton] at h2
    subst h1; subst h2
    rcases e2 with rfl | rfl | rfl | rfl | rfl <;> simp at heq
  · exact ⟨rfl, rfl⟩
  · rw [s2, List.mem_singleton] at h1 h2; exact ⟨rfl, by rw [h1, h2]⟩

/-- the shipped file, reversed -/
example : (allNamed Db.unitSystem c!"unit").Perm
    (allNamed (.mk c!"unit-system" ((allNamed Db.unitSystem c!"prefix") ++ (allNamed Db.unitSystem c!"unit").reverse) []) c!"unit") := by
  have e : allNamed (.mk c!"unit-system" ((allNamed Db.unitSystem c!"prefix") ++ (allNamed Db.unitSystem c!"unit").reverse) []) c!"unit"
      = (allNamed Db.unitSystem c!"unit").reverse := by
    generalize Db.unitSystem = t
    show List.filter _ (_ ++ _) = _
    rw [List.filter_append]
    have a : (allNamed t c!"prefix").filter (fun c => decide (c.name = c!"unit")) = [] := by
      rw [List.filter_eq_nil_iff]
      intro c hc
      have := (List.mem_filter.1 hc).2
      simp only [decide_eq_true_eq] at this ⊢
      rw [this]; decide
    have b : (allNamed t c!"unit").reverse.filter (fun c => decide (c.name = c!"unit")) = (allNamed t c!"unit").reverse := by
      rw [List.filter_eq_self]
      intro c hc
      exact (List.mem_filter.1 (List.mem_reverse.1 hc)).2
    rw [a, b, List.nil_append]
  rw [e]
  exact (List.reverse_perm _).symm

end Verif

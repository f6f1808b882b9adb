import Verif.Props.Inline
import Verif.Props.ShippedUnits
/-!
# C77 on the shipped database
-/

namespace Verif
open Spec
namespace Db

theorem claims_find : ((allClaims (withEntries 0 decls)).all fun x => decide (tree.find (enc x.1) = some x.2)) = true := by decide +kernel

theorem withEntries_lazy : ∀ (ds : List UnitDecl) (h : Nat) (t : Str) (r : UnitReference), UnitDecl.lazy t r ∈ ds →
    ∃ i, (r, Entry.lazy (h + i)) ∈ withEntries h ds ∧ (lazyObjs ds)[i]? = some ⟨t, r, none⟩
  | [], _, _, _, hd => by cases hd
  | .basis b :: ds, h, t, r, hd => by
    rcases List.mem_cons.1 hd with hd | hd
    · cases hd
    · obtain ⟨i, h1, h2⟩ := withEntries_lazy ds h t r hd
      exact ⟨i, List.mem_cons_of_mem _ h1, h2⟩
  | .lazy t' r' :: ds, h, t, r, hd => by
    rcases List.mem_cons.1 hd with hd | hd
    · cases hd
      exact ⟨0, List.mem_cons_self .., rfl⟩
    · obtain ⟨i, h1, h2⟩ := withEntries_lazy ds (h + 1) t r hd
      exact ⟨i + 1, List.mem_cons_of_mem _ (by rw [show h + (i + 1) = h + 1 + i by omega]; exact h1), by
        show (_ :: lazyObjs ds)[i + 1]? = _
        rw [List.getElem?_cons_succ]; exact h2⟩

/-- a spelling of any kind -/
def Spells (r : UnitReference) (n : Str) : Prop := IsName r n ∨ IsSymbol r n ∨ IsAlias r n ∨ IsAliasSymbol r n

theorem definedAs {s : System} (hh : s.heap = lazyObjs decls) (ht : ∀ n, tree.find (enc n) = direct s n)
    {d : Str} {r : UnitReference} (hd : UnitDecl.lazy d r ∈ decls) {n : Str} (hn : Spells r n) : DefinedAs s n d := by
  obtain ⟨i, h1, h2⟩ := withEntries_lazy decls 0 d r hd
  rw [Nat.zero_add] at h1
  have hc : (n, Entry.lazy i) ∈ allClaims (withEntries 0 decls) := by
    unfold allClaims
    simp only [List.mem_append, mem_claimsOf]
    rcases hn with h | h | h | h
    · exact .inl ⟨_, h1, mem_nameKeys_iff.2 h⟩
    · exact .inr (.inr (.inl ⟨_, h1, h⟩))
    · exact .inr (.inl ⟨_, h1, mem_aliasKeys_iff.2 h⟩)
    · exact .inr (.inr (.inr ⟨_, h1, h⟩))
  have hf := of_decide_eq_true (List.all_eq_true.1 claims_find _ hc)
  exact ⟨i, _, by rw [← ht]; exact hf, by rw [hh]; exact h2, rfl⟩

end Db

/-- **C77** (the shipped database). Load the shipped database in any way and use it in any way.  For every unit of it with a
definition and every typeable spelling of the unit (apart from the 22 spellings that never resolve and the 8 of the torr),
`unit(spelling)` and `unit(definition)` are equal and interchangeable. -/
theorem C77_shipped (strict : Bool) (o q : List Str → List Str) (ho : ∀ l, (o l).Perm l) (hq : ∀ l, (q l).Perm l)
    (s : System) (hs : parseSystem strict q Db.unitSystem = .ok s) (d : Str) (r : UnitReference) (hd : UnitDecl.lazy d r ∈ Db.decls)
    (n : Str) (hn : Db.Spells r n) (g1 : n ∉ Db.unusable) (g2 : n ∉ Db.mmHg) (g3 : n ∉ Db.untypeable)
    (h1 h2 : List Query) (l1 l2 : Nat) (hl1 : 9 ≤ l1) (hl2 : 9 ≤ l2) :
    ∃ a b, (System.unit ⟨parse, o⟩ l1 n (after ⟨parse, o⟩ h1 s)).1 = .ok (.unit a) ∧
      (System.unit ⟨parse, o⟩ l2 d (after ⟨parse, o⟩ h2 s)).1 = .ok (.unit b) ∧
      Interchangeable (.unit a) (.unit b) ∧ Ref.eq a b = .ok true := by
  obtain ⟨pf, hpf⟩ : ∃ pf, pf = parse := ⟨_, rfl⟩
  rw [← hpf]
  obtain ⟨u, hu, hnu⟩ := C53_table_complete n ⟨_, hd, hn⟩ g1
  obtain ⟨x, hx, hrow⟩ := Db.unit_row hpf ho hq hs hu hnu g1 g2 g3 h1 l1 hl1
  obtain ⟨y, hy, _⟩ := Db.spec_lookup_row hpf ho hq hs hu hnu g1 g2
  obtain ⟨s0, hl, ht, hp, hh, _, _⟩ := Db.base
  obtain ⟨s', hs', hpr', hcf', _, _, _, _, hheap⟩ := C38_shipped_database_loads strict q hq
  rw [hs] at hs'; cases hs'
  rcases system_order strict id q (fun _ => .refl _) hq Db.unitSystem Db.free with ⟨e, e2, _⟩ | ⟨s0', s', e2, e3, hsame⟩
  · rw [hl] at e2; cases e2
  rw [hl] at e2; cases e2
  rw [hs] at e3; cases e3
  have ht' : ∀ n, Db.tree.find (enc n) = direct s n := by
    intro n; rw [ht]; unfold direct; rw [hsame.names, hsame.symbols, hsame.aliasNames, hsame.aliasSymbols]
  have hdef := Db.definedAs hheap ht' hd hn
  have hpn : pf n = .ok (.ident n) := by rw [hpf]; exact (Db.typeable hu hnu).2 g3
  obtain ⟨G, nm, t, refsT, hG, pT, mT, aT, rfl⟩ := lookup_defined hdef hy
  have hG' : G = 8 := by omega
  subst hG'
  have hm : mkUnit none t refsT = .ok (.unit none t refsT) := mkUnit_iff.2 ⟨rfl, aT⟩
  have hspec : Spec.unit ⟨pf, o⟩ s 8 d = .ok (.unit (.unit none t refsT)) := by
    unfold Spec.unit
    simp only [bind, Except.bind] at pT mT ⊢
    rw [pT]
    simp only
    rw [mT]
    exact ((C24_date_unit_iff t refsT).2 _).2 hm
  have hv : (System.unit ⟨pf, o⟩ l2 d (after ⟨pf, o⟩ h2 s)).1 = .ok (.unit (.unit none t refsT)) := by
    have hsim := (sim_unit hcf' l2 d _ (inv_after hcf' h2 (Inv.init ⟨pf, o⟩ hpr'))).2.2
    have := Le.trans (spec_unit_mono ⟨pf, o⟩ s d (show 8 ≤ l2 by omega)) hsim
    simp only [hspec] at this
    exact this.ok
  obtain ⟨a, b, ea, eb, hint, _, _, _, heq⟩ := C77_name_is_its_definition ⟨pf, o⟩ ho s hpr' hcf' n d hdef hpn h1 h2 l1 l2 _ _ hx hv
  cases ea
  cases eb
  obtain ⟨dd, m, _, _, hsym, _⟩ := hrow
  exact ⟨_, _, hx, hv, hint, heq ⟨_, hsym⟩⟩

/-- Non-vacuity: the shipped newton is such a unit, `N` one of its spellings, `m.kg/s^2` its definition. -/
example (o q : List Str → List Str) (ho : ∀ l, (o l).Perm l) (hq : ∀ l, (q l).Perm l)
    (s : System) (hs : parseSystem true q Db.unitSystem = .ok s) :
    ∃ a b, (System.unit ⟨parse, o⟩ 1000 c!"N" s).1 = .ok (.unit a) ∧
      (System.unit ⟨parse, o⟩ 1000 c!"m.kg/s^2" s).1 = .ok (.unit b) ∧
      Interchangeable (.unit a) (.unit b) ∧ Ref.eq a b = .ok true :=
  C77_shipped true o q ho hq s hs c!"m.kg/s^2" ⟨some ⟨c!"newton", some c!"newtons"⟩, [c!"N"], [], []⟩ (by decide +kernel)
    c!"N" (.inr (.inl (by simp [IsSymbol]))) (by decide +kernel) (by decide +kernel) (by decide +kernel) [] [] 1000 1000 (by norm_num) (by norm_num)

end Verif

import Verif.Props.ShippedUnits
import Verif.Spec.Float
/-!
# The roundings behind the units of the shipped database, counted by evaluation in the kernel
-/

namespace Verif
open Spec

/-- the roundings and the steps of an expanded definition are few -/
def fewRoundings (e : Node) : Bool :=
  match e.split true with
  | .ok (some t, d) => Nat.ble (transRoundings t + roundings d) 21 && Nat.ble (transSteps t) 1
  | .ok (none, d) => Nat.ble (roundings d) 21
  | .error _ => false

theorem fewRoundings_spec {r : Ref} {e : Node} (he : r.expand = .ok e) (h : fewRoundings e = true) :
    unitRoundings r ≤ 21 ∧ unitSteps r ≤ 1 := by
  unfold fewRoundings at h
  cases hs : e.split true with
  | error x => rw [hs] at h; cases h
  | ok p =>
    obtain ⟨t, d⟩ := p
    rw [hs] at h
    unfold unitRoundings unitSteps
    rw [he]
    simp only [hs]
    cases t with
    | none => exact ⟨Nat.le_of_ble_eq_true h, Nat.zero_le _⟩
    | some t =>
      rw [Bool.and_eq_true] at h
      exact ⟨Nat.le_of_ble_eq_true h.1, Nat.le_of_ble_eq_true h.2⟩

namespace Db

theorem rounds_ok : (shipped.all fun u => u.spellings.all fun n => skipB n ||
    (match viewSpell tree pres (views parse) n with
      | none => false
      | some v => fewRoundings v.node)) = true := by decide +kernel

/-- the lookup in the fixed registry: few roundings -/
theorem spec_lookup_few {pf : Str → Py Node} (hpf : pf = parse) {o q : List Str → List Str} (ho : ∀ l, (o l).Perm l)
    (hq : ∀ l, (q l).Perm l) {strict : Bool} {s : System} (hs : parseSystem strict q Db.unitSystem = .ok s)
    {u : ShippedUnit} (hu : u ∈ shipped) {n : Str} (hn : n ∈ u.spellings) (h1 : n ∉ unusable) (h2 : n ∉ mmHg) :
    ∃ r e, Spec.lookup ⟨pf, o⟩ s 9 n = .ok r ∧ r.expand = .ok e ∧ fewRoundings e = true := by
  obtain ⟨ent, hent⟩ := row_claimed hu hn
  have hdead := Db.dead_iff hent
  have hnd : deadB n = false := by
    rw [Bool.eq_false_iff]; exact fun h => h1 (hdead.1 h)
  have hf := List.all_eq_true.1 (List.all_eq_true.1 spellings_registered u hu) n hn
  have hrow := List.all_eq_true.1 (List.all_eq_true.1 rounds_ok u hu) n hn
  have hskip : skipB n = false := by
    rw [Bool.eq_false_iff]
    intro hk
    rcases (skip_iff n).1 hk with h | h
    · rw [hnd] at h; cases h
    · exact h2 h
  rw [hskip, Bool.false_or] at hrow
  obtain ⟨s0, hl, ht, hp, hh, hpr, hcf⟩ := Db.base
  rcases system_order strict id q (fun _ => .refl _) hq Db.unitSystem Db.free with ⟨e, e2, _⟩ | ⟨s0', s', e2, e3, hsame⟩
  · rw [hl] at e2; cases e2
  rw [hl] at e2; cases e2
  rw [hs] at e3; cases e3
  have hfind : ∃ e, direct s0 n = some e := by
    rw [ht] at hf
    exact Option.isSome_iff_exists.1 hf
  obtain ⟨e', he'⟩ := hfind
  obtain ⟨hw, hb⟩ := Db.wellFounded hpf ht hp hh
  have hgood : ∀ b, e' = .lazy b → rankOf Db.ranks b ≠ 0 ∧ rankOf Db.ranks b < 8 := by
    rintro b rfl
    refine ⟨fun h0 => ?_, ?_⟩
    · unfold deadB at hnd; rw [ht, he'] at hnd; simp [h0] at hnd
    · have := Db.rank_le b; omega
  obtain ⟨r, hr⟩ := spec_lookup_resolves (env := ⟨pf, id⟩) (fun _ => .refl _) hw n e' (.inl he') 8 hgood
  obtain ⟨r2, hr2, hsm⟩ := spec_lookup_same (env1 := ⟨pf, id⟩) (env2 := ⟨pf, o⟩) hsame.sysSame rfl (fun _ => .refl _) ho 9 n r hr
  have hacc : AccOk pf s0 (views pf) := by
    unfold views
    rw [← hp]
    refine evalIds_sound ht ordered .leaf ?_ ?_
    · rw [hh]; exact ordered_spec
    · intro i v h; cases h
  rw [← hpf] at hrow
  cases hv : viewSpell tree pres (views pf) n with
  | none => rw [hv] at hrow; cases hrow
  | some v =>
    rw [hv] at hrow
    have hview := viewSpell_sound (s := s0) ht hacc (by rw [hp]; exact hv) 9 r hr
    exact ⟨r2, v.node, hr2, (hsm.expand _).1 hview.1, hrow⟩

/-- `unit(n)` for a spelling of the table, with few roundings -/
theorem unit_few {pf : Str → Py Node} (hpf : pf = parse) {o q : List Str → List Str} (ho : ∀ l, (o l).Perm l)
    (hq : ∀ l, (q l).Perm l) {strict : Bool} {s : System} (hs : parseSystem strict q Db.unitSystem = .ok s)
    {u : ShippedUnit} (hu : u ∈ shipped) {n : Str} (hn : n ∈ u.spellings) (h1 : n ∉ unusable) (h2 : n ∉ mmHg) (h3 : n ∉ untypeable)
    (hist : List Query) (limit : Nat) (hlim : 9 ≤ limit) :
    ∃ r, (System.unit ⟨pf, o⟩ limit n (after ⟨pf, o⟩ hist s)).1 = .ok (.unit (.unit none (.ident n) [(n, r)])) ∧
      (Ref.unit none (.ident n) [(n, r)]).IsRow u ∧ unitRoundings (.unit none (.ident n) [(n, r)]) ≤ 21 ∧
      unitSteps (.unit none (.ident n) [(n, r)]) ≤ 1 := by
  obtain ⟨r, e, hr, he, hfew⟩ := spec_lookup_few hpf ho hq hs hu hn h1 h2
  obtain ⟨r', hr', hrow, _⟩ := spec_lookup_row hpf ho hq hs hu hn h1 h2
  rw [hr] at hr'; cases hr'
  obtain ⟨s', hs', hpr', hcf', _⟩ := C38_shipped_database_loads strict q hq
  rw [hs] at hs'; cases hs'
  have hp : pf n = .ok (.ident n) := by rw [hpf]; exact (typeable hu hn).2 h3
  have hsp := spec_unit_ident ho hp hr
  refine ⟨r, ?_, isRow_ident hrow none n, ?_⟩
  · have hsim := (sim_unit hcf' limit n _ (inv_after hcf' hist (Inv.init ⟨pf, o⟩ hpr'))).2.2
    have := Le.trans (spec_unit_mono ⟨pf, o⟩ s n hlim) hsim
    simp only [hsp] at this
    exact this.ok
  · have he' : (Ref.unit none (.ident n) [(n, r)]).expand = .ok e := by
      simp only [Ref.expand, Ref.expandList, he, bind, Except.bind, Node.substitute, Dict.get_cons, if_pos, Option.getD]
    exact fewRoundings_spec he' hfew

end Db
end Verif

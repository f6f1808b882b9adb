import Verif.Props.ShippedUnits
import Verif.Lemmas.IntArrays
import Verif.Spec.WholeSpellings
/-!
# Which shipped units are defined without decimal numbers, by evaluation in the kernel
-/

namespace Verif
open Spec

/-- `WholeNumbers`, computed -/
def Node.wholeB : Node → Bool
  | .number (.dec d) _ => decide (d.exp = 0)
  | .number _ _ | .ident _ | .unhandled _ => true
  | .mul l r | .div l r | .raise l r | .shift l r => l.wholeB && r.wholeB
  | .log _ t => t.wholeB

/-- `PointFactor`, computed -/
def Node.pointB : Node → Bool
  | .number (.dec d) _ => decide (d.exp ≠ 0)
  | .mul l r | .div l r => l.pointB || r.pointB
  | .raise l (.number (.int k) _) => l.pointB && decide (k ≠ 0)
  | _ => false

theorem wholeB_sound : ∀ {e : Node}, e.wholeB = true → WholeNumbers e
  | .number (.dec d) _, h => of_decide_eq_true (p := d.exp = 0) h
  | .number (.int _) _, _ | .number (.str _) _, _ | .ident _, _ | .unhandled _, _ => trivial
  | .mul l r, h | .div l r, h | .raise l r, h | .shift l r, h => by
    unfold Node.wholeB at h
    rw [Bool.and_eq_true] at h
    exact ⟨wholeB_sound h.1, wholeB_sound h.2⟩
  | .log _ t, h => by
    unfold Node.wholeB at h
    exact wholeB_sound (e := t) h

theorem pointB_sound : ∀ {e : Node}, e.pointB = true → PointFactor e
  | .number (.dec d) raw, h => .number d raw (of_decide_eq_true h)
  | .mul l r, h => by
    unfold Node.pointB at h
    rcases Bool.or_eq_true _ _ ▸ h with h | h
    · exact .mulLeft _ _ (pointB_sound h)
    · exact .mulRight _ _ (pointB_sound h)
  | .div l r, h => by
    unfold Node.pointB at h
    rcases Bool.or_eq_true _ _ ▸ h with h | h
    · exact .divLeft _ _ (pointB_sound h)
    · exact .divRight _ _ (pointB_sound h)
  | .raise l (.number (.int k) raw), h => by
    unfold Node.pointB at h
    rw [Bool.and_eq_true] at h
    exact .power _ _ _ (pointB_sound h.1) (of_decide_eq_true h.2)

namespace Db

/-- the listed spellings -/
def wholeKeys : Tree Unit := wholeSpellings.foldl (fun t n => t.insert (enc n) ()) .leaf

/-- one spelling: listed exactly if there are no decimals; otherwise one is a factor -/
def wholeOk (t : Tree Entry) (pres : List (Str × Prefix)) (acc : Tree View) (n : Str) : Bool :=
  match viewSpell t pres acc n with
  | none => false
  | some v => if (wholeKeys.find (enc n)).isSome then v.node.wholeB else v.node.pointB

theorem whole_ok : (shipped.all fun u => decide (u.scale ≠ .linear) || u.spellings.all fun n => skipB n || wholeOk tree pres (views parse) n) = true := by
  decide +kernel

theorem keys_find : ∀ (l : List Str) (t : Tree Unit) (n : Str),
    ((l.foldl (fun t n => t.insert (enc n) ()) t).find (enc n)).isSome ↔ (n ∈ l ∨ (t.find (enc n)).isSome)
  | [], t, n => by simp
  | m :: l, t, n => by
    rw [List.foldl_cons, keys_find l, Tree.find_insert, List.mem_cons]
    by_cases h : enc n = enc m
    · simp only [h, if_true, enc_inj h, Option.isSome_some, or_true, true_or]
    · have : n ≠ m := fun e => h (e ▸ rfl)
      have h' : ¬ enc m = enc n := fun e => h e.symm
      simp only [h, h', this, if_false, false_or]

theorem wholeKeys_iff (n : Str) : (wholeKeys.find (enc n)).isSome ↔ n ∈ wholeSpellings := by
  unfold wholeKeys
  rw [keys_find]
  constructor
  · rintro (h | h)
    · exact h
    · cases h
  · exact .inl

/-- what a spelling resolves to expands to the definition evaluated -/
theorem spec_lookup_view {pf : Str → Py Node} (hpf : pf = parse) {o q : List Str → List Str} (ho : ∀ l, (o l).Perm l)
    (hq : ∀ l, (q l).Perm l) {strict : Bool} {s : System} (hs : parseSystem strict q Db.unitSystem = .ok s)
    {n : Str} {v : View} (hv : viewSpell tree pres (views pf) n = some v)
    (hf : (tree.find (enc n)).isSome = true) (hnd : deadB n = false) {r : Ref} (hr : Spec.lookup ⟨pf, o⟩ s 9 n = .ok r) :
    r.expand = .ok v.node := by
  obtain ⟨s0, hl, ht, hp, hh, hpr, hcf⟩ := Db.base
  rcases system_order strict id q (fun _ => .refl _) hq Db.unitSystem Db.free with ⟨e, e2, _⟩ | ⟨s0', s', e2, e3, hsame⟩
  · rw [hl] at e2; cases e2
  rw [hl] at e2; cases e2
  rw [hs] at e3; cases e3
  have hfind : ∃ e, direct s0 n = some e := by
    rw [ht] at hf
    exact Option.isSome_iff_exists.1 hf
  obtain ⟨e', he'⟩ := hfind
  obtain ⟨hw, hb⟩ := Db.wellFounded hpf ht hp hh
  have hgood : ∀ b, e' = .lazy b → rankOf Db.ranks b ≠ 0 ∧ rankOf Db.ranks b < 8 := by
    rintro b rfl
    refine ⟨fun h0 => ?_, ?_⟩
    · unfold deadB at hnd; rw [ht, he'] at hnd; simp [h0] at hnd
    · have := Db.rank_le b; omega
  obtain ⟨r0, hr0⟩ := spec_lookup_resolves (env := ⟨pf, id⟩) (fun _ => .refl _) hw n e' (.inl he') 8 hgood
  obtain ⟨r2, hr2, hsm⟩ := spec_lookup_same (env1 := ⟨pf, id⟩) (env2 := ⟨pf, o⟩) hsame.sysSame rfl (fun _ => .refl _) ho 9 n r0 hr0
  rw [hr] at hr2; cases hr2
  have hacc : AccOk pf s0 (views pf) := by
    unfold views
    rw [← hp]
    refine evalIds_sound ht ordered .leaf ?_ ?_
    · rw [hh]; exact ordered_spec
    · intro i v h; cases h
  have hview := viewSpell_sound (s := s0) ht hacc (by rw [hp]; exact hv) 9 r0 hr0
  exact (hsm.expand _).1 hview.1

theorem expand_ident {r : Ref} {e : Node} (h : r.expand = .ok e) (n : Str) : (Ref.unit none (.ident n) [(n, r)]).expand = .ok e := by
  rw [Ref.expand, Ref.expandList]
  simp only [bind, Except.bind, h, Ref.expandList]
  simp [Node.substitute, Dict.get_cons]

/-- `unit(n)` for a linear spelling of the table: its row, and whether it is defined without decimals -/
theorem unit_whole {pf : Str → Py Node} (hpf : pf = parse) {o q : List Str → List Str} (ho : ∀ l, (o l).Perm l)
    (hq : ∀ l, (q l).Perm l) {strict : Bool} {s : System} (hs : parseSystem strict q Db.unitSystem = .ok s)
    {u : ShippedUnit} (hu : u ∈ shipped) (hlin : u.scale = .linear) {n : Str} (hn : n ∈ u.spellings) (h1 : n ∉ unusable) (h2 : n ∉ mmHg)
    (h3 : n ∉ untypeable) (hist : List Query) (limit : Nat) (hlim : 9 ≤ limit) :
    ∃ A, (System.unit ⟨pf, o⟩ limit n (after ⟨pf, o⟩ hist s)).1 = .ok A ∧ (∃ d, A.symDef = .ok ([], d)) ∧
      (n ∈ wholeSpellings → WholeUnit A) ∧ (n ∉ wholeSpellings → PointUnit A) := by
  obtain ⟨r0, hr, hrow, hstr⟩ := spec_lookup_row hpf ho hq hs hu hn h1 h2
  obtain ⟨e, he, hno⟩ := hstr hlin
  obtain ⟨s', hs', hpr', hcf', _⟩ := C38_shipped_database_loads strict q hq
  rw [hs] at hs'; cases hs'
  have hp : pf n = .ok (.ident n) := by rw [hpf]; exact (typeable hu hn).2 h3
  have hsp := spec_unit_ident ho hp hr
  have hsim := (sim_unit hcf' limit n _ (inv_after hcf' hist (Inv.init ⟨pf, o⟩ hpr'))).2.2
  have hle := Le.trans (spec_unit_mono ⟨pf, o⟩ s n hlim) hsim
  simp only [hsp] at hle
  refine ⟨_, hle.ok, ?_, ?_⟩
  · obtain ⟨d, m, -, -, g3, -⟩ := isRow_ident hrow none n
    rw [hlin] at g3
    exact ⟨m, g3⟩
  · obtain ⟨e', he'⟩ := row_claimed hu hn
    have hnd : deadB n = false := by
      rw [Bool.eq_false_iff]; exact fun h => h1 ((Db.dead_iff he').1 h)
    have hfd := List.all_eq_true.1 (List.all_eq_true.1 spellings_registered u hu) n hn
    have hk := List.all_eq_true.1 whole_ok u hu
    rw [Bool.or_eq_true] at hk
    rcases hk with hk | hk
    · exact absurd hlin (of_decide_eq_true hk)
    have hk := List.all_eq_true.1 hk n hn
    rw [Bool.or_eq_true] at hk
    rcases hk with hk | hk
    · rcases (skip_iff n).1 hk with h | h
      · rw [hnd] at h; cases h
      · exact absurd h h2
    rw [← hpf] at hk
    unfold wholeOk at hk
    cases hv : viewSpell tree pres (views pf) n with
    | none => rw [hv] at hk; cases hk
    | some v =>
      rw [hv] at hk
      simp only at hk
      have hx := spec_lookup_view hpf ho hq hs hv hfd hnd hr
      rw [he] at hx; cases hx
      by_cases hw : (wholeKeys.find (enc n)).isSome = true
      · rw [if_pos hw] at hk
        exact ⟨fun _ => ⟨_, expand_ident he n, wholeB_sound hk⟩, fun h => absurd ((wholeKeys_iff n).1 hw) h⟩
      · rw [if_neg hw] at hk
        exact ⟨fun h => absurd ((wholeKeys_iff n).2 h) hw, fun _ => ⟨_, expand_ident he n, hno, pointB_sound hk⟩⟩

end Db
end Verif

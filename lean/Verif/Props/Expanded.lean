import Verif.Lemmas.Expanded
import Verif.Props.Resolve
import Verif.Props.Registry
import Verif.Props.Print
/-!
# C56, C57: date unit objects; the text of `expanded()`
-/

namespace Verif
open Spec (Flat direct)

/-! ## C56 -/

/-- **C56.** Every date unit `unit(text)` returns says it is a time unit and not dimensionless, which is what its `.unit` says too;
its dimensionality is the first power of one time basis unit; and `expanded()` is that of its `.unit` followed by the reference. -/
theorem C56_date_objects (env : Env) (fuel : Nat) (text : Str) (s : System) (u : Ref) (ref : Option Str)
    (h : (System.unit env fuel text s).1 = .ok (.date u ref)) :
    (UObj.date u ref).isTimeUnit = .ok true ∧ (UObj.unit u).isTimeUnit = .ok true ∧
    (UObj.date u ref).isDimensionless = .ok false ∧ (UObj.unit u).isDimensionless = .ok false ∧
    (∃ d b, (UObj.date u ref).dimObj = .ok (.dimensionality d) ∧ b.isTime = true ∧ (b, 1) ∈ d ∧
      ∀ n, Dims.power n d = if n = b.ref then 1 else 0) ∧
    (∀ raw t, ref = some raw → ((UObj.date u ref).expanded = .ok t ↔
      ∃ x, (UObj.unit u).expanded = .ok x ∧ t = x ++ c!" since " ++ raw)) := by
  obtain ⟨e, refs, s', h1, h2, t, f, rfl, h3, h4, h5⟩ := (C24_unit_returns_date_iff env fuel text s u ref).1 h
  have hu := (mkUnit_iff.1 h3).1
  subst hu
  obtain ⟨d, b, g1, g2, g3, g4⟩ := (C24_time_unit_iff none t refs).1 h4
  refine ⟨rfl, h4, rfl, ?_, ⟨d, b, ?_, g3, g2, g4⟩, ?_⟩
  · simp only [UObj.isDimensionless, g1, bind, Except.bind]
    cases d with
    | nil => cases g2
    | cons => rfl
  · simp only [UObj.dimObj, Ref.dimObj, g1, bind, Except.bind]
  · rintro raw t' rfl
    simp only [UObj.expanded]
    cases (Ref.unit none t refs).expand with
    | error x => constructor
                 · intro h; cases h
                 · rintro ⟨_, h, _⟩; cases h
    | ok x =>
      simp only [bind, Except.bind, Option.getD_some]
      constructor
      · intro h; cases h; exact ⟨_, rfl, by simp⟩
      · rintro ⟨y, h, rfl⟩; cases h; simp

example : (∃ u, (System.unit Demo.env 5 c!"hours since 2000-01-01" Demo.sys).1 = .ok (.date u (some c!"2000-01-01"))) ∧
    (do let o ← (System.unit Demo.env 5 c!"hours since 2000-01-01" Demo.sys).1; o.expanded) =
      .ok c!"60·60·second since 2000-01-01" := by
  refine ⟨?_, by decide +kernel⟩
  have h1 : ((System.unit Demo.env 5 c!"hours since 2000-01-01" Demo.sys).1.toOption.elim none
    (fun o => match o with | .date _ r => r | _ => none)) = some c!"2000-01-01" := by decide +kernel
  revert h1
  cases (System.unit Demo.env 5 c!"hours since 2000-01-01" Demo.sys).1 with
  | error e => intro h; cases h
  | ok o => cases o with
    | unit r => intro h; cases h
    | date u r => intro h; exact ⟨u, by simp only [Except.toOption, Option.elim] at h; rw [h]⟩

/-! ## C57 -/

theorem lookupAll_basis {env : Env} {s : System} (hr : Spec.Reachable env s) {fuel : Nat} (B : Str → Basis) :
    ∀ l : List Str, (∀ n ∈ l, direct s n = some (.unit (.basis (B n)))) →
      lookupAll (unitByNameOrSymbol env (fuel + 1)) l s = (.ok (l.map fun n => (n, Ref.basis (B n))), s)
  | [], _ => rfl
  | n :: l, h => by
    have h1 := (lookup_of_direct hr.sysOk (h n (List.mem_cons_self ..)) fuel (env := env)).1 _ rfl
    have h2 := lookupAll_basis hr (fuel := fuel) B l fun m hm => h m (List.mem_cons_of_mem _ hm)
    unfold lookupAll
    rw [h1]
    simp only
    rw [h2]
    rfl

theorem get_map_pair {α : Type} (f : Str → α) : ∀ (l : List Str) (n : Str),
    Dict.get n (l.map fun n => (n, f n)) = if n ∈ l then some (f n) else none
  | [], n => rfl
  | m :: l, n => by
    rw [List.map_cons, Dict.get_cons, get_map_pair f l n]
    by_cases h : m = n
    · subst h; simp
    · have h' : n ≠ m := fun h' => h h'.symm
      simp [h, h']

/-- **C57.** Let `r` be a unit without shifts, logarithms or dimensionless basis units, whose expansion has no product, quotient or
power where the text would need brackets.  In every system where the names of its basis units are registered (for basis units of
that name), the text `expanded()` returns is accepted by `unit`, and the unit it gives has the same dimensionality and the same
magnitude, whatever the magnitudes of the basis units. -/
theorem C57_expanded_reads_back (o : List Str → List Str) (ho : ∀ l, (o l).Perm l) (s : System) (hr : Spec.Reachable ⟨parse, o⟩ s)
    (fuel : Nat) (r : Ref) (hl : LinearUnit r) (d : Dims) (hd : r.dims = .ok d) (e : Node) (he : r.expand = .ok e) (hf : Flat e)
    (hb : ∀ n ∈ e.identifiers, ∃ b, direct s n = some (.unit (.basis b)) ∧ b.ref = n ∧ b.dimensionless = false) :
    ∃ r' d', (UObj.unit r).expanded = .ok e.str ∧ (System.unit ⟨parse, o⟩ (fuel + 1) e.str s).1 = .ok (.unit r') ∧
      r'.dims = .ok d' ∧ (∀ x, Dims.power x d' = Dims.power x d) ∧ ∀ ρ, r'.magnitude ρ = r.magnitude ρ := by
  obtain ⟨e', p1, p2, p3, p4, p5⟩ := parse_flat hf
  classical
  let B : Str → Basis := fun n => if h : n ∈ e.identifiers then Classical.choose (hb n h) else Demo.metre
  have hB : ∀ n ∈ e.identifiers, direct s n = some (.unit (.basis (B n))) ∧ (B n).ref = n ∧ (B n).dimensionless = false := by
    intro n hn
    have := Classical.choose_spec (hb n hn)
    simp only [B, dif_pos hn]
    exact this
  let refs := (o e'.identifiers).map fun n => (n, Ref.basis (B n))
  have hids : ∀ n, n ∈ o e'.identifiers ↔ n ∈ e.identifiers := fun n => by rw [(ho _).mem_iff, p5]
  have hget : ∀ n, Dict.get n refs = if n ∈ e.identifiers then some (.basis (B n)) else none := by
    intro n
    show Dict.get n ((o e'.identifiers).map fun n => (n, Ref.basis (B n))) = _
    rw [get_map_pair (fun n => Ref.basis (B n))]
    by_cases h : n ∈ e.identifiers
    · rw [if_pos h, if_pos ((hids n).2 h)]
    · rw [if_neg h, if_neg fun h' => h ((hids n).1 h')]
  have hunit : unitFromExpr e' refs = .ok (.unit (.unit none e' refs)) := by
    have hsf : Spec.ShiftFree e' := by
      have : ∀ n : Node, Plain n → Spec.ShiftFree n := by
        intro n
        induction n with
        | number => exact fun _ => trivial
        | ident => exact fun _ => trivial
        | unhandled => exact fun h => h
        | mul l r hl hr => exact fun h => ⟨hl h.1, hr h.2⟩
        | div l r hl hr => exact fun h => ⟨hl h.1, hr h.2⟩
        | raise l r hl hr => rintro ⟨h, i, raw, rfl⟩; exact ⟨hl h, trivial⟩
        | shift => exact fun h => h
        | log => exact fun h => h.elim
      exact this e' p2
    cases e' with
    | shift u f => exact p2.elim
    | _ => unfold unitFromExpr; simp only [bind, Except.bind]; rw [mkUnit_shiftFree none refs _ hsf]
  have hdeg : ∀ x, ∃ d', (Ref.unit none e' refs).dims = .ok d' ∧ Dims.power x d' = degree (ind x) e' := by
    intro x
    refine C09_dimensionality_is_degree none refs e' p2 x (ind x) fun n hn => ?_
    have hn' : n ∈ e.identifiers := (p5 n).1 (countedIds_sub n hn)
    refine ⟨.basis (B n), by rw [hget, if_pos hn'], Or.inr ⟨[(B n, 1)], ?_, ?_⟩⟩
    · simp only [Ref.dims, Ref.dims?, (hB n hn').2.2, bind, Except.bind]; rfl
    · simp only [Dims.power, Dims.get?, (hB n hn').2.1, ind]; split <;> rfl
  obtain ⟨d', h1, _⟩ := hdeg []
  refine ⟨.unit none e' refs, d', ?_, ?_, h1, ?_, ?_⟩
  · simp only [UObj.expanded, he, bind, Except.bind]
  · unfold System.unit
    simp only [p1]
    rw [lookupAll_basis hr B _ fun n hn => (hB n ((hids n).1 hn)).1]
    exact hunit
  · intro x
    obtain ⟨d2, g1, g2⟩ := hdeg x
    rw [h1] at g1; cases g1
    rw [g2, p4]
    have hds : r.dims? = .ok (some d) := by
      unfold Ref.dims at hd
      cases hx : r.dims? with
      | error e => rw [hx] at hd; cases hd
      | ok q => cases q with
        | none => rw [hx] at hd; cases hd
        | some d2 => rw [hx] at hd; cases hd; rfl
    exact ((linear_degree (hl x) he).1 d hds).symm
  · intro ρ
    rw [← (linear_magnitude (hl []) ρ he).2, Ref.magnitude, ← p3]
    congr 1
    funext n
    rw [get_magnitudes, hget]
    by_cases hn : n ∈ e.identifiers
    · rw [if_pos hn]; simp only [Option.map_some, Option.getD_some, Ref.magnitude, (hB n hn).2.1]
    · rw [if_neg hn]; rfl

/-- **C57 (refuted in general).** Without the restriction: `m/h` expands to the text `metre/60·60·second`, which `unit` reads as a
unit of dimension length × time. -/
theorem C57_expanded_reads_back_refuted :
    (do let a ← (System.unit Demo.env 5 c!"m/h" Demo.sys).1; a.expanded) = .ok c!"metre/60·60·second" ∧
    (do let a ← (System.unit Demo.env 5 c!"m/h" Demo.sys).1; a.dimObj) = .ok (.dimensionality [(Demo.metre, 1), (Demo.second, -1)]) ∧
    (do let a ← (System.unit Demo.env 5 c!"metre/60·60·second" Demo.sys).1; a.dimObj) =
      .ok (.dimensionality [(Demo.metre, 1), (Demo.second, 1)]) := by
  decide +kernel

/-- the hypotheses of C57 are met by `kilohour m`, read in the demo system: nested products, a prefix, an expansion -/
example : Spec.Reachable Demo.env Demo.sys ∧
    (do let a ← (System.unit Demo.env 5 c!"kilohour m/s^2" Demo.sys).1; a.expanded) = .ok c!"1E+3·60·60·second·metre/second^2" ∧
    Flat (.div (.mul (.mul (.number (.dec ⟨false, 1, 3⟩) none) (.mul (.number (.int 60) none) (.mul (.number (.int 60) none)
      (.ident c!"second")))) (.ident c!"metre")) (.raise (.ident c!"second") (.number (.int 2) none))) ∧
    (∀ n ∈ [c!"second", c!"metre"], ∃ b, direct Demo.sys n = some (.unit (.basis b)) ∧ b.ref = n ∧ b.dimensionless = false) := by
  refine ⟨Demo.sys_reachable, by decide +kernel, ?_, ?_⟩
  · have h1 : Spec.IdentWord c!"second" := by unfold Spec.IdentWord; decide +kernel
    have h2 : Spec.IdentWord c!"metre" := by unfold Spec.IdentWord; decide +kernel
    exact ⟨⟨⟨trivial, trivial, trivial, h1⟩, h2⟩, h1⟩
  · intro n hn
    rcases List.mem_cons.1 hn with rfl | hn
    · exact ⟨Demo.second, by decide +kernel, rfl, rfl⟩
    · rcases List.mem_cons.1 hn with rfl | hn
      · exact ⟨Demo.metre, by decide +kernel, rfl, rfl⟩
      · cases hn

end Verif

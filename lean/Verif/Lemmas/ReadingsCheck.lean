import Verif.Lemmas.ShippedCheck
import Verif.Spec.ShippedTexts
/-!
# Prefixes of the shipped database, checked in the kernel
-/

namespace Verif.Db
open Spec

/-- the number of a prefix -/
def preRat (p : Prefix) : Option Rat :=
  match Dec.parse p.value with
  | .ok d => some d.toRat
  | .error _ => none

theorem pres_table : (pres.map fun x => (x.1, preRat x.2)) = (prefixTable.map fun x => (x.1, some x.2)) := by decide +kernel

theorem prefixes_nonzero : (prefixTable.all fun x => decide (x.2 ≠ 0)) = true := by decide +kernel

/-- no earlier prefix reads `p ++ n`, for the spellings `n` of the table (two exceptions) -/
def earlierB (ns : List Str) : List Str → List (Str × Prefix) → Bool
  | _, [] => true
  | seen, (p, _) :: l =>
    (seen.all fun q => !((dropPrefix q p).isSome || (dropPrefix p q).isSome) || ns.all fun n =>
      match dropPrefix q (p ++ n) with
      | none => true
      | some rest => (tree.find (enc rest)).isNone || decide ((p, n) = (c!"d", c!"au")) || decide ((p, n) = (c!"d", c!"at"))) &&
    earlierB ns (p :: seen) l

theorem earlier_ok : earlierB (shipped.flatMap ShippedUnit.spellings) [] pres = true := by decide +kernel

theorem earlier_sound {ns : List Str} : ∀ {l : List (Str × Prefix)} {seen : List Str}, earlierB ns seen l = true →
    ∀ before p pre after, l = before ++ (p, pre) :: after → ∀ n ∈ ns, (p, n) ≠ (c!"d", c!"au") → (p, n) ≠ (c!"d", c!"at") →
    ∀ q, q ∈ seen ∨ q ∈ before.map (·.1) → ∀ rest, p ++ n = q ++ rest → tree.find (enc rest) = none
  | [], seen, h, before, p, pre, after, hl => by cases before <;> cases hl
  | (p', pre') :: l, seen, h, before, p, pre, after, hl => by
    rw [earlierB, Bool.and_eq_true] at h
    intro n hn e1 e2 q hq rest hr
    cases before with
    | nil =>
      cases hl
      rcases hq with hq | hq
      · have := List.all_eq_true.1 h.1 q hq
        rw [Bool.or_eq_true] at this
        rcases this with h' | h'
        · exfalso
          rcases List.append_eq_append_iff.1 hr with ⟨t, t1, t2⟩ | ⟨t, t1, t2⟩
          · rw [dropPrefix_eq_some.2 t1] at h'; simp at h'
          · rw [dropPrefix_eq_some.2 t1] at h'; simp at h'
        · have h2 := List.all_eq_true.1 h' n hn
          rw [dropPrefix_eq_some.2 hr] at h2
          simp only [Bool.or_eq_true, decide_eq_true_eq] at h2
          rcases h2 with (h2 | h2) | h2
          · exact Option.isNone_iff_eq_none.1 h2
          · exact absurd h2 e1
          · exact absurd h2 e2
      · cases hq
    | cons x before =>
      rw [List.cons_append] at hl
      have hx := (List.cons.inj hl).1
      have hl' := (List.cons.inj hl).2
      subst hx
      refine earlier_sound h.2 before p pre after hl' n hn e1 e2 q ?_ rest hr
      rcases hq with hq | hq
      · exact .inl (List.mem_cons_of_mem _ hq)
      · rw [List.map_cons] at hq
        rcases List.mem_cons.1 hq with rfl | hq
        · exact .inl (List.mem_cons_self ..)
        · exact .inr hq

/-- the second is the only time unit among the basis units -/
theorem time_ok : ((allClaims (withEntries 0 decls)).all fun x => match x.2 with
    | .lazy _ => true
    | .unit (.basis b) => b.isTime == decide (b.ref = c!"second")
    | .unit _ => false) = true := by decide +kernel

end Verif.Db

import Verif.Props.Threads
import Verif.Props.ShippedUnits
/-!
# C62 on the shipped database
-/

namespace Verif
open Spec (Finished ShippedUnit shipped)

/-- **C62** on the shipped database, loaded with any iteration orders: threads look spellings up and build
units, interleaved in any way, some abandoned anywhere.  Every finished lookup of a spelling of the table
(with room for nine nested definitions) has returned a unit with the dimensions, scale and factor of the
table — however other threads raced on the definitions it goes through. -/
theorem C62_shipped_database (strict : Bool) (o q : List Str → List Str) (ho : ∀ l, (o l).Perm l) (hq : ∀ l, (q l).Perm l)
    (s : System) (hs : parseSystem strict q Db.unitSystem = .ok s) (evs : List Event) (hq' : Spec.OnlyQueries evs) (i : Nat)
    (limit : Nat) (hlim : 9 ≤ limit) (u : ShippedUnit) (hu : u ∈ shipped) (n : Str) (hn : n ∈ u.spellings)
    (h1 : n ∉ Db.unusable) (h2 : n ∉ Db.mmHg) (a : Py Answer)
    (h : Finished ((Pool.start s).run ⟨parse, o⟩ evs) i (.lookup limit n) a) :
    ∃ r d m, a = .ok (.ref r) ∧ r.dims = .ok d ∧ (∀ b, Dims.power b d = u.dim b) ∧
      r.symDef = .ok (scaleOps u.scale, m) ∧ m.coef = u.factor ∧ ∀ b, m.exp b = u.power b := by
  obtain ⟨pf, hpf⟩ : ∃ pf, pf = parse := ⟨_, rfl⟩
  rw [← hpf] at h
  obtain ⟨r, hr, ⟨d, m, g1, g2, g3, g4, g5⟩, _⟩ := Db.spec_lookup_row hpf ho hq hs hu hn h1 h2
  obtain ⟨s', hs', hpr', hcf', _⟩ := C38_shipped_database_loads strict q hq
  rw [hs] at hs'; cases hs'
  have ha : Spec.answer ⟨pf, o⟩ s 9 (.lookup limit n) = .ok (.ref r) := by
    simp only [Spec.answer, hr]; rfl
  refine ⟨r, d, m, ?_, dims_of_some g1, g2, g3, g4, g5⟩
  rw [(C62_every_schedule ⟨pf, o⟩ s hpr' hcf' evs hq' i _ a h).1 9 hlim (by rw [ha]; simp), ha]

end Verif

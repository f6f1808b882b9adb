import Verif.Props.Limits
import Verif.Props.Shipped
import Verif.Lemmas.Strict
/-!
# C85 over the shipped database

None of the definitions of the shipped database is concerned by the limits of the interpreter.
-/

namespace Verif
open Spec (ShortNumbers Digits Query after lazyObjs)

/-- the digits at the start, after a sign, perhaps -/
def digitRun : Str → Nat
  | '+' :: t | '-' :: t => (t.takeWhile fun c => decide ('0'.toNat ≤ c.toNat ∧ c.toNat ≤ '9'.toNat)).length
  | t => (t.takeWhile fun c => decide ('0'.toNat ≤ c.toNat ∧ c.toNat ≤ '9'.toNat)).length

/-- no long exponent -/
def exponentsOk : Str → Bool
  | [] => true
  | c :: cs => (if c = 'e' ∨ c = 'E' then Nat.blt (digitRun cs) 18 else true) && exponentsOk cs

theorem takeWhile_digits {ds b : Str} (hd : Digits ds) :
    ds.length ≤ ((ds ++ b).takeWhile fun c => decide ('0'.toNat ≤ c.toNat ∧ c.toNat ≤ '9'.toNat)).length := by
  induction ds with
  | nil => exact Nat.zero_le _
  | cons c ds ih =>
    rw [List.cons_append, List.takeWhile_cons_of_pos (by simpa using hd c List.mem_cons_self)]
    exact Nat.succ_le_succ (ih fun x hx => hd x (List.mem_cons_of_mem _ hx))

theorem digitRun_le {sg ds b : Str} {k : Int} (hs : Spec.Sign sg k) (hd : Digits ds) : ds.length ≤ digitRun (sg ++ ds ++ b) := by
  cases hs with
  | plus => exact takeWhile_digits hd
  | minus => exact takeWhile_digits hd
  | none =>
    cases ds with
    | nil => exact Nat.zero_le _
    | cons c ds =>
      have h := takeWhile_digits (b := b) hd
      have hc := hd c List.mem_cons_self
      have e : digitRun ([] ++ (c :: ds) ++ b) =
          (((c :: ds) ++ b).takeWhile fun c => decide ('0'.toNat ≤ c.toNat ∧ c.toNat ≤ '9'.toNat)).length := by
        have h1 : c ≠ '+' := by rintro rfl; revert hc; decide
        have h2 : c ≠ '-' := by rintro rfl; revert hc; decide
        show digitRun (c :: (ds ++ b)) = _
        unfold digitRun
        split
        · rename_i h; cases h; exact absurd rfl h1
        · rename_i h; cases h; exact absurd rfl h2
        · rfl
      rw [e]; exact h

theorem exponentsOk_sound {a b sg ds : Str} {c : Char} {k : Int} (hc : c = 'e' ∨ c = 'E') (hs : Spec.Sign sg k) (hd : Digits ds)
    (h : exponentsOk (a ++ c :: (sg ++ ds) ++ b) = true) : ds.length < 18 := by
  induction a with
  | nil =>
    simp only [List.nil_append, List.cons_append, exponentsOk, hc, if_true, Bool.and_eq_true, Nat.blt_eq] at h
    exact Nat.lt_of_le_of_lt (digitRun_le hs hd) h.1
  | cons x a ih =>
    simp only [List.cons_append, exponentsOk, Bool.and_eq_true] at h
    exact ih (by simpa using h.2)

theorem shortNumbers_of {s : Str} (h : (Nat.ble s.length 4300 && exponentsOk s) = true) : ShortNumbers s := by
  simp only [Bool.and_eq_true, Nat.ble_eq] at h
  refine ⟨h.1, fun a c sg k ds b he hc hs hd => ?_⟩
  have h2 := h.2
  rw [he] at h2
  exact exponentsOk_sound hc hs hd h2

theorem Db.shortTexts : ((lazyObjs Db.decls).all fun o => Nat.ble o.defn.length 4300 && exponentsOk o.defn) = true := by
  decide +kernel

/-- **C85.** Load the shipped database in any way and ask it for units of texts that have at most 4300 characters and no
exponent of 18 digits: every one of them is the unit that the theory of unlimited numbers says (or fails as it says), whatever was
asked before; the limits of the interpreter play no part. -/
theorem C85_shipped (o q : List Str → List Str) (hq : ∀ l, (q l).Perm l) (strict : Bool) (s : System)
    (hs : parseSystem strict q Db.unitSystem = .ok s) (hist : List Query)
    (hh : ∀ limit t, .unit limit t ∈ hist → ShortNumbers t) (limit : Nat) (text : Str) (ht : ShortNumbers text) :
    System.unit ⟨parseWithin .default, o⟩ limit text (after ⟨parseWithin .default, o⟩ hist s) =
      System.unit ⟨parse, o⟩ limit text (after ⟨parse, o⟩ hist s) := by
  obtain ⟨s0, hl, -, -, hheap, -, -⟩ := Db.base
  have hs0 := hl strict
  have hsame : s0.heap = s.heap := by
    rcases system_order strict id q (fun _ => .refl _) hq Db.unitSystem Db.free with ⟨e, x1, _⟩ | ⟨s0', s', x1, x2, hsame⟩
    · rw [hs0] at x1; cases x1
    · rw [hs0] at x1
      rw [hs] at x2
      have e1 := Except.ok.inj x1
      have e2 := Except.ok.inj x2
      rw [e1, e2]
      exact hsame.heap
  refine C85_units .default o s (fun ob hob => ?_) hist (fun limit t h => C85_short_texts t (hh limit t h)) limit text (C85_short_texts text ht)
  rw [← hsame, hheap] at hob
  exact C85_short_texts _ (shortNumbers_of (List.all_eq_true.1 Db.shortTexts ob hob))

example : ShortNumbers c!"0.30480060960121920243840487680975e3 km" := shortNumbers_of (by decide +kernel)

end Verif

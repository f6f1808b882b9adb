import Verif.Lemmas.FramesUnit
import Verif.Lemmas.Understood
import Verif.Props.Lookup
/-!
# How nested the units of the shipped database are
-/

namespace Verif
open Spec

namespace Db

/-- no definition of the shipped database is nested deeper than five operations -/
theorem shallow : ((lazyObjs decls).all fun o => match parse o.defn with
    | .ok e => Nat.ble e.depth 5
    | .error _ => true) = true := by decide +kernel

/-- what is registered is a basis unit or defined by a text -/
theorem bases : ((allClaims (withEntries 0 decls)).all fun x => match x.2 with
    | .unit (.basis _) => true
    | .unit _ => false
    | .lazy _ => true) = true := by decide +kernel

theorem mapM_look {look : Str → Py Ref} : ∀ {ids : List Str} {l : List (Str × Ref)},
    ids.mapM (fun n => do .ok (n, ← look n) : Str → Py (Str × Ref)) = .ok l → ∀ p ∈ l, look p.1 = .ok p.2
  | [], l, h, p, hp => by cases h; cases hp
  | n :: ids, l, h, p, hp => by
    rw [List.mapM_cons] at h
    simp only [bind, Except.bind, pure, Except.pure] at h
    cases hn : look n with
    | error e => rw [hn] at h; cases h
    | ok r =>
      cases hm : ids.mapM (fun n => do .ok (n, ← look n) : Str → Py (Str × Ref)) with
      | error e =>
        simp only [bind, Except.bind] at hm
        rw [hn] at h; dsimp only at h; rw [hm] at h; cases h
      | ok l' =>
        have hm' := hm
        simp only [bind, Except.bind] at hm'
        rw [hn] at h; dsimp only at h; rw [hm'] at h; cases h
        cases hp with
        | head => exact hn
        | tail _ hp => exact mapM_look hm p hp

/-- at most this nested: chain, deepest definition, written out -/
def Shallow (c d u : Nat) (r : Ref) : Prop := r.chain ≤ c ∧ r.deepest ≤ d ∧ r.unfolded ≤ u

theorem Shallow.mono {c d u c' d' u' : Nat} {r : Ref} (h : Shallow c d u r) (h1 : c ≤ c') (h2 : d ≤ d') (h3 : u ≤ u') :
    Shallow c' d' u' r := ⟨by have := h.1; omega, by have := h.2.1; omega, by have := h.2.2; omega⟩

theorem shallowAll {c d u : Nat} : ∀ {l : List (Str × Ref)}, (∀ p ∈ l, Shallow c d u p.2) →
    Ref.chainAll l ≤ c ∧ Ref.deepestAll l ≤ d ∧ Ref.unfoldedAll l ≤ u
  | [], _ => by simp only [Ref.chainAll, Ref.deepestAll, Ref.unfoldedAll]; omega
  | (n, r) :: l, h => by
    have h1 : Shallow c d u r := h _ (List.mem_cons_self ..)
    have h2 := shallowAll (l := l) fun p hp => h p (List.mem_cons_of_mem _ hp)
    simp only [Ref.chainAll, Ref.deepestAll, Ref.unfoldedAll]
    exact ⟨by have := h1.1; omega, by have := h1.2.1; omega, by have := h1.2.2; omega⟩

theorem shallow_unit {c d u : Nat} {names : Option UnitReference} {e : Node} {l : List (Str × Ref)}
    (h : ∀ p ∈ l, Shallow c d u p.2) : Shallow (c + 1) (max e.depth d) (e.depth + u) (.unit names e l) := by
  obtain ⟨h1, h2, h3⟩ := shallowAll h
  unfold Shallow
  simp only [Ref.chain, Ref.deepest, Ref.unfolded]
  omega

variable {pf : Str → Py Node} {o q : List Str → List Str} {strict : Bool} {s : System}

theorem spec_shallow (hpf : pf = parse) (hq : ∀ l, (q l).Perm l) (hs : parseSystem strict q Db.unitSystem = .ok s) :
    ∀ (d : Nat) (n : Str) (r : Ref), Spec.lookup ⟨pf, o⟩ s d n = .ok r → Shallow (2 * d) 5 (6 * d) r
  | 0, n, r, h => by cases h
  | d + 1, n, r, h => by
    obtain ⟨s0, hsame, ht, hpp, hh, _, _⟩ := loaded hq hs
    have ih := spec_shallow hpf hq hs d
    have hentry : ∀ (m : Str) (e : Entry) (r : Ref), direct s m = some e → Spec.entry ⟨pf, o⟩ s (Spec.lookup ⟨pf, o⟩ s d) e = .ok r →
        Shallow (2 * d + 1) 5 (6 * d + 5) r := by
      intro m e r hd he
      rw [← hsame.direct] at hd
      have hb := List.all_eq_true.1 bases _ (mem_direct ht hd)
      dsimp only at hb
      cases e with
      | unit r' =>
        cases he
        cases r with
        | basis b => unfold Shallow; simp only [Ref.chain, Ref.deepest, Ref.unfolded]; omega
        | pre p => cases hb
        | unit a b c => cases hb
      | lazy id =>
        change Spec.resolve _ _ _ _ = _ at he
        unfold Spec.resolve at he
        cases ho : s.heap[id]? with
        | none => rw [ho] at he; cases he
        | some ob =>
          rw [ho] at he
          simp only [bind, Except.bind] at he
          cases hp : pf ob.defn with
          | error x => rw [hp] at he; cases he
          | ok expr =>
            rw [hp] at he
            dsimp only at he
            have hdep : expr.depth ≤ 5 := by
              rw [← hsame.heap, hh] at ho
              have := List.all_eq_true.1 shallow ob (List.mem_of_getElem? ho)
              rw [← hpf, hp] at this
              exact Nat.le_of_ble_eq_true this
            cases hm : (o expr.identifiers).mapM (fun n => do .ok (n, ← Spec.lookup ⟨pf, o⟩ s d n) : Str → Py (Str × Ref)) with
            | error x =>
              simp only [bind, Except.bind] at hm
              rw [hm] at he; cases he
            | ok refs =>
              have hm' := hm
              simp only [bind, Except.bind] at hm'
              rw [hm'] at he
              obtain rfl := Frames.mkUnit_ok he
              exact (shallow_unit fun p hp => ih _ _ (mapM_look hm p hp)).mono (by omega) (by omega) (by omega)
    change Spec.step _ _ _ _ = _ at h
    unfold Spec.step at h
    cases hd : direct s n with
    | some e =>
      rw [hd] at h
      exact (hentry n e r hd h).mono (by omega) (by omega) (by omega)
    | none =>
      rw [hd] at h
      dsimp only at h
      cases hf : firstSplit s n (s.prefixNames ++ s.prefixSymbols) with
      | none => rw [hf] at h; cases h
      | some x =>
        obtain ⟨p, pre, rest, e⟩ := x
        rw [hf] at h
        simp only [bind, Except.bind] at h
        cases he : Spec.entry ⟨pf, o⟩ s (Spec.lookup ⟨pf, o⟩ s d) e with
        | error x => rw [he] at h; cases h
        | ok u =>
          rw [he] at h
          have hu := hentry rest e u (by
            obtain ⟨_, h2, _⟩ := firstSplit_some hf
            exact h2) he
          obtain rfl := Frames.mkUnit_ok h
          refine (shallow_unit (c := 2 * d + 1) (d := 5) (u := 6 * d + 5) fun y hy => ?_).mono (by omega)
            (by simp only [Node.depth]; omega) (by simp only [Node.depth]; omega)
          have hpre : Shallow (2 * d + 1) 5 (6 * d + 5) (.pre pre) := by
            unfold Shallow; simp only [Ref.chain, Ref.deepest, Ref.unfolded]; omega
          simp only [Dict.set] at hy
          by_cases hk : p = rest
          · rw [if_pos hk, List.mem_singleton] at hy
            subst hy; exact hu
          · rw [if_neg hk, List.mem_cons, List.mem_singleton] at hy
            rcases hy with rfl | rfl
            · exact hpre
            · exact hu

/-- whatever resolves, under any limit, is at most 18 definitions deep -/
theorem lookup_shallow (hpf : pf = parse) (ho : ∀ l, (o l).Perm l) (hq : ∀ l, (q l).Perm l)
    (hs : parseSystem strict q Db.unitSystem = .ok s) {d : Nat} {n : Str} {r : Ref} (h : Spec.lookup ⟨pf, o⟩ s d n = .ok r) :
    Shallow 18 5 54 r := by
  refine spec_shallow (o := o) hpf hq hs 9 n r ?_
  obtain ⟨w1, w2, w3⟩ := word_lookup hpf ho hq hs n
  have key : ∀ x, Spec.lookup ⟨pf, o⟩ s 9 n = x → x ≠ .error .recursionError → x = .ok r := by
    intro x hx hne
    have h1 := Spec.lookup_mono ⟨pf, o⟩ s (Nat.le_max_left d 9) n
    have h2 := Spec.lookup_mono ⟨pf, o⟩ s (Nat.le_max_right d 9) n
    rcases h1 with h1 | h1
    · rw [h] at h1; cases h1
    rcases h2 with h2 | h2
    · rw [hx] at h2; exact absurd h2 hne
    · rw [← hx, h2, ← h1, h]
  by_cases hu : Understood n
  · obtain ⟨r', hr'⟩ := w1 hu
    rw [hr']; exact key _ hr' (by simp)
  · by_cases hh : Hopeless n
    · obtain ⟨x, hx, hw⟩ := w3 hh
      rw [hx]
      refine key _ hx ?_
      rcases hw with rfl | ⟨m, rfl, _⟩ <;> simp
    · rw [w2 hu hh]
      exact key _ (w2 hu hh) (by simp)

/-- the unit or date a text stands for, under any limit and after any history -/
theorem unit_shallow (hpf : pf = parse) (ho : ∀ l, (o l).Perm l) (hq : ∀ l, (q l).Perm l)
    (hs : parseSystem strict q Db.unitSystem = .ok s) {hist : List Query} {limit : Nat} {t : Str} {x : UObj}
    (h : (System.unit ⟨pf, o⟩ limit t (after ⟨pf, o⟩ hist s)).1 = .ok x) :
    ∃ e refs, pf t = .ok e ∧ Verif.unitFromExpr e refs = .ok x ∧ (∀ p ∈ refs, Shallow 18 5 54 p.2) ∧
      Shallow 19 (max e.depth 5) (e.depth + 54) x.ref := by
  obtain ⟨_, _, _, _, _, hpr, hcf⟩ := loaded hq hs
  obtain ⟨_, ⟨d, hd⟩, _⟩ := sim_unit hcf limit t _ (inv_after hcf hist (Inv.init ⟨pf, o⟩ hpr))
  rcases hd with hd | hd
  · rw [h] at hd; cases hd
  rw [h] at hd
  have hd := hd.symm
  unfold Spec.unit at hd
  simp only [bind, Except.bind] at hd
  cases hp : pf t with
  | error e => rw [hp] at hd; cases hd
  | ok e =>
    rw [hp] at hd
    dsimp only at hd
    cases hm : (o e.identifiers).mapM (fun n => do .ok (n, ← Spec.lookup ⟨pf, o⟩ s d n) : Str → Py (Str × Ref)) with
    | error x =>
      simp only [bind, Except.bind] at hm
      rw [hm] at hd; cases hd
    | ok refs =>
      have hm' := hm
      simp only [bind, Except.bind] at hm'
      rw [hm'] at hd
      dsimp only at hd
      have hrefs : ∀ p ∈ refs, Shallow 18 5 54 p.2 := fun p hp => lookup_shallow hpf ho hq hs (mapM_look hm p hp)
      refine ⟨e, refs, rfl, hd, hrefs, ?_⟩
      obtain ⟨c, hc, hx⟩ := Frames.unitFromExpr_ref hd
      rw [hx]
      exact (shallow_unit hrefs).mono (Nat.le_refl _) (by omega) (by omega)

end Db
end Verif

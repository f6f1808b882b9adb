import Verif.Lemmas.Float
import Verif.Lemmas.Convert
import Verif.Lemmas.Magnitude
/-!
# The rounded conversion next to the exact one
-/

namespace Verif.Fl
open Spec (relError roundings transRoundings transSteps unitRoundings unitSteps absValue OnlyAffine)

/-- the steps of an exact conversion -/
noncomputable def toStep : COp → Step
  | .scale m => .scale m.coef
  | .add q => .add q
  | .log b => .log b
  | .exp b => .exp b
  | .recip => .recip

/-- a rounded transformation next to the exact one, with the number of roundings -/
inductive Match (u : ℝ) : Nat → List TOp → List Op → Prop
  | nil : Match u 0 [] []
  | scale {k n : Nat} {t : List TOp} {o : List Op} {m : Mono} {c : ℝ} : Off u n m.coef c → Match u k t o →
      Match u (n + k) (.scale m :: t) (.scale c :: o)
  | sub {k n : Nat} {t : List TOp} {o : List Op} {q : Rat} {c : ℝ} : Off u n q c → Match u k t o →
      Match u (n + k) (.sub q :: t) (.sub c :: o)
  | log {k : Nat} {t : List TOp} {o : List Op} (b : Option Nat) : Match u k t o → Match u k (.log b :: t) (.log b :: o)

theorem Match.append {u : ℝ} {k k' : Nat} {t t' : List TOp} {o o' : List Op} (h : Match u k t o) (h' : Match u k' t' o') :
    Match u (k + k') (t ++ t') (o ++ o') := by
  induction h with
  | nil => simpa using h'
  | scale hc _ ih => rw [Nat.add_assoc]; exact .scale hc ih
  | sub hc _ ih => rw [Nat.add_assoc]; exact .sub hc ih
  | log b _ ih => exact .log b ih

theorem Match.length {u : ℝ} {k : Nat} {t : List TOp} {o : List Op} (h : Match u k t o) : o.length = t.length := by
  induction h <;> simp_all

section
variable {u : ℝ} (h0 : 0 ≤ u) (h1 : u < 1)
include h0 h1

theorem Off.neg {n : Nat} {x y : ℝ} (h : Off u n x y) : Off u n (-x) (-y) := by
  obtain ⟨θ, e, a, b⟩ := h
  exact ⟨θ, by rw [e]; ring, a, b⟩

theorem ops_match {t : Trans} {o : List Op} (h : Ops u t o) : ∀ {t' : List TOp}, t.ops = .ok t' →
    ∃ k, Match u k t' o ∧ k + 3 * t'.length ≤ transRoundings t ∧ t'.length = transSteps t := by
  have mk : ∀ (m : Mono) (s : TOp), TOp.mkScale m = .ok s → s = .scale m := by
    intro m s h
    unfold TOp.mkScale at h
    split at h
    · cases h
    · cases h; rfl
  induction h with
  | value => intro t' ht; cases ht; exact ⟨0, .nil, by simp [transRoundings], rfl⟩
  | @shift t o v raw q c _ hq hc ih =>
    intro t' ht
    simp only [Trans.ops] at ht
    cases hto : t.ops with
    | error e => rw [hto] at ht; cases ht
    | ok tt =>
      rw [hto] at ht
      simp only [hq, bind, Except.bind] at ht
      cases ht
      obtain ⟨k, m1, m2, m3⟩ := ih hto
      refine ⟨k + (1 + 0), Match.append m1 (.sub (Off.of_rounded h0 h1 hc) .nil), ?_, ?_⟩
      · simp only [List.length_append, List.length_cons, List.length_nil, transRoundings]; omega
      · simp only [List.length_append, List.length_cons, List.length_nil, transSteps]; omega
  | @mulR t o d c _ hc ih =>
    intro t' ht
    simp only [Trans.ops] at ht
    cases hto : t.ops with
    | error e => rw [hto] at ht; cases ht
    | ok tt =>
      cases hd : d.toMono with
      | error e => simp only [hto, hd, bind, Except.bind] at ht; cases ht
      | ok m =>
        cases hs : TOp.mkScale m with
        | error e => simp only [hto, hd, hs, bind, Except.bind] at ht; cases ht
        | ok s =>
          simp only [hto, hd, hs, bind, Except.bind] at ht
          cases ht
          rw [mk m s hs]
          obtain ⟨k, m1, m2, m3⟩ := ih hto
          refine ⟨k + (roundings d + 0), Match.append m1 (.scale (coef_off h0 h1 hc hd) .nil), ?_, ?_⟩
          · simp only [List.length_append, List.length_cons, List.length_nil, transRoundings]; omega
          · simp only [List.length_append, List.length_cons, List.length_nil, transSteps]; omega
  | @mulL t o d c _ hc ih =>
    intro t' ht
    simp only [Trans.ops] at ht
    cases hd : d.toMono with
    | error e => simp only [hd, bind, Except.bind] at ht; cases ht
    | ok m =>
      cases hto : t.ops with
      | error e => simp only [hto, hd, bind, Except.bind] at ht; cases ht
      | ok tt =>
        cases hs : TOp.mkScale m with
        | error e => simp only [hto, hd, hs, bind, Except.bind] at ht; cases ht
        | ok s =>
          simp only [hto, hd, hs, bind, Except.bind] at ht
          cases ht
          rw [mk m s hs]
          obtain ⟨k, m1, m2, m3⟩ := ih hto
          refine ⟨k + (roundings d + 0), Match.append m1 (.scale (coef_off h0 h1 hc hd) .nil), ?_, ?_⟩
          · simp only [List.length_append, List.length_cons, List.length_nil, transRoundings]; omega
          · simp only [List.length_append, List.length_cons, List.length_nil, transSteps]; omega
  | @log t o fn b hb _ ih =>
    intro t' ht
    simp only [Trans.ops] at ht
    cases hto : t.ops with
    | error e => simp only [hb, hto, bind, Except.bind] at ht; cases ht
    | ok tt =>
      simp only [hb, hto, bind, Except.bind] at ht
      cases ht
      obtain ⟨k, m1, m2, m3⟩ := ih hto
      refine ⟨k + 0, Match.append m1 (.log b .nil), ?_, ?_⟩
      · simp only [List.length_append, List.length_cons, List.length_nil, transRoundings]; omega
      · simp only [List.length_append, List.length_cons, List.length_nil, transSteps]; omega

/-- A unit: its exact symbolic definition and a rounded one. -/
theorem symDef_match {r : Ref} {o : List Op} {c : ℝ} (h : SymDef u r o c) {t : List TOp} {m : Mono} (hs : r.symDef = .ok (t, m)) :
    ∃ k n, Match u k t o ∧ Off u n m.coef c ∧ k + 3 * t.length + n ≤ unitRoundings r ∧ t.length = unitSteps r := by
  unfold Ref.symDef at hs
  cases h with
  | @none e d c he hsp hc =>
    simp only [he, bind, Except.bind, Node.symDef, hsp] at hs
    cases hd : d.toMono with
    | error x => rw [hd] at hs; cases hs
    | ok m' =>
      rw [hd] at hs; cases hs
      refine ⟨0, _, .nil, coef_off h0 h1 hc hd, ?_, ?_⟩
      · simp only [unitRoundings, he, hsp, List.length_nil]; omega
      · simp only [unitSteps, he, hsp, List.length_nil]
  | @some e d t' o c he hsp ho hc =>
    simp only [he, bind, Except.bind, Node.symDef, hsp] at hs
    cases hto : t'.ops with
    | error x => simp only [hto] at hs; cases hs
    | ok tt =>
      simp only [hto] at hs
      cases hd : d.toMono with
      | error x => rw [hd] at hs; cases hs
      | ok m' =>
        rw [hd] at hs; cases hs
        obtain ⟨k, m1, m2, m3⟩ := ops_match h0 h1 ho hto
        refine ⟨k, _, m1, coef_off h0 h1 hc hd, ?_, ?_⟩
        · simp only [unitRoundings, he, hsp]; omega
        · simp only [unitSteps, he, hsp, m3]

theorem forward_near {k : Nat} {t : List TOp} {o : List Op} (h : Match u k t o) (ha : Aff ((t.map TOp.forward).map toStep)) :
    Near u k ((t.map TOp.forward).map toStep) (o.map Op.forward) := by
  induction h with
  | nil => exact Near.refl h0 h1 trivial
  | scale hc _ ih => exact Near.append h0 h1 (near_scale h0 h1 hc) (ih ha)
  | @sub k n t o q c hc _ ih =>
    have e : Near u n [.add ((-q : Rat) : ℝ)] [.add (-c)] := by
      push_cast
      exact near_add h0 h1 (Off.neg h0 h1 hc)
    exact Near.append h0 h1 e (ih ha)
  | log b _ ih => exact ha.elim

theorem inverse_near {k : Nat} {t : List TOp} {o : List Op} (h : Match u k t o) : ∀ {l : List COp} {l' : List Step},
    invertAll t = .ok l → Inverted u o l' → Aff (l.map toStep) → Near u (k + t.length) (l.map toStep) l' ∧ l'.length = t.length := by
  induction h with
  | nil => intro l l' hl hl' _; cases hl; cases hl'; exact ⟨Near.refl h0 h1 trivial, rfl⟩
  | @scale k n t o m c hc _ ih =>
    intro l l' hl hl' ha
    simp only [invertAll] at hl
    cases hr : invertAll t with
    | error e => rw [hr] at hl; cases hl
    | ok rest =>
      cases hi : m.inv with
      | error e => simp only [hr, TOp.invert, hi, bind, Except.bind] at hl; cases hl
      | ok mi =>
        simp only [hr, TOp.invert, hi, bind, Except.bind] at hl
        cases hl
        rw [List.map_append] at ha ⊢
        cases hl' with
        | @scale _ l2 _ i hinv hri =>
          obtain ⟨e1, e2⟩ := ih hr hinv (aff_append.1 ha).1
          have hcoef : mi.coef = m.coef⁻¹ := by
            unfold Mono.inv at hi
            split at hi
            · cases hi
            · cases hi; rfl
          have e3 : Near u (n + 1) (List.map toStep [COp.scale mi]) [.scale i] := by
            show Near u (n + 1) [.scale (mi.coef : ℝ)] _
            rw [hcoef]; push_cast
            exact near_scale h0 h1 (Off.trans h0 h1 (Off.inv h0 h1 hc) (Off.of_rounded h0 h1 hri))
          refine ⟨Near.mono h0 h1 ?_ (Near.append h0 h1 e1 e3), by simp [e2]⟩
          simp only [List.length_cons]; omega
  | @sub k n t o q c hc _ ih =>
    intro l l' hl hl' ha
    simp only [invertAll] at hl
    cases hr : invertAll t with
    | error e => rw [hr] at hl; cases hl
    | ok rest =>
      simp only [hr, TOp.invert, bind, Except.bind] at hl
      cases hl
      rw [List.map_append] at ha ⊢
      cases hl' with
      | @sub _ l2 _ hinv =>
        obtain ⟨e1, e2⟩ := ih hr hinv (aff_append.1 ha).1
        refine ⟨Near.mono h0 h1 ?_ (Near.append h0 h1 e1 (near_add h0 h1 hc)), by simp [e2]⟩
        simp only [List.length_cons]; omega
  | @log k t o b _ ih =>
    intro l l' hl hl' ha
    simp only [invertAll] at hl
    cases hr : invertAll t with
    | error e => rw [hr] at hl; cases hl
    | ok rest =>
      simp only [hr, TOp.invert, bind, Except.bind] at hl
      cases hl
      rw [List.map_append] at ha
      exact ((aff_append.1 ha).2).elim

end

theorem run1_eval {ops : List COp} (h : Aff (ops.map toStep)) {x v : ℝ} (hr : run1 ops x = .ok v) :
    eval (ops.map toStep) x = v := by
  induction ops generalizing x with
  | nil => cases hr; rfl
  | cons o ops ih =>
    cases o with
    | scale m => exact ih h hr
    | add q => exact ih h hr
    | _ => exact h.elim

theorem absv_toStep {ops : List COp} (h : Aff (ops.map toStep)) (x : ℝ) : absv (ops.map toStep) x = absValue ops x := by
  induction ops generalizing x with
  | nil => rfl
  | cons o ops ih =>
    cases o with
    | scale m => exact ih h _
    | add q => exact ih h _
    | _ => exact h.elim

theorem aff_of_only {ops : List COp} (h : OnlyAffine ops) : Aff (ops.map toStep) := by
  induction ops with
  | nil => trivial
  | cons o ops ih =>
    have ih' := ih fun o' ho => h o' (List.mem_cons_of_mem _ ho)
    rcases h o (by simp) with ⟨m, rfl⟩ | ⟨q, rfl⟩
    · exact ih'
    · exact ih'

theorem build_good {a b : UObj} {ops : List COp} (hb : Converter.build a b = .ok ops) (ha : NonZero a) : ∀ o ∈ ops, o.Good := by
  obtain ⟨fd', td', t1, d1, t2, d2, t1i, link, σ, e1, e2, e3, e4, e5, e6, e7, e8, e9⟩ := build_inv hb
  have c1 : d1.coef ≠ 0 := by
    obtain ⟨t, d, s, c⟩ := ha; rw [e5] at s; cases s; exact c
  have g1 := obj_symDef_good e5
  have g2 := obj_symDef_good e6
  have c2 : d2.coef ≠ 0 := by
    cases σ with
    | true =>
      obtain ⟨k, k1, rfl⟩ := e9
      exact (Mono.div_spec g1.2 g2.2 k1).1
    | false =>
      obtain ⟨k, k1, rfl⟩ := e9
      unfold Mono.inv at k1
      split at k1
      · cases k1
      · rename_i h
        intro h2
        apply h
        show (d1.mul d2).coef = 0
        rw [Mono.coef_mul, h2, mul_zero]
  obtain ⟨l1, a1, a2, a3, a4, a5, a6⟩ := invertAll_spec t1 g1.1
  rw [e7] at a1; cases a1
  obtain ⟨l2, b1, b2, b3, b4, b5, b6⟩ := invertAll_spec t2 g2.1
  obtain ⟨m1, m2, m3⟩ := link_spec (σ := σ) g1.2 g2.2 c1 c2 (link := link) (by cases σ <;> exact e9)
  rw [e8]
  intro o ho
  rcases List.mem_append.1 ho with ho | ho
  · rcases List.mem_append.1 ho with ho | ho
    · exact a2 o ho
    · exact m1 o ho
  · exact b3 o ho

theorem convert_run1 {a b : UObj} {ops : List COp} (hb : Converter.build a b = .ok ops) (ha : NonZero a) {x v : ℝ}
    (h : convert a b x = .ok v) : run1 ops x = .ok v := by
  unfold convert at h
  rw [hb] at h
  have h' : Converter.convert ops x = .ok v := h
  exact ((convert_ok_iff (build_good hb ha) x v).1 h').2

section
variable {u : ℝ} (h0 : 0 ≤ u) (h1 : u < 1)
include h0 h1

/-- everything up to the compiled function, for a conversion that only multiplies and adds -/
theorem converts_direct {a b : Ref} {ops : List COp} (hb : Converter.build (.unit a) (.unit b) = .ok ops)
    (haff : OnlyAffine ops) {x y : ℝ} (h : Converts u a b x y) :
    |y - eval (ops.map toStep) x| ≤
      relError u (unitRoundings a + unitRoundings b + (unitSteps a + unitSteps b + 1) ^ 2 + 3) * absv (ops.map toStep) |x| := by
  have haff' := aff_of_only haff
  obtain ⟨fd', td', t1, d1, t2, d2, t1i, link, σ, e1, e2, e3, e4, e5, e6, e7, e8, e9⟩ := build_inv hb
  obtain ⟨f1, f2, f3, s1, s2, inv, lk, re, pr, rn⟩ := h
  rename_i fd td direct o₁ o₂ c₁ c₂ i₁ lnk l l' n
  rw [f1] at e1; cases e1
  rw [f2] at e3; cases e3
  obtain ⟨k1, n1, m1, of1, le1, len1⟩ := symDef_match h0 h1 s1 (t := t1) (m := d1) e5
  obtain ⟨k2, n2, m2, of2, le2, len2⟩ := symDef_match h0 h1 s2 (t := t2) (m := d2) e6
  rw [e8] at haff' ⊢
  rw [List.map_append, List.map_append] at haff' ⊢
  have ha1 := (aff_append.1 (aff_append.1 haff').1).1
  have ha2 := (aff_append.1 (aff_append.1 haff').1).2
  have ha3 := (aff_append.1 haff').2
  cases σ with
  | false => obtain ⟨k, _, rfl⟩ := e9; exact ha2.elim
  | true =>
    obtain ⟨k, hk, rfl⟩ := e9
    have hd : direct = true := by rw [← f3]; exact e4
    subst hd
    have hkc : k.coef = d1.coef / d2.coef :=
      (Mono.div_spec (obj_symDef_good e5).2 (obj_symDef_good e6).2 hk).2.1
    cases lk with
    | @direct _ _ i kk hi hkk =>
      obtain ⟨N1, L1⟩ := inverse_near h0 h1 m1 e7 inv ha1
      have N2 : Near u (n1 + (n2 + 1) + 1) ([COp.scale k].map toStep) [.scale kk] := by
        refine near_scale h0 h1 ?_
        rw [hkc]; push_cast
        rw [div_eq_mul_inv]
        exact Off.trans h0 h1 (Off.mul h0 h1 of1 (Off.trans h0 h1 (Off.inv h0 h1 of2) (Off.of_rounded h0 h1 hi)))
          (Off.of_rounded h0 h1 hkk)
      have N3 := forward_near h0 h1 m2 ha3
      have N := Near.append h0 h1 (Near.append h0 h1 N1 N2) N3
      have R := near_rearranged h0 h1 re N.right
      obtain ⟨P, Pl⟩ := near_printed h0 h1 pr R.right
      have T := Near.trans h0 h1 (Near.trans h0 h1 N R) P
      have E := near_run h0 h1 rn P.right |x| le_rfl
      have hm := rearranged_measure re
      have hl := rearranged_length re
      have hc := crossings_le (i₁ ++ [Step.scale kk] ++ o₂.map Op.forward)
      have hL : (i₁ ++ [Step.scale kk] ++ o₂.map Op.forward).length = unitSteps a + unitSteps b + 1 := by
        simp only [List.length_append, List.length_cons, List.length_nil, List.length_map, L1, m2.length, len1, len2]
        omega
      rw [hL] at hm hl hc
      have hA := T.val x |x| le_rfl
      have hM := T.mag |x| (abs_nonneg x)
      set M := absv (List.map toStep t1i ++ List.map toStep [COp.scale k] ++ List.map toStep (List.map TOp.forward t2)) |x| with hMdef
      set K := k1 + t1.length + (n1 + (n2 + 1) + 1) + k2 + n + l.length with hK
      have hM0 : 0 ≤ M := absv_nonneg haff' (abs_nonneg x)
      have hsq : (unitSteps a + unitSteps b + 1) ^ 2 = (unitSteps a + unitSteps b + 1) * (unitSteps a + unitSteps b + 1) := sq _
      have hle : K + l'.length ≤ unitRoundings a + unitRoundings b + (unitSteps a + unitSteps b + 1) ^ 2 + 3 := by
        rw [hsq, Pl, hK]; omega
      refine le_trans ?_ (mul_le_mul_of_nonneg_right (relError_mono h0 h1 hle) hM0)
      have e1 : relError u (K + l'.length) * M = relError u l'.length * (grow u K * M) + relError u K * M := by
        rw [relError_eq h0 h1, relError_eq h0 h1, relError_eq h0 h1, grow_add h0 h1]; ring
      rw [e1]
      have tri := abs_sub_le y (eval l' x) (eval (List.map toStep t1i ++ List.map toStep [COp.scale k] ++ List.map toStep (List.map TOp.forward t2)) x)
      have e2 := mul_le_mul_of_nonneg_left hM (relError_nonneg h0 h1 l'.length)
      linarith

theorem rearranged_recip {n : Nat} {k : ℝ} {l : List Step} (h : Rearranged u n [.recip, .scale k] l) :
    n = 0 ∧ l = [.recip, .scale k] := by
  cases h with
  | refl => exact ⟨rfl, rfl⟩
  | step h _ =>
    cases h with
    | under _ h =>
      cases h with
      | under _ h => cases h

/-- linear units, converted through the reciprocal -/
theorem converts_inverted {a b : Ref} {d1 d2 k : Mono} (e5 : a.symDef = .ok ([], d1)) (e6 : b.symDef = .ok ([], d2))
    (hk : (d1.mul d2).inv = .ok k) {fd td : DimObj} (f1 : (UObj.unit a).dimObj = .ok fd) (f2 : (UObj.unit b).dimObj = .ok td)
    (f3 : fd.eq td = false) {x y : ℝ} (h : Converts u a b x y) :
    Off u (unitRoundings a + unitRoundings b + 5) (k.coef * x⁻¹) y := by
  obtain ⟨g1, g2, g3, s1, s2, inv, lk, re, pr, rn⟩ := h
  rename_i fd' td' direct o₁ o₂ c₁ c₂ i₁ lnk l l' n
  rw [f1] at g1; cases g1
  rw [f2] at g2; cases g2
  rw [f3] at g3; subst g3
  obtain ⟨k1, n1, m1, of1, le1, len1⟩ := symDef_match h0 h1 s1 e5
  obtain ⟨k2, n2, m2, of2, le2, len2⟩ := symDef_match h0 h1 s2 e6
  cases m1; cases m2; cases inv
  have hkc : k.coef = (d1.coef * d2.coef)⁻¹ := by
    unfold Mono.inv at hk
    split at hk
    · cases hk
    · cases hk; rw [← Mono.coef_mul]
  cases lk with
  | @inverted _ _ p kk hp hkk =>
    obtain ⟨rfl, rfl⟩ := rearranged_recip h0 h1 re
    cases pr with
    | recip pr =>
      cases pr with
      | @scale _ _ _ c' hc pr =>
        cases pr
        cases rn with
        | @recip _ _ w _ hx hw rn =>
          cases rn with
          | @scale _ _ _ z _ hz rn =>
            cases rn
            have A : Off u (n1 + n2 + 1 + 1 + 1) (k.coef : ℝ) c' := by
              rw [hkc]; push_cast
              exact Off.trans h0 h1 (Off.trans h0 h1 (Off.inv h0 h1 (Off.trans h0 h1 (Off.mul h0 h1 of1 of2) (Off.of_rounded h0 h1 hp)))
                (Off.of_rounded h0 h1 hkk)) (Off.of_rounded h0 h1 hc)
            refine Off.mono h0 h1 ?_ (Off.trans h0 h1 (Off.mul h0 h1 A (Off.of_rounded h0 h1 hw)) (Off.of_rounded h0 h1 hz))
            simp only [List.length_nil] at le1 le2
            omega

end

/-! ## Exact numbers are rounded numbers -/

theorem rounded_refl {u : ℝ} (h0 : 0 ≤ u) (x : ℝ) : Rounded u x x := by
  unfold Rounded
  rw [sub_self, abs_zero]
  exact mul_nonneg h0 (abs_nonneg x)

section
variable {u : ℝ} (h0 : 0 ≤ u)
include h0

theorem coef_exact {d : Node} : ∀ {m : Mono}, d.toMono = .ok m → Coef (Rounded u) d m.coef := by
  induction d with
  | number v raw =>
    intro m hm
    simp only [Node.toMono] at hm
    cases hq : v.toRat with
    | error e => rw [hq] at hm; cases hm
    | ok q => rw [hq] at hm; cases hm; exact .number hq (rounded_refl h0 _)
  | ident n => intro m hm; cases hm; simpa [Mono.sym] using Coef.ident (R := Rounded u) n
  | unhandled _ => intro m hm; cases hm
  | shift _ _ => intro m hm; cases hm
  | log _ _ => intro m hm; cases hm
  | mul l r ihl ihr =>
    intro m hm
    simp only [Node.toMono] at hm
    cases hl : l.toMono with
    | error e => rw [hl] at hm; cases hm
    | ok ml =>
      cases hr : r.toMono with
      | error e => rw [hl, hr] at hm; cases hm
      | ok mr =>
        rw [hl, hr] at hm; cases hm
        rw [Mono.coef_mul]; push_cast
        exact .mul (ihl hl) (ihr hr) (rounded_refl h0 _)
  | div l r ihl ihr =>
    intro m hm
    simp only [Node.toMono] at hm
    cases hl : l.toMono with
    | error e => rw [hl] at hm; cases hm
    | ok ml =>
      cases hr : r.toMono with
      | error e => rw [hl, hr] at hm; cases hm
      | ok mr =>
        rw [hl, hr] at hm
        have hm' : ml.div mr = .ok m := hm
        rw [(Mono.div_spec (toMono_wf hl) (toMono_wf hr) hm').2.1, div_eq_mul_inv]
        push_cast
        exact .div (ihl hl) (ihr hr) (rounded_refl h0 _) (rounded_refl h0 _)
  | raise l r ihl _ =>
    intro m hm
    simp only [Node.toMono] at hm
    cases hl : l.toMono with
    | error e => rw [hl] at hm; cases hm
    | ok ml =>
      cases hn : r.asExponent with
      | error e => rw [hl, hn] at hm; cases hm
      | ok n =>
        rw [hl, hn] at hm
        have hm' : ml.pow n = .ok m := hm
        rw [(Mono.pow_spec (toMono_wf hl) hm').2.1]
        push_cast
        exact .raise (ihl hl) hn (rounded_refl h0 _)

/-- the exact steps -/
noncomputable def _root_.Verif.TOp.real : TOp → Op
  | .scale m => .scale m.coef
  | .sub q => .sub q
  | .log b => .log b

theorem ops_exact {t : Trans} : ∀ {t' : List TOp}, t.ops = .ok t' → Ops u t (t'.map TOp.real) := by
  have mk : ∀ (m : Mono) (s : TOp), TOp.mkScale m = .ok s → s = .scale m := by
    intro m s h
    unfold TOp.mkScale at h
    split at h
    · cases h
    · cases h; rfl
  induction t with
  | value => intro t' ht; cases ht; exact .value
  | shift t k ih =>
    intro t' ht
    unfold Trans.ops at ht
    cases hto : t.ops with
    | error e => rw [hto] at ht; cases ht
    | ok tt =>
      cases k with
      | number v raw =>
        cases hq : v.toRat with
        | error e => simp only [hto, hq, bind, Except.bind] at ht; cases ht
        | ok q =>
          simp only [hto, hq, bind, Except.bind] at ht
          cases ht
          rw [List.map_append]
          exact .shift (ih hto) hq (rounded_refl h0 _)
      | _ => rw [hto] at ht; cases ht
  | mulR t d ih =>
    intro t' ht
    simp only [Trans.ops] at ht
    cases hto : t.ops with
    | error e => rw [hto] at ht; cases ht
    | ok tt =>
      cases hd : d.toMono with
      | error e => simp only [hto, hd, bind, Except.bind] at ht; cases ht
      | ok m =>
        cases hs : TOp.mkScale m with
        | error e => simp only [hto, hd, hs, bind, Except.bind] at ht; cases ht
        | ok s =>
          simp only [hto, hd, hs, bind, Except.bind] at ht
          cases ht
          rw [mk m s hs, List.map_append]
          exact .mulR (ih hto) (coef_exact h0 hd)
  | mulL d t ih =>
    intro t' ht
    simp only [Trans.ops] at ht
    cases hd : d.toMono with
    | error e => simp only [hd, bind, Except.bind] at ht; cases ht
    | ok m =>
      cases hto : t.ops with
      | error e => simp only [hto, hd, bind, Except.bind] at ht; cases ht
      | ok tt =>
        cases hs : TOp.mkScale m with
        | error e => simp only [hto, hd, hs, bind, Except.bind] at ht; cases ht
        | ok s =>
          simp only [hto, hd, hs, bind, Except.bind] at ht
          cases ht
          rw [mk m s hs, List.map_append]
          exact .mulL (ih hto) (coef_exact h0 hd)
  | log fn t ih =>
    intro t' ht
    simp only [Trans.ops] at ht
    cases hb : logBase fn with
    | error e => simp only [hb, bind, Except.bind] at ht; cases ht
    | ok b =>
      cases hto : t.ops with
      | error e => simp only [hb, hto, bind, Except.bind] at ht; cases ht
      | ok tt =>
        simp only [hb, hto, bind, Except.bind] at ht
        cases ht
        rw [List.map_append]
        exact .log hb (ih hto)

theorem symDef_exact {r : Ref} {t : List TOp} {m : Mono} (hs : r.symDef = .ok (t, m)) : SymDef u r (t.map TOp.real) m.coef := by
  unfold Ref.symDef at hs
  cases he : r.expand with
  | error x => rw [he] at hs; cases hs
  | ok e =>
    simp only [he, bind, Except.bind, Node.symDef] at hs
    cases hsp : e.split true with
    | error x => rw [hsp] at hs; cases hs
    | ok p =>
      obtain ⟨tr, d⟩ := p
      rw [hsp] at hs
      cases tr with
      | none =>
        simp only at hs
        cases hd : d.toMono with
        | error x => rw [hd] at hs; cases hs
        | ok m' =>
          rw [hd] at hs; cases hs
          exact .none he hsp (coef_exact h0 hd)
      | some t' =>
        simp only at hs
        cases hto : t'.ops with
        | error x => rw [hto] at hs; cases hs
        | ok tt =>
          rw [hto] at hs
          simp only at hs
          cases hd : d.toMono with
          | error x => rw [hd] at hs; cases hs
          | ok m' =>
            rw [hd] at hs; cases hs
            exact .some he hsp (ops_exact h0 hto) (coef_exact h0 hd)

theorem inverted_exact {t : List TOp} : ∀ {l : List COp}, invertAll t = .ok l → Inverted u (t.map TOp.real) (l.map toStep) := by
  induction t with
  | nil => intro l hl; cases hl; exact .nil
  | cons o t ih =>
    intro l hl
    simp only [invertAll] at hl
    cases hr : invertAll t with
    | error e => rw [hr] at hl; cases hl
    | ok rest =>
      cases o with
      | scale m =>
        cases hi : m.inv with
        | error e => simp only [hr, TOp.invert, hi, bind, Except.bind] at hl; cases hl
        | ok mi =>
          simp only [hr, TOp.invert, hi, bind, Except.bind] at hl
          cases hl
          have hcoef : mi.coef = m.coef⁻¹ := by
            unfold Mono.inv at hi
            split at hi
            · cases hi
            · cases hi; rfl
          rw [List.map_append]
          refine .scale (ih hr) ?_
          rw [hcoef]; push_cast
          exact rounded_refl h0 _
      | sub q =>
        simp only [hr, TOp.invert, bind, Except.bind] at hl
        cases hl
        rw [List.map_append]
        exact .sub (ih hr)
      | log b =>
        simp only [hr, TOp.invert, bind, Except.bind] at hl
        cases hl
        rw [List.map_append]
        exact .log (ih hr)

theorem forward_exact (t : List TOp) : (t.map TOp.real).map Op.forward = (t.map TOp.forward).map toStep := by
  induction t with
  | nil => rfl
  | cons o t ih =>
    simp only [List.map_cons, ih]
    congr 1
    cases o with
    | scale m => rfl
    | sub q =>
      show Step.add (-(q : ℝ)) = Step.add ((-q : Rat) : ℝ)
      push_cast; rfl
    | log b => rfl

theorem printed_exact : ∀ l : List Step, Printed u l l := by
  intro l
  induction l with
  | nil => exact .nil
  | cons s l ih =>
    cases s with
    | scale c => exact .scale (rounded_refl h0 _) ih
    | add c => exact .add (rounded_refl h0 _) ih
    | log b => exact .log b ih
    | exp b => exact .exp b ih
    | recip => exact .recip ih

theorem run_exact {ops : List COp} : ∀ {x v : ℝ}, run1 ops x = .ok v → Run u (ops.map toStep) x v := by
  induction ops with
  | nil => intro x v h; cases h; exact .nil x
  | cons o ops ih =>
    intro x v h
    have h' : (do let y ← o.run1 x; run1 ops y) = .ok v := h
    cases ho : o.run1 x with
    | error e => rw [ho] at h'; cases h'
    | ok y =>
      rw [ho] at h'
      have h2 : run1 ops y = .ok v := h'
      cases o with
      | scale m => cases ho; exact .scale (rounded_refl h0 _) (ih h2)
      | add q => cases ho; exact .add (rounded_refl h0 _) (ih h2)
      | log b =>
        simp only [COp.run1, COp.run] at ho
        split at ho
        · cases ho; rename_i hx; exact .log hx (rounded_refl h0 _) (rounded_refl h0 _) (rounded_refl h0 _) (ih h2)
        · cases ho
      | exp b => cases ho; exact .exp (rounded_refl h0 _) (rounded_refl h0 _) (rounded_refl h0 _) (ih h2)
      | recip =>
        simp only [COp.run1, COp.run] at ho
        split at ho
        · cases ho
        · cases ho; rename_i hx; exact .recip hx (rounded_refl h0 _) (ih h2)

/-- The exact computation is one of the rounded ones. -/
theorem converts_exact {a b : Ref} {ops : List COp} (hb : Converter.build (.unit a) (.unit b) = .ok ops) (ha : NonZero (.unit a))
    {x v : ℝ} (h : convert (.unit a) (.unit b) x = .ok v) : Converts u a b x v := by
  have hrun := convert_run1 hb ha h
  obtain ⟨fd, td, t1, d1, t2, d2, t1i, link, σ, e1, e2, e3, e4, e5, e6, e7, e8, e9⟩ := build_inv hb
  have s1 := symDef_exact h0 (r := a) (t := t1) (m := d1) e5
  have s2 := symDef_exact h0 (r := b) (t := t2) (m := d2) e6
  have inv := inverted_exact h0 e7
  have hd : fd.eq td = σ := by
    cases σ with
    | true => exact e4
    | false => exact e4.1
  have lk : Link u σ d1.coef d2.coef (link.map toStep) := by
    cases σ with
    | true =>
      obtain ⟨k, hk, rfl⟩ := e9
      have hkc : k.coef = d1.coef / d2.coef := (Mono.div_spec (obj_symDef_good e5).2 (obj_symDef_good e6).2 hk).2.1
      refine .direct (rounded_refl h0 _) (k := k.coef) ?_
      rw [hkc]; push_cast; rw [div_eq_mul_inv]; exact rounded_refl h0 _
    | false =>
      obtain ⟨k, hk, rfl⟩ := e9
      have hkc : k.coef = (d1.coef * d2.coef)⁻¹ := by
        unfold Mono.inv at hk
        split at hk
        · cases hk
        · cases hk; rw [← Mono.coef_mul]
      refine .inverted (rounded_refl h0 _) (k := k.coef) ?_
      rw [hkc]; push_cast; exact rounded_refl h0 _
  refine .mk e1 e3 hd s1 s2 inv lk (.refl _) (printed_exact h0 _) ?_
  rw [forward_exact h0, ← List.map_append, ← List.map_append, ← e8]
  exact run_exact h0 hrun

end

/-! ## Affine scales -/

theorem affineScale_symDef {r : Ref} {q f : ℝ} (h : Spec.AffineScale r q f) : ∀ {t : List TOp} {m : Mono}, r.symDef = .ok (t, m) →
    (t = [] ∧ q = 0 ∧ f = m.coef) ∨ ∃ q' : Rat, t = [.sub q'] ∧ q = q' ∧ f = m.coef := by
  induction h with
  | linear hl =>
    intro t m hs
    obtain ⟨h1, h2⟩ := linear_symDef hl hs
    exact .inl ⟨h1, rfl, by rw [← h2 _ fun _ => one_ne_zero, value_one]⟩
  | ident hg _ ih => exact fun hs => ih (symDef_ident hg hs)
  | shift hl hq =>
    intro t m hs
    obtain ⟨h1, h2⟩ := (symDef_shift hl hq).1 hs
    exact .inr ⟨_, h1, rfl, by rw [← (linear_symDef hl h2).2 _ fun _ => one_ne_zero, value_one]⟩

/-! ## Logarithmic scales -/

theorem logScale_symDef {r : Ref} {b : Option Nat} {f : ℝ} (h : Spec.LogScale r b f) : ∀ {t : List TOp} {m : Mono},
    r.symDef = .ok (t, m) → t = [.log b] ∧ f = m.coef := by
  induction h with
  | ident hg _ ih => exact fun hs => ih (symDef_ident hg hs)
  | @log names fn b u refs hfn hl =>
    intro t m hs
    have hq : logBase fn = .ok b := by
      simp only [List.mem_cons, Prod.mk.injEq, List.not_mem_nil, or_false] at hfn
      rcases hfn with ⟨rfl, rfl⟩ | ⟨rfl, rfl⟩ | ⟨rfl, rfl⟩ | ⟨rfl, rfl⟩ <;> rfl
    obtain ⟨h1, h2⟩ := (symDef_log hl hq).1 hs
    exact ⟨h1, by rw [← (linear_symDef hl h2).2 _ fun _ => one_ne_zero, value_one]⟩

theorem logScale_base {r : Ref} {b : Option Nat} {f : ℝ} (h : Spec.LogScale r b f) : 0 < lnBase b := by
  induction h with
  | ident _ _ ih => exact ih
  | log hfn _ =>
    simp only [List.mem_cons, Prod.mk.injEq, List.not_mem_nil, or_false] at hfn
    rcases hfn with ⟨_, rfl⟩ | ⟨_, rfl⟩ | ⟨_, rfl⟩ | ⟨_, rfl⟩
    · exact Real.log_pos (by norm_num)
    · exact Real.log_pos (by norm_num)
    · exact one_pos
    · exact one_pos

theorem lnOf_eq (b : Option Nat) : Spec.lnOf b = lnBase b := by cases b <;> rfl

section
variable {u : ℝ} (h0 : 0 ≤ u) (h1 : u < 1)
include h0 h1

theorem logError_nonneg (n : Nat) : 0 ≤ Spec.logError u n :=
  mul_nonneg (Nat.cast_nonneg n) (by have := Real.log_nonpos (x := 1 - u) (by linarith) (by linarith); linarith)

theorem logError_mono {m n : Nat} (h : m ≤ n) : Spec.logError u m ≤ Spec.logError u n := by
  unfold Spec.logError
  have : 0 ≤ -Real.log (1 - u) := by have := Real.log_nonpos (x := 1 - u) (by linarith) (by linarith); linarith
  exact mul_le_mul_of_nonneg_right (by exact_mod_cast h) this

theorem Off.log {n : Nat} {x y : ℝ} (h : Off u n x y) (hx : 0 < x) : |Real.log y - Real.log x| ≤ Spec.logError u n := by
  obtain ⟨θ, e, a, b⟩ := h
  have p := base_pos h0 h1 n
  have hθ := lt_of_lt_of_le p a
  rw [e, Real.log_mul hx.ne' hθ.ne', add_sub_cancel_left]
  have l1 := Real.log_le_log p a
  have l2 := Real.log_le_log hθ b
  rw [Real.log_inv, Real.log_pow] at l2
  rw [Real.log_pow] at l1
  unfold Spec.logError
  rw [abs_le]
  constructor <;> linarith

/-- the logarithm computed from a rounded argument -/
theorem log_step {n : Nat} {x w g k y E : ℝ} {b : Option Nat} (hb : 0 < lnBase b) (hw : |Real.log w - Real.log x| ≤ E)
    (hg : Rounded u (Real.log w) g) (hk : Rounded u (lnBase b) k) (hy : Rounded u (g / k) y) (_ : n = 3) :
    |y - Real.log x / lnBase b| ≤ relError u n * |Real.log x / lnBase b| + ((1 - u) ^ n)⁻¹ * (E / lnBase b) := by
  subst n
  have o : Off u 3 (Real.log w / lnBase b) y := by
    have := Off.trans h0 h1 (Off.mul h0 h1 (Off.of_rounded h0 h1 hg) (Off.inv h0 h1 (Off.of_rounded h0 h1 hk)))
      (by rw [← div_eq_mul_inv]; exact Off.of_rounded h0 h1 hy)
    rw [← div_eq_mul_inv] at this
    exact this
  have e1 := Off.sub h0 h1 o
  have e2 : |Real.log w / lnBase b - Real.log x / lnBase b| ≤ E / lnBase b := by
    rw [← sub_div, abs_div, abs_of_pos hb]
    exact div_le_div_of_nonneg_right hw hb.le
  have e3 : |Real.log w / lnBase b| ≤ |Real.log x / lnBase b| + E / lnBase b := by
    have := abs_sub_abs_le_abs_sub (Real.log w / lnBase b) (Real.log x / lnBase b)
    linarith
  have e4 := mul_le_mul_of_nonneg_left e3 (relError_nonneg h0 h1 3)
  have tri := abs_sub_le y (Real.log w / lnBase b) (Real.log x / lnBase b)
  have e5 : ((1 - u) ^ 3)⁻¹ = relError u 3 + 1 := by unfold Spec.relError; ring
  rw [e5]
  nlinarith

/-- the exponential computed from a rounded argument -/
theorem exp_step {x k w y : ℝ} {b : Option Nat} (hk : Rounded u (lnBase b) k) (hw : Rounded u (x * k) w)
    (hy : Rounded u (Real.exp w) y) :
    ∃ ε, |ε| ≤ relError u 2 * |x * lnBase b| ∧ Off u 1 (Real.exp (x * lnBase b) * Real.exp ε) y := by
  have o : Off u 2 (x * lnBase b) w :=
    Off.trans h0 h1 (by
      have := Off.mul h0 h1 (Off.refl (u := u) h0 h1 0 x) (Off.of_rounded h0 h1 hk)
      simpa using this) (Off.of_rounded h0 h1 hw)
  refine ⟨w - x * lnBase b, Off.sub h0 h1 o, ?_⟩
  rw [← Real.exp_add, add_sub_cancel]
  exact Off.of_rounded h0 h1 hy

/-- the factor of a direct conversion, printed -/
theorem link_off {n1 n2 : Nat} {d1 d2 k : Mono} {c₁ c₂ i kk c : ℝ} (hk : d1.div d2 = .ok k) (w1 : d1.WF) (w2 : d2.WF)
    (of1 : Off u n1 d1.coef c₁) (of2 : Off u n2 d2.coef c₂) (hi : Rounded u c₂⁻¹ i) (hkk : Rounded u (c₁ * i) kk)
    (hc : Rounded u kk c) : Off u (n1 + (n2 + 1) + 1 + 1) k.coef c := by
  rw [(Mono.div_spec w1 w2 hk).2.1]; push_cast
  rw [div_eq_mul_inv]
  exact Off.trans h0 h1 (Off.trans h0 h1 (Off.mul h0 h1 of1 (Off.trans h0 h1 (Off.inv h0 h1 of2) (Off.of_rounded h0 h1 hi)))
    (Off.of_rounded h0 h1 hkk)) (Off.of_rounded h0 h1 hc)

end

theorem rearranged_scale_log {u : ℝ} {n : Nat} {k : ℝ} {b : Option Nat} {l : List Step}
    (h : Rearranged u n [.scale k, .log b] l) : l = [.scale k, .log b] := by
  cases h with
  | refl => rfl
  | step h _ =>
    cases h with
    | under _ h => cases h with
      | under _ h => cases h

theorem rearranged_exp_scale {u : ℝ} {n : Nat} {k : ℝ} {b : Option Nat} {l : List Step}
    (h : Rearranged u n [.exp b, .scale k] l) : l = [.exp b, .scale k] := by
  cases h with
  | refl => rfl
  | step h _ =>
    cases h with
    | under _ h => cases h with
      | under _ h => cases h

theorem rearranged_exp_scale_log {u : ℝ} {n : Nat} {k : ℝ} {b b' : Option Nat} {l : List Step}
    (h : Rearranged u n [.exp b, .scale k, .log b'] l) : l = [.exp b, .scale k, .log b'] := by
  cases h with
  | refl => rfl
  | step h _ =>
    cases h with
    | under _ h => cases h with
      | under _ h => cases h with
        | under _ h => cases h

end Verif.Fl

import Verif.Lemmas.Convert
import Verif.Spec.Monotone
import Mathlib.Topology.Order.IntermediateValue
import Mathlib.Topology.Algebra.Order.Field
/-!
# Conversions as functions on the real line
-/

namespace Verif.Monot
open Spec

/-- strictly monotone one way or the other -/
def Strict (f : ℝ → ℝ) : Prop := StrictMono f ∨ StrictAnti f

theorem Strict.comp {f g : ℝ → ℝ} (hf : Strict f) (hg : Strict g) : Strict (f ∘ g) := by
  rcases hf with hf | hf <;> rcases hg with hg | hg
  · exact .inl (hf.comp hg)
  · exact .inr (hf.comp_strictAnti hg)
  · exact .inr (hf.comp_strictMono hg)
  · exact .inl (hf.comp hg)

theorem strict_mul {k : ℝ} (hk : k ≠ 0) : Strict fun x => k * x := by
  rcases lt_or_gt_of_ne hk with h | h
  · exact .inr fun x y hxy => mul_lt_mul_of_neg_left hxy h
  · exact .inl fun x y hxy => mul_lt_mul_of_pos_left hxy h

theorem lnBase_pos {b : Option Nat} (h : lnBase b ≠ 0) : 0 < lnBase b := by
  cases b with
  | none => exact one_pos
  | some n => exact lt_of_le_of_ne (Real.log_natCast_nonneg n) (Ne.symm h)

/-- the inverse of a value transformation is a continuous strictly monotone function on all of ℝ -/
theorem chain (t : List TOp) (h : ∀ o ∈ t, o.Good) : ∃ l F, invertAll t = .ok l ∧ (∀ x, run1 l x = .ok (F x)) ∧
    Continuous F ∧ Strict F ∧ ((∀ b, TOp.log b ∉ t) → ∃ k c : ℝ, k ≠ 0 ∧ ∀ x, F x = k * x + c) := by
  induction t with
  | nil => exact ⟨[], id, rfl, fun _ => rfl, continuous_id, .inl strictMono_id, fun _ => ⟨1, 0, one_ne_zero, fun x => by simp⟩⟩
  | cons o t ih =>
    obtain ⟨l, F, a1, a2, a3, a4, a5⟩ := ih fun o ho => h o (List.mem_cons_of_mem _ ho)
    have ho := h o (List.mem_cons_self ..)
    have key : ∃ c G, o.invert = .ok c ∧ (∀ x, c.run1 x = .ok (G x)) ∧ Continuous G ∧ Strict G ∧
        ((∀ b, o ≠ .log b) → ∃ k c : ℝ, k ≠ 0 ∧ ∀ x, G x = k * x + c) := by
      cases o with
      | scale m =>
        obtain ⟨k, hi⟩ : ∃ k, m.inv = .ok k := ⟨_, Mono.inv_ok ho.2⟩
        obtain ⟨_, i2, i3, _⟩ := Mono.inv_spec ho.1 hi
        have hk : ((k.coef : Rat) : ℝ) ≠ 0 := by exact_mod_cast i3
        exact ⟨.scale k, fun x => (k.coef : ℝ) * x, by simp only [TOp.invert, hi]; rfl, fun x => rfl,
          continuous_const.mul continuous_id, strict_mul hk, fun _ => ⟨_, 0, hk, fun x => by simp⟩⟩
      | sub q =>
        exact ⟨.add q, fun x => x + q, rfl, fun x => rfl, continuous_id.add continuous_const,
          .inl fun x y hxy => add_lt_add_of_lt_of_le hxy (le_refl (q : ℝ)), fun _ => ⟨1, q, one_ne_zero, fun x => by simp⟩⟩
      | log b =>
        refine ⟨.exp b, fun x => Real.exp (x * lnBase b), rfl, fun x => rfl,
          Real.continuous_exp.comp (continuous_id.mul continuous_const), .inl fun x y hxy => ?_, fun hb => absurd rfl (hb b)⟩
        exact Real.exp_lt_exp.2 (mul_lt_mul_of_pos_right hxy (lnBase_pos ho))
    obtain ⟨c, G, c1, c2, c3, c4, c5⟩ := key
    refine ⟨l ++ [c], G ∘ F, ?_, ?_, c3.comp a3, c4.comp a4, ?_⟩
    · simp only [invertAll, a1]
      change (do .ok (l ++ [← o.invert]) : Py (List COp)) = _
      rw [c1]; rfl
    · intro x
      rw [run1_append, a2]
      change run1 [c] (F x) = _
      rw [run1_single, c2]; rfl
    · intro hn
      obtain ⟨k, d, hk, hF⟩ := a5 fun b hb => hn b (List.mem_cons_of_mem _ hb)
      obtain ⟨k', d', hk', hG⟩ := c5 fun b hb => hn b (hb ▸ List.mem_cons_self ..)
      refine ⟨k' * k, k' * d + d', mul_ne_zero hk' hk, fun x => ?_⟩
      show G (F x) = _
      rw [hG, hF]; ring

/-- what `x` of a unit denotes, as a function of `x` -/
theorem base_fun {a : UObj} (ha : NonZero a) : ∃ (Q : ℝ → ℝ) (p : Prop) (E : Str → Int),
    (∀ x q E', Base a x q E' ↔ p ∧ q = Q x ∧ E' = E) ∧ Continuous Q ∧ Strict Q ∧
    (∀ t d, a.symDef = .ok (t, d) → (∀ b, TOp.log b ∉ t) → ∃ k c : ℝ, k ≠ 0 ∧ ∀ x, Q x = k * x + c) := by
  obtain ⟨t, d, h1, h2⟩ := ha
  have hd : (d.coef : ℝ) ≠ 0 := by exact_mod_cast h2
  obtain ⟨l, F, a1, a2, a3, a4, a5⟩ := chain t (obj_symDef_good h1).1
  have hQ : Strict fun x => F x * (d.coef : ℝ) := by
    have := (strict_mul hd).comp a4
    have e : (fun x => F x * (d.coef : ℝ)) = (fun x => (d.coef : ℝ) * x) ∘ F := by funext x; simp [mul_comm]
    rw [e]; exact this
  have hlin : ∀ t' d', a.symDef = .ok (t', d') → (∀ b, TOp.log b ∉ t') → ∃ k c : ℝ, k ≠ 0 ∧ ∀ x, F x * (d.coef : ℝ) = k * x + c := by
    intro t' d' h1' hn
    rw [h1] at h1'; cases h1'
    obtain ⟨k, c, hk, hF⟩ := a5 hn
    exact ⟨k * d.coef, c * d.coef, mul_ne_zero hk hd, fun x => by rw [hF]; ring⟩
  by_cases hw : ∃ w, Flow (fun _ => 0) l w
  · obtain ⟨w, hw⟩ := hw
    refine ⟨fun x => F x * d.coef, True, fun s => w s + d.exp s, ?_, a3.mul continuous_const, hQ, hlin⟩
    intro x q E'
    constructor
    · rintro ⟨t', d', l', w', y, g1, g2, g3, g4, g5, g6, g7⟩
      rw [h1] at g1; cases g1
      rw [a1] at g3; cases g3
      rw [a2] at g5; cases g5
      have := flow_det l hw g4
      subst this
      exact ⟨trivial, g6, g7⟩
    · rintro ⟨_, rfl, rfl⟩
      exact ⟨t, d, l, w, F x, h1, h2, a1, hw, a2 x, rfl, rfl⟩
  · refine ⟨fun x => F x * d.coef, False, fun _ => 0, ?_, a3.mul continuous_const, hQ, hlin⟩
    intro x q E'
    constructor
    · rintro ⟨t', d', l', w', y, g1, g2, g3, g4, _⟩
      rw [h1] at g1; cases g1
      rw [a1] at g3; cases g3
      exact absurd ⟨w', g4⟩ hw
    · rintro ⟨h, _⟩; exact h.elim

/-- a conversion equates two strictly monotone continuous functions -/
theorem convert_fun {a b : UObj} {fd td : DimObj} (h1 : a.dimObj = .ok fd) (hp : Proper fd) (h2 : b.dimObj = .ok td)
    {σ : Bool} (hl : Link fd td σ) (ha : NonZero a) (hb : NonZero b) : ∃ (f g : ℝ → ℝ) (p : Prop),
    Continuous f ∧ Strict f ∧ Continuous g ∧ Strict g ∧
    (∀ x v, convert a b x = .ok v ↔ p ∧ (match σ with
      | true => g v = f x
      | false => f x ≠ 0 ∧ g v = (f x)⁻¹)) ∧
    (∀ t d, a.symDef = .ok (t, d) → (∀ b, TOp.log b ∉ t) → ∃ k c : ℝ, k ≠ 0 ∧ ∀ x, f x = k * x + c) ∧
    (∀ t d, b.symDef = .ok (t, d) → (∀ b, TOp.log b ∉ t) → ∃ k c : ℝ, k ≠ 0 ∧ ∀ x, g x = k * x + c) := by
  obtain ⟨f, pa, E, f1, f2, f3, f4⟩ := base_fun ha
  obtain ⟨g, pb, E', g1, g2, g3, g4⟩ := base_fun hb
  cases σ with
  | true =>
    refine ⟨f, g, pa ∧ pb ∧ E' = E, f2, f3, g2, g3, ?_, f4, g4⟩
    intro x v
    rw [convert_iff h1 hp h2 hl ha hb]
    constructor
    · rintro ⟨q, e, q', e', b1, b2, r1, r2⟩
      obtain ⟨p1, rfl, rfl⟩ := (f1 _ _ _).1 b1
      obtain ⟨p2, rfl, rfl⟩ := (g1 _ _ _).1 b2
      exact ⟨⟨p1, p2, r2⟩, r1⟩
    · rintro ⟨⟨p1, p2, p3⟩, r⟩
      exact ⟨_, _, _, _, (f1 _ _ _).2 ⟨p1, rfl, rfl⟩, (g1 _ _ _).2 ⟨p2, rfl, rfl⟩, r, p3⟩
  | false =>
    refine ⟨f, g, pa ∧ pb ∧ E' = fun s => - E s, f2, f3, g2, g3, ?_, f4, g4⟩
    intro x v
    rw [convert_iff h1 hp h2 hl ha hb]
    constructor
    · rintro ⟨q, e, q', e', b1, b2, r1, r2, r3⟩
      obtain ⟨p1, rfl, rfl⟩ := (f1 _ _ _).1 b1
      obtain ⟨p2, rfl, rfl⟩ := (g1 _ _ _).1 b2
      exact ⟨⟨p1, p2, r3⟩, r1, r2⟩
    · rintro ⟨⟨p1, p2, p3⟩, r1, r2⟩
      exact ⟨_, _, _, _, (f1 _ _ _).2 ⟨p1, rfl, rfl⟩, (g1 _ _ _).2 ⟨p2, rfl, rfl⟩, r1, r2, p3⟩

theorem Strict.cases {f : ℝ → ℝ} (h : Strict f) : (∀ x y, x < y ↔ f x < f y) ∨ (∀ x y, x < y ↔ f y < f x) := by
  rcases h with h | h
  · exact .inl fun x y => h.lt_iff_lt.symm
  · exact .inr fun x y => h.lt_iff_gt.symm

theorem Strict.ivt {f : ℝ → ℝ} (hf : Continuous f) {u w q : ℝ} (h : (f u ≤ q ∧ q ≤ f w) ∨ (f w ≤ q ∧ q ≤ f u)) : ∃ z, f z = q := by
  rcases h with h | h
  · exact mem_range_of_exists_le_of_exists_ge hf ⟨u, h.1⟩ ⟨w, h.2⟩
  · exact mem_range_of_exists_le_of_exists_ge hf ⟨w, h.1⟩ ⟨u, h.2⟩

/-! ## Expressions without logarithms -/

/-- no logarithm in a value transformation -/
def NoLogT : Trans → Prop
  | .value => True
  | .shift t _ => NoLogT t
  | .mulR t _ => NoLogT t
  | .mulL _ t => NoLogT t
  | .log _ _ => False

theorem split_noLog : ∀ (e : Node) (root : Bool), LogFree e → ∀ t d, e.split root = .ok (some t, d) → NoLogT t := by
  intro e
  induction e with
  | number v r => intro root _ t d h; cases h
  | ident n => intro root _ t d h; cases h
  | unhandled r => intro root _ t d h; cases h
  | log fn t => intro root h; exact h.elim
  | shift u f hu hf =>
    intro root hn t d h
    simp only [Node.split, bind, Except.bind] at h
    cases h1 : u.split false with
    | error x => rw [h1] at h; cases h
    | ok y =>
      obtain ⟨t1, d1⟩ := y
      rw [h1] at h
      have h0 : NoLogT (Trans.orValue t1) := by
        cases t1 with
        | none => trivial
        | some t1 => exact hu false hn.1 _ _ h1
      cases root <;> (cases h; exact h0)
  | raise l r hl hr =>
    intro root hn t d h
    simp only [Node.split, bind, Except.bind] at h
    cases h1 : l.split false with
    | error x => rw [h1] at h; cases h
    | ok y =>
      obtain ⟨t1, d1⟩ := y
      cases h2 : r.split false with
      | error x => rw [h1, h2] at h; cases h
      | ok z =>
        obtain ⟨t2, d2⟩ := z
        rw [h1, h2] at h
        simp only at h
        split at h
        · cases h
        · cases h; exact hl false hn.1 _ _ h1
  | mul l r hl hr =>
    intro root hn t d h
    simp only [Node.split, bind, Except.bind] at h
    cases h1 : l.split false with
    | error x => rw [h1] at h; cases h
    | ok y =>
      obtain ⟨t1, d1⟩ := y
      cases h2 : r.split false with
      | error x => rw [h1, h2] at h; cases h
      | ok z =>
        obtain ⟨t2, d2⟩ := z
        rw [h1, h2] at h
        cases t1 with
        | none =>
          cases t2 with
          | none => cases h
          | some t2 => cases h; exact (hr false hn.2 _ _ h2 : NoLogT t2)
        | some t1 =>
          cases t2 with
          | none => cases h; exact (hl false hn.1 _ _ h1 : NoLogT t1)
          | some t2 => cases h
  | div l r hl hr =>
    intro root hn t d h
    simp only [Node.split, bind, Except.bind] at h
    cases h1 : l.split false with
    | error x => rw [h1] at h; cases h
    | ok y =>
      obtain ⟨t1, d1⟩ := y
      cases h2 : r.split false with
      | error x => rw [h1, h2] at h; cases h
      | ok z =>
        obtain ⟨t2, d2⟩ := z
        rw [h1, h2] at h
        cases t1 with
        | none => cases h; exact hr false hn.2 _ _ h2
        | some t1 =>
          cases t2 with
          | none => cases h; exact hl false hn.1 _ _ h1
          | some t2 => cases h

theorem mkScale_noLog {m : Mono} {op : TOp} (h : TOp.mkScale m = .ok op) (b : Option Nat) : op ≠ .log b := by
  unfold TOp.mkScale at h
  split at h
  · cases h
  · cases h; intro h'; cases h'

theorem ops_noLog : ∀ (t : Trans), NoLogT t → ∀ L, t.ops = .ok L → ∀ b, TOp.log b ∉ L := by
  intro t
  induction t with
  | value => intro _ L h b; cases h; simp
  | log fn t => intro h; exact h.elim
  | shift t f ih =>
    intro hn L h b
    simp only [Trans.ops, bind, Except.bind] at h
    cases h1 : t.ops with
    | error x => rw [h1] at h; cases h
    | ok o =>
      rw [h1] at h
      cases f with
      | number v raw =>
        simp only at h
        cases h2 : v.toRat with
        | error x => rw [h2] at h; cases h
        | ok q =>
          rw [h2] at h
          cases h
          intro hm
          rcases List.mem_append.1 hm with hm | hm
          · exact ih hn o h1 b hm
          · rw [List.mem_singleton] at hm; cases hm
      | _ => cases h
  | mulR t d ih =>
    intro hn L h b
    simp only [Trans.ops, bind, Except.bind] at h
    cases h1 : t.ops with
    | error x => rw [h1] at h; cases h
    | ok o =>
      rw [h1] at h
      cases h2 : d.toMono with
      | error x => rw [h2] at h; cases h
      | ok m =>
        rw [h2] at h
        simp only at h
        cases h3 : TOp.mkScale m with
        | error x => rw [h3] at h; cases h
        | ok op =>
          rw [h3] at h
          cases h
          intro hm
          rcases List.mem_append.1 hm with hm | hm
          · exact ih hn o h1 b hm
          · rw [List.mem_singleton] at hm; exact mkScale_noLog h3 b hm.symm
  | mulL d t ih =>
    intro hn L h b
    simp only [Trans.ops, bind, Except.bind] at h
    cases h2 : d.toMono with
    | error x => rw [h2] at h; cases h
    | ok m =>
      rw [h2] at h
      cases h1 : t.ops with
      | error x => rw [h1] at h; cases h
      | ok o =>
        rw [h1] at h
        simp only at h
        cases h3 : TOp.mkScale m with
        | error x => rw [h3] at h; cases h
        | ok op =>
          rw [h3] at h
          cases h
          intro hm
          rcases List.mem_append.1 hm with hm | hm
          · exact ih hn o h1 b hm
          · rw [List.mem_singleton] at hm; exact mkScale_noLog h3 b hm.symm

theorem symDef_noLog {r : Ref} {e : Node} (he : r.expand = .ok e) (hn : LogFree e) {t : List TOp} {d : Mono}
    (h : r.symDef = .ok (t, d)) (b : Option Nat) : TOp.log b ∉ t := by
  unfold Ref.symDef at h
  simp only [bind, Except.bind] at h
  rw [he] at h
  simp only [Node.symDef, bind, Except.bind] at h
  cases h1 : e.split true with
  | error x => rw [h1] at h; cases h
  | ok y =>
    obtain ⟨t1, d1⟩ := y
    rw [h1] at h
    cases t1 with
    | none =>
      simp only at h
      cases h2 : d1.toMono with
      | error x => rw [h2] at h; cases h
      | ok m => rw [h2] at h; cases h; simp
    | some t1 =>
      simp only at h
      cases h3 : t1.ops with
      | error x => rw [h3] at h; cases h
      | ok L =>
        rw [h3] at h
        simp only at h
        cases h2 : d1.toMono with
        | error x => rw [h2] at h; cases h
        | ok m => rw [h2] at h; cases h; exact ops_noLog t1 (split_noLog e true hn _ _ h1) _ h3 b

end Verif.Monot

import Verif.Spec.Grammar
/-!
# The parser and the grammar: soundness, disambiguation, completeness
-/

namespace Verif

/-! ## Soundness -/

/-- every success consumes a prefix with property `R` -/
def Sound {α : Type} (p : P α) (R : List Token → α → Prop) : Prop :=
  ∀ ts a r, (a, r) ∈ p ts → ∃ pre, ts = pre ++ r ∧ R pre a

section
variable {α β : Type}

theorem sound_mono {p : P α} {R R' : List Token → α → Prop} (h : Sound p R) (hR : ∀ ts a, R ts a → R' ts a) :
    Sound p R' := by
  intro ts a r hm
  obtain ⟨pre, h1, h2⟩ := h ts a r hm
  exact ⟨pre, h1, hR _ _ h2⟩

theorem sound_or {p q : P α} {R : List Token → α → Prop} (hp : Sound p R) (hq : Sound q R) : Sound (P.or p q) R := by
  intro ts a r hm
  rcases List.mem_append.1 hm with hm | hm
  · exact hp ts a r hm
  · exact hq ts a r hm

theorem sound_bind {p : P α} {f : α → P β} {R : List Token → α → Prop} {S : α → List Token → β → Prop}
    (hp : Sound p R) (hf : ∀ a, Sound (f a) (S a)) :
    Sound (P.bind p f) (fun ts b => ∃ x y a, ts = x ++ y ∧ R x a ∧ S a y b) := by
  intro ts b r hm
  obtain ⟨⟨a, r1⟩, h1, h2⟩ := List.mem_flatMap.1 hm
  obtain ⟨x, rfl, hx⟩ := hp ts a r1 h1
  obtain ⟨y, rfl, hy⟩ := hf a r1 b r h2
  exact ⟨x ++ y, by simp, x, y, a, rfl, hx, hy⟩

theorem sound_map {p : P α} {f : α → β} {R : List Token → α → Prop} (hp : Sound p R) :
    Sound (P.map f p) (fun ts b => ∃ a, R ts a ∧ b = f a) := by
  intro ts b r hm
  obtain ⟨⟨a, r1⟩, h1, h2⟩ := List.mem_map.1 hm
  cases h2
  obtain ⟨x, rfl, hx⟩ := hp ts a _ h1
  exact ⟨x, rfl, a, hx, rfl⟩

theorem sound_pure (a : α) : Sound (P.pure a) (fun ts b => ts = [] ∧ b = a) := by
  intro ts b r hm
  cases List.mem_singleton.1 hm
  exact ⟨[], rfl, rfl, rfl⟩

theorem sound_tok (k : Kind) : Sound (P.tok k) (fun ts s => ∃ t, ts = [t] ∧ t.kind = k ∧ s = t.text) := by
  intro ts s r hm
  unfold P.tok at hm
  split at hm
  · split at hm
    · rename_i t r' hk
      cases List.mem_singleton.1 hm
      exact ⟨[t], rfl, t, rfl, hk, rfl⟩
    · cases hm
  · cases hm

theorem sound_cat {p q : P Str} {R S : List Token → Prop} (hp : Sound p (fun ts s => R ts ∧ s = textOf ts))
    (hq : Sound q (fun ts s => S ts ∧ s = textOf ts)) :
    Sound (P.cat p q) (fun ts s => (∃ x y, ts = x ++ y ∧ R x ∧ S y) ∧ s = textOf ts) := by
  intro ts s r hm
  obtain ⟨pre, h1, x, y, a, rfl, ⟨hx, rfl⟩, b, ⟨hb, rfl⟩, rfl⟩ := sound_bind hp (fun a => sound_map (f := fun b => a ++ b) hq) ts s r hm
  exact ⟨x ++ y, h1, ⟨x, y, rfl, hx, hb⟩, by simp [textOf]⟩

theorem sound_tokText (k : Kind) : Sound (P.tok k) (fun ts s => (∃ t, ts = [t] ∧ t.kind = k) ∧ s = textOf ts) := by
  refine sound_mono (sound_tok k) ?_
  rintro ts s ⟨t, rfl, h, rfl⟩
  exact ⟨⟨t, rfl, h⟩, by simp [textOf]⟩

theorem sound_opt {p : P Str} {R : List Token → Prop} (hp : Sound p (fun ts s => R ts ∧ s = textOf ts)) :
    Sound (P.opt p) (fun ts s => (ts = [] ∨ R ts) ∧ s = textOf ts) := by
  refine sound_or (sound_mono hp ?_) (sound_mono (sound_pure _) ?_)
  · rintro ts s ⟨h1, h2⟩; exact ⟨Or.inr h1, h2⟩
  · rintro ts s ⟨rfl, rfl⟩; exact ⟨Or.inl rfl, rfl⟩
end

/-- one token satisfying `p` -/
def Single (p : Token → Prop) (ts : List Token) : Prop := ∃ t, ts = [t] ∧ p t

theorem sound_orSingle {p q : P Str} {A B C : Token → Prop} (hp : Sound p (fun ts s => Single A ts ∧ s = textOf ts))
    (hq : Sound q (fun ts s => Single B ts ∧ s = textOf ts)) (hA : ∀ t, A t → C t) (hB : ∀ t, B t → C t) :
    Sound (P.or p q) (fun ts s => Single C ts ∧ s = textOf ts) := by
  refine sound_or (sound_mono hp ?_) (sound_mono hq ?_)
  · rintro ts s ⟨⟨t, h1, h2⟩, h3⟩; exact ⟨⟨t, h1, hA t h2⟩, h3⟩
  · rintro ts s ⟨⟨t, h1, h2⟩, h3⟩; exact ⟨⟨t, h1, hB t h2⟩, h3⟩

theorem sound_integerText : Sound integerText (fun ts s => Single Token.isInt ts ∧ s = textOf ts) :=
  sound_orSingle (sound_tokText _) (sound_tokText _) (fun _ h => Or.inl h) (fun _ h => Or.inr h)

theorem sound_dateOrInt : Sound dateOrInt (fun ts s => Single isDateOrInt ts ∧ s = textOf ts) :=
  sound_orSingle (sound_tokText _) sound_integerText (fun _ h => Or.inl h) (fun _ h => Or.inr h)

theorem sound_signedClock : Sound signedClock (fun ts s => Single isClock ts ∧ s = textOf ts) :=
  sound_orSingle (sound_tokText _)
    (sound_orSingle (C := fun t => t.kind = .HOUR_MINUTE ∨ t.isInt) (sound_tokText _) sound_integerText
      (fun _ h => Or.inl h) (fun _ h => Or.inr h))
    (fun _ h => Or.inl h) (fun _ h => Or.inr h)

theorem sound_tzAny : Sound tzAny (fun ts s => Single isTz ts ∧ s = textOf ts) :=
  sound_orSingle
    (sound_orSingle (C := fun t => t.kind = .HOUR_MINUTE ∨ t.isInt) (sound_tokText _) sound_integerText
      (fun _ h => Or.inl h) (fun _ h => Or.inr h)) (sound_tokText _)
    (fun _ h => h.elim Or.inl fun h => Or.inr (Or.inl h)) (fun _ h => Or.inr (Or.inr h))

theorem sound_timestamp : Sound timestampP (fun ts s => Timestamp ts ∧ s = textOf ts) := by
  unfold timestampP
  refine sound_or (sound_mono sound_dateOrInt ?_) (sound_or (sound_mono (sound_cat sound_dateOrInt
    (sound_cat (sound_opt (sound_orSingle (C := fun t => t.kind = .WS ∨ t.kind = .T) (sound_tokText _) (sound_tokText _)
      (fun _ h => Or.inl h) (fun _ h => Or.inr h)))
      (sound_cat sound_signedClock (sound_cat (sound_opt (sound_tokText _)) (sound_opt sound_tzAny))))) ?_)
    (sound_or (sound_mono (sound_cat sound_integerText (sound_opt sound_tzAny)) ?_)
    (sound_or (sound_mono (sound_cat (sound_tokText _) (sound_cat (sound_opt (sound_tokText _)) (sound_opt sound_tzAny))) ?_)
      (sound_mono (sound_cat sound_dateOrInt (sound_cat (sound_opt (sound_tokText _))
        (sound_orSingle (C := fun t => t.kind = .TIMEZONE ∨ t.kind = .TZ) (sound_tokText _) (sound_tokText _)
          (fun _ h => Or.inl h) (fun _ h => Or.inr h)))) ?_))))
  · rintro ts s ⟨⟨t, rfl, h⟩, h2⟩; exact ⟨.date h, h2⟩
  · rintro ts s ⟨⟨_, _, rfl, ⟨t, rfl, ht⟩, s1, _, rfl, hs1, _, _, rfl, ⟨c, rfl, hc⟩, w, z, rfl, hw, hz⟩, h2⟩
    refine ⟨?_, h2⟩
    have := Timestamp.clock ht hs1 hc hw hz
    simpa using this
  · rintro ts s ⟨⟨_, _, rfl, ⟨t, rfl, ht⟩, hz⟩, h2⟩
    exact ⟨.packed ht hz, h2⟩
  · rintro ts s ⟨⟨_, _, rfl, ⟨t, rfl, ht⟩, w, z, rfl, hw, hz⟩, h2⟩
    refine ⟨?_, h2⟩
    have := Timestamp.stamp ht hw hz
    simpa using this
  · rintro ts s ⟨⟨_, _, rfl, ⟨t, rfl, ht⟩, w, _, rfl, hw, z, rfl, hz⟩, h2⟩
    refine ⟨?_, h2⟩
    have := Timestamp.zone ht hw hz
    simpa using this

theorem sound_conv {f : Str → Option Node} {p : P Str} {R : List Token → Str → Prop} (hp : Sound p R) :
    Sound (P.conv f p) (fun ts n => ∃ s, R ts s ∧ f s = some n) := by
  intro ts n r hm
  obtain ⟨⟨c, r1⟩, h1, h2⟩ := List.mem_flatMap.1 hm
  obtain ⟨x, rfl, hx⟩ := hp ts c r1 h1
  simp only at h2
  cases hf : f c with
  | none => rw [hf] at h2; cases h2
  | some m =>
    rw [hf] at h2
    cases List.mem_singleton.1 h2
    exact ⟨x, rfl, c, hx, hf⟩

theorem sound_integer : Sound integerP (Derives .integer) := by
  refine sound_mono (sound_conv sound_integerText) ?_
  rintro ts n ⟨s, ⟨⟨t, rfl, ht⟩, rfl⟩, h⟩
  refine .int ht ?_
  simpa [textOf] using h

theorem sound_number : Sound numberP (Derives .number) := by
  refine sound_or (sound_mono sound_integer fun _ _ h => .numInt h) (sound_mono (sound_conv (sound_tok _)) ?_)
  rintro ts n ⟨s, ⟨t, rfl, ht, rfl⟩, h⟩
  exact .numFloat ht h

section
variable {sp : P Node} (hsp : Sound sp (Derives .shift))
include hsp

theorem sound_logarithm : Sound (logarithmP sp) (Derives .logarithm) := by
  refine sound_or (sound_mono (R := Derives .basic) (sound_or ?_ (sound_or ?_ ?_)) fun _ _ h => .logBasic h) ?_
  · refine sound_mono (sound_map (sound_tok _)) ?_
    rintro ts n ⟨s, ⟨t, rfl, ht, rfl⟩, rfl⟩
    exact .basicId ht
  · refine sound_mono (sound_bind (sound_tok _) fun _ => sound_bind hsp fun n => sound_map (sound_tok _)) ?_
    rintro ts n ⟨_, _, s, rfl, ⟨o, rfl, ho, _⟩, x, _, m, rfl, hx, _, ⟨c, rfl, hc, _⟩, rfl⟩
    have := Derives.basicParen ho hc hx
    simpa using this
  · exact sound_mono sound_number fun _ _ h => .basicNum h
  · refine sound_mono (sound_bind (sound_tok _) fun _ => sound_bind hsp fun n => sound_map (sound_tok _)) ?_
    rintro ts n ⟨_, _, s, rfl, ⟨o, rfl, ho, rfl⟩, x, _, m, rfl, hx, _, ⟨c, rfl, hc, _⟩, rfl⟩
    have := Derives.logLog ho hc hx
    simpa using this

theorem sound_power : Sound (powerP sp) (Derives .power) := by
  have hl := sound_logarithm hsp
  refine sound_or ?_ (sound_or ?_ (sound_or ?_ ?_))
  · refine sound_mono (sound_bind hl fun l => sound_map sound_integer) ?_
    rintro ts n ⟨x, y, l, rfl, hx, i, hi, rfl⟩
    exact .powInt hx hi
  · exact sound_mono hl fun _ _ h => .powPlain h
  · refine sound_mono (sound_bind hl fun l => sound_bind (sound_tok _) fun _ => sound_map sound_integer) ?_
    rintro ts n ⟨x, _, l, rfl, hx, _, y, _, rfl, ⟨o, rfl, ho, _⟩, i, hi, rfl⟩
    have := Derives.powRaise hx ho hi
    simpa using this
  · refine sound_mono (sound_bind hl fun l => sound_map (sound_tok _)) ?_
    rintro ts n ⟨x, _, l, rfl, hx, _, ⟨o, rfl, ho, rfl⟩, rfl⟩
    exact .powUni hx ho

omit hsp in
theorem sound_wsPlus : Sound wsPlus (fun ts _ => ts ≠ [] ∧ ∀ t ∈ ts, t.kind = .WS) := by
  have go : Sound wsPlus.go (fun ts _ => ∀ t ∈ ts, t.kind = .WS) := by
    intro ts
    induction ts with
    | nil => intro a r hm; cases List.mem_singleton.1 hm; exact ⟨[], rfl, by simp⟩
    | cons t ts ih =>
      intro a r hm
      rw [wsPlus.go] at hm
      split at hm
      · rename_i hk
        rcases List.mem_append.1 hm with hm | hm
        · obtain ⟨x, rfl, hx⟩ := ih a r hm
          refine ⟨t :: x, rfl, ?_⟩
          intro u hu
          rcases List.mem_cons.1 hu with rfl | hu
          · exact hk
          · exact hx u hu
        · cases List.mem_singleton.1 hm; exact ⟨[], rfl, by simp⟩
      · cases List.mem_singleton.1 hm; exact ⟨[], rfl, by simp⟩
  intro ts a r hm
  unfold wsPlus at hm
  split at hm
  · split at hm
    · rename_i t r' hk
      obtain ⟨x, rfl, hx⟩ := go _ a r hm
      refine ⟨t :: x, rfl, by simp, ?_⟩
      intro u hu
      rcases List.mem_cons.1 hu with rfl | hu
      · exact hk
      · exact hx u hu
    · cases hm
  · cases hm

/-- the tokens of one more factor after a product with graph `l` -/
theorem sound_factor (l : Node) : Sound (factorP sp l) (fun ts n => ∀ a, Derives .product a l → Derives .product (a ++ ts) n) := by
  have hp := sound_power hsp
  refine sound_or ?_ (sound_or ?_ (sound_or ?_ ?_))
  · refine sound_mono (sound_map hp) ?_
    rintro ts n ⟨r, h, rfl⟩ a ha
    exact .prodJuxt ha h
  · refine sound_mono (sound_bind (sound_tok _) fun _ => sound_map hp) ?_
    rintro ts n ⟨_, y, _, rfl, ⟨o, rfl, ho, _⟩, r, h, rfl⟩ a ha
    have := Derives.prodMul ha ho h
    simpa using this
  · refine sound_mono (sound_bind (sound_tok _) fun _ => sound_map hp) ?_
    rintro ts n ⟨_, y, _, rfl, ⟨o, rfl, ho, _⟩, r, h, rfl⟩ a ha
    have := Derives.prodDiv ha ho h
    simpa using this
  · refine sound_mono (sound_bind sound_wsPlus fun _ => sound_map hp) ?_
    rintro ts n ⟨w, y, _, rfl, ⟨hw, hw'⟩, r, h, rfl⟩ a ha
    have := Derives.prodWs ha hw hw' h
    simpa using this

theorem sound_loop (k : Nat) : ∀ l, Sound (productLoop sp k l) (fun ts n => ∀ a, Derives .product a l → Derives .product (a ++ ts) n) := by
  induction k with
  | zero =>
    intro l
    refine sound_mono (sound_pure l) ?_
    rintro ts n ⟨rfl, rfl⟩ a ha
    simpa using ha
  | succ k ih =>
    intro l
    refine sound_or (sound_mono (sound_bind (sound_factor hsp l) ih) ?_) (sound_mono (sound_pure l) ?_)
    · rintro ts n ⟨x, y, m, rfl, hx, hy⟩ a ha
      have := hy _ (hx a ha)
      simpa using this
    · rintro ts n ⟨rfl, rfl⟩ a ha
      simpa using ha

theorem sound_product : Sound (productP sp) (Derives .product) := by
  intro ts n r hm
  obtain ⟨pre, h1, x, y, l, rfl, hx, hy⟩ := sound_bind (sound_power hsp) (sound_loop hsp ts.length) ts n r hm
  exact ⟨_, h1, hy x (.prodPower hx)⟩

omit hsp in
theorem sound_optWs : Sound optWs (fun ts _ => OptWs ts) := by
  refine sound_mono (sound_opt (sound_tokText .WS)) ?_
  rintro ts s ⟨h, _⟩
  exact h

theorem sound_shiftStep : Sound (shiftSpecStep sp) (Derives .shift) := by
  have hp := sound_product hsp
  refine sound_or (sound_mono hp fun _ _ h => .shiftProd h) (sound_or ?_ ?_)
  · refine sound_mono (sound_bind hp fun _ => sound_bind sound_optWs fun _ => sound_bind (sound_tok _) fun _ =>
      sound_bind sound_optWs fun _ => sound_map sound_number) ?_
    rintro ts n ⟨a, _, l, rfl, ha, w1, _, _, rfl, hw1, _, _, _, rfl, ⟨o, rfl, ho, _⟩, w2, b, _, rfl, hw2, r, hr, rfl⟩
    have := Derives.shiftNum ha hw1 ho hw2 hr
    simpa using this
  · refine sound_mono (sound_bind hp fun _ => sound_bind sound_optWs fun _ => sound_bind (sound_tok _) fun _ =>
      sound_bind sound_optWs fun _ => sound_map sound_timestamp) ?_
    rintro ts n ⟨a, _, l, rfl, ha, w1, _, _, rfl, hw1, _, _, _, rfl, ⟨o, rfl, ho, _⟩, w2, b, _, rfl, hw2, r, ⟨hr, rfl⟩, rfl⟩
    have := Derives.shiftTime ha hw1 ho hw2 hr
    simpa using this
end

theorem sound_shift (n : Nat) : Sound (shiftSpecP n) (Derives .shift) := by
  induction n with
  | zero => intro ts a r hm; cases hm
  | succ n ih => exact sound_shiftStep ih

end Verif

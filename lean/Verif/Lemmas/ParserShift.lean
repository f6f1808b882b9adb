import Verif.Lemmas.ParserLoop
/-!
# Shifts, and the parser as a whole
-/

namespace Verif

/-! ## Timestamps -/

section
variable {α : Type}
theorem mem_or_left {p q : P α} {ts : List Token} {x : α × List Token} (h : x ∈ p ts) : x ∈ P.or p q ts :=
  List.mem_append_left _ h
theorem mem_or_right {p q : P α} {ts : List Token} {x : α × List Token} (h : x ∈ q ts) : x ∈ P.or p q ts :=
  List.mem_append_right _ h
end

theorem mem_tok {k : Kind} {t : Token} {r : List Token} (h : t.kind = k) : (t.text, r) ∈ P.tok k (t :: r) := by
  rw [tok_eq h]; exact List.mem_singleton.2 rfl

/-- `p` can consume the tokens `a` -/
def Eats (p : P Str) (a : List Token) : Prop := ∀ r, (textOf a, r) ∈ p (a ++ r)

theorem eats_tok {k : Kind} {t : Token} (h : t.kind = k) : Eats (P.tok k) [t] := by
  intro r
  have := mem_tok (r := r) h
  simpa [textOf] using this

theorem eats_left {p q : P Str} {a : List Token} (h : Eats p a) : Eats (P.or p q) a := fun r => mem_or_left (h r)
theorem eats_right {p q : P Str} {a : List Token} (h : Eats q a) : Eats (P.or p q) a := fun r => mem_or_right (h r)

theorem eats_cat {p q : P Str} {a b : List Token} (hp : Eats p a) (hq : Eats q b) : Eats (P.cat p q) (a ++ b) := by
  intro r
  have h1 := hp (b ++ r)
  have h2 := hq r
  rw [List.append_assoc]
  refine List.mem_flatMap.2 ⟨_, h1, List.mem_map.2 ⟨_, h2, ?_⟩⟩
  simp [textOf]

theorem eats_opt {p : P Str} {Q : Token → Prop} {a : List Token} (hp : ∀ t, Q t → Eats p [t]) (h : OptTok Q a) : Eats (P.opt p) a := by
  rcases h with rfl | ⟨t, rfl, h⟩
  · intro r; exact mem_or_right (List.mem_singleton.2 rfl)
  · exact eats_left (hp t h)

theorem eats_int {t : Token} (h : t.isInt) : Eats integerText [t] := by
  rcases h with h | h
  · exact eats_left (eats_tok h)
  · exact eats_right (eats_tok h)

theorem eats_dateOrInt {t : Token} (h : isDateOrInt t) : Eats dateOrInt [t] := by
  rcases h with h | h
  · exact eats_left (eats_tok h)
  · exact eats_right (eats_int h)

theorem eats_clock {t : Token} (h : isClock t) : Eats signedClock [t] := by
  rcases h with h | h | h
  · exact eats_left (eats_tok h)
  · exact eats_right (eats_left (eats_tok h))
  · exact eats_right (eats_right (eats_int h))

theorem eats_tz {t : Token} (h : isTz t) : Eats tzAny [t] := by
  rcases h with h | h | h
  · exact eats_left (eats_left (eats_tok h))
  · exact eats_left (eats_right (eats_int h))
  · exact eats_right (eats_tok h)

theorem eats_timestamp {b : List Token} (h : Timestamp b) : Eats timestampP b := by
  cases h with
  | date h => exact eats_left (eats_dateOrInt h)
  | clock h1 h2 h3 h4 h5 =>
    rename_i t c s w z
    have e : [t] ++ s ++ [c] ++ w ++ z = [t] ++ (s ++ ([c] ++ (w ++ z))) := by simp
    rw [e]
    refine eats_right (eats_left (eats_cat (eats_dateOrInt h1) (eats_cat (eats_opt ?_ h2) (eats_cat (eats_clock h3)
      (eats_cat (eats_opt (fun _ h => eats_tok h) h4) (eats_opt (fun _ h => eats_tz h) h5))))))
    rintro t (h | h)
    · exact eats_left (eats_tok h)
    · exact eats_right (eats_tok h)
  | packed h1 h2 => exact eats_right (eats_right (eats_left (eats_cat (eats_int h1) (eats_opt (fun _ h => eats_tz h) h2))))
  | stamp h1 h2 h3 =>
    rw [List.append_assoc]
    exact eats_right (eats_right (eats_right (eats_left (eats_cat (eats_tok h1)
      (eats_cat (eats_opt (fun _ h => eats_tok h) h2) (eats_opt (fun _ h => eats_tz h) h3))))))
  | zone h1 h2 h3 =>
    rw [List.append_assoc]
    refine eats_right (eats_right (eats_right (eats_right (eats_cat (eats_dateOrInt h1)
      (eats_cat (eats_opt (fun _ h => eats_tok h) h2) ?_)))))
    rcases h3 with h | h
    · exact eats_left (eats_tok h)
    · exact eats_right (eats_tok h)

theorem timestamp_unique {b b' r r' : List Token} (h : Timestamp b) (h' : Timestamp b') (he : b ++ r = b' ++ r')
    (hr : stop r = true) (hr' : stop r' = true) : b = b' ∧ r = r' := by
  have key : ∀ {a x s s' : List Token}, Timestamp (a ++ x) → s = x ++ s' → stop s = true → x = [] := by
    intro a x s s' h hs hst
    cases x with
    | nil => rfl
    | cons t x =>
      exfalso
      subst hs
      simp [stop] at hst
      exact (neutral_timestamp h t (by simp)).2.2.1 hst
  rcases append_cases he with ⟨x, rfl, hx⟩ | ⟨x, rfl, hx⟩
  · have := key h' hx hr
    subst this
    simpa using hx
  · have := key h hx hr'
    subst this
    simpa using hx.symm

theorem timestamp_first {b r : List Token} (h : Timestamp b) (hr : stop r = true) :
    firstOf stop (timestampP (b ++ r)) = some (textOf b, r) := by
  have hm := eats_timestamp h r
  cases hf : firstOf stop (timestampP (b ++ r)) with
  | none =>
    have := firstOf_none.1 hf _ hm
    simp only at this
    rw [hr] at this; cases this
  | some x =>
    obtain ⟨s, r'⟩ := x
    unfold firstOf at hf
    have h1 := List.mem_of_find?_eq_some hf
    have h2 := List.find?_some hf
    obtain ⟨pre, e, hp, rfl⟩ := sound_timestamp _ _ _ h1
    obtain ⟨rfl, rfl⟩ := timestamp_unique h hp e hr h2
    rfl

/-! ## The shift sign -/

section
variable {β : Type}

/-- what comes after the shifted product fails unless a shift follows -/
theorem shiftSign_fail {Q : P β} {r : List Token} (h : follow r = false ∨ stop r = true) :
    P.bind optWs (fun _ => P.bind (P.tok .SHIFT_OP) fun _ => Q) r = [] := by
  cases r with
  | nil => simp [P.bind, optWs, P.opt, P.or, P.tok, P.pure]
  | cons t s =>
    have h1 : t.kind ≠ .SHIFT_OP := by
      intro hk
      rcases h with h | h
      · cases s <;> simp [follow, hk] at h
      · simp [stop, hk] at h
    have h2 : t.kind = .WS → P.tok .SHIFT_OP s = [] := by
      intro hk
      cases s with
      | nil => rfl
      | cons u s =>
        refine tok_ne ?_
        intro hu
        rcases h with h | h
        · simp [follow, hk, hu] at h
        · simp [stop, hk] at h
    by_cases hw : t.kind = .WS
    · simp [P.bind, optWs, P.opt, P.or, tok_eq hw, P.pure, h2 hw, tok_ne h1]
    · simp [P.bind, optWs, P.opt, P.or, tok_ne hw, P.pure, tok_ne h1]

theorem shiftSign_eq {Q : P β} {w : List Token} {o : Token} {s : List Token} (hw : OptWs w) (ho : o.kind = .SHIFT_OP) :
    P.bind optWs (fun _ => P.bind (P.tok .SHIFT_OP) fun _ => Q) (w ++ o :: s) = Q s := by
  have ho' : o.kind ≠ .WS := by rw [ho]; decide
  rcases hw with rfl | ⟨t, rfl, ht⟩
  · simp [P.bind, optWs, P.opt, P.or, tok_ne ho', P.pure, tok_eq ho]
  · have ht' : t.kind ≠ .SHIFT_OP := by rw [ht]; decide
    simp [P.bind, optWs, P.opt, P.or, tok_eq ht, P.pure, tok_eq ho, tok_ne ht']

theorem shiftBlank_eq {Q : P β} {w : List Token} {t : Token} {s : List Token} (hw : OptWs w) (ht : t.kind ≠ .WS)
    (hQ : ∀ u s, u.kind = .WS → Q (u :: s) = []) : P.bind optWs (fun _ => Q) (w ++ t :: s) = Q (t :: s) := by
  rcases hw with rfl | ⟨u, rfl, hu⟩
  · simp [P.bind, optWs, P.opt, P.or, tok_ne ht, P.pure]
  · simp [P.bind, optWs, P.opt, P.or, tok_eq hu, P.pure, hQ u _ hu]
end

theorem numberP_ws (f : Node → Node) : ∀ u s, u.kind = .WS → P.map f numberP (u :: s) = [] := by
  intro u s hu
  simp [P.map, numberP_none (t := u) (r := s) (by unfold Token.isInt; rw [hu]; decide) (by rw [hu]; decide)]

theorem timestamp_head {b : List Token} (h : Timestamp b) : ∃ t s, b = t :: s ∧ t.kind ≠ .WS ∧ t.kind ≠ .FLOAT := by
  have hd : ∀ {t}, isDateOrInt t → t.kind ≠ .WS ∧ t.kind ≠ .FLOAT := by
    intro t h
    rcases h with h | h | h <;> rw [h] <;> decide
  cases h with
  | date h => exact ⟨_, _, rfl, hd h⟩
  | clock h1 _ _ _ _ => exact ⟨_, _, by rfl, hd h1⟩
  | packed h1 _ => exact ⟨_, _, rfl, hd (Or.inr h1)⟩
  | stamp h1 _ _ => exact ⟨_, _, by rfl, by rw [h1]; decide⟩
  | zone h1 _ _ => exact ⟨_, _, by rfl, hd h1⟩

theorem timestampP_ws (f : Str → Node) : ∀ u s, u.kind = .WS → P.map f timestampP (u :: s) = [] := by
  intro u s hu
  rw [List.eq_nil_iff_forall_not_mem]
  rintro ⟨a, r⟩ hm
  obtain ⟨⟨x, r'⟩, hm, he⟩ := List.mem_map.1 hm
  obtain ⟨pre, e, hp, _⟩ := sound_timestamp _ _ _ hm
  obtain ⟨t, s', rfl, h1, _⟩ := timestamp_head hp
  cases e
  exact h1 hu

theorem firstOf_map {α β : Type} {q : List Token → Bool} {f : P α} {g : α → β} {ts r : List Token} {a : α}
    (h : firstOf q (f ts) = some (a, r)) : firstOf q (P.map g f ts) = some (g a, r) := by
  unfold firstOf P.map at *
  rw [List.find?_map]
  change Option.map _ (List.find? (fun x => q x.2) (f ts)) = _
  rw [h]; rfl

theorem firstOf_weaken {α : Type} {q q' : List Token → Bool} {xs : List (α × List Token)} {x : α × List Token}
    (h : firstOf q' xs = some x) (hq : ∀ r, q r = true → q' r = true) (hx : q x.2 = true) : firstOf q xs = some x := by
  unfold firstOf at *
  rw [List.find?_eq_some_iff_append] at h ⊢
  obtain ⟨_, as, bs, h1, h2⟩ := h
  refine ⟨hx, as, bs, h1, fun a ha => ?_⟩
  have := h2 a ha
  simp only [Bool.not_eq_true', Bool.eq_false_iff] at this ⊢
  exact fun h => this (hq _ h)

/-! ## Shifts -/

section
variable {sp : P Node} {N : Nat} (hs : Sound sp (Derives .shift))
  (hf : ∀ a n r, Reads .shift a n → a.length ≤ N → stop r = true → firstOf stop (sp (a ++ r)) = some (n, r))
include hs hf

theorem shift_first {a r : List Token} {n : Node} (h : Reads .shift a n) (hN : a.length ≤ N + 2) (hr : stop r = true) :
    firstOf stop (shiftSpecStep sp (a ++ r)) = some (n, r) := by
  have noProduct : ∀ {a s : List Token} {l : Node}, Derives .product a l → follow s = true → stop s = false →
      firstOf stop (productP sp (a ++ s)) = none := by
    intro a s l ha hs1 hs2
    rw [firstOf_none]
    rintro ⟨m, r'⟩ hm
    cases hst : stop r' with
    | false => rfl
    | true =>
      have := product_all hs ha hs1 m r' hm (follow_of_stop hst)
      subst this
      rw [hst] at hs2; cases hs2
  have sep : ∀ {w : List Token} {o : Token} {s : List Token}, OptWs w → o.kind = .SHIFT_OP →
      follow (w ++ o :: s) = true ∧ stop (w ++ o :: s) = false := by
    intro w o s hw ho
    rcases hw with rfl | ⟨t, rfl, ht⟩
    · refine ⟨?_, by simp [stop, ho]⟩
      cases s <;> simp [follow, ho]
    · simp [follow, stop, ho, ht]
  cases h with
  | shiftProd h =>
    exact firstOf_or_left (firstOf_weaken (product_first hs hf h hN (follow_of_stop hr)) (fun _ h => follow_of_stop h) hr)
  | shiftNum h hw1 ho hw2 hb =>
    rename_i a w1 o w2 b l m p
    have e : a ++ w1 ++ [o] ++ w2 ++ b ++ r = a ++ (w1 ++ o :: (w2 ++ (b ++ r))) := by simp
    obtain ⟨hfl, hst⟩ := sep (s := w2 ++ (b ++ r)) hw1 ho
    rw [e]
    have hp := product_first hs hf h (by simp at hN; omega) hfl
    obtain ⟨t, rfl, htw, hnum⟩ : ∃ t, b = [t] ∧ t.kind ≠ .WS ∧ numberP (t :: r) = [(m, r)] := by
      cases hb with
      | numInt hb =>
        obtain ⟨t, rfl, h1, h2⟩ := reads_integer hb
        exact ⟨t, rfl, by rcases h1 with h | h <;> rw [h] <;> decide, numberP_int h1 h2⟩
      | numFloat h1 h2 => exact ⟨_, rfl, by rw [h1]; decide, numberP_float h1 h2⟩
    refine firstOf_or_right (noProduct (derives_of_reads h) hfl hst) (firstOf_or_left ?_)
    refine firstOf_bind_first hp (fun a r hr => ?_) ?_
    · rw [shiftSign_fail (Or.inl hr)]; rfl
    · rw [shiftSign_eq hw1 ho, List.singleton_append, shiftBlank_eq hw2 htw (numberP_ws _)]
      refine firstOf_map ?_
      rw [hnum]
      simp [firstOf, hr]
  | shiftTime h hw1 ho hw2 hb hl =>
    rename_i a w1 o w2 b l p
    have e : a ++ w1 ++ [o] ++ w2 ++ b ++ r = a ++ (w1 ++ o :: (w2 ++ (b ++ r))) := by simp
    obtain ⟨hfl, hst⟩ := sep (s := w2 ++ (b ++ r)) hw1 ho
    rw [e]
    have hp := product_first hs hf h (by simp at hN; omega) hfl
    obtain ⟨t, s, hbe, htw, htf⟩ := timestamp_head hb
    have ebr : b ++ r = t :: (s ++ r) := by rw [hbe]; rfl
    refine firstOf_or_right (noProduct (derives_of_reads h) hfl hst) (firstOf_or_right ?_ ?_)
    · apply firstOf_bind_none
      intro m r1 hm
      by_cases hfr : follow r1 = true
      · have := product_all hs (derives_of_reads h) hfl m r1 hm hfr
        subst this
        rw [shiftSign_eq hw1 ho, ebr, shiftBlank_eq hw2 htw (numberP_ws _)]
        rw [firstOf_none]
        rintro ⟨x, r2⟩ hx
        obtain ⟨⟨y, r3⟩, hy, he⟩ := List.mem_map.1 hx
        cases he
        obtain ⟨pre, e2, hd⟩ := sound_number _ _ _ hy
        cases hd with
        | numInt hd =>
          cases hd with
          | int h1 h2 =>
            cases e2
            cases s with
            | nil => exact absurd ⟨t, y, hbe, h1, h2⟩ hl
            | cons u s =>
              have hn := (neutral_timestamp hb u (by rw [hbe]; simp)).2.2.1
              simp [stop, hn]
        | numFloat h1 h2 => cases e2; exact absurd h1 htf
      · rw [shiftSign_fail (Or.inl (by simpa using hfr))]; rfl
    · refine firstOf_bind_first hp (fun a r hr => ?_) ?_
      · rw [shiftSign_fail (Or.inl hr)]; rfl
      · rw [shiftSign_eq hw1 ho, ebr, shiftBlank_eq hw2 htw (timestampP_ws _)]
        refine firstOf_map (f := timestampP) (g := fun t => Node.shift l (.unhandled t)) ?_
        rw [← ebr]
        exact timestamp_first hb hr
end

theorem shiftSpec_first (N : Nat) : ∀ a n r, Reads .shift a n → a.length ≤ N → stop r = true →
    firstOf stop (shiftSpecP (N + 1) (a ++ r)) = some (n, r) := by
  induction N with
  | zero =>
    intro a n r h hN hr
    refine shift_first (N := 0) (sound_shift 0) (fun a n r h' hl _ => ?_) h (by omega) hr
    exfalso
    have h0 : a = [] := List.length_eq_zero_iff.1 (Nat.le_zero.1 hl)
    subst h0
    have : ∀ {p m}, Reads (.product p) [] m → False := by
      intro p m h
      obtain ⟨q, a0, l0, c, he, h0, _⟩ := tail_of_reads h _ rfl
      obtain ⟨t, r, rfl, _⟩ := power_starts (derives_of_reads h0)
      cases he
    generalize he : ([] : List Token) = z at h'
    cases h' with
    | shiftProd h => subst he; exact this h
    | shiftNum h _ _ _ _ => simp at he
    | shiftTime h _ _ _ _ _ => simp at he
  | succ N ih =>
    intro a n r h hN hr
    exact shift_first (N := N) (sound_shift (N + 1)) ih h (by omega) hr

theorem not_derives_nil {nt : NT} {a : List Token} {n : Node} (h : Derives nt a n) : a ≠ [] := by
  induction h <;> simp_all

/-- **The parser computes the disambiguated reading.** -/
theorem parseTokens_iff (ts : List Token) (n : Node) :
    parseTokens ts = .ok n ↔ Reads .shift ts n ∨ (ts = [] ∧ n = .unhandled []) := by
  have first : ∀ n, Reads .shift ts n → parseTokens ts = .ok n := by
    intro n h
    have hfirst := shiftSpec_first ts.length ts n [] h (Nat.le_refl _) rfl
    rw [List.append_nil] at hfirst
    have := firstOf_weaken (q := List.isEmpty) hfirst (by intro r hr; rw [List.isEmpty_iff] at hr; subst hr; rfl) rfl
    unfold firstOf at this
    unfold parseTokens
    rw [this]
  constructor
  · intro h
    by_cases hr : ∃ m, Reads .shift ts m
    · obtain ⟨m, hm⟩ := hr
      have := first m hm
      rw [h] at this
      cases this
      exact Or.inl hm
    · right
      unfold parseTokens at h
      cases hf : (shiftSpecP (ts.length + 1) ts).find? (fun q => q.2.isEmpty) with
      | some x =>
        exfalso
        obtain ⟨m, r⟩ := x
        have h1 := List.mem_of_find?_eq_some hf
        have h2 := List.find?_some hf
        simp only [List.isEmpty_iff] at h2
        subst h2
        obtain ⟨pre, e, hd⟩ := sound_shift _ _ _ _ h1
        rw [List.append_nil] at e
        subst e
        obtain ⟨nt, m', he, hm⟩ := reads_of_derives hd
        cases nt <;> first | (cases he; done) | exact hr ⟨m', hm⟩
      | none =>
        rw [hf] at h
        simp only at h
        split at h
        · rename_i h0
          cases h
          exact ⟨List.isEmpty_iff.1 h0, rfl⟩
        · cases h
  · rintro (h | ⟨rfl, rfl⟩)
    · exact first n h
    · decide +kernel

theorem parseTokens_error (ts : List Token) (e : PyErr) : parseTokens ts = .error e ↔
    e = .syntaxError ∧ ts ≠ [] ∧ ∀ n, ¬ Derives .shift ts n := by
  have err : ∀ e, parseTokens ts = .error e → e = .syntaxError ∧ ts ≠ [] := by
    intro e h
    unfold parseTokens at h
    split at h
    · cases h
    · split at h
      · cases h
      · rename_i h0
        cases h
        exact ⟨rfl, fun h => h0 (List.isEmpty_iff.2 h)⟩
  constructor
  · intro h
    obtain ⟨h1, h2⟩ := err e h
    refine ⟨h1, h2, fun n hd => ?_⟩
    obtain ⟨nt, m', he, hm⟩ := reads_of_derives hd
    cases nt <;> first | (cases he; done) | skip
    rw [(parseTokens_iff ts m').2 (Or.inl hm)] at h
    cases h
  · rintro ⟨rfl, h2, h3⟩
    cases hp : parseTokens ts with
    | ok n =>
      exfalso
      rcases (parseTokens_iff ts n).1 hp with h | h
      · exact h3 n (derives_of_reads h)
      · exact h2 h.1
    | error e => rw [(err e hp).1]

end Verif

import Verif.Lemmas.ParserFirst
/-!
# Products and shifts: the parser returns the disambiguated reading
-/

namespace Verif

/-- the factors of a product after its first ones, from left to right -/
inductive Tail : Bool → Node → List Token → Node → Prop
  | nil {p l} : Tail p l [] l
  | juxt {p q l b r c n} : Reads (.power q) b r → (p = true → ¬ BareInt b) → Tail q (.mul l r) c n → Tail p l (b ++ c) n
  | mul {p q l o b r c n} : o.kind = .MULTIPLY → Reads (.power q) b r → Tail q (.mul l r) c n → Tail p l (o :: (b ++ c)) n
  | div {p q l o b r c n} : o.kind = .DIVIDE → Reads (.power q) b r → Tail q (.div l r) c n → Tail p l (o :: (b ++ c)) n
  | ws {p q l ws b r c n} : ws ≠ [] → (∀ t ∈ ws, t.kind = .WS) → Reads (.power q) b r → Tail q (.mul l r) c n →
      Tail p l (ws ++ (b ++ c)) n

/-- a reading is a first factor and a tail; the last factor's bareness is `q` -/
theorem tail_of_reads {nt : NT'} {a : List Token} {n : Node} (h : Reads nt a n) : ∀ q, nt = .product q →
    ∃ p a0 l0 c, a = a0 ++ c ∧ Reads (.power p) a0 l0 ∧ Tail p l0 c n ∧
      ∀ c' n', Tail q n c' n' → Tail p l0 (c ++ c') n' := by
  induction h with
  | prodPower h _ =>
    intro q hq
    cases hq
    exact ⟨_, _, _, [], by simp, h, .nil, fun c' n' h => h⟩
  | prodJuxt h1 h2 hb ih1 _ =>
    intro q hq
    cases hq
    obtain ⟨p, a0, l0, c, rfl, ha, ht, hc⟩ := ih1 _ rfl
    refine ⟨p, a0, l0, _, List.append_assoc .., ha, ?_, ?_⟩
    · have := hc _ _ (.juxt h2 hb .nil)
      simpa using this
    · intro c' n' h
      have := hc _ _ (.juxt h2 hb h)
      simpa using this
  | prodMul h1 ho h2 ih1 _ =>
    intro q hq
    cases hq
    obtain ⟨p, a0, l0, c, rfl, ha, ht, hc⟩ := ih1 _ rfl
    refine ⟨p, a0, l0, _, by rw [List.append_assoc, List.append_assoc], ha, ?_, ?_⟩
    · have := hc _ _ (.mul ho h2 .nil)
      simpa using this
    · intro c' n' h
      have := hc _ _ (.mul ho h2 h)
      simpa using this
  | prodDiv h1 ho h2 ih1 _ =>
    intro q hq
    cases hq
    obtain ⟨p, a0, l0, c, rfl, ha, ht, hc⟩ := ih1 _ rfl
    refine ⟨p, a0, l0, _, by rw [List.append_assoc, List.append_assoc], ha, ?_, ?_⟩
    · have := hc _ _ (.div ho h2 .nil)
      simpa using this
    · intro c' n' h
      have := hc _ _ (.div ho h2 h)
      simpa using this
  | prodWs h1 hw hw' h2 ih1 _ =>
    intro q hq
    cases hq
    obtain ⟨p, a0, l0, c, rfl, ha, ht, hc⟩ := ih1 _ rfl
    refine ⟨p, a0, l0, _, by rw [List.append_assoc, List.append_assoc], ha, ?_, ?_⟩
    · have := hc _ _ (.ws hw hw' h2 .nil)
      simpa using this
    · intro c' n' h
      have := hc _ _ (.ws hw hw' h2 h)
      simpa using this
  | _ => intro q hq; cases hq

theorem wsPlus_ne {t : Token} {r : List Token} (h : t.kind ≠ .WS) : wsPlus (t :: r) = [] := by
  simp [wsPlus, h]

/-- as many blanks as there are, first -/
theorem wsPlus_head {ws : List Token} {t : Token} {r : List Token} (h0 : ws ≠ []) (h : ∀ t ∈ ws, t.kind = .WS) (ht : t.kind ≠ .WS) :
    ∃ ys, wsPlus (ws ++ t :: r) = ((), t :: r) :: ys := by
  have go : ∀ ws : List Token, (∀ t ∈ ws, t.kind = .WS) → ∃ ys, wsPlus.go (ws ++ t :: r) = ((), t :: r) :: ys := by
    intro ws
    induction ws with
    | nil => intro _; exact ⟨[], by simp [wsPlus.go, ht]⟩
    | cons w ws ih =>
      intro h
      obtain ⟨ys, hy⟩ := ih fun u hu => h u (List.mem_cons_of_mem _ hu)
      exact ⟨ys ++ [((), w :: (ws ++ t :: r))], by rw [List.cons_append, wsPlus.go, if_pos (h w (List.mem_cons_self ..)), hy]; rfl⟩
  cases ws with
  | nil => exact absurd rfl h0
  | cons w ws =>
    obtain ⟨ys, hy⟩ := go ws fun u hu => h u (List.mem_cons_of_mem _ hu)
    exact ⟨ys, by simp only [List.cons_append, wsPlus, if_pos (h w (List.mem_cons_self ..)), hy]⟩

theorem starts_kind {t : Token} (h : Starts t) :
    t.kind ≠ .MULTIPLY ∧ t.kind ≠ .DIVIDE ∧ t.kind ≠ .WS ∧ t.kind ≠ .CLOSE_PAREN ∧ t.kind ≠ .SHIFT_OP ∧ t.kind ≠ .RAISE ∧
      t.kind ≠ .UNICODE_EXPONENT := by
  unfold Starts Token.isInt at h
  rcases h with h | h | (h | h) | h | h <;> rw [h] <;> decide

section
variable {sp : P Node} {N : Nat} (hs : Sound sp (Derives .shift))
  (hf : ∀ a n r, Reads .shift a n → a.length ≤ N → stop r = true → firstOf stop (sp (a ++ r)) = some (n, r))

include hs in
/-- nothing to multiply with before a closing bracket, a shift, the end or a raise sign -/
theorem factor_fail {l : Node} {r : List Token} (h : follow r = true ∨ ∃ u s, r = u :: s ∧ Raiser u) : factorP sp l r = [] := by
  have hst : ∀ t s, r = t :: s → ¬ Starts t ∧ t.kind ≠ .MULTIPLY ∧ t.kind ≠ .DIVIDE ∧
      (t.kind = .WS → ∃ u s', s = u :: s' ∧ u.kind = .SHIFT_OP) := by
    rintro t s rfl
    rcases h with h | ⟨u, s', h, hu⟩
    · rcases follow_cons h with hk | hk | ⟨hk, u, s', rfl, hu⟩
      · refine ⟨fun h => (starts_kind h).2.2.2.1 hk, by rw [hk]; decide, by rw [hk]; decide, by rw [hk]; intro h; cases h⟩
      · refine ⟨fun h => (starts_kind h).2.2.2.2.1 hk, by rw [hk]; decide, by rw [hk]; decide, by rw [hk]; intro h; cases h⟩
      · refine ⟨fun h => (starts_kind h).2.2.1 hk, by rw [hk]; decide, by rw [hk]; decide, fun _ => ⟨u, s', rfl, hu⟩⟩
    · cases h
      rcases hu with hk | hk
      · refine ⟨fun h => (starts_kind h).2.2.2.2.2.1 hk, by rw [hk]; decide, by rw [hk]; decide, by rw [hk]; intro h; cases h⟩
      · refine ⟨fun h => (starts_kind h).2.2.2.2.2.2 hk, by rw [hk]; decide, by rw [hk]; decide, by rw [hk]; intro h; cases h⟩
  have hp : powerP sp r = [] := power_fail hs fun t s h => (hst t s h).1
  unfold factorP P.or
  simp only [P.map, hp, List.map_nil, List.nil_append]
  cases r with
  | nil => rfl
  | cons t s =>
    obtain ⟨_, h2, h3, h4⟩ := hst t s rfl
    simp only [P.bind, tok_ne h2, tok_ne h3, List.flatMap_nil, List.nil_append]
    by_cases hw : t.kind = .WS
    · obtain ⟨u, s', rfl, hu⟩ := h4 hw
      have hn : u.kind ≠ .WS := by rw [hu]; decide
      have hpu : powerP sp (u :: s') = [] := power_fail hs fun t' s'' h => by
        cases h; exact fun h => (starts_kind h).2.2.2.2.1 hu
      simp [wsPlus, hw, wsPlus.go, hn, P.map, hpu]
    · rw [wsPlus_ne hw]; rfl

include hs in
theorem loop_raiser (k : Nat) (l : Node) {u : Token} {s : List Token} (hu : Raiser u) :
    firstOf follow (productLoop sp k l (u :: s)) = none := by
  have hnf : follow (u :: s) = false := by
    cases hc : follow (u :: s) with
    | false => rfl
    | true =>
      exfalso
      rcases follow_cons hc with h | h | ⟨h, _⟩ <;> rcases hu with hu | hu <;> rw [hu] at h <;> cases h
  cases k with
  | zero => simp [productLoop, P.pure, firstOf, hnf]
  | succ k =>
    unfold productLoop P.or
    rw [firstOf_append]
    simp only [P.bind, factor_fail hs (Or.inr ⟨u, s, rfl, hu⟩), List.flatMap_nil, P.pure]
    simp [firstOf, hnf]

/-- a bare factor is not followed by a bare integer -/
theorem tail_bad {l n : Node} {c r : List Token} (h : Tail true l c n) (hr : follow r = true) :
    ∀ t s', c ++ r = t :: s' → t.isInt → ∃ u s'', s' = u :: s'' ∧ Raiser u := by
  intro t s' he ht
  have hk : t.kind ≠ .MULTIPLY ∧ t.kind ≠ .DIVIDE ∧ t.kind ≠ .WS ∧ t.kind ≠ .CLOSE_PAREN ∧ t.kind ≠ .SHIFT_OP :=
    have := starts_kind (Or.inr (Or.inr (Or.inl ht)) : Starts t)
    ⟨this.1, this.2.1, this.2.2.1, this.2.2.2.1, this.2.2.2.2.1⟩
  cases h with
  | nil =>
    exfalso
    rw [List.nil_append] at he
    subst he
    rcases follow_cons hr with h | h | ⟨h, _⟩
    · exact hk.2.2.2.1 h
    · exact hk.2.2.2.2 h
    · exact hk.2.2.1 h
  | juxt h1 hb h2 =>
    obtain ⟨t', b', rfl, _⟩ := power_starts (derives_of_reads h1)
    simp at he
    obtain ⟨rfl, rfl⟩ := he
    have hb := hb rfl
    cases b' with
    | nil => exact absurd ht hb
    | cons u b' =>
      refine ⟨u, _, rfl, ?_⟩
      refine Classical.byContradiction fun hu => ?_
      unfold Raiser at hu
      simp only [not_or] at hu
      exact hb ⟨ht, hu.1, hu.2⟩
  | mul ho _ _ => simp at he; obtain ⟨rfl, _⟩ := he; exact absurd ho hk.1
  | div ho _ _ => simp at he; obtain ⟨rfl, _⟩ := he; exact absurd ho hk.2.1
  | ws h0 hw _ _ =>
    obtain ⟨w, ws', hwe⟩ := List.exists_cons_of_ne_nil h0
    subst hwe
    simp at he
    obtain ⟨rfl, _⟩ := he
    exact absurd (hw _ (List.mem_cons_self ..)) hk.2.2.1

theorem not_follow_of {t : Token} {r : List Token} (h1 : t.kind ≠ .CLOSE_PAREN) (h2 : t.kind ≠ .SHIFT_OP)
    (h3 : t.kind = .WS → ∀ u s, r = u :: s → u.kind ≠ .SHIFT_OP) : follow (t :: r) = false := by
  cases hc : follow (t :: r) with
  | false => rfl
  | true =>
    exfalso
    rcases follow_cons hc with h | h | ⟨h, u, s, he, hu⟩
    · exact h1 h
    · exact h2 h
    · exact h3 h u s he hu

include hs hf in
/-- the product loop reads the tail -/
theorem loop_first {p : Bool} {l n : Node} {c : List Token} (h : Tail p l c n) : ∀ (k : Nat) (r : List Token),
    c.length ≤ k → c.length ≤ N + 2 → follow r = true → firstOf follow (productLoop sp k l (c ++ r)) = some (n, r) := by
  have bad : ∀ {q : Bool} {l n : Node} {c r : List Token}, Tail q l c n → follow r = true →
      q = true → ∀ t s', c ++ r = t :: s' → t.isInt → ∃ u s'', s' = u :: s'' ∧ Raiser u := by
    intro q l n c r h hr hq
    subst hq
    exact tail_bad h hr
  induction h with
  | nil =>
    rename_i p l
    intro k r _ _ hr
    rw [List.nil_append]
    cases k with
    | zero => simp [productLoop, P.pure, firstOf, hr]
    | succ k =>
      unfold productLoop P.or
      simp only [P.bind, factor_fail hs (Or.inl hr), List.flatMap_nil, List.nil_append]
      simp [P.pure, firstOf, hr]
  | juxt h1 hb h2 ih =>
    rename_i p q l b r c n
    intro k s hk hN hs'
    obtain ⟨t, b', hbe, ht⟩ := power_starts (derives_of_reads h1)
    simp only [List.length_append] at hk hN
    cases k with
    | zero => exfalso; rw [hbe] at hk; simp at hk
    | succ k =>
      unfold productLoop
      refine firstOf_or_left ?_
      unfold factorP
      rw [bind_or, firstOf_append, bind_map, List.append_assoc]
      rw [power_first (m := r) (x := (n, s)) hs hf h1 (by omega)
        (ih k s (by rw [hbe] at hk; simp at hk; omega) (by omega) hs') (bad h2 hs')
        (fun n u s hu => loop_raiser hs k _ hu)]
      rfl
  | mul ho h1 h2 ih =>
    rename_i p q l o b r c n
    intro k s hk hN hs'
    simp only [List.length_append, List.length_cons] at hk hN
    have ns : ∀ t r', o :: (b ++ c ++ s) = t :: r' → ¬ Starts t := by
      intro t r' h; cases h; exact fun h => (starts_kind h).1 ho
    cases k with
    | zero => exfalso; omega
    | succ k =>
      unfold productLoop
      refine firstOf_or_left ?_
      unfold factorP
      rw [bind_or, firstOf_append, bind_map, List.cons_append]
      have e0 : P.bind (powerP sp) (fun a => productLoop sp k (l.mul a)) (o :: (b ++ c ++ s)) = [] := by
        simp only [P.bind, power_fail hs ns, List.flatMap_nil]
      rw [e0, bind_or, firstOf_append, bind_bind]
      rw [firstOf_bind_head (x := (n, s)) (tok_eq ho)]
      · rfl
      · rw [bind_map, List.append_assoc]
        exact power_first (m := r) hs hf h1 (by omega) (ih k s (by omega) (by omega) hs') (bad h2 hs')
          (fun n u s hu => loop_raiser hs k _ hu)
  | div ho h1 h2 ih =>
    rename_i p q l o b r c n
    intro k s hk hN hs'
    simp only [List.length_append, List.length_cons] at hk hN
    have ns : ∀ t r', o :: (b ++ c ++ s) = t :: r' → ¬ Starts t := by
      intro t r' h; cases h; exact fun h => (starts_kind h).2.1 ho
    cases k with
    | zero => exfalso; omega
    | succ k =>
      unfold productLoop
      refine firstOf_or_left ?_
      unfold factorP
      rw [bind_or, firstOf_append, bind_map, List.cons_append]
      have e0 : P.bind (powerP sp) (fun a => productLoop sp k (l.mul a)) (o :: (b ++ c ++ s)) = [] := by
        simp only [P.bind, power_fail hs ns, List.flatMap_nil]
      rw [e0, bind_or, firstOf_append, bind_bind]
      have e1 : P.bind (P.tok .MULTIPLY) (fun _ => P.bind (P.map (Node.mul l) (powerP sp)) (productLoop sp k)) (o :: (b ++ c ++ s)) = [] := by
        simp only [P.bind, tok_ne (show o.kind ≠ .MULTIPLY by rw [ho]; decide), List.flatMap_nil]
      rw [e1, bind_or, firstOf_append, bind_bind]
      rw [firstOf_bind_head (x := (n, s)) (tok_eq ho)]
      · rfl
      · rw [bind_map, List.append_assoc]
        exact power_first (m := r) hs hf h1 (by omega) (ih k s (by omega) (by omega) hs') (bad h2 hs')
          (fun n u s hu => loop_raiser hs k _ hu)
  | ws h0 hw h1 h2 ih =>
    rename_i p q l ws b r c n
    intro k s hk hN hs'
    simp only [List.length_append] at hk hN
    obtain ⟨t, b', hbe, ht⟩ := power_starts (derives_of_reads h1)
    have htw : t.kind ≠ .WS := (starts_kind ht).2.2.1
    obtain ⟨ys, hys⟩ := wsPlus_head (r := b' ++ (c ++ s)) h0 hw htw
    have e : ws ++ (b ++ c) ++ s = ws ++ t :: (b' ++ (c ++ s)) := by rw [hbe]; simp
    have hlen : 0 < ws.length := List.length_pos_iff.2 h0
    rw [e]
    cases ws with
    | nil => exact absurd rfl h0
    | cons w ws =>
      have hwk : w.kind = .WS := hw w (List.mem_cons_self ..)
      rw [List.cons_append] at hys ⊢
      have ns : ∀ t' r', w :: (ws ++ t :: (b' ++ (c ++ s))) = t' :: r' → ¬ Starts t' := by
        intro t r' h; cases h; exact fun h => (starts_kind h).2.2.1 hwk
      cases k with
      | zero => exfalso; omega
      | succ k =>
        unfold productLoop
        refine firstOf_or_left ?_
        unfold factorP
        rw [bind_or, firstOf_append, bind_map]
        have e0 : P.bind (powerP sp) (fun a => productLoop sp k (l.mul a)) (w :: (ws ++ t :: (b' ++ (c ++ s)))) = [] := by
          simp only [P.bind, power_fail hs ns, List.flatMap_nil]
        rw [e0, bind_or, firstOf_append, bind_bind]
        have e1 : P.bind (P.tok .MULTIPLY) (fun _ => P.bind (P.map (Node.mul l) (powerP sp)) (productLoop sp k)) (w :: (ws ++ t :: (b' ++ (c ++ s)))) = [] := by
          simp only [P.bind, tok_ne (show w.kind ≠ .MULTIPLY by rw [hwk]; decide), List.flatMap_nil]
        rw [e1, bind_or, firstOf_append, bind_bind]
        have e2 : P.bind (P.tok .DIVIDE) (fun _ => P.bind (P.map (Node.div l) (powerP sp)) (productLoop sp k)) (w :: (ws ++ t :: (b' ++ (c ++ s)))) = [] := by
          simp only [P.bind, tok_ne (show w.kind ≠ .DIVIDE by rw [hwk]; decide), List.flatMap_nil]
        rw [e2, bind_bind]
        rw [firstOf_bind_head (x := (n, s)) hys]
        · rfl
        · have e3 : t :: (b' ++ (c ++ s)) = b ++ (c ++ s) := by rw [hbe]; simp
          rw [bind_map, e3]
          exact power_first (m := r) hs hf h1 (by omega) (ih k s (by omega) (by omega) hs') (bad h2 hs')
            (fun n u s hu => loop_raiser hs k _ hu)

include hs hf in
theorem product_first {p : Bool} {a r : List Token} {n : Node} (h : Reads (.product p) a n) (hN : a.length ≤ N + 2)
    (hr : follow r = true) : firstOf follow (productP sp (a ++ r)) = some (n, r) := by
  obtain ⟨q, a0, l0, c, rfl, h0, ht, _⟩ := tail_of_reads h _ rfl
  unfold productP
  simp only [List.length_append] at hN
  rw [List.append_assoc]
  refine power_first (m := l0) hs hf h0 (by omega) (loop_first hs hf ht _ r (by simp; omega) (by omega) hr) ?_
    (fun n u s hu => loop_raiser hs _ _ hu)
  intro hq
  subst hq
  exact tail_bad ht hr

include hs in
theorem product_all {a r : List Token} {n : Node} (h : Derives .product a n) (hr : follow r = true) :
    ∀ m r', (m, r') ∈ productP sp (a ++ r) → follow r' = true → r' = r := by
  intro m r' hm hr'
  obtain ⟨pre, h1, h2⟩ := sound_product hs _ _ _ hm
  exact (product_unique h h2 h1 hr hr').symm
end

end Verif

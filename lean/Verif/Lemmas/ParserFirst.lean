import Verif.Lemmas.Grammar
import Verif.Lemmas.Parser
/-!
# The parser returns the disambiguated reading
-/

namespace Verif

/-! ## What may follow -/

/-- after a complete `shift_spec`: the end, or a closing bracket -/
def stop : List Token → Bool
  | [] => true
  | t :: _ => t.kind = .CLOSE_PAREN

/-- after a complete `product`: also an (optionally spaced) shift -/
def follow : List Token → Bool
  | [] => true
  | [t] => t.kind = .CLOSE_PAREN ∨ t.kind = .SHIFT_OP
  | t :: u :: _ => t.kind = .CLOSE_PAREN ∨ t.kind = .SHIFT_OP ∨ (t.kind = .WS ∧ u.kind = .SHIFT_OP)

theorem follow_of_stop {r : List Token} (h : stop r = true) : follow r = true := by
  match r with
  | [] => rfl
  | [t] => simp only [stop, decide_eq_true_eq] at h; simp [follow, h]
  | t :: u :: r => simp only [stop, decide_eq_true_eq] at h; simp [follow, h]

theorem follow_cons {t : Token} {r : List Token} (h : follow (t :: r) = true) :
    t.kind = .CLOSE_PAREN ∨ t.kind = .SHIFT_OP ∨ (t.kind = .WS ∧ ∃ u r', r = u :: r' ∧ u.kind = .SHIFT_OP) := by
  cases r with
  | nil => simp [follow] at h; exact h.imp id Or.inl
  | cons u r =>
    simp [follow] at h
    exact h.imp id fun h => h.imp id fun h => ⟨h.1, u, r, rfl, h.2⟩

theorem scan_close {sh : Bool} {t : Token} {x : List Token} (h : t.kind = .CLOSE_PAREN) : scan sh 0 (t :: x) = none := by
  rw [scan, if_neg (by rw [h]; decide), if_pos h, if_pos rfl]

theorem scan_shiftOp {t : Token} {x : List Token} (h : t.kind = .SHIFT_OP) : scan true 0 (t :: x) = none := by
  rw [scan, if_neg (by rw [h]; decide), if_neg (by rw [h]; decide), if_pos ⟨h, rfl, rfl⟩]

/-- one of two decompositions of a list is a refinement of the other -/
theorem append_cases {a r a' r' : List Token} (h : a ++ r = a' ++ r') :
    (∃ x, a' = a ++ x ∧ r = x ++ r') ∨ (∃ x, a = a' ++ x ∧ r' = x ++ r) := by
  rcases List.append_eq_append_iff.1 h with ⟨x, h1, h2⟩ | ⟨x, h1, h2⟩
  · exact Or.inl ⟨x, h1, h2⟩
  · exact Or.inr ⟨x, h1, h2⟩

/-- at most one prefix of a text is a complete `shift_spec` followed by the end or a closing bracket -/
theorem shift_unique {a a' r r' : List Token} {m m' : Node} (h : Derives .shift a m) (h' : Derives .shift a' m')
    (he : a ++ r = a' ++ r') (hr : stop r = true) (hr' : stop r' = true) : r = r' := by
  have key : ∀ {a x s s' : List Token} {m m' : Node}, Derives .shift a m → Derives .shift (a ++ x) m' → s = x ++ s' →
      stop s = true → x = [] := by
    intro a x s s' m m' h1 h2 hs hst
    cases x with
    | nil => rfl
    | cons t x =>
      exfalso
      subst hs
      simp [stop] at hst
      have e1 := scan_derives h1 false 0 fun _ => Or.inl rfl
      have e2 := scan_derives h2 false 0 fun _ => Or.inl rfl
      rw [scan_append, e1] at e2
      change scan false 0 (t :: x) = _ at e2
      rw [scan_close hst] at e2
      cases e2
  rcases append_cases he with ⟨x, rfl, hx⟩ | ⟨x, rfl, hx⟩
  · have := key h h' hx hr
    subst this; simpa using hx
  · have := key h' h hx hr'
    subst this; simpa using hx.symm

/-- the last token is not white space -/
def GoodEnd (a : List Token) : Prop := ∃ t, a.getLast? = some t ∧ t.kind ≠ .WS

theorem goodEnd_append {a b : List Token} (h : GoodEnd b) : GoodEnd (a ++ b) := by
  obtain ⟨t, h1, h2⟩ := h
  exact ⟨t, by rw [List.getLast?_append, h1]; rfl, h2⟩

theorem goodEnd_single {t : Token} (h : t.kind ≠ .WS) : GoodEnd [t] := ⟨t, rfl, h⟩

theorem goodEnd_derives {nt : NT} {a : List Token} {n : Node} (h : Derives nt a n) : nt ≠ .shift → GoodEnd a := by
  induction h with
  | int h1 h2 => intro _; exact goodEnd_single (by rcases h1 with h | h <;> rw [h] <;> decide)
  | numInt _ ih => intro _; exact ih (by decide)
  | numFloat h1 h2 => intro _; exact goodEnd_single (by rw [h1]; decide)
  | basicId h => intro _; exact goodEnd_single (by rw [h]; decide)
  | basicParen h1 h2 _ ih => intro _; exact goodEnd_append (goodEnd_single (by rw [h2]; decide))
  | basicNum _ ih => intro _; exact ih (by decide)
  | logBasic _ ih => intro _; exact ih (by decide)
  | logLog h1 h2 _ ih => intro _; exact goodEnd_append (goodEnd_single (by rw [h2]; decide))
  | powInt _ _ ih1 ih2 => intro _; exact goodEnd_append (ih2 (by decide))
  | powPlain _ ih => intro _; exact ih (by decide)
  | powRaise _ ho _ ih1 ih2 => intro _; exact goodEnd_append (ih2 (by decide))
  | powUni _ ho ih => intro _; exact goodEnd_append (goodEnd_single (by rw [ho]; decide))
  | prodPower _ ih => intro _; exact ih (by decide)
  | prodJuxt _ _ ih1 ih2 => intro _; exact goodEnd_append (ih2 (by decide))
  | prodMul _ ho _ ih1 ih2 => intro _; exact goodEnd_append (ih2 (by decide))
  | prodDiv _ ho _ ih1 ih2 => intro _; exact goodEnd_append (ih2 (by decide))
  | prodWs _ _ hw _ ih1 ih2 => intro _; exact goodEnd_append (ih2 (by decide))
  | shiftProd _ ih => intro h; exact absurd rfl h
  | shiftNum _ hw1 ho hw2 _ ih1 ih2 => intro h; exact absurd rfl h
  | shiftTime _ hw1 ho hw2 ht ih1 => intro h; exact absurd rfl h

/-- at most one prefix of a text is a complete product followed by something that may follow a product -/
theorem product_unique {a a' r r' : List Token} {m m' : Node} (h : Derives .product a m) (h' : Derives .product a' m')
    (he : a ++ r = a' ++ r') (hr : follow r = true) (hr' : follow r' = true) : r = r' := by
  have key : ∀ {a x s s' : List Token} {m m' : Node}, Derives .product a m → Derives .product (a ++ x) m' → s = x ++ s' →
      follow s = true → x = [] := by
    intro a x s s' m m' h1 h2 hs hst
    cases x with
    | nil => rfl
    | cons t x =>
      exfalso
      subst hs
      have e1 := scan_derives h1 true 0 (by intro h; cases h)
      have e2 := scan_derives h2 true 0 (by intro h; cases h)
      rw [scan_append, e1] at e2
      change scan true 0 (t :: x) = _ at e2
      rcases follow_cons hst with hk | hk | ⟨hk, u, r'', h3, h4⟩
      · rw [scan_close hk] at e2; cases e2
      · rw [scan_shiftOp hk] at e2; cases e2
      · cases x with
        | nil =>
          obtain ⟨v, g1, g2⟩ := goodEnd_derives h2 (by decide)
          simp at g1
          subst g1
          exact g2 hk
        | cons v x =>
          simp at h3
          obtain ⟨rfl, _⟩ := h3
          rw [scan, if_neg (by rw [hk]; decide), if_neg (by rw [hk]; decide), if_neg (by rw [hk]; simp), scan_shiftOp h4] at e2
          cases e2
  rcases append_cases he with ⟨x, rfl, hx⟩ | ⟨x, rfl, hx⟩
  · have := key h h' hx hr
    subst this; simpa using hx
  · have := key h' h hx hr'
    subst this; simpa using hx.symm

/-- at most one prefix of a text is a factor without exponent -/
theorem logarithm_unique {a a' r r' : List Token} {m m' : Node} (h : Derives .logarithm a m) (h' : Derives .logarithm a' m')
    (he : a ++ r = a' ++ r') : r = r' := by
  have clash : ∀ {t : Token}, (t.kind = .ID ∨ t.isInt ∨ t.kind = .FLOAT) → (t.kind = .OPEN_PAREN ∨ t.kind = .LOG) → False := by
    intro t h1 h2
    unfold Token.isInt at h1
    rcases h2 with h2 | h2 <;> rw [h2] at h1 <;> simp at h1
  rcases derives_logarithm h with ⟨t, rfl, ht⟩ | ⟨o, c, ts, n, rfl, ho, hc, hs⟩ <;>
  rcases derives_logarithm h' with ⟨t', rfl, ht'⟩ | ⟨o', c', ts', n', rfl, ho', hc', hs'⟩
  · simp at he; exact he.2
  · simp at he; obtain ⟨rfl, _⟩ := he; exact (clash ht ho').elim
  · simp at he; obtain ⟨rfl, _⟩ := he; exact (clash ht' ho).elim
  · simp at he
    obtain ⟨rfl, he⟩ := he
    have := shift_unique hs hs' he (by simp [stop, hc]) (by simp [stop, hc'])
    simp at this
    exact this.2

/-! ## First successes -/

section
variable {α β : Type}

/-- the first success whose remainder satisfies `q` -/
def firstOf (q : List Token → Bool) (xs : List (α × List Token)) : Option (α × List Token) := xs.find? fun x => q x.2

theorem firstOf_append (q : List Token → Bool) (xs ys : List (α × List Token)) :
    firstOf q (xs ++ ys) = (firstOf q xs).or (firstOf q ys) := List.find?_append

theorem firstOf_none {q : List Token → Bool} {xs : List (α × List Token)} :
    firstOf q xs = none ↔ ∀ x ∈ xs, q x.2 = false := by
  unfold firstOf
  rw [List.find?_eq_none]
  simp

theorem firstOf_or_left {q : List Token → Bool} {f g : P α} {ts : List Token} {x : α × List Token}
    (h : firstOf q (f ts) = some x) : firstOf q (P.or f g ts) = some x := by
  unfold P.or
  rw [firstOf_append, h]; rfl

theorem firstOf_or_right {q : List Token → Bool} {f g : P α} {ts : List Token} {x : Option (α × List Token)}
    (h0 : firstOf q (f ts) = none) (h : firstOf q (g ts) = x) : firstOf q (P.or f g ts) = x := by
  unfold P.or
  rw [firstOf_append, h0, h]; rfl

/-- binding: if the first success leads to a first success, that is it -/
theorem firstOf_bind_head {q : List Token → Bool} {f : P α} {k : α → P β} {ts r : List Token} {a : α}
    {ys : List (α × List Token)} {x : β × List Token} (h : f ts = (a, r) :: ys) (hk : firstOf q (k a r) = some x) :
    firstOf q (P.bind f k ts) = some x := by
  unfold P.bind
  rw [h, List.flatMap_cons, firstOf_append, hk]; rfl

theorem firstOf_bind_none {q : List Token → Bool} {f : P α} {k : α → P β} {ts : List Token}
    (h : ∀ a r, (a, r) ∈ f ts → firstOf q (k a r) = none) : firstOf q (P.bind f k ts) = none := by
  rw [firstOf_none]
  intro x hx
  obtain ⟨⟨a, r⟩, h1, h2⟩ := List.mem_flatMap.1 hx
  exact firstOf_none.1 (h a r h1) x h2

/-- binding to a continuation that only succeeds on remainders satisfying `q'` -/
theorem firstOf_bind_first {q q' : List Token → Bool} {f : P α} {k : α → P β} {ts r : List Token} {a : α}
    {x : β × List Token} (h : firstOf q' (f ts) = some (a, r))
    (hq : ∀ a r, q' r = false → firstOf q (k a r) = none) (hk : firstOf q (k a r) = some x) :
    firstOf q (P.bind f k ts) = some x := by
  unfold P.bind
  unfold firstOf at h
  rw [List.find?_eq_some_iff_append] at h
  obtain ⟨h1, as, bs, h2, h3⟩ := h
  rw [h2, List.flatMap_append, List.flatMap_cons, firstOf_append, firstOf_append, hk]
  have : firstOf q (as.flatMap fun x => k x.1 x.2) = none := by
    rw [firstOf_none]
    intro y hy
    obtain ⟨⟨a', r'⟩, hm, hy⟩ := List.mem_flatMap.1 hy
    have := h3 _ hm
    exact firstOf_none.1 (hq a' r' (by simpa using this)) y hy
  change ((firstOf q (as.flatMap fun x => k x.1 x.2)).or _) = _
  rw [this]; rfl
end


/-! ## Tokens -/

theorem tok_eq {k : Kind} {t : Token} {r : List Token} (h : t.kind = k) : P.tok k (t :: r) = [(t.text, r)] := by
  simp [P.tok, h]

theorem tok_ne {k : Kind} {t : Token} {r : List Token} (h : t.kind ≠ k) : P.tok k (t :: r) = [] := by
  simp [P.tok, h]

theorem tok_nil {k : Kind} : P.tok k [] = [] := rfl

theorem integerP_some {t : Token} {r : List Token} {n : Node} (h : t.isInt) (hn : intNode t.text = some n) :
    integerP (t :: r) = [(n, r)] := by
  rcases h with h | h <;> simp [integerP, P.conv, P.bind, P.or, P.tok, h, P.pure, hn]

theorem integerP_none {t : Token} {r : List Token} (h : ¬ t.isInt) : integerP (t :: r) = [] := by
  unfold Token.isInt at h
  simp only [not_or] at h
  simp [integerP, P.conv, P.bind, P.or, P.tok, h.1, h.2]

theorem integerP_nil : integerP [] = [] := rfl

theorem integerP_mem {ts r : List Token} {n : Node} (h : (n, r) ∈ integerP ts) : ∃ t, ts = t :: r ∧ t.isInt := by
  obtain ⟨pre, rfl, hd⟩ := sound_integer ts n r h
  cases hd with
  | int h1 h2 => exact ⟨_, rfl, h1⟩

theorem numberP_int {t : Token} {r : List Token} {n : Node} (h : t.isInt) (hn : intNode t.text = some n) :
    numberP (t :: r) = [(n, r)] := by
  unfold numberP P.or
  rw [integerP_some h hn]
  have : t.kind ≠ .FLOAT := by rcases h with h | h <;> rw [h] <;> decide
  simp [P.conv, P.bind, tok_ne this]

theorem numberP_float {t : Token} {r : List Token} {n : Node} (h : t.kind = .FLOAT) (hn : floatNode t.text = some n) :
    numberP (t :: r) = [(n, r)] := by
  unfold numberP P.or
  rw [integerP_none (by unfold Token.isInt; rw [h]; decide)]
  simp [P.conv, P.bind, tok_eq h, hn, P.pure]

theorem numberP_none {t : Token} {r : List Token} (h1 : ¬ t.isInt) (h2 : t.kind ≠ .FLOAT) : numberP (t :: r) = [] := by
  unfold numberP P.or
  rw [integerP_none h1]
  simp [P.conv, P.bind, tok_ne h2]

theorem bind_or {α β : Type} (f g : P α) (k : α → P β) (ts : List Token) :
    P.bind (P.or f g) k ts = P.bind f k ts ++ P.bind g k ts := by
  unfold P.bind P.or; rw [List.flatMap_append]

theorem bind_bind {α β γ : Type} (f : P α) (g : α → P β) (k : β → P γ) (ts : List Token) :
    P.bind (P.bind f g) k ts = P.bind f (fun a => P.bind (g a) k) ts := by
  unfold P.bind; rw [List.flatMap_assoc]

theorem bind_map {α β γ : Type} (f : P α) (g : α → β) (k : β → P γ) (ts : List Token) :
    P.bind (P.map g f) k ts = P.bind f (fun a => k (g a)) ts := by
  unfold P.bind P.map; rw [List.flatMap_map]

/-! ## Factors without exponent -/

section
variable {sp : P Node} {N : Nat} (hs : Sound sp (Derives .shift))
  (hf : ∀ a n r, Reads .shift a n → a.length ≤ N → stop r = true → firstOf stop (sp (a ++ r)) = some (n, r))

include hs in
theorem logarithm_all {g s : List Token} {l : Node} (h : Derives .logarithm g l) :
    ∀ y ∈ logarithmP sp (g ++ s), y.2 = s := by
  rintro ⟨a, r⟩ hm
  obtain ⟨pre, h1, h2⟩ := sound_logarithm hs _ _ _ hm
  exact (logarithm_unique h h2 h1).symm

include hs in
theorem logarithm_fail {s : List Token} (h : ∀ t r, s = t :: r → ¬ Starts t) : logarithmP sp s = [] := by
  rw [List.eq_nil_iff_forall_not_mem]
  rintro ⟨a, r⟩ hm
  obtain ⟨pre, h1, h2⟩ := sound_logarithm hs _ _ _ hm
  obtain ⟨t, r', rfl, ht⟩ := logarithm_starts h2
  exact h t _ h1 ht

include hf in
/-- the body of a bracket -/
theorem bracket_first {o c : Token} {ts s : List Token} {k : Kind} {m : Node} (F : Str → Node → Node)
    (ho : o.kind = k) (hc : c.kind = .CLOSE_PAREN)
    (h : Reads .shift ts m) (hN : ts.length ≤ N) :
    firstOf (fun _ => true) (P.bind (P.tok k) (fun x => P.bind sp fun n => P.map (fun _ => F x n) (P.tok .CLOSE_PAREN))
      (o :: (ts ++ c :: s))) = some (F o.text m, s) := by
  refine firstOf_bind_head (tok_eq ho) ?_
  refine firstOf_bind_first (hf ts m (c :: s) h hN (by simp [stop, hc])) ?_ ?_
  · intro a r hr
    cases r with
    | nil => cases hr
    | cons t r =>
      simp [stop] at hr
      simp [P.map, tok_ne hr, firstOf]
  · simp [P.map, tok_eq hc, firstOf]

include hf in
theorem logarithm_first {g s : List Token} {l : Node} (h : Reads .logarithm g l) (hN : g.length ≤ N + 2) :
    firstOf (fun _ => true) (logarithmP sp (g ++ s)) = some (l, s) := by
  rcases reads_logarithm h with ⟨t, rfl, h1, rfl⟩ | ⟨t, rfl, h1, h2⟩ | ⟨t, rfl, h1, h2⟩ | ⟨o, c, ts, rfl, h1, h2, h3⟩ |
    ⟨o, c, ts, m, rfl, h1, h2, h3, rfl⟩
  · refine firstOf_or_left (firstOf_or_left ?_)
    simp [P.map, tok_eq h1, firstOf]
  · have hk : t.kind ≠ .ID ∧ t.kind ≠ .OPEN_PAREN := by rcases h1 with h | h <;> rw [h] <;> decide
    refine firstOf_or_left (firstOf_or_right ?_ (firstOf_or_right ?_ ?_))
    · simp [P.map, tok_ne hk.1, firstOf]
    · simp [P.bind, tok_ne hk.2, firstOf]
    · rw [List.singleton_append, numberP_int h1 h2]; rfl
  · have hk : t.kind ≠ .ID ∧ t.kind ≠ .OPEN_PAREN := by rw [h1]; decide
    refine firstOf_or_left (firstOf_or_right ?_ (firstOf_or_right ?_ ?_))
    · simp [P.map, tok_ne hk.1, firstOf]
    · simp [P.bind, tok_ne hk.2, firstOf]
    · rw [List.singleton_append, numberP_float h1 h2]; rfl
  · have hk : o.kind ≠ .ID := by rw [h1]; decide
    have hl : ts.length ≤ N := by simp at hN; omega
    have e : [o] ++ ts ++ [c] ++ s = o :: (ts ++ c :: s) := by simp
    rw [e]
    refine firstOf_or_left (firstOf_or_right ?_ (firstOf_or_left ?_))
    · simp [P.map, tok_ne hk, firstOf]
    · exact bracket_first hf (fun _ n => n) h1 h2 h3 hl
  · have hl : ts.length ≤ N := by simp at hN; omega
    have e : [o] ++ ts ++ [c] ++ s = o :: (ts ++ c :: s) := by simp
    rw [e]
    refine firstOf_or_right ?_ ?_
    · have hk : o.kind ≠ .ID ∧ o.kind ≠ .OPEN_PAREN ∧ ¬ o.isInt ∧ o.kind ≠ .FLOAT := by
        unfold Token.isInt; rw [h1]; decide
      refine firstOf_or_right ?_ (firstOf_or_right ?_ ?_)
      · simp [P.map, tok_ne hk.1, firstOf]
      · simp [P.bind, tok_ne hk.2.1, firstOf]
      · rw [numberP_none hk.2.2.1 hk.2.2.2]; rfl
    · exact bracket_first hf (fun x n => Node.log (logName x) n) h1 h2 h3 hl

/-! ## Factors -/

include hs in
theorem power_fail {s : List Token} (h : ∀ t r, s = t :: r → ¬ Starts t) : powerP sp s = [] := by
  have := logarithm_fail hs h
  simp [powerP, P.or, P.bind, this]

/-- tokens that raise the factor before them -/
def Raiser (u : Token) : Prop := u.kind = .RAISE ∨ u.kind = .UNICODE_EXPONENT

include hs hf in
/-- the first factor of a text that reads as factor and continuation -/
theorem power_first {p : Bool} {b s : List Token} {m : Node} {K : Node → P Node} {x : Node × List Token}
    (h : Reads (.power p) b m) (hN : b.length ≤ N + 2)
    (hK : firstOf follow (K m s) = some x)
    (hbad : p = true → ∀ t s', s = t :: s' → t.isInt → ∃ u s'', s' = u :: s'' ∧ Raiser u)
    (hK' : ∀ n u s, Raiser u → firstOf follow (K n (u :: s)) = none) :
    firstOf follow (P.bind (powerP sp) K (b ++ s)) = some x := by
  unfold powerP
  rw [bind_or, bind_or, bind_or, firstOf_append, firstOf_append, firstOf_append, bind_bind, bind_bind, bind_bind]
  have nil_true : ∀ {f : P Node} {k : Node → P Node} {ts r : List Token} {a : Node} {y : Node × List Token},
      firstOf (fun _ => true) (f ts) = some (a, r) → firstOf follow (k a r) = some y →
      firstOf follow (P.bind f k ts) = some y := by
    intro f k ts r a y h1 h2
    exact firstOf_bind_first h1 (by intro _ _ h; cases h) h2
  cases h with
  | powInt h hi =>
    obtain ⟨t, rfl, ht, htn⟩ := reads_integer hi
    rename_i a l
    have hl := logarithm_first hf (s := t :: s) h (by simp at hN; omega)
    rw [List.append_assoc, List.singleton_append]
    rw [nil_true hl (y := x) (by rw [bind_map]; exact firstOf_bind_head (integerP_some ht htn) hK)]
    rfl
  | powPlain h =>
    have hl := logarithm_first hf (s := s) h hN
    have hall := logarithm_all hs (s := s) (derives_of_reads h)
    rw [firstOf_bind_none, Option.none_or, nil_true hl hK]
    · rfl
    · intro a r hm
      have := hall _ hm
      simp only at this
      subst this
      rw [bind_map]
      apply firstOf_bind_none
      intro n r' hm'
      obtain ⟨t, rfl, ht⟩ := integerP_mem hm'
      obtain ⟨u, s'', rfl, hu⟩ := hbad rfl t r' rfl ht
      exact hK' _ _ _ hu
  | powRaise h ho hi =>
    obtain ⟨t, rfl, ht, htn⟩ := reads_integer hi
    rename_i a o l r
    have hl := logarithm_first hf (s := o :: t :: s) h (by simp at hN; omega)
    have hall := logarithm_all hs (s := o :: t :: s) (derives_of_reads h)
    have e : a ++ [o] ++ [t] ++ s = a ++ o :: t :: s := by simp
    rw [e, firstOf_bind_none, Option.none_or, firstOf_bind_none, Option.none_or,
      nil_true hl (y := x) (by rw [bind_bind]; exact firstOf_bind_head (tok_eq ho) (by rw [bind_map]; exact firstOf_bind_head (integerP_some ht htn) hK))]
    · rfl
    · intro a r hm
      have := hall _ hm
      simp only at this
      subst this
      exact hK' _ _ _ (Or.inl ho)
    · intro a r hm
      have := hall _ hm
      simp only at this
      subst this
      rw [bind_map]
      apply firstOf_bind_none
      intro n r' hm'
      obtain ⟨t', h1, h2⟩ := integerP_mem hm'
      cases h1
      unfold Token.isInt at h2; rw [ho] at h2; simp at h2
  | powUni h ho =>
    rename_i a o l
    have hl := logarithm_first hf (s := o :: s) h (by simp at hN; omega)
    have hall := logarithm_all hs (s := o :: s) (derives_of_reads h)
    have e : a ++ [o] ++ s = a ++ o :: s := by simp
    rw [e, firstOf_bind_none, Option.none_or, firstOf_bind_none, Option.none_or, firstOf_bind_none, Option.none_or,
      nil_true hl (y := x) (by rw [bind_map]; exact firstOf_bind_head (tok_eq ho) hK)]
    · intro a r hm
      have := hall _ hm
      simp only at this
      subst this
      rw [bind_bind]
      simp [P.bind, tok_ne (show o.kind ≠ .RAISE by rw [ho]; decide), firstOf]
    · intro a r hm
      have := hall _ hm
      simp only at this
      subst this
      exact hK' _ _ _ (Or.inr ho)
    · intro a r hm
      have := hall _ hm
      simp only at this
      subst this
      rw [bind_map]
      apply firstOf_bind_none
      intro n r' hm'
      obtain ⟨t', h1, h2⟩ := integerP_mem hm'
      cases h1
      unfold Token.isInt at h2; rw [ho] at h2; simp at h2
end

end Verif

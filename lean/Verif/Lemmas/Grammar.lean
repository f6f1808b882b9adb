import Verif.Spec.Grammar
/-!
# The grammar: every derivable text has a disambiguated reading; brackets balance
-/

namespace Verif

/-- the rule of the grammar -/
def NT'.forget : NT' → NT
  | .shift => .shift | .product _ => .product | .power _ => .power | .logarithm => .logarithm | .basic => .basic
  | .number => .number | .integer => .integer

/-- the disambiguated grammar is a restriction of the grammar -/
theorem derives_of_reads {nt : NT'} {ts : List Token} {n : Node} (h : Reads nt ts n) : Derives nt.forget ts n := by
  induction h with
  | int h1 h2 => exact .int h1 h2
  | numInt _ ih => exact .numInt ih
  | numFloat h1 h2 => exact .numFloat h1 h2
  | basicId h => exact .basicId h
  | basicParen h1 h2 _ ih => exact .basicParen h1 h2 ih
  | basicNum _ ih => exact .basicNum ih
  | logBasic _ ih => exact .logBasic ih
  | logLog h1 h2 _ ih => exact .logLog h1 h2 ih
  | powInt _ _ ih1 ih2 => exact .powInt ih1 ih2
  | powPlain _ ih => exact .powPlain ih
  | powRaise _ h _ ih1 ih2 => exact .powRaise ih1 h ih2
  | powUni _ h ih => exact .powUni ih h
  | prodPower _ ih => exact .prodPower ih
  | prodJuxt _ _ _ ih1 ih2 => exact .prodJuxt ih1 ih2
  | prodMul _ h _ ih1 ih2 => exact .prodMul ih1 h ih2
  | prodDiv _ h _ ih1 ih2 => exact .prodDiv ih1 h ih2
  | prodWs _ h1 h2 _ ih1 ih2 => exact .prodWs ih1 h1 h2 ih2
  | shiftProd _ ih => exact .shiftProd ih
  | shiftNum _ h1 h2 h3 _ ih1 ih2 => exact .shiftNum ih1 h1 h2 h3 ih2
  | shiftTime _ h1 h2 h3 h4 _ ih => exact .shiftTime ih h1 h2 h3 h4

/-! ## First tokens -/

/-- tokens a factor can start with -/
def Starts (t : Token) : Prop :=
  t.kind = .ID ∨ t.kind = .OPEN_PAREN ∨ t.isInt ∨ t.kind = .FLOAT ∨ t.kind = .LOG

theorem reads_integer {a : List Token} {n : Node} (h : Reads .integer a n) :
    ∃ t, a = [t] ∧ t.isInt ∧ intNode t.text = some n := by
  cases h with
  | int h1 h2 => exact ⟨_, rfl, h1, h2⟩

/-- the shapes of a factor without exponent -/
theorem reads_logarithm {a : List Token} {l : Node} (h : Reads .logarithm a l) :
    (∃ t, a = [t] ∧ t.kind = .ID ∧ l = .ident t.text) ∨
    (∃ t, a = [t] ∧ t.isInt ∧ intNode t.text = some l) ∨
    (∃ t, a = [t] ∧ t.kind = .FLOAT ∧ floatNode t.text = some l) ∨
    (∃ o c ts, a = [o] ++ ts ++ [c] ∧ o.kind = .OPEN_PAREN ∧ c.kind = .CLOSE_PAREN ∧ Reads .shift ts l) ∨
    (∃ o c ts m, a = [o] ++ ts ++ [c] ∧ o.kind = .LOG ∧ c.kind = .CLOSE_PAREN ∧ Reads .shift ts m ∧
      l = .log (logName o.text) m) := by
  cases h with
  | logBasic h =>
    cases h with
    | basicId h => exact Or.inl ⟨_, rfl, h, rfl⟩
    | basicParen h1 h2 h3 => exact Or.inr (Or.inr (Or.inr (Or.inl ⟨_, _, _, rfl, h1, h2, h3⟩)))
    | basicNum h =>
      cases h with
      | numInt h =>
        cases h with
        | int h1 h2 => exact Or.inr (Or.inl ⟨_, rfl, h1, h2⟩)
      | numFloat h1 h2 => exact Or.inr (Or.inr (Or.inl ⟨_, rfl, h1, h2⟩))
  | logLog h1 h2 h3 => exact Or.inr (Or.inr (Or.inr (Or.inr ⟨_, _, _, _, rfl, h1, h2, h3, rfl⟩)))

/-- the shapes of a factor without exponent, in the ambiguous grammar -/
theorem derives_logarithm {a : List Token} {l : Node} (h : Derives .logarithm a l) :
    (∃ t, a = [t] ∧ (t.kind = .ID ∨ t.isInt ∨ t.kind = .FLOAT)) ∨
    (∃ o c ts m, a = [o] ++ ts ++ [c] ∧ (o.kind = .OPEN_PAREN ∨ o.kind = .LOG) ∧ c.kind = .CLOSE_PAREN ∧
      Derives .shift ts m) := by
  cases h with
  | logBasic h =>
    cases h with
    | basicId h => exact Or.inl ⟨_, rfl, Or.inl h⟩
    | basicParen h1 h2 h3 => exact Or.inr ⟨_, _, _, _, rfl, Or.inl h1, h2, h3⟩
    | basicNum h =>
      cases h with
      | numInt h =>
        cases h with
        | int h1 h2 => exact Or.inl ⟨_, rfl, Or.inr (Or.inl h1)⟩
      | numFloat h1 h2 => exact Or.inl ⟨_, rfl, Or.inr (Or.inr h1)⟩
  | logLog h1 h2 h3 => exact Or.inr ⟨_, _, _, _, rfl, Or.inr h1, h2, h3⟩

theorem logarithm_starts {a : List Token} {l : Node} (h : Derives .logarithm a l) : ∃ t r, a = t :: r ∧ Starts t := by
  rcases derives_logarithm h with ⟨t, rfl, h'⟩ | ⟨o, c, ts, m, rfl, h', _⟩
  · refine ⟨t, [], rfl, ?_⟩
    rcases h' with h | h | h
    · exact Or.inl h
    · exact Or.inr (Or.inr (Or.inl h))
    · exact Or.inr (Or.inr (Or.inr (Or.inl h)))
  · refine ⟨o, ts ++ [c], rfl, ?_⟩
    rcases h' with h | h
    · exact Or.inr (Or.inl h)
    · exact Or.inr (Or.inr (Or.inr (Or.inr h)))

theorem power_starts {a : List Token} {l : Node} (h : Derives .power a l) : ∃ t r, a = t :: r ∧ Starts t := by
  cases h with
  | powInt h _ => obtain ⟨t, r, rfl, h'⟩ := logarithm_starts h; exact ⟨t, _, rfl, h'⟩
  | powPlain h => exact logarithm_starts h
  | powRaise h _ _ => obtain ⟨t, r, rfl, h'⟩ := logarithm_starts h; exact ⟨t, _, rfl, h'⟩
  | powUni h _ => obtain ⟨t, r, rfl, h'⟩ := logarithm_starts h; exact ⟨t, _, rfl, h'⟩

/-- a factor starting with an integer is that integer -/
theorem logarithm_int {t : Token} {r : List Token} {l : Node} (h : Reads .logarithm (t :: r) l) (ht : t.isInt) :
    r = [] ∧ intNode t.text = some l := by
  rcases reads_logarithm h with ⟨t', h1, h2, _⟩ | ⟨t', h1, h2, h3⟩ | ⟨t', h1, h2, _⟩ | ⟨o, c, ts, h1, h2, _⟩ |
    ⟨o, c, ts, m, h1, h2, _⟩
  · cases h1; unfold Token.isInt at ht; rw [h2] at ht; simp at ht
  · cases h1; exact ⟨rfl, h3⟩
  · cases h1; unfold Token.isInt at ht; rw [h2] at ht; simp at ht
  · cases h1; unfold Token.isInt at ht; rw [h2] at ht; simp at ht
  · cases h1; unfold Token.isInt at ht; rw [h2] at ht; simp at ht

/-! ## From derivations to readings -/

/-- appending an integer to a product ending in a bare factor makes it that factor's exponent -/
theorem reads_close {a : List Token} {l : Node} {i : Token} {k : Node} (h : Reads (.product true) a l) (hi : i.isInt)
    (hk : intNode i.text = some k) : ∃ l', Reads (.product false) (a ++ [i]) l' := by
  have hpow : ∀ {b m}, Reads (.power true) b m → Reads (.power false) (b ++ [i]) (.raise m k) := by
    intro b m hb
    cases hb with
    | powPlain hb => exact .powInt hb (.int hi hk)
  cases h with
  | prodPower h => exact ⟨_, .prodPower (hpow h)⟩
  | prodJuxt h1 h2 hb =>
    rename_i a b l r p
    suffices hs : p = true → ¬ BareInt (b ++ [i]) from
      ⟨_, by rw [List.append_assoc]; exact .prodJuxt h1 (hpow h2) hs⟩
    intro hp hbare
    have hb := hb hp
    cases h2 with
    | powPlain h2 =>
      obtain ⟨t, s, rfl, hs⟩ := power_starts (.powPlain (derives_of_reads h2))
      have hint : t.isInt := by
        cases s with
        | nil => exact hbare.1
        | cons u s => exact hbare.1
      obtain ⟨rfl, _⟩ := logarithm_int h2 hint
      exact hb hint
  | prodMul h1 ho h2 =>
    have := Reads.prodMul h1 ho (hpow h2)
    exact ⟨_, by simpa using this⟩
  | prodDiv h1 ho h2 =>
    have := Reads.prodDiv h1 ho (hpow h2)
    exact ⟨_, by simpa using this⟩
  | prodWs h1 hw hw' h2 =>
    have := Reads.prodWs h1 hw hw' (hpow h2)
    exact ⟨_, by simpa using this⟩

/-- putting a factor next to a product -/
theorem reads_juxt {a b : List Token} {l r : Node} {p q : Bool} (h1 : Reads (.product p) a l) (h2 : Reads (.power q) b r) :
    ∃ p' l', Reads (.product p') (a ++ b) l' := by
  by_cases hp : p = true
  · subst hp
    by_cases hb : BareInt b
    · cases h2 with
      | powPlain h =>
        obtain ⟨t, s, rfl, _⟩ := logarithm_starts (derives_of_reads h)
        have hint : t.isInt := by
          cases s with
          | nil => exact hb
          | cons u s => exact hb.1
        obtain ⟨rfl, hk⟩ := logarithm_int h hint
        obtain ⟨l', h'⟩ := reads_close h1 hint hk
        exact ⟨_, _, h'⟩
      | powInt h hi =>
        obtain ⟨t, s, rfl, _⟩ := logarithm_starts (derives_of_reads h)
        obtain ⟨j, rfl, hj, hjk⟩ := reads_integer hi
        have hint : t.isInt := by
          cases s with
          | nil => exact hb.1
          | cons u s => exact hb.1
        obtain ⟨rfl, hk⟩ := logarithm_int h hint
        obtain ⟨l', h'⟩ := reads_close h1 hint hk
        have := Reads.prodJuxt (b := [j]) h' (.powPlain (.logBasic (.basicNum (.numInt (.int hj hjk))))) (by intro h; cases h)
        exact ⟨_, _, by simpa using this⟩
      | powRaise h ho hi =>
        exfalso
        obtain ⟨t, s, rfl, _⟩ := logarithm_starts (derives_of_reads h)
        have hint : t.isInt := by
          cases s with
          | nil => exact hb.1
          | cons u s => exact hb.1
        obtain ⟨rfl, hk⟩ := logarithm_int h hint
        exact hb.2.1 ho
      | powUni h ho =>
        exfalso
        obtain ⟨t, s, rfl, _⟩ := logarithm_starts (derives_of_reads h)
        have hint : t.isInt := by
          cases s with
          | nil => exact hb.1
          | cons u s => exact hb.1
        obtain ⟨rfl, hk⟩ := logarithm_int h hint
        exact hb.2.2 ho
    · exact ⟨_, _, .prodJuxt h1 h2 fun _ => hb⟩
  · exact ⟨_, _, .prodJuxt h1 h2 fun h => absurd h hp⟩

/-- every derivable token sequence has a disambiguated reading -/
theorem reads_of_derives {nt : NT} {ts : List Token} {n : Node} (h : Derives nt ts n) :
    ∃ nt' n', NT'.forget nt' = nt ∧ Reads nt' ts n' := by
  induction h with
  | int h1 h2 => exact ⟨.integer, _, rfl, .int h1 h2⟩
  | numInt _ ih =>
    obtain ⟨nt, n, he, h⟩ := ih
    cases nt <;> first | (cases he; done) | exact ⟨.number, _, rfl, .numInt h⟩
  | numFloat h1 h2 => exact ⟨.number, _, rfl, .numFloat h1 h2⟩
  | basicId h => exact ⟨.basic, _, rfl, .basicId h⟩
  | basicParen h1 h2 _ ih =>
    obtain ⟨nt, n, he, h⟩ := ih
    cases nt <;> first | (cases he; done) | exact ⟨.basic, _, rfl, .basicParen h1 h2 h⟩
  | basicNum _ ih =>
    obtain ⟨nt, n, he, h⟩ := ih
    cases nt <;> first | (cases he; done) | exact ⟨.basic, _, rfl, .basicNum h⟩
  | logBasic _ ih =>
    obtain ⟨nt, n, he, h⟩ := ih
    cases nt <;> first | (cases he; done) | exact ⟨.logarithm, _, rfl, .logBasic h⟩
  | logLog h1 h2 _ ih =>
    obtain ⟨nt, n, he, h⟩ := ih
    cases nt <;> first | (cases he; done) | exact ⟨.logarithm, _, rfl, .logLog h1 h2 h⟩
  | powInt _ _ ih1 ih2 =>
    obtain ⟨nt, n, he, h⟩ := ih1
    obtain ⟨nt2, n2, he2, h2⟩ := ih2
    cases nt <;> first | (cases he; done) | skip
    cases nt2 <;> first | (cases he2; done) | exact ⟨.power false, _, rfl, .powInt h h2⟩
  | powPlain _ ih =>
    obtain ⟨nt, n, he, h⟩ := ih
    cases nt <;> first | (cases he; done) | exact ⟨.power true, _, rfl, .powPlain h⟩
  | powRaise _ ho _ ih1 ih2 =>
    obtain ⟨nt, n, he, h⟩ := ih1
    obtain ⟨nt2, n2, he2, h2⟩ := ih2
    cases nt <;> first | (cases he; done) | skip
    cases nt2 <;> first | (cases he2; done) | exact ⟨.power false, _, rfl, .powRaise h ho h2⟩
  | powUni _ ho ih =>
    obtain ⟨nt, n, he, h⟩ := ih
    cases nt <;> first | (cases he; done) | exact ⟨.power false, _, rfl, .powUni h ho⟩
  | prodPower _ ih =>
    obtain ⟨nt, n, he, h⟩ := ih
    cases nt <;> first | (cases he; done) | exact ⟨.product _, _, rfl, .prodPower h⟩
  | prodJuxt _ _ ih1 ih2 =>
    obtain ⟨nt, n, he, h⟩ := ih1
    obtain ⟨nt2, n2, he2, h2⟩ := ih2
    cases nt <;> first | (cases he; done) | skip
    cases nt2 <;> first | (cases he2; done) | skip
    obtain ⟨p', l', h'⟩ := reads_juxt h h2
    exact ⟨.product p', l', rfl, h'⟩
  | prodMul _ ho _ ih1 ih2 =>
    obtain ⟨nt, n, he, h⟩ := ih1
    obtain ⟨nt2, n2, he2, h2⟩ := ih2
    cases nt <;> first | (cases he; done) | skip
    cases nt2 <;> first | (cases he2; done) | exact ⟨.product _, _, rfl, .prodMul h ho h2⟩
  | prodDiv _ ho _ ih1 ih2 =>
    obtain ⟨nt, n, he, h⟩ := ih1
    obtain ⟨nt2, n2, he2, h2⟩ := ih2
    cases nt <;> first | (cases he; done) | skip
    cases nt2 <;> first | (cases he2; done) | exact ⟨.product _, _, rfl, .prodDiv h ho h2⟩
  | prodWs _ hw hw' _ ih1 ih2 =>
    obtain ⟨nt, n, he, h⟩ := ih1
    obtain ⟨nt2, n2, he2, h2⟩ := ih2
    cases nt <;> first | (cases he; done) | skip
    cases nt2 <;> first | (cases he2; done) | exact ⟨.product _, _, rfl, .prodWs h hw hw' h2⟩
  | shiftProd _ ih =>
    obtain ⟨nt, n, he, h⟩ := ih
    cases nt <;> first | (cases he; done) | exact ⟨.shift, _, rfl, .shiftProd h⟩
  | shiftNum _ h1 h2 h3 _ ih1 ih2 =>
    obtain ⟨nt, n, he, h⟩ := ih1
    obtain ⟨nt2, n2, he2, h2'⟩ := ih2
    cases nt <;> first | (cases he; done) | skip
    cases nt2 <;> first | (cases he2; done) | exact ⟨.shift, _, rfl, .shiftNum h h1 h2 h3 h2'⟩
  | shiftTime _ h1 h2 h3 h4 ih =>
    rename_i a w1 o w2 b l ha
    obtain ⟨nt, n, he, h⟩ := ih
    cases nt <;> first | (cases he; done) | skip
    by_cases hb : LoneNumber b
    · obtain ⟨t, m, rfl, ht, hm⟩ := hb
      exact ⟨.shift, _, rfl, .shiftNum h h1 h2 h3 (.numInt (.int ht hm))⟩
    · exact ⟨.shift, _, rfl, .shiftTime h h1 h2 h3 h4 hb⟩

/-! ## Brackets balance -/

/-- bracket depth after the tokens; fails at a closing bracket at depth 0 and, if `sh`, at a shift at depth 0 -/
def scan (sh : Bool) : Nat → List Token → Option Nat
  | d, [] => some d
  | d, t :: ts =>
    if t.kind = .OPEN_PAREN ∨ t.kind = .LOG then scan sh (d + 1) ts
    else if t.kind = .CLOSE_PAREN then
      if d = 0 then none else scan sh (d - 1) ts
    else if t.kind = .SHIFT_OP ∧ sh = true ∧ d = 0 then none
    else scan sh d ts

theorem scan_append (sh : Bool) (a b : List Token) : ∀ d, scan sh d (a ++ b) = (scan sh d a).bind fun d => scan sh d b := by
  induction a with
  | nil => intro d; rfl
  | cons t a ih =>
    intro d
    rw [List.cons_append, scan, scan]
    split
    · exact ih _
    · split
      · split
        · rfl
        · exact ih _
      · split
        · rfl
        · exact ih _

/-- neutral tokens -/
def Neutral (t : Token) : Prop :=
  t.kind ≠ .OPEN_PAREN ∧ t.kind ≠ .LOG ∧ t.kind ≠ .CLOSE_PAREN ∧ t.kind ≠ .SHIFT_OP

theorem scan_neutral {sh : Bool} {ts : List Token} (h : ∀ t ∈ ts, Neutral t) (d : Nat) : scan sh d ts = some d := by
  induction ts with
  | nil => rfl
  | cons t ts ih =>
    obtain ⟨h1, h2, h3, h4⟩ := h t (List.mem_cons_self ..)
    rw [scan, if_neg (by simp [h1, h2]), if_neg h3, if_neg (by simp [h4])]
    exact ih fun u hu => h u (List.mem_cons_of_mem _ hu)

theorem neutral_int {t : Token} (h : t.isInt) : Neutral t := by
  unfold Neutral
  rcases h with h | h <;> rw [h] <;> decide

theorem neutral_of {t : Token} {k : Kind} (h : t.kind = k) (hk : k ≠ .OPEN_PAREN ∧ k ≠ .LOG ∧ k ≠ .CLOSE_PAREN ∧ k ≠ .SHIFT_OP) :
    Neutral t := by
  unfold Neutral; rw [h]; exact hk

theorem neutral_optWs {w : List Token} (h : OptWs w) : ∀ t ∈ w, Neutral t := by
  rcases h with rfl | ⟨t, rfl, h⟩
  · intro t ht; cases ht
  · intro u hu; cases List.mem_singleton.1 hu; exact neutral_of h (by decide)

theorem neutral_opt {p : Token → Prop} (hp : ∀ t, p t → Neutral t) {w : List Token} (h : OptTok p w) : ∀ t ∈ w, Neutral t := by
  rcases h with rfl | ⟨t, rfl, h⟩
  · intro t ht; cases ht
  · intro u hu; cases List.mem_singleton.1 hu; exact hp _ h

theorem neutral_dateOrInt {t : Token} (h : isDateOrInt t) : Neutral t := by
  rcases h with h | h
  · exact neutral_of h (by decide)
  · exact neutral_int h

theorem neutral_clock {t : Token} (h : isClock t) : Neutral t := by
  rcases h with h | h | h
  · exact neutral_of h (by decide)
  · exact neutral_of h (by decide)
  · exact neutral_int h

theorem neutral_tz {t : Token} (h : isTz t) : Neutral t := by
  rcases h with h | h | h
  · exact neutral_of h (by decide)
  · exact neutral_int h
  · exact neutral_of h (by decide)

theorem neutral_ws {t : Token} (h : t.kind = .WS) : Neutral t := neutral_of h (by decide)

theorem neutral_timestamp {b : List Token} (h : Timestamp b) : ∀ t ∈ b, Neutral t := by
  have single : ∀ {t : Token}, Neutral t → ∀ u ∈ [t], Neutral u := by
    intro t ht u hu; cases List.mem_singleton.1 hu; exact ht
  have app : ∀ {x y : List Token}, (∀ t ∈ x, Neutral t) → (∀ t ∈ y, Neutral t) → ∀ t ∈ x ++ y, Neutral t := by
    intro x y hx hy t ht
    rcases List.mem_append.1 ht with h | h
    · exact hx t h
    · exact hy t h
  cases h with
  | date h => exact single (neutral_dateOrInt h)
  | clock h1 h2 h3 h4 h5 =>
    exact app (app (app (app (single (neutral_dateOrInt h1)) (neutral_opt (fun t h => h.elim neutral_ws fun h => neutral_of h (by decide)) h2))
      (single (neutral_clock h3))) (neutral_opt (fun _ h => neutral_ws h) h4)) (neutral_opt (fun _ h => neutral_tz h) h5)
  | packed h1 h2 => exact app (single (neutral_int h1)) (neutral_opt (fun _ h => neutral_tz h) h2)
  | stamp h1 h2 h3 =>
    exact app (app (single (neutral_of h1 (by decide))) (neutral_opt (fun _ h => neutral_ws h) h2)) (neutral_opt (fun _ h => neutral_tz h) h3)
  | zone h1 h2 h3 =>
    exact app (app (single (neutral_dateOrInt h1)) (neutral_opt (fun _ h => neutral_ws h) h2))
      (single (h3.elim (fun h => neutral_of h (by decide)) (fun h => neutral_of h (by decide))))

theorem timestamp_ne_nil {b : List Token} (h : Timestamp b) : b ≠ [] := by
  cases h <;> simp

theorem scan_single {sh : Bool} {t : Token} (h : Neutral t) (d : Nat) : scan sh d [t] = some d :=
  scan_neutral (fun u hu => by cases List.mem_singleton.1 hu; exact h) d

theorem scan_bracket {sh : Bool} {o c : Token} {ts : List Token} {d : Nat} (ho : o.kind = .OPEN_PAREN ∨ o.kind = .LOG)
    (hc : c.kind = .CLOSE_PAREN) (h : scan sh (d + 1) ts = some (d + 1)) : scan sh d ([o] ++ ts ++ [c]) = some d := by
  rw [List.append_assoc, List.singleton_append, scan, if_pos ho, scan_append, h]
  change scan sh (d + 1) [c] = _
  rw [scan, if_neg (by rw [hc]; decide), if_pos hc, if_neg (Nat.succ_ne_zero d)]
  rfl

/-- derivable sequences are balanced, and shifts occur outside brackets only in `shift_spec` -/
theorem scan_derives {nt : NT} {ts : List Token} {n : Node} (h : Derives nt ts n) :
    ∀ sh d, (nt = .shift → sh = false ∨ d ≠ 0) → scan sh d ts = some d := by
  induction h with
  | int h1 h2 => intro sh d _; exact scan_single (neutral_int h1) d
  | numInt _ ih => intro sh d _; exact ih sh d (by intro h; cases h)
  | numFloat h1 h2 => intro sh d _; exact scan_single (neutral_of h1 (by decide)) d
  | basicId h => intro sh d _; exact scan_single (neutral_of h (by decide)) d
  | basicParen h1 h2 _ ih => intro sh d _; exact scan_bracket (Or.inl h1) h2 (ih sh (d + 1) fun _ => Or.inr (Nat.succ_ne_zero d))
  | basicNum _ ih => intro sh d _; exact ih sh d (by intro h; cases h)
  | logBasic _ ih => intro sh d _; exact ih sh d (by intro h; cases h)
  | logLog h1 h2 _ ih => intro sh d _; exact scan_bracket (Or.inr h1) h2 (ih sh (d + 1) fun _ => Or.inr (Nat.succ_ne_zero d))
  | powInt _ _ ih1 ih2 =>
    intro sh d _
    rw [scan_append, ih1 sh d (by intro h; cases h)]
    exact ih2 sh d (by intro h; cases h)
  | powPlain _ ih => intro sh d _; exact ih sh d (by intro h; cases h)
  | powRaise _ ho _ ih1 ih2 =>
    intro sh d _
    rw [scan_append, scan_append, ih1 sh d (by intro h; cases h)]
    change (scan sh d _).bind _ = _
    rw [scan_single (neutral_of ho (by decide))]
    exact ih2 sh d (by intro h; cases h)
  | powUni _ ho ih =>
    intro sh d _
    rw [scan_append, ih sh d (by intro h; cases h)]
    exact scan_single (neutral_of ho (by decide)) d
  | prodPower _ ih => intro sh d _; exact ih sh d (by intro h; cases h)
  | prodJuxt _ _ ih1 ih2 =>
    intro sh d _
    rw [scan_append, ih1 sh d (by intro h; cases h)]
    exact ih2 sh d (by intro h; cases h)
  | prodMul _ ho _ ih1 ih2 =>
    intro sh d _
    rw [scan_append, scan_append, ih1 sh d (by intro h; cases h)]
    change (scan sh d _).bind _ = _
    rw [scan_single (neutral_of ho (by decide))]
    exact ih2 sh d (by intro h; cases h)
  | prodDiv _ ho _ ih1 ih2 =>
    intro sh d _
    rw [scan_append, scan_append, ih1 sh d (by intro h; cases h)]
    change (scan sh d _).bind _ = _
    rw [scan_single (neutral_of ho (by decide))]
    exact ih2 sh d (by intro h; cases h)
  | prodWs _ _ hw _ ih1 ih2 =>
    intro sh d _
    rw [scan_append, scan_append, ih1 sh d (by intro h; cases h)]
    change (scan sh d _).bind _ = _
    rw [scan_neutral fun t ht => neutral_ws (hw t ht)]
    exact ih2 sh d (by intro h; cases h)
  | shiftProd _ ih => intro sh d _; exact ih sh d (by intro h; cases h)
  | shiftNum _ hw1 ho hw2 _ ih1 ih2 =>
    intro sh d hd
    have hd := hd rfl
    rw [scan_append, scan_append, scan_append, scan_append, ih1 sh d (by intro h; cases h)]
    change ((((scan sh d _).bind _).bind _).bind _) = _
    rw [scan_neutral (neutral_optWs hw1)]
    change (((scan sh d _).bind _).bind _) = _
    rw [scan, if_neg (by rw [ho]; decide), if_neg (by rw [ho]; decide), if_neg ?_, scan]
    · change ((scan sh d _).bind _) = _
      rw [scan_neutral (neutral_optWs hw2)]
      exact ih2 sh d (by intro h; cases h)
    · rintro ⟨_, h1, h2⟩
      rcases hd with h | h
      · rw [h] at h1; cases h1
      · exact h h2
  | shiftTime _ hw1 ho hw2 ht ih1 =>
    intro sh d hd
    have hd := hd rfl
    rw [scan_append, scan_append, scan_append, scan_append, ih1 sh d (by intro h; cases h)]
    change ((((scan sh d _).bind _).bind _).bind _) = _
    rw [scan_neutral (neutral_optWs hw1)]
    change (((scan sh d _).bind _).bind _) = _
    rw [scan, if_neg (by rw [ho]; decide), if_neg (by rw [ho]; decide), if_neg ?_, scan]
    · change ((scan sh d _).bind _) = _
      rw [scan_neutral (neutral_optWs hw2)]
      exact scan_neutral (neutral_timestamp ht) d
    · rintro ⟨_, h1, h2⟩
      rcases hd with h | h
      · rw [h] at h1; cases h1
      · exact h h2

end Verif

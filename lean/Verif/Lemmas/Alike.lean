import Verif.Lemmas.Equality
import Verif.Lemmas.PrintParse
/-!
# Expressions that differ only in how numbers are spelled
-/

namespace Verif
open Spec (IntLiteral IdentWord DateText Printable respell respellNum Level decInt)

/-- the same expression, numbers possibly spelled differently -/
inductive Alike : Node → Node → Prop
  | refl (e) : Alike e e
  | num {v v' r r'} : v.toRat = v'.toRat → Alike (.number v r) (.number v' r')
  | mul {a a' b b'} : Alike a a' → Alike b b' → Alike (.mul a b) (.mul a' b')
  | div {a a' b b'} : Alike a a' → Alike b b' → Alike (.div a b) (.div a' b')
  | raise {a a' i r r'} : Alike a a' → Alike (.raise a (.number (.int i) r)) (.raise a' (.number (.int i) r'))
  | shift {a a' b b'} : Alike a a' → Alike b b' → Alike (.shift a b) (.shift a' b')
  | log {fn a a'} : Alike a a' → Alike (.log fn a) (.log fn a')

theorem alike_dimCount {a b : Node} (h : Alike a b) : a.dimCount = b.dimCount := by
  induction h with
  | refl => rfl
  | num => rfl
  | mul _ _ h1 h2 => simp only [Node.dimCount, h1, h2]
  | div _ _ h1 h2 => simp only [Node.dimCount, h1, h2]
  | raise _ h1 => simp only [Node.dimCount, h1]
  | shift _ _ h1 _ => simp only [Node.dimCount, h1]
  | log _ h1 => simp only [Node.dimCount, h1]

theorem alike_toMono {a b : Node} (h : Alike a b) : a.toMono = b.toMono := by
  induction h with
  | refl => rfl
  | num h => simp only [Node.toMono, h]
  | mul _ _ h1 h2 => simp only [Node.toMono, h1, h2]
  | div _ _ h1 h2 => simp only [Node.toMono, h1, h2]
  | raise _ h1 => simp only [Node.toMono, h1, Node.asExponent]
  | shift => rfl
  | log => rfl

/-- transformations that differ only in how numbers are spelled -/
inductive AlikeT : Trans → Trans → Prop
  | value : AlikeT .value .value
  | shift {t t' f f'} : AlikeT t t' → Alike f f' → AlikeT (.shift t f) (.shift t' f')
  | mulR {t t' d d'} : AlikeT t t' → Alike d d' → AlikeT (.mulR t d) (.mulR t' d')
  | mulL {t t' d d'} : Alike d d' → AlikeT t t' → AlikeT (.mulL d t) (.mulL d' t')
  | log {fn t t'} : AlikeT t t' → AlikeT (.log fn t) (.log fn t')

theorem AlikeT.refl : ∀ t, AlikeT t t
  | .value => .value
  | .shift t f => .shift (AlikeT.refl t) (.refl f)
  | .mulR t d => .mulR (AlikeT.refl t) (.refl d)
  | .mulL d t => .mulL (.refl d) (AlikeT.refl t)
  | .log _ t => .log (AlikeT.refl t)

theorem alikeT_ops {a b : Trans} (h : AlikeT a b) : a.ops = b.ops := by
  induction h with
  | value => rfl
  | shift _ hf h1 =>
    simp only [Trans.ops, h1]
    cases hf with
    | num hv => simp only [hv]
    | _ => rfl
  | mulR _ hd h1 => simp only [Trans.ops, h1, alike_toMono hd]
  | mulL hd _ h1 => simp only [Trans.ops, h1, alike_toMono hd]
  | log _ h1 => simp only [Trans.ops, h1]

/-- optional transformations -/
inductive AlikeO : Option Trans → Option Trans → Prop
  | none : AlikeO .none .none
  | some {t t'} : AlikeT t t' → AlikeO (.some t) (.some t')

theorem AlikeO.orValue {a b : Option Trans} (h : AlikeO a b) : AlikeT (Trans.orValue a) (Trans.orValue b) := by
  cases h with
  | none => exact .value
  | some h => exact h

/-- results of `SplitExpr` -/
inductive AlikeS : Py (Option Trans × Node) → Py (Option Trans × Node) → Prop
  | error (e) : AlikeS (.error e) (.error e)
  | ok {t t' d d'} : AlikeO t t' → Alike d d' → AlikeS (.ok (t, d)) (.ok (t', d'))

theorem AlikeS.refl (a : Py (Option Trans × Node)) : AlikeS a a := by
  cases a with
  | error e => exact .error e
  | ok p =>
    obtain ⟨t, d⟩ := p
    refine .ok ?_ (.refl d)
    cases t with
    | none => exact .none
    | some t => exact .some (.refl t)

theorem alike_split {a b : Node} (h : Alike a b) : ∀ root, AlikeS (a.split root) (b.split root) := by
  induction h with
  | refl e => intro root; exact .refl _
  | num h => intro root; exact .ok .none (.num h)
  | @mul a a' b b' _ _ h1 h2 =>
    intro root
    simp only [Node.split]
    have h1 := h1 false
    have h2 := h2 false
    generalize a.split false = x at *
    generalize a'.split false = x' at *
    generalize b.split false = y at *
    generalize b'.split false = y' at *
    cases h1 with
    | error e => exact .error e
    | ok ht hd =>
      cases h2 with
      | error e => exact .error e
      | ok ht' hd' =>
        cases ht with
        | none =>
          cases ht' with
          | none => exact .ok .none (.mul hd hd')
          | some ht' => exact .ok (.some (.mulL hd ht')) hd'
        | some ht =>
          cases ht' with
          | none => exact .ok (.some (.mulR ht hd')) hd
          | some ht' => exact .error _
  | @div a a' b b' _ _ h1 h2 =>
    intro root
    simp only [Node.split]
    have h1 := h1 false
    have h2 := h2 false
    generalize a.split false = x at *
    generalize a'.split false = x' at *
    generalize b.split false = y at *
    generalize b'.split false = y' at *
    cases h1 with
    | error e => exact .error e
    | ok ht hd =>
      cases h2 with
      | error e => exact .error e
      | ok ht' hd' =>
        cases ht with
        | none => exact .ok ht' (.div hd hd')
        | some ht =>
          cases ht' with
          | none => exact .ok (.some ht) (.div hd hd')
          | some ht' => exact .error _
  | @raise a a' i r r' _ h1 =>
    intro root
    simp only [Node.split]
    have h1 := h1 false
    generalize a.split false = x at *
    generalize a'.split false = x' at *
    cases h1 with
    | error e => exact .error e
    | ok ht hd => exact .ok ht (.raise hd)
  | @shift a a' b b' _ hb h1 _ =>
    intro root
    simp only [Node.split]
    have h1 := h1 false
    generalize a.split false = x at *
    generalize a'.split false = x' at *
    cases h1 with
    | error e => exact .error e
    | ok ht hd =>
      cases root with
      | true => exact .ok (.some (.shift ht.orValue hb)) hd
      | false => exact .ok (.some ht.orValue) hd
  | @log fn a a' _ h1 =>
    intro root
    simp only [Node.split]
    have h1 := h1 false
    generalize a.split false = x at *
    generalize a'.split false = x' at *
    cases h1 with
    | error e => exact .error e
    | ok ht hd => exact .ok (.some (.log ht.orValue)) hd

theorem alike_symDef {a b : Node} (h : Alike a b) : a.symDef = b.symDef := by
  unfold Node.symDef
  have hs := alike_split h true
  generalize a.split true = x at *
  generalize b.split true = y at *
  cases hs with
  | error e => rfl
  | ok ht hd =>
    cases ht with
    | none => simp only [bind, Except.bind, alike_toMono hd]
    | some ht => simp only [bind, Except.bind, alike_toMono hd, alikeT_ops ht]

theorem alike_unitDims {a b : Node} (h : Alike a b) (look : Str → Option (Py (Option Dims))) : unitDims look a = unitDims look b := by
  unfold unitDims
  have hs := alike_split h true
  generalize a.split true = x at *
  generalize b.split true = y at *
  cases hs with
  | error e => rfl
  | ok ht hd => simp only [bind, Except.bind, alike_dimCount hd]

theorem alike_substitute {subs subs' : Dict Str Node} (hs : ∀ n, Dict.get n subs = Dict.get n subs') {a b : Node} (h : Alike a b) :
    Alike (a.substitute subs) (b.substitute subs') := by
  have hrefl : ∀ e : Node, e.substitute subs = e.substitute subs' := by
    intro e
    induction e with
    | ident n => simp only [Node.substitute, hs]
    | number => rfl
    | unhandled => rfl
    | mul l r h1 h2 => simp only [Node.substitute, h1, h2]
    | div l r h1 h2 => simp only [Node.substitute, h1, h2]
    | raise l r h1 h2 => simp only [Node.substitute, h1, h2]
    | shift l r h1 h2 => simp only [Node.substitute, h1, h2]
    | log fn t h => simp only [Node.substitute, h]
  induction h with
  | refl e => rw [hrefl]; exact .refl _
  | num h => exact .num h
  | mul _ _ h1 h2 => exact .mul h1 h2
  | div _ _ h1 h2 => exact .div h1 h2
  | raise _ h1 => exact .raise h1
  | shift _ _ h1 h2 => exact .shift h1 h2
  | log _ h1 => exact .log h1

/-- units with alike definitions and the same references have the same dimensionality -/
theorem alike_dims {a b : Node} (h : Alike a b) {r1 r2 : List (Str × Ref)} (hr : ∀ n, Dict.get n r1 = Dict.get n r2)
    (n1 n2 : Option UnitReference) : (Ref.unit n1 a r1).dims = (Ref.unit n2 b r2).dims := by
  have hl : (fun n => Dict.get n (Ref.dimsList r1)) = fun n => Dict.get n (Ref.dimsList r2) := by
    funext n; rw [get_dimsList, get_dimsList, hr]
  rw [dims_unit, dims_unit]
  unfold defnDims
  rw [hl, alike_unitDims h]

/-- … and the same symbolic definition -/
theorem alike_refSymDef {a b : Node} (h : Alike a b) {r1 r2 : List (Str × Ref)} (hr : ∀ n, Dict.get n r1 = Dict.get n r2)
    {n1 n2 : Option UnitReference} {p q : List TOp × Mono} (h1 : (Ref.unit n1 a r1).symDef = .ok p)
    (h2 : (Ref.unit n2 b r2).symDef = .ok q) : p = q := by
  unfold Ref.symDef at h1 h2
  cases he1 : (Ref.unit n1 a r1).expand with
  | error e => rw [he1] at h1; cases h1
  | ok x =>
    cases he2 : (Ref.unit n2 b r2).expand with
    | error e => rw [he2] at h2; cases h2
    | ok y =>
      rw [he1] at h1; rw [he2] at h2
      change x.symDef = _ at h1
      change y.symDef = _ at h2
      obtain ⟨s1, g1, rfl⟩ := expand_unit he1
      obtain ⟨s2, g2, rfl⟩ := expand_unit he2
      have hs : ∀ n, Dict.get n s1 = Dict.get n s2 := by
        intro n
        cases hn : Dict.get n r1 with
        | none => rw [get_expandList_none g1 hn, get_expandList_none g2 (by rw [← hr]; exact hn)]
        | some r =>
          obtain ⟨e1, k1, k2⟩ := get_expandList g1 hn
          obtain ⟨e2, k3, k4⟩ := get_expandList g2 (by rw [← hr]; exact hn)
          rw [k1] at k3; cases k3
          rw [k2, k4]
      rw [alike_symDef (alike_substitute hs h), h2] at h1
      cases h1; rfl

/-! ### Respelling -/

theorem toRat_decInt {d : Dec} (h : d.exp = 0) : d.toRat = (decInt d : Rat) := by
  obtain ⟨neg, coeff, exp⟩ := d
  simp only at h
  subst h
  rw [decToRat, decInt]
  cases neg <;> simp

theorem alike_respellNum (v : Num) (raw : Option Str) (hv : ∀ s, v ≠ .str s) : Alike (.number v raw) (respellNum v) := by
  cases v with
  | int i => exact .num rfl
  | str s => exact absurd rfl (hv s)
  | dec d =>
    by_cases h : d.exp = 0
    · rw [respellNum, if_pos h]
      exact .num (by rw [Num.toRat, Num.toRat, toRat_decInt h])
    · rw [respellNum, if_neg h]
      exact .num rfl

open Spec (NoSuperscript) in
theorem alike_respell {lv : Level} {e : Node} (h : Printable lv e) (hs : NoSuperscript e) : Alike e (respell e) := by
  induction h with
  | ident => exact .refl _
  | int => exact alike_respellNum _ _ (fun s h => by cases h)
  | dec => exact alike_respellNum _ _ (fun s h => by cases h)
  | log _ _ ih => exact .log (ih hs)
  | plain _ ih => exact ih hs
  | power _ ih => exact .raise (ih hs.1)
  | superscript => exact absurd hs.2 (by simp [NoSuperscript])
  | factor _ ih => exact ih hs
  | mul _ _ h1 h2 => exact .mul (h1 hs.1) (h2 hs.2)
  | div _ _ h1 h2 => exact .div (h1 hs.1) (h2 hs.2)
  | product _ ih => exact ih hs
  | shiftInt _ ih => exact .shift (ih hs.1) (alike_respellNum _ _ (fun s h => by cases h))
  | shiftDec _ ih => exact .shift (ih hs.1) (alike_respellNum _ _ (fun s h => by cases h))
  | shiftDate _ _ ih => exact .shift (ih hs.1) (.refl _)

theorem Alike.symm {a b : Node} (h : Alike a b) : Alike b a := by
  induction h with
  | refl e => exact .refl e
  | num h => exact .num h.symm
  | mul _ _ h1 h2 => exact .mul h1 h2
  | div _ _ h1 h2 => exact .div h1 h2
  | raise _ h1 => exact .raise h1
  | shift _ _ h1 h2 => exact .shift h1 h2
  | log _ h1 => exact .log h1

theorem Alike.trans {a b c : Node} (h : Alike a b) (h' : Alike b c) : Alike a c := by
  induction h generalizing c with
  | refl e => exact h'
  | num h => 
    cases h' with
    | refl => exact .num h
    | num h' => exact .num (h.trans h')
  | mul k1 k2 h1 h2 =>
    cases h' with
    | refl => exact .mul k1 k2
    | mul g1 g2 => exact .mul (h1 g1) (h2 g2)
  | div k1 k2 h1 h2 =>
    cases h' with
    | refl => exact .div k1 k2
    | div g1 g2 => exact .div (h1 g1) (h2 g2)
  | raise k1 h1 =>
    cases h' with
    | refl => exact .raise k1
    | raise g1 => exact .raise (h1 g1)
  | shift k1 k2 h1 h2 =>
    cases h' with
    | refl => exact .shift k1 k2
    | shift g1 g2 => exact .shift (h1 g1) (h2 g2)
  | log k1 h1 =>
    cases h' with
    | refl => exact .log k1
    | log g1 => exact .log (h1 g1)

open Spec (NoSuperscript) in
/-- expressions that print alike are alike -/
theorem alike_of_str {a b : Node} (ha : Printable .whole a) (hb : Printable .whole b) (sa : NoSuperscript a) (sb : NoSuperscript b)
    (h : a.str = b.str) : Alike a b := by
  have h1 := parse_print ha
  rw [h, parse_print hb] at h1
  have h2 := alike_respell ha sa
  have h3 := alike_respell hb sb
  cases h1' : respell a
  all_goals (simp only [Except.ok.injEq] at h1; rw [← h1] at h2; exact h2.trans h3.symm)

open Spec (Tidy) in
/-- printing after respelling -/
theorem str_respell {lv : Level} {e : Node} (h : Printable lv e) (ht : Tidy e) : (respell e).str = e.str := by
  have hdec : ∀ (d : Dec) raw, Tidy (.number (.dec d) raw) → (respellNum (.dec d)).str = d.str := by
    intro d raw hd
    by_cases h0 : d.exp = 0
    · rw [respellNum, if_pos h0]
      obtain ⟨neg, coeff, exp⟩ := d
      simp only at h0
      subst h0
      simp only [Tidy] at hd
      obtain ⟨ip, dot, fp, ex, e, g1, g2, g3, g4, g5, g6, g7, g8, g9, g10⟩ := decStr_shape ⟨neg, coeff, 0⟩
      change intStr (decInt ⟨neg, coeff, 0⟩) = _
      unfold Dec.str
      simp only
      have hlen : 0 < (natStr coeff).length := List.length_pos_iff.2 (natStr_ne_nil coeff)
      have c1 : (0 : Int) ≤ 0 ∧ (-6 : Int) < 0 + ((natStr coeff).length : Int) := by omega
      rw [if_pos c1, if_neg (show ¬ (0 + ((natStr coeff).length : Int) ≤ 0) by omega),
        if_pos (show ((natStr coeff).length : Int) ≤ 0 + ((natStr coeff).length : Int) by omega), if_pos rfl]
      have hz : (0 + ((natStr coeff).length : Int) - ((natStr coeff).length : Int)).toNat = 0 := by omega
      rw [hz]
      cases neg with
      | false => simp [decInt, intStr]
      | true =>
        obtain ⟨k, rfl⟩ : ∃ k, coeff = k + 1 := by
          cases coeff with
          | zero => exact absurd rfl (hd trivial rfl)
          | succ k => exact ⟨k, rfl⟩
        have : decInt ⟨true, k + 1, 0⟩ = Int.negSucc k := by
          unfold decInt; rw [Int.negSucc_eq]; simp
        rw [this]
        simp [intStr]
    · rw [respellNum, if_neg h0]
      rfl
  induction h with
  | ident => rfl
  | int => rfl
  | dec => exact hdec _ _ ht
  | log _ _ ih => simp only [respell, Node.str, ih ht]
  | plain _ ih => exact ih ht
  | power _ ih => simp only [respell, Node.str, ih ht.1, respellNum, Num.toStr]
  | @superscript a s v raw _ hs ih =>
    have : intStr v = s := ht.2 v hs
    simp only [respell, Node.str, ih ht.1, respellNum, parseInt_literal hs, Num.toStr, this]
  | factor _ ih => exact ih ht
  | mul _ _ h1 h2 => simp only [respell, Node.str, h1 ht.1, h2 ht.2]
  | div _ _ h1 h2 => simp only [respell, Node.str, h1 ht.1, h2 ht.2]
  | product _ ih => exact ih ht
  | shiftInt _ ih => simp only [respell, Node.str, ih ht.1, respellNum, Num.toStr]
  | @shiftDec a d raw _ ih => simp only [respell, Node.str, ih ht.1, hdec d raw ht.2, Num.toStr]
  | shiftDate _ _ ih => simp only [respell, Node.str, ih ht.1]

/-! ### Bracket-free texts -/

theorem id_not_reserved {m : Mode} {s : Str} {ts : List Token} (h : Tokenises m s ts) {t : Token} (ht : t ∈ ts)
    (hk : t.kind = .ID) : IdentWord t.text := by
  induction h with
  | nil => cases ht
  | @cons m m' s k n us hn _ ih =>
    rcases List.mem_cons.1 ht with rfl | ht
    · simp only at hk
      subst hk
      obtain ⟨i, r, mo, h1, h2, h3, h4, h5, h6, h7⟩ := hn
      have hr : r = Rule.ID := rules_id m _ (List.mem_of_getElem? h1) rfl
      subst hr
      obtain ⟨g1, g2⟩ := matches_plus_cls.1 h5
      -- the shift sign rule comes first in every mode
      have key : ∀ m : Mode, ∀ j < m.rules.length, (m.rules[j]?.map (·.1)) = some Kind.ID →
          ∃ j' < j, (m.rules[j']?.map (·.1)) = some Kind.SHIFT_OP := by
        intro m; cases m <;> decide +kernel
      have hi : i < m.rules.length := by
        rcases List.getElem?_eq_some_iff.1 h1 with ⟨hi, _⟩
        exact hi
      obtain ⟨j, hj, hj'⟩ := key m i hi (by rw [h1]; rfl)
      cases hq : m.rules[j]? with
      | none => rw [hq] at hj'; cases hj'
      | some q =>
        obtain ⟨k', r', mo'⟩ := q
        rw [hq] at hj'
        simp only [Option.map_some, Option.some.injEq] at hj'
        subst hj'
        have hr' : r' = Rule.SHIFT_OP := rules_shift m _ (List.mem_of_getElem? hq) rfl
        subst hr'
        have hno := h7 j hj _ _ _ hq
        simp only [Rule.SHIFT_OP, Re.alts, matches_alt, matches_chr, matches_lit, not_or] at hno
        exact ⟨g1, g2, hno.2.1, hno.2.2.1, hno.2.2.2.1, hno.2.2.2.2⟩
    · exact ih ht

/-- no brackets among the tokens -/
def NoBrackets (ts : List Token) : Prop := ∀ t ∈ ts, t.kind ≠ .OPEN_PAREN ∧ t.kind ≠ .LOG

theorem noBrackets_lex {s : Str} (h : '(' ∉ s) : NoBrackets (lex s) := by
  intro t ht
  have hl := (lex_iff s _).1 rfl
  obtain ⟨m', r, mo, h1, h2⟩ := tokenises_rule hl ht
  have htext : '(' ∉ t.text := by
    intro hc
    apply h
    have := (tokenises_lossless hl).1
    rw [← this]
    exact List.mem_flatten.2 ⟨t.text, List.mem_map.2 ⟨t, ht, rfl⟩, hc⟩
  have hd : ∀ r : Re, r.dead notOpen = true → ¬ Matches r t.text := by
    intro r hr hm
    exact dead_not_matches hr hm fun c hc => notOpen_iff (by rintro rfl; exact htext hc)
  have hrule : ∀ m : Mode, ∀ q ∈ m.rules, q.1 = Kind.OPEN_PAREN ∨ q.1 = Kind.LOG → q.2.1.dead notOpen = true := by
    intro m; cases m <;> decide +kernel
  exact ⟨fun hk => hd r (hrule m' _ h1 (Or.inl hk)) h2, fun hk => hd r (hrule m' _ h1 (Or.inr hk)) h2⟩

/-- the level at which a rule prints -/
def NT'.level : NT' → Level
  | .shift => .whole
  | .product _ => .product
  | .power _ => .factor
  | _ => .atom

open Spec (NoSuperscript NoDate) in
/-- graphs read from bracket-free tokens are printable -/
theorem printable_of_reads {nt : NT'} {ts : List Token} {e : Node} (h : Reads nt ts e) (hb : NoBrackets ts)
    (hid : ∀ t ∈ ts, t.kind = .ID → IdentWord t.text) (hs : NoSuperscript e) (hd : NoDate e) :
    Printable nt.level e ∧ (nt = .integer → ∃ i raw, e = .number (.int i) raw) ∧
      (nt = .integer ∨ nt = .number → (∃ i raw, e = .number (.int i) raw) ∨ ∃ d raw, e = .number (.dec d) raw) := by
  have hint : ∀ {c : Str} {n : Node}, intNode c = some n → ∃ i raw, n = .number (.int i) raw := by
    intro c n h
    unfold intNode at h
    cases h' : parseInt? c with
    | none => rw [h'] at h; cases h
    | some i => rw [h'] at h; cases h; exact ⟨i, _, rfl⟩
  have nbl : ∀ {a b : List Token}, NoBrackets (a ++ b) → NoBrackets a := fun h t ht => h t (List.mem_append_left _ ht)
  have nbr : ∀ {a b : List Token}, NoBrackets (a ++ b) → NoBrackets b := fun h t ht => h t (List.mem_append_right _ ht)
  have idl : ∀ {a b : List Token}, (∀ t ∈ a ++ b, t.kind = .ID → IdentWord t.text) → ∀ t ∈ a, t.kind = .ID → IdentWord t.text :=
    fun h t ht => h t (List.mem_append_left _ ht)
  have idr : ∀ {a b : List Token}, (∀ t ∈ a ++ b, t.kind = .ID → IdentWord t.text) → ∀ t ∈ b, t.kind = .ID → IdentWord t.text :=
    fun h t ht => h t (List.mem_append_right _ ht)
  induction h with
  | int h1 h2 =>
    obtain ⟨i, raw, rfl⟩ := hint h2
    exact ⟨.int, fun _ => ⟨i, raw, rfl⟩, fun _ => Or.inl ⟨i, raw, rfl⟩⟩
  | numInt _ ih =>
    obtain ⟨h1, h2, h3⟩ := ih hb hid hs hd
    exact ⟨h1, fun h => (by cases h), fun _ => Or.inl (h2 rfl)⟩
  | @numFloat t n h1 h2 =>
    unfold floatNode at h2
    split at h2
    · cases h2
      exact ⟨.dec, fun h => (by cases h), fun _ => Or.inr ⟨_, _, rfl⟩⟩
    · cases h2
  | @basicId t h1 => exact ⟨.ident (hid _ (by simp) h1), fun h => (by cases h), fun h => (by rcases h with h | h <;> cases h)⟩
  | basicParen h1 => exact absurd h1 (hb _ (by simp)).1
  | basicNum _ ih => exact ⟨(ih hb hid hs hd).1, fun h => (by cases h), fun h => (by rcases h with h | h <;> cases h)⟩
  | logBasic _ ih => exact ⟨(ih hb hid hs hd).1, fun h => (by cases h), fun h => (by rcases h with h | h <;> cases h)⟩
  | logLog h1 => exact absurd h1 (hb _ (by simp)).2
  | powInt _ _ ih1 ih2 =>
    obtain ⟨g1, _⟩ := ih1 (nbl hb) (idl hid) hs.1 hd.1
    obtain ⟨_, g2, _⟩ := ih2 (nbr hb) (idr hid) hs.2 hd.2
    obtain ⟨i, raw, rfl⟩ := g2 rfl
    exact ⟨.power g1, fun h => (by cases h), fun h => (by rcases h with h | h <;> cases h)⟩
  | powPlain _ ih => exact ⟨.plain (ih hb hid hs hd).1, fun h => (by cases h), fun h => (by rcases h with h | h <;> cases h)⟩
  | powRaise _ _ _ ih1 ih2 =>
    obtain ⟨g1, _⟩ := ih1 (nbl (nbl hb)) (idl (idl hid)) hs.1 hd.1
    obtain ⟨_, g2, _⟩ := ih2 (nbr hb) (idr hid) hs.2 hd.2
    obtain ⟨i, raw, rfl⟩ := g2 rfl
    exact ⟨.power g1, fun h => (by cases h), fun h => (by rcases h with h | h <;> cases h)⟩
  | powUni => exact absurd hs.2 (by simp [NoSuperscript, unicodeExponent])
  | prodPower _ ih => exact ⟨.factor (ih hb hid hs hd).1, fun h => (by cases h), fun h => (by rcases h with h | h <;> cases h)⟩
  | prodJuxt _ _ _ ih1 ih2 =>
    exact ⟨.mul (ih1 (nbl hb) (idl hid) hs.1 hd.1).1 (ih2 (nbr hb) (idr hid) hs.2 hd.2).1, fun h => (by cases h),
      fun h => (by rcases h with h | h <;> cases h)⟩
  | prodMul _ _ _ ih1 ih2 =>
    exact ⟨.mul (ih1 (nbl (nbl hb)) (idl (idl hid)) hs.1 hd.1).1 (ih2 (nbr hb) (idr hid) hs.2 hd.2).1, fun h => (by cases h),
      fun h => (by rcases h with h | h <;> cases h)⟩
  | prodDiv _ _ _ ih1 ih2 =>
    exact ⟨.div (ih1 (nbl (nbl hb)) (idl (idl hid)) hs.1 hd.1).1 (ih2 (nbr hb) (idr hid) hs.2 hd.2).1, fun h => (by cases h),
      fun h => (by rcases h with h | h <;> cases h)⟩
  | prodWs _ _ _ _ ih1 ih2 =>
    exact ⟨.mul (ih1 (nbl (nbl hb)) (idl (idl hid)) hs.1 hd.1).1 (ih2 (nbr hb) (idr hid) hs.2 hd.2).1, fun h => (by cases h),
      fun h => (by rcases h with h | h <;> cases h)⟩
  | shiftProd _ ih => exact ⟨.product (ih hb hid hs hd).1, fun h => (by cases h), fun h => (by rcases h with h | h <;> cases h)⟩
  | shiftNum _ _ _ _ _ ih1 ih2 =>
    obtain ⟨g1, _⟩ := ih1 (nbl (nbl (nbl (nbl hb)))) (idl (idl (idl (idl hid)))) hs.1 hd.1
    obtain ⟨_, _, g2⟩ := ih2 (nbr hb) (idr hid) hs.2 hd.2
    refine ⟨?_, fun h => (by cases h), fun h => (by rcases h with h | h <;> cases h)⟩
    rcases g2 (Or.inr rfl) with ⟨i, raw, rfl⟩ | ⟨d, raw, rfl⟩
    · exact .shiftInt g1
    · exact .shiftDec g1
  | shiftTime => exact absurd hd.2 (by simp [NoDate])

end Verif

import Verif.Spec.Limits
import Verif.Lemmas.ExpanderRound
import Verif.Lemmas.DecStr
import Verif.Lemmas.Grammar
/-!
# Numbers within the limits
-/

namespace Verif
open Spec

/-! ## What is checked -/

theorem filter_digits {ds : Str} (h : Digits ds) : (ds.filter fun ch => (digitVal? ch).isSome) = ds := by
  apply List.filter_eq_self.2
  intro c hc
  rw [digitVal_some (h c hc)]; rfl

theorem filter_sign {sg : Str} {k : Int} (h : Sign sg k) : (sg.filter fun ch => (digitVal? ch).isSome) = [] := by
  cases h <;> decide

theorem intOk_iff {l : NumLimits} {c : Str} {v : Int} (h : IntLiteral c v) : l.intOk c = true ↔ IntFits l.intDigits c := by
  unfold NumLimits.intOk
  rw [decide_eq_true_iff]
  constructor
  · obtain ⟨sg, ds, k, rfl, h1, h2, h3, -⟩ := h
    rw [List.filter_append, filter_sign h1, filter_digits h3]
    exact fun h => ⟨sg, ds, k, rfl, h1, h2, h3, h⟩
  · rintro ⟨sg, ds, k, rfl, h1, h2, h3, h⟩
    rw [List.filter_append, filter_sign h1, filter_digits h3]
    exact h

theorem natValue_dropZeros (ds : Str) : natValue (ds.dropWhile (· = '0')) = natValue ds := by
  induction ds with
  | nil => rfl
  | cons c ds ih =>
    by_cases h : c = '0'
    · subst h
      rw [List.dropWhile_cons_of_pos (by simp), ih]
      rfl
    · rw [List.dropWhile_cons_of_neg (by simpa using h)]

theorem natValue_lt {ds : Str} (h : Digits ds) : natValue ds < 10 ^ ds.length := by
  induction ds with
  | nil => decide
  | cons c ds ih =>
    have ih := ih fun x hx => h x (List.mem_cons_of_mem _ hx)
    have hc := h c List.mem_cons_self
    rw [show c :: ds = [c] ++ ds from rfl, natValue_append, List.length_append]
    have : natValue [c] ≤ 9 := by
      unfold natValue
      have h0 : '0'.toNat = 48 := rfl
      have h9 : '9'.toNat = 57 := rfl
      simp only [List.foldl_cons, List.foldl_nil]
      omega
    rw [show [c].length + ds.length = ds.length + 1 by simp; omega, Nat.pow_succ]
    have : natValue [c] * 10 ^ ds.length ≤ 9 * 10 ^ ds.length := Nat.mul_le_mul_right _ this
    omega

theorem natValue_ge {c : Char} {ds : Str} (h : Digits (c :: ds)) (h0 : c ≠ '0') : 10 ^ ds.length ≤ natValue (c :: ds) := by
  have hc := h c List.mem_cons_self
  rw [show c :: ds = [c] ++ ds from rfl, natValue_append]
  have : 1 ≤ natValue [c] := by
    unfold natValue
    have h48 : '0'.toNat = 48 := rfl
    have : c.toNat ≠ 48 := fun he => h0 (Char.toNat_inj.1 he)
    simp only [List.foldl_cons, List.foldl_nil]
    omega
  have : 1 * 10 ^ ds.length ≤ natValue [c] * 10 ^ ds.length := Nat.mul_le_mul_right _ this
  omega

theorem natStr_nonempty (n : Nat) : 0 < (natStr n).length := List.length_pos_iff.2 (natStr_ne_nil n)

/-- the digits Python counts are the significant ones -/
theorem natStr_significant {ds : Str} (h : Digits ds) : (natStr (natValue ds)).length = significant ds := by
  rw [← natValue_dropZeros]
  have hr : Digits (ds.dropWhile (· = '0')) := fun c hc => h c ((List.dropWhile_sublist _).subset hc)
  unfold significant
  have hhead : ∀ c r, ds.dropWhile (· = '0') = c :: r → c ≠ '0' := by
    intro c r he
    have := List.head_dropWhile_not (fun c => decide (c = '0')) (l := ds) (by rw [he]; simp)
    simp only [he, List.head_cons, decide_eq_false_iff_not] at this
    exact this
  generalize ds.dropWhile (· = '0') = r at hr hhead ⊢
  cases r with
  | nil => decide
  | cons c r =>
    have h1 := (coeffDigits_le (n := natValue (c :: r)) (k := r.length + 1) (by omega)).2 (natValue_lt hr)
    have h2 := natValue_ge hr (hhead c r rfl)
    unfold coeffDigits at h1
    have h3 : ¬ (natStr (natValue (c :: r))).length ≤ r.length := by
      intro h
      by_cases h0 : r.length = 0
      · have := natStr_nonempty (natValue (c :: r)); omega
      · have := (coeffDigits_le (n := natValue (c :: r)) (k := r.length) (by omega)).1 h
        omega
    simp only [List.length_cons]
    omega

theorem decOk_iff {l : NumLimits} {c : Str} {d : Dec} (hm : Matches Rule.FLOAT c) (hd : Dec.parse c = .ok d) :
    l.decOk d = true ↔ DecFits l.decMin l.decMax c := by
  unfold NumLimits.decOk
  rw [decide_eq_true_iff]
  constructor
  · obtain ⟨sg, ip, dot, fp, ex, k, e, rfl, h1, h2, h3, h4, h5, h6⟩ := matches_FLOAT hm
    rw [decParse_literal h1 h2 h3 h4 h5 h6] at hd
    have hd := Except.ok.inj hd
    subst hd
    rw [natStr_significant (digits_append.2 ⟨h2, h3⟩)]
    rintro ⟨a, b⟩
    exact ⟨sg, ip, dot, fp, ex, k, e, rfl, h1, h2, h3, h4, h5, h6, a, b⟩
  · rintro ⟨sg, ip, dot, fp, ex, k, e, rfl, h1, h2, h3, h4, h5, h6, a, b⟩
    rw [decParse_literal h1 h2 h3 h4 h5 h6] at hd
    have hd := Except.ok.inj hd
    subst hd
    rw [natStr_significant (digits_append.2 ⟨h2, h3⟩)]
    exact ⟨a, b⟩

/-! ## Where the numbers of an expression are in the text -/

/-- a number of the text, as a token -/
def Token.numeral? (t : Token) : Option Numeral :=
  if t.kind = .INT ∨ t.kind = .SIGNED_INT then some (.int t.text) else if t.kind = .FLOAT then some (.dec t.text) else none

/-- every number of a tree with its spelling, in a form that the check and `numerals` agree on -/
def Node.Spelled : Node → Prop
  | .number (.int _) c => ∃ s v, c = some s ∧ IntLiteral s v
  | .number (.dec d) c => ∃ s, c = some s ∧ Matches Rule.FLOAT s ∧ Dec.parse s = .ok d
  | .number (.str _) _ | .ident _ | .unhandled _ => True
  | .mul a b | .div a b | .raise a b | .shift a b => a.Spelled ∧ b.Spelled
  | .log _ t => t.Spelled

theorem check_spelled (l : NumLimits) : ∀ n : Node, n.Spelled → ∀ r, n.checkNumbers l = r ↔
    (r = .ok () ∧ (∀ x ∈ numerals n, x.Fits l)) ∨
    (∃ pre x post, numerals n = pre ++ x :: post ∧ (∀ y ∈ pre, y.Fits l) ∧ ¬ x.Fits l ∧ r = .error x.error) := by
  have hone : ∀ (x : Numeral) (r : Py Unit) (b : Bool), (b = true ↔ x.Fits l) →
      ((if b then .ok () else .error x.error) = r ↔ (r = .ok () ∧ (∀ x' ∈ [x], x'.Fits l)) ∨
        (∃ pre x' post, [x] = pre ++ x' :: post ∧ (∀ y ∈ pre, y.Fits l) ∧ ¬ x'.Fits l ∧ r = .error x'.error)) := by
    intro x r b hb
    cases b with
    | true =>
      simp only [if_true, List.mem_singleton, forall_eq]
      constructor
      · intro h; exact .inl ⟨h.symm, hb.1 rfl⟩
      · rintro (⟨h, -⟩ | ⟨pre, x', post, h1, -, h3, -⟩)
        · exact h.symm
        · have : x' ∈ [x] := by rw [h1]; simp
          rw [List.mem_singleton.1 this] at h3
          exact absurd (hb.1 rfl) h3
    | false =>
      have hn : ¬ x.Fits l := fun h => by simpa using hb.2 h
      simp only [Bool.false_eq_true, if_false, List.mem_singleton, forall_eq]
      constructor
      · intro h; exact .inr ⟨[], x, [], rfl, by simp, hn, h.symm⟩
      · rintro (⟨-, h⟩ | ⟨pre, x', post, h1, -, h3, h⟩)
        · exact absurd h hn
        · have : x' ∈ [x] := by rw [h1]; simp
          rw [List.mem_singleton.1 this] at h
          exact h.symm
  have hzero : ∀ r : Py Unit, (.ok () = r ↔ (r = .ok () ∧ (∀ x' ∈ ([] : List Numeral), x'.Fits l)) ∨
        (∃ pre x' post, ([] : List Numeral) = pre ++ x' :: post ∧ (∀ y ∈ pre, y.Fits l) ∧ ¬ x'.Fits l ∧ r = .error x'.error)) := by
    intro r
    constructor
    · intro h; exact .inl ⟨h.symm, by simp⟩
    · rintro (⟨h, -⟩ | ⟨pre, x', post, h1, -⟩)
      · exact h.symm
      · simp at h1
  have htwo : ∀ (a b : Node), (∀ r, a.checkNumbers l = r ↔ (r = .ok () ∧ (∀ x ∈ numerals a, x.Fits l)) ∨
      (∃ pre x post, numerals a = pre ++ x :: post ∧ (∀ y ∈ pre, y.Fits l) ∧ ¬ x.Fits l ∧ r = .error x.error)) →
      (∀ r, b.checkNumbers l = r ↔ (r = .ok () ∧ (∀ x ∈ numerals b, x.Fits l)) ∨
      (∃ pre x post, numerals b = pre ++ x :: post ∧ (∀ y ∈ pre, y.Fits l) ∧ ¬ x.Fits l ∧ r = .error x.error)) →
      ∀ r, (match a.checkNumbers l with | .error e => .error e | .ok () => b.checkNumbers l : Py Unit) = r ↔
        (r = .ok () ∧ (∀ x ∈ numerals a ++ numerals b, x.Fits l)) ∨
        (∃ pre x post, numerals a ++ numerals b = pre ++ x :: post ∧ (∀ y ∈ pre, y.Fits l) ∧ ¬ x.Fits l ∧ r = .error x.error) := by
    intro a b ha hb r
    -- the value of each side decides which alternative holds, so one direction is enough
    have key : ∀ r, (match a.checkNumbers l with | .error e => .error e | .ok () => b.checkNumbers l : Py Unit) = r →
        (r = .ok () ∧ (∀ x ∈ numerals a ++ numerals b, x.Fits l)) ∨
        (∃ pre x post, numerals a ++ numerals b = pre ++ x :: post ∧ (∀ y ∈ pre, y.Fits l) ∧ ¬ x.Fits l ∧ r = .error x.error) := by
      intro r hr
      rcases (ha _).1 rfl with ⟨h1, h2⟩ | ⟨pre, x, post, h1, h2, h3, h4⟩
      · rw [h1] at hr
        rcases (hb _).1 hr with ⟨h3, h4⟩ | ⟨pre, x, post, h3, h4, h5, h6⟩
        · exact .inl ⟨h3, fun x hx => (List.mem_append.1 hx).elim (h2 x) (h4 x)⟩
        · exact .inr ⟨numerals a ++ pre, x, post, by rw [h3]; simp, fun y hy => (List.mem_append.1 hy).elim (h2 y) (h4 y), h5, h6⟩
      · rw [h4] at hr
        exact .inr ⟨pre, x, post ++ numerals b, by rw [h1]; simp, h2, h3, hr.symm⟩
    refine ⟨key r, fun h => ?_⟩
    rcases key _ rfl with ⟨k1, k2⟩ | ⟨pre, x, post, k1, k2, k3, k4⟩
    · rcases h with ⟨h1, -⟩ | ⟨pre', x', post', h1, -, h3, -⟩
      · rw [h1]; exact k1
      · exact absurd (k2 x' (by rw [h1]; simp)) h3
    · rcases h with ⟨-, h2⟩ | ⟨pre', x', post', h1, h2, h3, h4⟩
      · exact absurd (h2 x (by rw [k1]; simp)) k3
      · rw [h4, k4]
        rw [k1] at h1
        rcases List.append_eq_append_iff.1 h1 with ⟨m, e1, e2⟩ | ⟨m, e1, e2⟩
        · cases m with
          | nil => simp only [List.nil_append] at e2; cases e2; rfl
          | cons y m =>
            simp only [List.cons_append, List.cons.injEq] at e2
            exact absurd (h2 x (by rw [e1, e2.1]; simp)) k3
        · cases m with
          | nil => simp only [List.nil_append] at e2; cases e2; rfl
          | cons y m =>
            simp only [List.cons_append, List.cons.injEq] at e2
            exact absurd (k2 x' (by rw [e1, e2.1]; simp)) h3
  intro n
  induction n with
  | number v c =>
    intro h r
    cases v with
    | int i =>
      obtain ⟨s, v, rfl, hv⟩ := h
      exact hone (.int s) r _ (intOk_iff hv)
    | dec d =>
      obtain ⟨s, rfl, hm, hd⟩ := h
      exact hone (.dec s) r _ (decOk_iff hm hd)
    | str s => cases c <;> exact hzero r
  | ident _ => intro _ r; exact hzero r
  | unhandled _ => intro _ r; exact hzero r
  | mul a b iha ihb => intro h r; exact htwo a b (iha h.1) (ihb h.2) r
  | div a b iha ihb => intro h r; exact htwo a b (iha h.1) (ihb h.2) r
  | raise a b iha ihb => intro h r; exact htwo a b (iha h.1) (ihb h.2) r
  | shift a b iha ihb => intro h r; exact htwo a b (iha h.1) (ihb h.2) r
  | log _ t iht => intro h r; exact iht h r

/-- what the conversions of number tokens come from -/
def NumberTokens (ts : List Token) : Prop :=
  ∀ t ∈ ts, (t.isInt → ∃ v, IntLiteral t.text v) ∧ (t.kind = .FLOAT → Matches Rule.FLOAT t.text)

theorem NumberTokens.sub {ts us : List Token} (h : NumberTokens us) (hs : ∀ t ∈ ts, t ∈ us) : NumberTokens ts :=
  fun t ht => h t (hs t ht)

theorem derives_spelled {nt : NT} {ts : List Token} {n : Node} (h : Derives nt ts n) (ht : NumberTokens ts) :
    n.Spelled ∧ (numerals n).Sublist (ts.filterMap Token.numeral?) := by
  induction h with
  | @int t n h1 h2 =>
    obtain ⟨v, hv⟩ := (ht t (by simp)).1 h1
    unfold intNode at h2
    rw [parseInt_literal hv] at h2
    cases h2
    refine ⟨⟨_, v, rfl, hv⟩, ?_⟩
    have : Token.numeral? t = some (.int t.text) := if_pos h1
    simp [numerals, this]
  | numInt _ ih => exact ih ht
  | @numFloat t n h1 h2 =>
    have hm := (ht t (by simp)).2 h1
    obtain ⟨sg, ip, dot, fp, ex, k, e, he, g1, g2, g3, g4, g5, g6⟩ := matches_FLOAT hm
    have hp := decParse_literal g1 g2 g3 g4 g5 g6
    rw [← he] at hp
    unfold floatNode at h2
    rw [hp] at h2
    cases h2
    refine ⟨⟨_, rfl, hm, hp⟩, ?_⟩
    have : Token.numeral? t = some (.dec t.text) := by
      unfold Token.numeral?
      rw [if_neg (by rw [h1]; simp), if_pos h1]
    simp [numerals, this]
  | basicId _ => exact ⟨trivial, by simp [numerals]⟩
  | @basicParen o c ts n _ _ _ ih =>
    obtain ⟨i1, i2⟩ := ih (ht.sub (by simp +contextual))
    refine ⟨i1, i2.trans ?_⟩
    simp only [List.filterMap_append]
    exact (List.sublist_append_right _ _).trans (List.sublist_append_left _ _)
  | basicNum _ ih => exact ih ht
  | logBasic _ ih => exact ih ht
  | @logLog o c ts n _ _ _ ih =>
    obtain ⟨i1, i2⟩ := ih (ht.sub (by simp +contextual))
    refine ⟨i1, i2.trans ?_⟩
    simp only [List.filterMap_append]
    exact (List.sublist_append_right _ _).trans (List.sublist_append_left _ _)
  | @powInt a b l r _ _ ih1 ih2 =>
    obtain ⟨i1, i2⟩ := ih1 (ht.sub (by simp +contextual))
    obtain ⟨j1, j2⟩ := ih2 (ht.sub (by simp +contextual))
    exact ⟨⟨i1, j1⟩, by rw [List.filterMap_append]; exact i2.append j2⟩
  | powPlain _ ih => exact ih ht
  | @powRaise a b o l r _ _ _ ih1 ih2 =>
    obtain ⟨i1, i2⟩ := ih1 (ht.sub (by simp +contextual))
    obtain ⟨j1, j2⟩ := ih2 (ht.sub (by simp +contextual))
    refine ⟨⟨i1, j1⟩, ?_⟩
    rw [List.filterMap_append, List.filterMap_append]
    exact (i2.trans (List.sublist_append_left _ _)).append j2
  | @powUni a o l _ _ ih =>
    obtain ⟨i1, i2⟩ := ih (ht.sub (by simp +contextual))
    refine ⟨⟨i1, trivial⟩, ?_⟩
    rw [List.filterMap_append]
    exact (by simpa [numerals, unicodeExponent] using i2 : (numerals l ++ numerals (unicodeExponent o.text)).Sublist _).trans (List.sublist_append_left _ _)
  | prodPower _ ih => exact ih ht
  | @prodJuxt a b l r _ _ ih1 ih2 =>
    obtain ⟨i1, i2⟩ := ih1 (ht.sub (by simp +contextual))
    obtain ⟨j1, j2⟩ := ih2 (ht.sub (by simp +contextual))
    exact ⟨⟨i1, j1⟩, by rw [List.filterMap_append]; exact i2.append j2⟩
  | @prodMul a b o l r _ _ _ ih1 ih2 =>
    obtain ⟨i1, i2⟩ := ih1 (ht.sub (by simp +contextual))
    obtain ⟨j1, j2⟩ := ih2 (ht.sub (by simp +contextual))
    refine ⟨⟨i1, j1⟩, ?_⟩
    rw [List.filterMap_append, List.filterMap_append]
    exact (i2.trans (List.sublist_append_left _ _)).append j2
  | @prodDiv a b o l r _ _ _ ih1 ih2 =>
    obtain ⟨i1, i2⟩ := ih1 (ht.sub (by simp +contextual))
    obtain ⟨j1, j2⟩ := ih2 (ht.sub (by simp +contextual))
    refine ⟨⟨i1, j1⟩, ?_⟩
    rw [List.filterMap_append, List.filterMap_append]
    exact (i2.trans (List.sublist_append_left _ _)).append j2
  | @prodWs a ws b l r _ _ _ _ ih1 ih2 =>
    obtain ⟨i1, i2⟩ := ih1 (ht.sub (by simp +contextual))
    obtain ⟨j1, j2⟩ := ih2 (ht.sub (by simp +contextual))
    refine ⟨⟨i1, j1⟩, ?_⟩
    rw [List.filterMap_append, List.filterMap_append]
    exact (i2.trans (List.sublist_append_left _ _)).append j2
  | shiftProd _ ih => exact ih ht
  | @shiftNum a w1 o w2 b l r _ _ _ _ _ ih1 ih2 =>
    obtain ⟨i1, i2⟩ := ih1 (ht.sub (by simp +contextual))
    obtain ⟨j1, j2⟩ := ih2 (ht.sub (by simp +contextual))
    refine ⟨⟨i1, j1⟩, ?_⟩
    simp only [List.filterMap_append, List.append_assoc]
    refine i2.append (j2.trans ?_)
    exact ((List.sublist_append_right _ _).trans (List.sublist_append_right _ _)).trans (List.sublist_append_right _ _)
  | @shiftTime a w1 o w2 b l _ _ _ _ _ ih =>
    obtain ⟨i1, i2⟩ := ih (ht.sub (by simp +contextual))
    refine ⟨⟨i1, trivial⟩, ?_⟩
    simp only [List.filterMap_append, List.append_assoc, numerals, List.append_nil]
    exact i2.trans (List.sublist_append_left _ _)

end Verif

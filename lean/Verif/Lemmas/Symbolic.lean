import Verif.Lemmas.Convert
import Verif.Lemmas.Order
import Verif.Spec.Convert
/-!
# Symbolic definitions agree with dimensional analysis
-/

namespace Verif

theorem noTransform_split {n : Node} (h : NoTransform n) : ∀ root, n.split root = .ok (none, n) := by
  induction n with
  | number v r => intro _; rfl
  | ident n => intro _; rfl
  | unhandled r => intro _; rfl
  | mul l r hl hr => intro _; simp only [Node.split, hl h.1, hr h.2]; rfl
  | div l r hl hr => intro _; simp only [Node.split, hl h.1, hr h.2]; rfl
  | raise l r hl hr => intro _; simp only [Node.split, hl h.1, hr h.2]; rfl
  | shift u f => exact absurd h (by simp [NoTransform])
  | log fn t => exact absurd h (by simp [NoTransform])

theorem symDef_noTransform {e : Node} (h : NoTransform e) (t : List TOp) (d : Mono) :
    e.symDef = .ok (t, d) ↔ t = [] ∧ e.toMono = .ok d := by
  rw [symDef_iff]
  constructor
  · rintro ⟨ot, b, h1, h2, h3⟩
    rw [noTransform_split h] at h1; cases h1
    cases h2; exact ⟨rfl, h3⟩
  · rintro ⟨rfl, h3⟩
    exact ⟨none, e, noTransform_split h true, rfl, h3⟩

theorem plain_noTransform {n : Node} (h : Plain n) : NoTransform n := by
  induction n with
  | number v r => trivial
  | ident n => trivial
  | unhandled r => trivial
  | mul l r hl hr => exact ⟨hl h.1, hr h.2⟩
  | div l r hl hr => exact ⟨hl h.1, hr h.2⟩
  | raise l r hl hr =>
    obtain ⟨h1, i, raw, rfl⟩ := h
    exact ⟨hl h1, trivial⟩
  | shift u f => exact absurd h (by simp [Plain])
  | log fn t => exact absurd h (by simp [Plain])

theorem mem_identifiers_mul {k : Str} {l r : Node} : k ∈ (Node.mul l r).identifiers ↔ k ∈ l.identifiers ∨ k ∈ r.identifiers := by
  simp only [Node.identifiers]
  rw [mem_setUnion, mem_setUnion]; simp

theorem countedIds_sub {n : Node} : ∀ k ∈ countedIds n, k ∈ n.identifiers := by
  induction n with
  | number v r => intro k h; cases h
  | ident n => intro k h; exact h
  | unhandled r => intro k h; cases h
  | mul l r hl hr =>
    intro k h
    simp only [countedIds, List.mem_append] at h
    simp only [Node.identifiers, mem_setUnion]
    rcases h with h | h
    · exact Or.inl (Or.inr (hl k h))
    · exact Or.inr (hr k h)
  | div l r hl hr =>
    intro k h
    simp only [countedIds, List.mem_append] at h
    simp only [Node.identifiers, mem_setUnion]
    rcases h with h | h
    · exact Or.inl (Or.inr (hl k h))
    · exact Or.inr (hr k h)
  | raise l r hl hr =>
    intro k h
    simp only [countedIds] at h
    simp only [Node.identifiers, mem_setUnion]
    exact Or.inl (Or.inr (hl k h))
  | shift u f hu hf =>
    intro k h
    simp only [countedIds] at h
    simp only [Node.identifiers, mem_setUnion]
    exact Or.inl (Or.inr (hu k h))
  | log fn t ht =>
    intro k h
    simp only [countedIds] at h
    simp only [Node.identifiers, mem_setUnion]
    exact Or.inr (ht k h)

/-- Substituting transformation-free expressions into a plain expression. -/
theorem substitute_noTransform {subs : Dict Str Node} {n : Node} (h : Plain n)
    (hs : ∀ k ∈ countedIds n, ∀ e, Dict.get k subs = some e → NoTransform e) : NoTransform (n.substitute subs) := by
  induction n with
  | number v r => trivial
  | ident n =>
    simp only [Node.substitute]
    cases hg : Dict.get n subs with
    | none => trivial
    | some e => exact hs n (by simp [countedIds]) e hg
  | unhandled r => trivial
  | mul l r hl hr =>
    exact ⟨hl h.1 fun k hk => hs k (by simp [countedIds, hk]), hr h.2 fun k hk => hs k (by simp [countedIds, hk])⟩
  | div l r hl hr =>
    exact ⟨hl h.1 fun k hk => hs k (by simp [countedIds, hk]), hr h.2 fun k hk => hs k (by simp [countedIds, hk])⟩
  | raise l r hl hr =>
    obtain ⟨h1, i, raw, rfl⟩ := h
    exact ⟨hl h1 fun k hk => hs k (by simp [countedIds, hk]), trivial⟩
  | shift u f => exact absurd h (by simp [Plain])
  | log fn t => exact absurd h (by simp [Plain])

/-- Exponent of a symbol in a substituted plain expression. -/
theorem substitute_exp {subs : Dict Str Node} (s : Str) (P : Str → Int) {n : Node} (h : Plain n)
    (hs : ∀ k ∈ countedIds n, ∃ e, Dict.get k subs = some e ∧
      ∀ m, e.toMono = .ok m → m.coef ≠ 0 → m.exp s = P k) :
    ∀ m, (n.substitute subs).toMono = .ok m → m.coef ≠ 0 → m.exp s = degree P n := by
  induction n with
  | number v r =>
    intro m hm hc
    simp only [Node.substitute, Node.toMono] at hm
    cases hv : v.toRat with
    | error e => rw [hv] at hm; cases hm
    | ok q => rw [hv] at hm; cases hm; rfl
  | ident n =>
    obtain ⟨e, h1, h2⟩ := hs n (by simp [countedIds])
    intro m hm hc
    simp only [Node.substitute, h1] at hm
    exact h2 m hm hc
  | unhandled r => exact absurd h (by simp [Plain])
  | mul l r hl hr =>
    intro m hm hc
    simp only [Node.substitute, Node.toMono] at hm
    cases h1 : (l.substitute subs).toMono with
    | error e => rw [h1] at hm; cases hm
    | ok a =>
      rw [h1] at hm
      cases h2 : (r.substitute subs).toMono with
      | error e => rw [h2] at hm; cases hm
      | ok b =>
        rw [h2] at hm; cases hm
        rw [Mono.coef_mul] at hc
        have ca := left_ne_zero_of_mul hc
        have cb := right_ne_zero_of_mul hc
        rw [Mono.exp_mul (toMono_wf h1) (toMono_wf h2) ca cb,
          hl h.1 (fun k hk => hs k (by simp [countedIds, hk])) a h1 ca,
          hr h.2 (fun k hk => hs k (by simp [countedIds, hk])) b h2 cb, degree]
  | div l r hl hr =>
    intro m hm hc
    simp only [Node.substitute, Node.toMono] at hm
    cases h1 : (l.substitute subs).toMono with
    | error e => rw [h1] at hm; cases hm
    | ok a =>
      rw [h1] at hm
      cases h2 : (r.substitute subs).toMono with
      | error e => rw [h2] at hm; cases hm
      | ok b =>
        rw [h2] at hm
        have hm' : a.div b = .ok m := hm
        obtain ⟨cb, k2, _, k4⟩ := Mono.div_spec (toMono_wf h1) (toMono_wf h2) hm'
        have ca : a.coef ≠ 0 := by
          intro h0; rw [k2, h0, zero_div] at hc; exact hc rfl
        rw [k4 ca,
          hl h.1 (fun k hk => hs k (by simp [countedIds, hk])) a h1 ca,
          hr h.2 (fun k hk => hs k (by simp [countedIds, hk])) b h2 cb, degree]
  | raise l r hl hr =>
    obtain ⟨h1, i, raw, rfl⟩ := h
    intro m hm hc
    simp only [Node.substitute, Node.toMono] at hm
    cases h2 : (l.substitute subs).toMono with
    | error e => rw [h2] at hm; cases hm
    | ok a =>
      rw [h2] at hm
      have hm' : a.pow i = .ok m := hm
      obtain ⟨p1, p2, p3⟩ := Mono.pow_spec (toMono_wf h2) hm'
      rw [degree]
      by_cases ca : a.coef = 0
      · -- only the exponent 0 leaves a non-zero factor
        by_cases hi : i = 0
        · subst hi
          have hz : a.exps = [] := (toMono_wf h2).zero ca
          unfold Mono.pow at hm'
          simp only [Int.ofNat_eq_natCast] at hm'
          change (Except.ok (Mono.norm ⟨a.coef ^ 0, a.exps.map fun (s, e) => (s, e * ((0 : Nat) : Int))⟩) : Py Mono) = _ at hm'
          cases hm'
          rw [hz]
          simp [Mono.norm, Mono.exp, Dict.get]
        · rw [p2, ca, zero_zpow i hi] at hc
          exact absurd rfl hc
      · rw [p3 ca, hl h1 (fun k hk => hs k (by simp [countedIds, hk])) a h2 ca]
  | shift u f => exact absurd h (by simp [Plain])
  | log fn t => exact absurd h (by simp [Plain])

theorem get_expandList {refs : List (Str × Ref)} {es : List (Str × Node)} (h : Ref.expandList refs = .ok es)
    {n : Str} {r : Ref} (hr : Dict.get n refs = some r) : ∃ e, r.expand = .ok e ∧ Dict.get n es = some e := by
  induction refs generalizing es with
  | nil => cases hr
  | cons q refs ih =>
    obtain ⟨k, a⟩ := q
    rw [Ref.expandList] at h
    cases h1 : a.expand with
    | error e => rw [h1] at h; cases h
    | ok e =>
      rw [h1] at h
      cases h2 : Ref.expandList refs with
      | error e => simp only [bind, Except.bind, h2] at h; cases h
      | ok es' =>
        simp only [bind, Except.bind, h2] at h
        cases h
        rw [Dict.get_cons] at hr ⊢
        by_cases hk : k = n
        · rw [if_pos hk] at hr ⊢
          cases hr
          exact ⟨e, h1, rfl⟩
        · rw [if_neg hk] at hr ⊢
          exact ih h2 hr

theorem get_expandList_none {refs : List (Str × Ref)} {es : List (Str × Node)} (h : Ref.expandList refs = .ok es)
    {n : Str} (hr : Dict.get n refs = none) : Dict.get n es = none := by
  induction refs generalizing es with
  | nil => cases h; rfl
  | cons q refs ih =>
    obtain ⟨k, a⟩ := q
    rw [Ref.expandList] at h
    cases h1 : a.expand with
    | error e => rw [h1] at h; cases h
    | ok e =>
      rw [h1] at h
      cases h2 : Ref.expandList refs with
      | error e => simp only [bind, Except.bind, h2] at h; cases h
      | ok es' =>
        simp only [bind, Except.bind, h2] at h
        cases h
        rw [Dict.get_cons] at hr ⊢
        by_cases hk : k = n
        · rw [if_pos hk] at hr; cases hr
        · rw [if_neg hk] at hr ⊢
          exact ih h2 hr

theorem expand_unit {names : Option UnitReference} {defn : Node} {refs : List (Str × Ref)} {e : Node}
    (h : (Ref.unit names defn refs).expand = .ok e) :
    ∃ es, Ref.expandList refs = .ok es ∧ e = defn.substitute es := by
  rw [Ref.expand] at h
  cases h1 : Ref.expandList refs with
  | error x => rw [h1] at h; cases h
  | ok es => rw [h1] at h; cases h; exact ⟨es, rfl, rfl⟩

theorem expand_pre_number {p : Prefix} {e : Node} (h : (Ref.pre p).expand = .ok e) :
    ∃ v r, e = .number v r := by
  rw [Ref.expand, Prefix.expand] at h
  cases h1 : Dec.parse p.value with
  | error x => rw [h1] at h; cases h
  | ok d => rw [h1] at h; cases h; exact ⟨_, _, rfl⟩

theorem toMono_number_exp {v : Num} {r : Option Str} {m : Mono} (h : (Node.number v r).toMono = .ok m) (s : Str) :
    m.exp s = 0 := by
  simp only [Node.toMono] at h
  cases hv : v.toRat with
  | error e => rw [hv] at h; cases h
  | ok q => rw [hv] at h; cases h; rfl

/-- The power of `s` in a referenced object (0 for a prefix). -/
def RefPow (s : Str) (r : Ref) (k : Int) : Prop :=
  match r.dims? with
  | .ok (some d) => k = Dims.power s d
  | .ok none => k = 0
  | .error _ => False

theorem refPow_of_dims {s : Str} {r : Ref} {d : Dims} (h : r.dims = .ok d) : RefPow s r (Dims.power s d) := by
  unfold Ref.dims at h
  unfold RefPow
  cases hq : r.dims? with
  | error e => rw [hq] at h; cases h
  | ok o =>
    rw [hq] at h
    cases o with
    | none => cases h
    | some d' => cases h; rfl

theorem refPower_eq {s : Str} {refs : List (Str × Ref)} {n : Str} {r : Ref} (h : Dict.get n refs = some r)
    {k : Int} (hk : RefPow s r k) : refPower refs s n = k := by
  unfold RefPow at hk
  unfold refPower
  rw [h]
  simp only
  cases hd : r.dims? with
  | error e => rw [hd] at hk; exact absurd hk id
  | ok o =>
    rw [hd] at hk
    cases o with
    | none => exact hk.symm
    | some d => simp only at hk ⊢; rw [hk]; exact (Dims.power_eq_total (dims?_wf hd).1).symm

theorem refPow_exists {s : Str} {r : Ref} {o : Option Dims} (h : r.dims? = .ok o) : ∃ k, RefPow s r k := by
  unfold RefPow
  rw [h]
  cases o with
  | none => exact ⟨0, rfl⟩
  | some d => exact ⟨_, rfl⟩

/-- A linear unit expands to a transformation-free expression in which the exponent of `s` is the power
given by dimensional analysis. -/
theorem linear_spec {s : Str} {r : Ref} (hl : Linear s r) : ∀ {e : Node} {k : Int}, r.expand = .ok e → RefPow s r k →
    NoTransform e ∧ ∀ m, e.toMono = .ok m → m.coef ≠ 0 → m.exp s = k := by
  induction hl with
  | basis b hb =>
    intro e k he hk
    rw [Ref.expand] at he; cases he
    refine ⟨trivial, fun m hm _ => ?_⟩
    cases hm
    unfold RefPow at hk
    rw [Ref.dims?] at hk
    simp only at hk
    rw [hk]
    by_cases hs : b.ref = s
    · rw [hb hs]
      simp [Dims.power, Dims.get?, hs, Mono.exp, Mono.sym, Dict.get]
    · have : (Mono.sym b.ref).exp s = 0 := by
        unfold Mono.exp Mono.sym; rw [Dict.get_cons, if_neg hs]; rfl
      rw [this]
      split
      · rfl
      · simp [Dims.power, Dims.get?, hs]
  | pre p =>
    intro e k he hk
    obtain ⟨v, r, rfl⟩ := expand_pre_number he
    refine ⟨trivial, fun m hm _ => ?_⟩
    rw [toMono_number_exp hm]
    unfold RefPow at hk
    rw [Ref.dims?] at hk
    exact hk.symm
  | unit names defn refs hp hr ih =>
    intro e k he hk
    obtain ⟨es, h1, rfl⟩ := expand_unit he
    unfold RefPow at hk
    rw [Ref.dims?] at hk
    cases hd : unitDims (fun n => Dict.get n (Ref.dimsList refs)) defn with
    | error x => rw [hd] at hk; exact absurd hk id
    | ok d =>
      rw [hd] at hk
      simp only [bind, Except.bind] at hk
      obtain ⟨hok, hpow⟩ := defnDims_plain_inv (refs := refs) hp hd
      constructor
      · refine substitute_noTransform hp fun n hn x hx => ?_
        obtain ⟨r, o, g1, g2⟩ := hok n hn
        obtain ⟨e, e1, e2⟩ := get_expandList h1 g1
        rw [hx] at e2; cases e2
        obtain ⟨k', hk'⟩ := refPow_exists (s := s) g2
        exact (ih n r g1 e1 hk').1
      · intro m hm hc
        rw [hk, hpow]
        refine substitute_exp s (refPower refs s) hp (fun n hn => ?_) m hm hc
        obtain ⟨r, o, g1, g2⟩ := hok n hn
        obtain ⟨e, e1, e2⟩ := get_expandList h1 g1
        obtain ⟨k', hk'⟩ := refPow_exists (s := s) g2
        refine ⟨e, e2, fun m' hm' hc' => ?_⟩
        rw [(ih n r g1 e1 hk').2 m' hm' hc', refPower_eq g1 hk']

/-! ## Affine units -/

/-- the operations of a transformation mention no symbol `s` -/
def FreeOf (s : Str) (t : List TOp) : Prop := ∀ m, TOp.scale m ∈ t → m.exp s = 0

theorem opsOf_orValue {ot : Option Trans} {l : List TOp} : opsOf ot = .ok l ↔ (Trans.orValue ot).ops = .ok l := by
  cases ot <;> rfl

theorem scalar_spec {s : Str} {refs : List (Str × Ref)} {e : Node} (h : Scalar refs e) {es : List (Str × Node)}
    (he : Ref.expandList refs = .ok es) :
    NoTransform (e.substitute es) ∧ (∀ m, (e.substitute es).toMono = .ok m → m.coef ≠ 0 → m.exp s = 0) := by
  have hz : degree (fun _ => 0) e = 0 := by
    have : ∀ n : Node, degree (fun _ => 0) n = 0 := by
      intro n
      induction n with
      | number v r => rfl
      | ident n => rfl
      | unhandled r => rfl
      | mul l r hl hr => rw [degree, hl, hr]; rfl
      | div l r hl hr => rw [degree, hl, hr]; rfl
      | raise l r hl hr =>
        cases r with
        | number v raw => cases v <;> simp [degree, hl]
        | _ => simp [degree]
      | shift u f hu hf => rw [degree, hu]
      | log fn t ht => rw [degree, ht]
    exact this e
  have key : ∀ k ∈ countedIds e, ∃ x, Dict.get k es = some x ∧ ∃ v r, x = .number v r := by
    intro k hk
    obtain ⟨p, hp⟩ := h.2 k (countedIds_sub k hk)
    obtain ⟨x, x1, x2⟩ := get_expandList he hp
    exact ⟨x, x2, expand_pre_number x1⟩
  constructor
  · refine substitute_noTransform h.1 fun k hk x hx => ?_
    obtain ⟨y, hy, v, r, rfl⟩ := key k hk
    rw [hx] at hy; cases hy; trivial
  · intro m hm hc
    rw [← hz]
    refine substitute_exp s (fun _ => 0) h.1 (fun k hk => ?_) m hm hc
    obtain ⟨y, hy, v, r, rfl⟩ := key k hk
    exact ⟨_, hy, fun m' hm' _ => toMono_number_exp hm' s⟩

theorem scalar_degree {s : Str} {refs : List (Str × Ref)} {e : Node} (h : Scalar refs e) :
    degree (refPower refs s) e = 0 ∧ RefsOk refs (countedIds e) := by
  have h0 : ∀ k ∈ countedIds e, refPower refs s k = 0 ∧ ∃ r o, Dict.get k refs = some r ∧ r.dims? = .ok o := by
    intro k hk
    obtain ⟨p, hp⟩ := h.2 k (countedIds_sub k hk)
    refine ⟨?_, .pre p, none, hp, by rw [Ref.dims?]⟩
    unfold refPower; rw [hp]; rfl
  refine ⟨?_, fun k hk => (h0 k hk).2⟩
  have : ∀ n : Node, (∀ k ∈ countedIds n, refPower refs s k = 0) → degree (refPower refs s) n = 0 := by
    intro n
    induction n with
    | number v r => intro _; rfl
    | ident n => intro hn; exact hn n (by simp [countedIds])
    | unhandled r => intro _; rfl
    | mul l r hl hr =>
      intro hn
      rw [degree, hl fun k hk => hn k (by simp [countedIds, hk]), hr fun k hk => hn k (by simp [countedIds, hk])]; rfl
    | div l r hl hr =>
      intro hn
      rw [degree, hl fun k hk => hn k (by simp [countedIds, hk]), hr fun k hk => hn k (by simp [countedIds, hk])]; rfl
    | raise l r hl hr =>
      intro hn
      have := hl fun k hk => hn k (by simp [countedIds, hk])
      cases r with
      | number v raw => cases v <;> simp [degree, this]
      | _ => simp [degree]
    | shift u f hu hf => intro hn; rw [degree, hu fun k hk => hn k (by simp [countedIds, hk])]
    | log fn t ht => intro hn; rw [degree, ht fun k hk => hn k (by simp [countedIds, hk])]
  exact this e fun k hk => (h0 k hk).1

/-- dimensionality depends only on the definition that `SplitExpr` leaves -/
theorem defnDims_split {refs : List (Str × Ref)} {n b : Node} {ot : Option Trans} (hs : n.split true = .ok (ot, b))
    (hb : Plain b) : defnDims refs n = defnDims refs b := by
  unfold defnDims
  rw [unitDims_of_split, unitDims_of_split, hs, plain_split hb]
  rfl

/-- what is known of an affine unit -/
structure AffineSpec (s : Str) (r : Ref) : Prop where
  /-- definition level (for units) -/
  core : ∀ names defn refs, r = .unit names defn refs →
    ∃ b, Plain b ∧ ∀ root, ∃ ot, defn.split root = .ok (ot, b)
  /-- expanded -/
  sym : ∀ e k, r.expand = .ok e → RefPow s r k → ∀ root ot b, e.split root = .ok (ot, b) →
    (∀ t, opsOf ot = .ok t → FreeOf s t) ∧ (∀ m, b.toMono = .ok m → m.coef ≠ 0 → m.exp s = k)

theorem freeOf_append {s : Str} {a b : List TOp} (ha : FreeOf s a) (hb : FreeOf s b) : FreeOf s (a ++ b) := by
  intro m hm
  rcases List.mem_append.1 hm with h | h
  · exact ha m h
  · exact hb m h

theorem ops_shift_inv {t : Trans} {f : Node} {l : List TOp} (h : (Trans.shift t f).ops = .ok l) :
    ∃ o q, t.ops = .ok o ∧ l = o ++ [.sub q] := by
  simp only [Trans.ops] at h
  cases h1 : t.ops with
  | error e => rw [h1] at h; cases h
  | ok o =>
    rw [h1] at h
    cases f with
    | number v r =>
      change (do .ok (o ++ [.sub (← v.toRat)]) : Py (List TOp)) = _ at h
      cases h2 : v.toRat with
      | error e => rw [h2] at h; cases h
      | ok q => rw [h2] at h; cases h; exact ⟨o, q, rfl, rfl⟩
    | _ => cases h

theorem ops_log_inv {t : Trans} {fn : Str} {l : List TOp} (h : (Trans.log fn t).ops = .ok l) :
    ∃ o b, t.ops = .ok o ∧ l = o ++ [.log b] := by
  simp only [Trans.ops] at h
  cases h2 : logBase fn with
  | error e => rw [h2] at h; cases h
  | ok b =>
    rw [h2] at h
    cases h1 : t.ops with
    | error e => simp only [bind, Except.bind, h1] at h; cases h
    | ok o => simp only [bind, Except.bind, h1] at h; cases h; exact ⟨o, b, rfl, rfl⟩

theorem ops_mulL_inv {t : Trans} {d : Node} {l : List TOp} (h : (Trans.mulL d t).ops = .ok l) :
    ∃ o m, t.ops = .ok o ∧ d.toMono = .ok m ∧ m.coef ≠ 0 ∧ l = o ++ [.scale m] := by
  simp only [Trans.ops] at h
  cases h2 : d.toMono with
  | error e => rw [h2] at h; cases h
  | ok m =>
    rw [h2] at h
    cases h1 : t.ops with
    | error e => simp only [bind, Except.bind, h1] at h; cases h
    | ok o =>
      simp only [bind, Except.bind, h1] at h
      cases h3 : TOp.mkScale m with
      | error e => rw [h3] at h; cases h
      | ok x =>
        rw [h3] at h
        obtain ⟨rfl, hg⟩ := mkScale_good (toMono_wf h2) h3
        cases h
        exact ⟨o, m, rfl, rfl, hg.2, rfl⟩

theorem ops_mulR_inv {t : Trans} {d : Node} {l : List TOp} (h : (Trans.mulR t d).ops = .ok l) :
    ∃ o m, t.ops = .ok o ∧ d.toMono = .ok m ∧ m.coef ≠ 0 ∧ l = o ++ [.scale m] := by
  simp only [Trans.ops] at h
  cases h1 : t.ops with
  | error e => rw [h1] at h; cases h
  | ok o =>
    rw [h1] at h
    cases h2 : d.toMono with
    | error e => simp only [bind, Except.bind, h2] at h; cases h
    | ok m =>
      simp only [bind, Except.bind, h2] at h
      cases h3 : TOp.mkScale m with
      | error e => rw [h3] at h; cases h
      | ok x =>
        rw [h3] at h
        obtain ⟨rfl, hg⟩ := mkScale_good (toMono_wf h2) h3
        cases h
        exact ⟨o, m, rfl, rfl, hg.2, rfl⟩

theorem refPow_congr {s : Str} {a b : Ref} {k : Int} (h : a.dims? = b.dims?) (hk : RefPow s a k) : RefPow s b k := by
  unfold RefPow at hk ⊢; rw [← h]; exact hk

theorem dims?_unit_congr {names : Option UnitReference} {d1 d2 : Node} {refs : List (Str × Ref)}
    (h : defnDims refs d1 = defnDims refs d2) : (Ref.unit names d1 refs).dims? = (Ref.unit names d2 refs).dims? := by
  rw [Ref.dims?, Ref.dims?]
  unfold defnDims at h
  rw [h]

theorem refPow_unit_of_power {s : Str} {names : Option UnitReference} {d1 d2 : Node} {refs : List (Str × Ref)}
    (h : ∀ d, defnDims refs d1 = .ok d → ∃ d', defnDims refs d2 = .ok d' ∧ Dims.power s d' = Dims.power s d) {k : Int}
    (hk : RefPow s (.unit names d1 refs) k) : RefPow s (.unit names d2 refs) k := by
  unfold RefPow at hk ⊢
  rw [Ref.dims?] at hk ⊢
  unfold defnDims at h
  cases hd : unitDims (fun n => Dict.get n (Ref.dimsList refs)) d1 with
  | error x => rw [hd] at hk; exact absurd hk id
  | ok d =>
    rw [hd] at hk
    obtain ⟨d', h1, h2⟩ := h d hd
    rw [h1]
    exact hk.trans h2.symm

theorem affine_spec {s : Str} {r : Ref} (h : Affine s r) : AffineSpec s r := by
  induction h with
  | linear hl =>
    rename_i r
    constructor
    · rintro names defn refs rfl
      cases hl with
      | unit _ _ _ hp hr => exact ⟨defn, hp, fun root => ⟨none, plain_split hp root⟩⟩
    · intro e k he hk root ot b hs
      obtain ⟨h1, h2⟩ := linear_spec hl he hk
      rw [noTransform_split h1] at hs; cases hs
      exact ⟨(fun t ht => by cases ht; intro m hm; cases hm), h2⟩
  | @ident names n refs r hg hr ih =>
    constructor
    · intro names' defn' refs' heq
      cases heq
      exact ⟨.ident n, trivial, fun root => ⟨none, rfl⟩⟩
    · intro e k he hk root ot b hs
      obtain ⟨es, h1, rfl⟩ := expand_unit he
      obtain ⟨x, x1, x2⟩ := get_expandList h1 hg
      simp only [Node.substitute, x2] at hs
      refine ih.sym x k x1 ?_ root ot b hs
      unfold RefPow at hk
      rw [Ref.dims?] at hk
      cases hd : unitDims (fun n => Dict.get n (Ref.dimsList refs)) (.ident n) with
      | error x => rw [hd] at hk; exact absurd hk id
      | ok d =>
        rw [hd] at hk
        simp only [bind, Except.bind] at hk
        obtain ⟨hok, hpow⟩ := defnDims_plain_inv (refs := refs) (n := .ident n) trivial hd
        obtain ⟨r', o, g1, g2⟩ := hok n (by simp [countedIds])
        rw [hg] at g1; cases g1
        obtain ⟨k', hk'⟩ := refPow_exists (s := s) g2
        have := hpow s
        rw [degree, refPower_eq hg hk'] at this
        rw [hk, this]; exact hk'
  | @shift names u f refs hu ih =>
    obtain ⟨b0, hb0, hsp⟩ := ih.core _ _ _ rfl
    constructor
    · intro names' defn' refs' heq
      cases heq
      refine ⟨b0, hb0, fun root => ?_⟩
      obtain ⟨ot, hot⟩ := hsp false
      simp only [Node.split, hot]
      cases root <;> exact ⟨_, rfl⟩
    · intro e k he hk root ot b hs
      obtain ⟨es, h1, rfl⟩ := expand_unit he
      have hu' : (Ref.unit names u refs).expand = .ok (u.substitute es) := by
        rw [Ref.expand, h1]; rfl
      have hk' : RefPow s (.unit names u refs) k :=
        refPow_congr (dims?_unit_congr (unitDims_shift _ _ _)) hk
      simp only [Node.substitute, Node.split] at hs
      cases hq : (u.substitute es).split false with
      | error x => rw [hq] at hs; cases hs
      | ok q =>
        obtain ⟨ot1, b1⟩ := q
        rw [hq] at hs
        have key := ih.sym _ k hu' hk' false ot1 b1 hq
        change (if root then .ok (some (.shift (Trans.orValue ot1) (f.substitute es)), b1)
          else .ok (some (Trans.orValue ot1), b1) : Py (Option Trans × Node)) = _ at hs
        cases root with
        | true =>
          simp only [if_true] at hs
          cases hs
          refine ⟨fun t ht => ?_, key.2⟩
          obtain ⟨o, q, o1, rfl⟩ := ops_shift_inv ht
          exact freeOf_append (key.1 o (opsOf_orValue.2 o1)) (by intro m hm; simp at hm)
        | false =>
          simp only [Bool.false_eq_true, if_false] at hs
          cases hs
          exact ⟨fun t ht => key.1 t (opsOf_orValue.2 ht), key.2⟩
  | @log names fn u refs hu ih =>
    obtain ⟨b0, hb0, hsp⟩ := ih.core _ _ _ rfl
    constructor
    · intro names' defn' refs' heq
      cases heq
      refine ⟨b0, hb0, fun root => ?_⟩
      obtain ⟨ot, hot⟩ := hsp false
      simp only [Node.split, hot]
      exact ⟨_, rfl⟩
    · intro e k he hk root ot b hs
      obtain ⟨es, h1, rfl⟩ := expand_unit he
      have hu' : (Ref.unit names u refs).expand = .ok (u.substitute es) := by
        rw [Ref.expand, h1]; rfl
      have hk' : RefPow s (.unit names u refs) k :=
        refPow_congr (dims?_unit_congr (unitDims_log _ _ _)) hk
      simp only [Node.substitute, Node.split] at hs
      cases hq : (u.substitute es).split false with
      | error x => rw [hq] at hs; cases hs
      | ok q =>
        obtain ⟨ot1, b1⟩ := q
        rw [hq] at hs
        have key := ih.sym _ k hu' hk' false ot1 b1 hq
        cases hs
        refine ⟨fun t ht => ?_, key.2⟩
        obtain ⟨o, b', o1, rfl⟩ := ops_log_inv ht
        exact freeOf_append (key.1 o (opsOf_orValue.2 o1)) (by intro m hm; simp at hm)
  | @mulL names e0 u refs he0 hu ih =>
    obtain ⟨b0, hb0, hsp⟩ := ih.core _ _ _ rfl
    obtain ⟨otf, hotf⟩ := hsp false
    obtain ⟨ott, hott⟩ := hsp true
    constructor
    · intro names' defn' refs' heq
      cases heq
      cases otf with
      | none =>
        refine ⟨.mul e0 b0, ⟨he0.1, hb0⟩, fun root => ⟨none, ?_⟩⟩
        simp only [Node.split, plain_split he0.1, hotf]; rfl
      | some t =>
        refine ⟨b0, hb0, fun root => ⟨some (.mulL e0 t), ?_⟩⟩
        · simp only [Node.split, plain_split he0.1, hotf]; rfl
    · intro e k he hk root ot b hs
      obtain ⟨es, h1, rfl⟩ := expand_unit he
      have hu' : (Ref.unit names u refs).expand = .ok (u.substitute es) := by
        rw [Ref.expand, h1]; rfl
      have hk' : RefPow s (.unit names u refs) k := by
        refine refPow_unit_of_power (fun d hd => ?_) hk
        cases otf with
        | none =>
          have hsm : (Node.mul e0 u).split true = .ok (none, .mul e0 b0) := by
            simp only [Node.split, plain_split he0.1, hotf]; rfl
          rw [defnDims_split hsm ⟨he0.1, hb0⟩] at hd
          obtain ⟨hok, hp⟩ := defnDims_plain_inv (refs := refs) (n := .mul e0 b0) ⟨he0.1, hb0⟩ hd
          obtain ⟨d', h1, h2⟩ := defnDims_plain (refs := refs) hb0 fun n hn => hok n (by simp [countedIds, hn])
          refine ⟨d', by rw [defnDims_split hott hb0]; exact h1, ?_⟩
          rw [h2, hp, degree, (scalar_degree he0).1]; ring
        | some t =>
          have hsm : (Node.mul e0 u).split true = .ok (some (.mulL e0 t), b0) := by
            simp only [Node.split, plain_split he0.1, hotf]; rfl
          rw [defnDims_split hsm hb0] at hd
          exact ⟨d, by rw [defnDims_split hott hb0]; exact hd, rfl⟩
      obtain ⟨s1, s2⟩ := scalar_spec (s := s) he0 h1
      simp only [Node.substitute, Node.split, noTransform_split s1] at hs
      cases hq : (u.substitute es).split false with
      | error x => rw [hq] at hs; cases hs
      | ok q =>
        obtain ⟨ot1, b1⟩ := q
        rw [hq] at hs
        have key := ih.sym _ k hu' hk' false ot1 b1 hq
        cases ot1 with
        | none =>
          cases hs
          refine ⟨(fun t ht => by cases ht; intro m hm; cases hm), fun m hm hc => ?_⟩
          simp only [Node.toMono] at hm
          cases m1 : (e0.substitute es).toMono with
          | error x => rw [m1] at hm; cases hm
          | ok a =>
            rw [m1] at hm
            cases m2 : b1.toMono with
            | error x => rw [m2] at hm; cases hm
            | ok b =>
              rw [m2] at hm; cases hm
              rw [Mono.coef_mul] at hc
              have ca := left_ne_zero_of_mul hc
              have cb := right_ne_zero_of_mul hc
              rw [Mono.exp_mul (toMono_wf m1) (toMono_wf m2) ca cb, s2 a m1 ca, key.2 b m2 cb]; ring
        | some t1 =>
          cases hs
          refine ⟨fun t ht => ?_, key.2⟩
          obtain ⟨o, m, o1, o2, o3, rfl⟩ := ops_mulL_inv ht
          refine freeOf_append (key.1 o o1) ?_
          intro m' hm'
          simp at hm'; subst hm'
          exact s2 _ o2 o3
  | @mulR names e0 u refs he0 hu ih =>
    obtain ⟨b0, hb0, hsp⟩ := ih.core _ _ _ rfl
    obtain ⟨otf, hotf⟩ := hsp false
    obtain ⟨ott, hott⟩ := hsp true
    constructor
    · intro names' defn' refs' heq
      cases heq
      cases otf with
      | none =>
        refine ⟨.mul b0 e0, ⟨hb0, he0.1⟩, fun root => ⟨none, ?_⟩⟩
        simp only [Node.split, plain_split he0.1, hotf]; rfl
      | some t =>
        refine ⟨b0, hb0, fun root => ⟨some (.mulR t e0), ?_⟩⟩
        · simp only [Node.split, plain_split he0.1, hotf]; rfl
    · intro e k he hk root ot b hs
      obtain ⟨es, h1, rfl⟩ := expand_unit he
      have hu' : (Ref.unit names u refs).expand = .ok (u.substitute es) := by
        rw [Ref.expand, h1]; rfl
      have hk' : RefPow s (.unit names u refs) k := by
        refine refPow_unit_of_power (fun d hd => ?_) hk
        cases otf with
        | none =>
          have hsm : (Node.mul u e0).split true = .ok (none, .mul b0 e0) := by
            simp only [Node.split, plain_split he0.1, hotf]; rfl
          rw [defnDims_split hsm ⟨hb0, he0.1⟩] at hd
          obtain ⟨hok, hp⟩ := defnDims_plain_inv (refs := refs) (n := .mul b0 e0) ⟨hb0, he0.1⟩ hd
          obtain ⟨d', h1, h2⟩ := defnDims_plain (refs := refs) hb0 fun n hn => hok n (by simp [countedIds, hn])
          refine ⟨d', by rw [defnDims_split hott hb0]; exact h1, ?_⟩
          rw [h2, hp, degree, (scalar_degree he0).1]; ring
        | some t =>
          have hsm : (Node.mul u e0).split true = .ok (some (.mulR t e0), b0) := by
            simp only [Node.split, plain_split he0.1, hotf]; rfl
          rw [defnDims_split hsm hb0] at hd
          exact ⟨d, by rw [defnDims_split hott hb0]; exact hd, rfl⟩
      obtain ⟨s1, s2⟩ := scalar_spec (s := s) he0 h1
      simp only [Node.substitute, Node.split, noTransform_split s1] at hs
      cases hq : (u.substitute es).split false with
      | error x => rw [hq] at hs; cases hs
      | ok q =>
        obtain ⟨ot1, b1⟩ := q
        rw [hq] at hs
        have key := ih.sym _ k hu' hk' false ot1 b1 hq
        cases ot1 with
        | none =>
          cases hs
          refine ⟨(fun t ht => by cases ht; intro m hm; cases hm), fun m hm hc => ?_⟩
          simp only [Node.toMono] at hm
          cases m2 : b1.toMono with
          | error x => rw [m2] at hm; cases hm
          | ok a =>
            rw [m2] at hm
            cases m1 : (e0.substitute es).toMono with
            | error x => rw [m1] at hm; cases hm
            | ok b =>
              rw [m1] at hm; cases hm
              rw [Mono.coef_mul] at hc
              have ca := left_ne_zero_of_mul hc
              have cb := right_ne_zero_of_mul hc
              rw [Mono.exp_mul (toMono_wf m2) (toMono_wf m1) ca cb, s2 b m1 cb, key.2 a m2 ca]; ring
        | some t1 =>
          cases hs
          refine ⟨fun t ht => ?_, key.2⟩
          obtain ⟨o, m, o1, o2, o3, rfl⟩ := ops_mulR_inv ht
          refine freeOf_append (key.1 o o1) ?_
          intro m' hm'
          simp at hm'; subst hm'
          exact s2 _ o2 o3

end Verif

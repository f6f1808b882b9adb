import Verif.Spec.ShippedTexts
import Verif.Lemmas.Rows
/-!
# UnitProduct expressions of linear units
-/

namespace Verif
open Spec

theorem product_plain {e : Node} (h : UnitProduct e) : Plain e := by
  induction e with
  | number => trivial
  | ident => trivial
  | unhandled => exact h
  | mul l r hl hr => exact ⟨hl h.1, hr h.2⟩
  | div l r hl hr => exact ⟨hl h.1, hr h.2⟩
  | raise l r hl hr => exact ⟨hl h.1, h.2⟩
  | shift => exact h
  | log => exact h

theorem product_shiftFree {e : Node} (h : UnitProduct e) : ShiftFree e := by
  induction e with
  | number => trivial
  | ident => trivial
  | unhandled => exact h
  | mul l r hl hr => exact ⟨hl h.1, hr h.2⟩
  | div l r hl hr => exact ⟨hl h.1, hr h.2⟩
  | raise l r hl hr => obtain ⟨h1, i, raw, rfl⟩ := h; exact ⟨hl h1, trivial⟩
  | shift => exact h.elim
  | log => exact h.elim

theorem degree_congr' {P Q : Str → Int} {e : Node} (h : ∀ n ∈ e.identifiers, P n = Q n) : degree P e = degree Q e :=
  degree_congr fun k hk => h k (countedIds_sub k hk)

theorem toMono_product {es : Dict Str Node} {c : Str → Rat} {P : Str → Str → Int} {e : Node} (h : UnitProduct e)
    (he : ∀ n ∈ countedIds e, ∃ x m, Dict.get n es = some x ∧ x.toMono = .ok m ∧ m.coef = c n ∧ c n ≠ 0 ∧ ∀ b, m.exp b = P n b) :
    ∃ m, (e.substitute es).toMono = .ok m ∧ m.coef = evalQ c e ∧ evalQ c e ≠ 0 ∧ ∀ b, m.exp b = degree (fun n => P n b) e := by
  induction e with
  | number v raw =>
    obtain ⟨q, h1, h2⟩ := h
    refine ⟨Mono.ofRat q, ?_, ?_, ?_, fun b => ?_⟩
    · simp only [Node.substitute, Node.toMono, h1, bind, Except.bind]
    · simp only [evalQ, h1, Mono.ofRat]
    · simpa only [evalQ, h1] using h2
    · rfl
  | ident n =>
    obtain ⟨x, m, h1, h2, h3, h4, h5⟩ := he n (by simp [countedIds])
    refine ⟨m, ?_, h3, h4, h5⟩
    simp only [Node.substitute, h1]
    exact h2
  | unhandled => exact h.elim
  | shift => exact h.elim
  | log => exact h.elim
  | mul l r hl hr =>
    obtain ⟨m1, a1, a2, a3, a4⟩ := hl h.1 fun n hn => he n (by simp [countedIds, hn])
    obtain ⟨m2, b1, b2, b3, b4⟩ := hr h.2 fun n hn => he n (by simp [countedIds, hn])
    refine ⟨m1.mul m2, ?_, ?_, ?_, fun b => ?_⟩
    · simp only [Node.substitute, Node.toMono, a1, b1, bind, Except.bind]
    · rw [Mono.coef_mul, a2, b2, evalQ]
    · rw [evalQ]; exact mul_ne_zero a3 b3
    · rw [Mono.exp_mul (toMono_wf a1) (toMono_wf b1) (by rw [a2]; exact a3) (by rw [b2]; exact b3), a4, b4, degree]
  | div l r hl hr =>
    obtain ⟨m1, a1, a2, a3, a4⟩ := hl h.1 fun n hn => he n (by simp [countedIds, hn])
    obtain ⟨m2, b1, b2, b3, b4⟩ := hr h.2 fun n hn => he n (by simp [countedIds, hn])
    obtain ⟨m, hm⟩ := Mono.div_total (a := m1) (b := m2) (by rw [b2]; exact b3)
    obtain ⟨_, c2, _, c4⟩ := Mono.div_spec (toMono_wf a1) (toMono_wf b1) hm
    refine ⟨m, ?_, ?_, ?_, fun b => ?_⟩
    · simp only [Node.substitute, Node.toMono, a1, b1, bind, Except.bind, hm]
    · rw [c2, a2, b2, evalQ]
    · rw [evalQ]; exact div_ne_zero a3 b3
    · rw [c4 (by rw [a2]; exact a3), a4, b4, degree]
  | raise l r hl hr =>
    obtain ⟨h1, i, raw, rfl⟩ := h
    obtain ⟨m1, a1, a2, a3, a4⟩ := hl h1 fun n hn => he n (by simp [countedIds, hn])
    have hp : ∃ m, m1.pow i = .ok m := by
      cases i with
      | ofNat k => exact ⟨_, rfl⟩
      | negSucc k =>
        unfold Mono.pow
        simp only [Mono.inv_ok (show m1.coef ≠ 0 by rw [a2]; exact a3), bind, Except.bind]
        exact ⟨_, rfl⟩
    obtain ⟨m, hm⟩ := hp
    obtain ⟨_, c2, c3⟩ := Mono.pow_spec (toMono_wf a1) hm
    refine ⟨m, ?_, ?_, ?_, fun b => ?_⟩
    · simp only [Node.substitute, Node.toMono, a1, bind, Except.bind, Node.asExponent, hm]
    · rw [c2, a2, evalQ]
    · rw [evalQ]; exact zpow_ne_zero _ a3
    · rw [c3 (by rw [a2]; exact a3), a4, degree]

/-- A multiple `c` of a product of basis units: exponents `P` in the symbolic definition, `D` in the dimensionality (none for a
prefix). -/
def Ref.Lin (r : Ref) (c : Rat) (P D : Str → Int) : Prop :=
  ∃ e m, r.expand = .ok e ∧ NoTransform e ∧ e.toMono = .ok m ∧ m.coef = c ∧ c ≠ 0 ∧ (∀ b, m.exp b = P b) ∧
    ((∃ d, r.dims? = .ok (some d) ∧ ∀ b, Dims.power b d = D b) ∨ ((∃ p, r = .pre p) ∧ ∀ b, D b = 0))

theorem lin_of_row {r : Ref} {u : ShippedUnit} (h : r.IsRow u) (hl : u.scale = .linear) (hs : r.Straight) (hf : u.factor ≠ 0) :
    r.Lin u.factor u.power u.dim := by
  obtain ⟨d, m, g1, g2, g3, g4, g5⟩ := h
  obtain ⟨e, e1, e2⟩ := hs
  unfold Ref.symDef at g3
  simp only [e1, bind, Except.bind] at g3
  exact ⟨e, m, e1, e2, ((symDef_noTransform e2 _ _).1 g3).2, g4, hf, g5, .inl ⟨d, g1, g2⟩⟩

/-- a product expression over multiples of products of basis units -/
theorem lin_product {refs : List (Str × Ref)} {c : Str → Rat} {P D : Str → Str → Int} {e : Node} (h : UnitProduct e)
    (hk : ∀ k a, (k, a) ∈ refs → k ∈ countedIds e ∧ Dict.get k refs = some a)
    (hr : ∀ n ∈ countedIds e, ∃ r, Dict.get n refs = some r ∧ r.Lin (c n) (P n) (D n)) (names : Option UnitReference) :
    (Ref.unit names e refs).Lin (evalQ c e) (fun b => degree (fun n => P n b) e) (fun b => degree (fun n => D n b) e) ∧
    ∃ d, (Ref.unit names e refs).dims? = .ok (some d) := by
  obtain ⟨es, hes⟩ := expandList_total (refs := refs) fun k a ha => by
    obtain ⟨h1, h2⟩ := hk k a ha
    obtain ⟨r, h3, e', m, h4, _⟩ := hr k h1
    rw [h2] at h3; cases h3
    exact ⟨e', h4⟩
  have hexp : (Ref.unit names e refs).expand = .ok (e.substitute es) := by
    rw [Ref.expand]; simp only [bind, Except.bind, hes]
  obtain ⟨m, m1, m2, m3, m4⟩ := toMono_product (es := es) (c := c) (P := P) h fun n hn => by
    obtain ⟨r, h3, e', m, h4, h5, h6, h7, h8, h9, _⟩ := hr n hn
    obtain ⟨x, x1, x2⟩ := get_expandList hes h3
    rw [h4] at x1; cases x1
    exact ⟨e', m, x2, h6, h7, h8, h9⟩
  have hpow : ∀ x, ∃ d, (Ref.unit names e refs).dims = .ok d ∧ Dims.power x d = degree (fun n => D n x) e := by
    intro x
    refine C09_dimensionality_is_degree names refs e (product_plain h) x (fun n => D n x) fun n hn => ?_
    obtain ⟨r, h3, e', m, h4, h5, h6, h7, h8, h9, h10⟩ := hr n hn
    refine ⟨r, h3, ?_⟩
    rcases h10 with ⟨d, d1, d2⟩ | ⟨p, d2⟩
    · exact .inr ⟨d, dims_of_some d1, (d2 x).symm⟩
    · exact .inl ⟨p, d2 x⟩
  obtain ⟨d, d1, _⟩ := hpow []
  have hds : (Ref.unit names e refs).dims? = .ok (some d) := by
    unfold Ref.dims at d1
    cases hx : (Ref.unit names e refs).dims? with
    | error e => rw [hx] at d1; cases d1
    | ok q => cases q with
      | none => rw [hx] at d1; cases d1
      | some d2 => rw [hx] at d1; cases d1; rfl
  refine ⟨⟨_, m, hexp, ?_, m1, m2, m3, m4, .inl ⟨d, hds, fun b => ?_⟩⟩, d, hds⟩
  · refine substitute_noTransform (product_plain h) fun n hn x hx => ?_
    obtain ⟨r, h3, e', m, h4, h5, _⟩ := hr n hn
    obtain ⟨y, y1, y2⟩ := get_expandList hes h3
    rw [hx] at y2; cases y2
    rw [h4] at y1; cases y1
    exact h5
  · obtain ⟨d2, g1, g2⟩ := hpow b
    rw [d1] at g1; cases g1; exact g2


theorem row_of_lin {r : Ref} {c : Rat} {P D : Str → Int} (h : r.Lin c P D) (hd : ∃ d, r.dims? = .ok (some d))
    (hD : ∀ b, D b = if b = c!"radian" then 0 else P b) :
    ∃ u : ShippedUnit, r.IsRow u ∧ r.Straight ∧ u.scale = .linear ∧ u.factor = c ∧ c ≠ 0 ∧ ∀ b, u.power b = P b := by
  obtain ⟨e, m, h1, h2, h3, h4, h5, h6, h7⟩ := h
  obtain ⟨d, hd⟩ := hd
  refine ⟨⟨[], .linear, m.coef, m.exps⟩, ⟨d, m, hd, fun b => ?_, ?_, rfl, fun b => rfl⟩, ⟨e, h1, h2⟩, rfl, h4, h5, h6⟩
  · rcases h7 with ⟨d', g1, g2⟩ | ⟨⟨p, rfl⟩, _⟩
    · rw [hd] at g1; cases g1
      rw [g2, hD]
      unfold ShippedUnit.dim
      rw [show ShippedUnit.power ⟨[], .linear, m.coef, m.exps⟩ b = P b from h6 b]
    · rw [Ref.dims?] at hd; cases hd
  · unfold Ref.symDef
    simp only [h1, bind, Except.bind]
    exact (symDef_noTransform h2 _ _).2 ⟨rfl, h3⟩

theorem dims?_congr {names : Option UnitReference} {e e' : Node} {refs : List (Str × Ref)}
    (h : ∀ look, unitDims look e' = unitDims look e) : (Ref.unit names e' refs).dims? = (Ref.unit names e refs).dims? := by
  rw [Ref.dims?, Ref.dims?, h]

/-- `u @ q` for a multiple of basis units -/
theorem row_shift {names : Option UnitReference} {e : Node} {refs : List (Str × Ref)} {u : ShippedUnit}
    (h : (Ref.unit names e refs).IsRow u) (hs : (Ref.unit names e refs).Straight) (hl : u.scale = .linear)
    {v : Num} {raw : Option Str} {q : Rat} (hq : v.toRat = .ok q) :
    (Ref.unit names (.shift e (.number v raw)) refs).IsRow { u with scale := .offset q } := by
  obtain ⟨d, m, g1, g2, g3, g4, g5⟩ := h
  obtain ⟨x, x1, x2⟩ := hs
  refine ⟨d, m, ?_, g2, ?_, g4, g5⟩
  · rw [dims?_congr fun look => unitDims_shift look _ _, g1]
  · obtain ⟨es, h1, rfl⟩ := expand_unit x1
    unfold Ref.symDef at g3 ⊢
    simp only [x1, bind, Except.bind] at g3
    have g3' := ((symDef_noTransform x2 _ _).1 g3).2
    rw [Ref.expand]
    simp only [bind, Except.bind, h1]
    change (Node.shift (e.substitute es) (.number v raw)).symDef = _
    rw [symDef_iff]
    refine ⟨some (.shift .value (.number v raw)), e.substitute es, ?_, ?_, g3'⟩
    · simp only [Node.split, noTransform_split x2]; rfl
    · simp only [opsOf, Trans.ops, bind, Except.bind, hq, List.nil_append, scaleOps]

/-- `lg(re u)` for a multiple of basis units -/
theorem row_log {names : Option UnitReference} {e : Node} {refs : List (Str × Ref)} {u : ShippedUnit}
    (h : (Ref.unit names e refs).IsRow u) (hs : (Ref.unit names e refs).Straight) (hl : u.scale = .linear)
    {fn : Str} {σ : Scale} {b : Option Nat} (hb : logBase fn = .ok b) (hσ : scaleOps σ = [.log b]) :
    (Ref.unit names (.log fn e) refs).IsRow { u with scale := σ } := by
  obtain ⟨d, m, g1, g2, g3, g4, g5⟩ := h
  obtain ⟨x, x1, x2⟩ := hs
  refine ⟨d, m, ?_, g2, ?_, g4, g5⟩
  · rw [dims?_congr fun look => unitDims_log look _ _, g1]
  · obtain ⟨es, h1, rfl⟩ := expand_unit x1
    unfold Ref.symDef at g3 ⊢
    simp only [x1, bind, Except.bind] at g3
    have g3' := ((symDef_noTransform x2 _ _).1 g3).2
    rw [Ref.expand]
    simp only [bind, Except.bind, h1]
    change (Node.log fn (e.substitute es)).symDef = _
    rw [symDef_iff]
    refine ⟨some (.log fn .value), e.substitute es, ?_, ?_, g3'⟩
    · simp only [Node.split, noTransform_split x2]; rfl
    · simp only [opsOf, Trans.ops, bind, Except.bind, hb, List.nil_append, hσ]

/-! ## Which basis units occur -/

/-- every basis unit in the dimensionality satisfies `p` -/
def Ref.BasesIn (p : Basis → Prop) (r : Ref) : Prop := ∀ d, r.dims? = .ok (some d) → ∀ q ∈ d, p q.1

theorem mem_dims_set {b : Basis} {i : Int} {q : Basis × Int} : ∀ {r : Dims}, q ∈ Dims.set b i r → q.1 = b ∨ ∃ k, (q.1, k) ∈ r
  | [], h => by
    rcases List.mem_cons.1 h with rfl | h
    · exact .inl rfl
    · cases h
  | (b', v) :: r, h => by
    unfold Dims.set at h
    split at h
    · rcases List.mem_cons.1 h with rfl | h
      · exact .inr ⟨v, List.mem_cons_self ..⟩
      · exact .inr ⟨q.2, List.mem_cons_of_mem _ h⟩
    · rcases List.mem_cons.1 h with rfl | h
      · exact .inr ⟨v, List.mem_cons_self ..⟩
      · rcases mem_dims_set h with h | ⟨k, h⟩
        · exact .inl h
        · exact .inr ⟨k, List.mem_cons_of_mem _ h⟩

theorem dimsAddAll_bases {p : Basis → Prop} {o : PyVal} : ∀ {l : List (Basis × Int)} {r r' : Dims}, dimsAddAll o l r = .ok r' →
    (∀ q ∈ l, p q.1) → (∀ q ∈ r, p q.1) → ∀ q ∈ r', p q.1
  | [], r, r', h, _, h2 => by cases h; exact h2
  | (b, k) :: l, r, r', h, h1, h2 => by
    unfold dimsAddAll at h
    cases g1 : PyVal.mul (.int k) o with
    | error e => simp only [g1, bind, Except.bind] at h; cases h
    | ok x =>
      simp only [g1, bind, Except.bind] at h
      cases g2 : PyVal.add (.int (Dims.power b.ref r)) x with
      | error e => simp only [g2] at h; cases h
      | ok v =>
        simp only [g2] at h
        cases v with
        | str => cases h
        | int i =>
          refine dimsAddAll_bases h (fun q hq => h1 q (List.mem_cons_of_mem _ hq)) fun q hq => ?_
          rcases mem_dims_set hq with hq | ⟨k', hq⟩
          · rw [hq]; exact h1 _ (List.mem_cons_self ..)
          · exact h2 (q.1, k') hq

theorem dimsLoop_bases {p : Basis → Prop} {look : Str → Option (Py (Option Dims))}
    (hl : ∀ n d, look n = some (.ok (some d)) → ∀ q ∈ d, p q.1) : ∀ {items : List (Str × PyVal)} {r r' : Dims},
    dimsLoop look items r = .ok r' → (∀ q ∈ r, p q.1) → ∀ q ∈ r', p q.1
  | [], r, r', h, h2 => by cases h; exact h2
  | (n, o) :: items, r, r', h, h2 => by
    unfold dimsLoop at h
    cases g : look n with
    | none => rw [g] at h; cases h
    | some x =>
      rw [g] at h
      cases x with
      | error e => cases h
      | ok y =>
        simp only [bind, Except.bind] at h
        cases y with
        | none => exact dimsLoop_bases hl h h2
        | some ud =>
          simp only at h
          cases g2 : dimsAddAll o ud r with
          | error e => rw [g2] at h; cases h
          | ok r2 =>
            rw [g2] at h
            exact dimsLoop_bases hl h (dimsAddAll_bases g2 (hl n ud g) h2)

theorem basesIn_unit {p : Basis → Prop} {names : Option UnitReference} {e : Node} {refs : List (Str × Ref)}
    (h : ∀ n a, Dict.get n refs = some a → a.BasesIn p) : (Ref.unit names e refs).BasesIn p := by
  intro d hd q hq
  rw [Ref.dims?] at hd
  cases hu : unitDims (fun n => Dict.get n (Ref.dimsList refs)) e with
  | error x => rw [hu] at hd; cases hd
  | ok d' =>
    rw [hu] at hd; cases hd
    unfold unitDims at hu
    cases h1 : e.split true with
    | error x => rw [h1] at hu; cases hu
    | ok sp =>
      obtain ⟨_, e'⟩ := sp
      simp only [h1, bind, Except.bind] at hu
      cases h2 : e'.dimCount with
      | error x => rw [h2] at hu; cases hu
      | ok items =>
        simp only [h2] at hu
        cases h3 : dimsLoop (fun n => Dict.get n (Ref.dimsList refs)) items [] with
        | error x => simp only [h3] at hu; cases hu
        | ok res =>
          simp only [h3] at hu
          cases hu
          refine dimsLoop_bases (p := p) ?_ h3 (fun q hq => by cases hq) q (List.mem_of_mem_filter hq)
          intro n ud hn
          rw [get_dimsList] at hn
          cases hg : Dict.get n refs with
          | none => rw [hg] at hn; cases hn
          | some a => rw [hg] at hn; exact h n a hg ud (Option.some.inj hn)

theorem basesIn_pre {p : Basis → Prop} (x : Prefix) : (Ref.pre x).BasesIn p := by
  intro d hd; rw [Ref.dims?] at hd; cases hd

/-- whatever a lookup in a fixed registry returns mentions only basis units that are registered -/
theorem lookup_basesIn {env : Env} {s : System} {p : Basis → Prop}
    (hreg : ∀ n r, direct s n = some (.unit r) → r.BasesIn p) : ∀ (d : Nat) (n : Str) (r : Ref),
    Spec.lookup env s d n = .ok r → r.BasesIn p := by
  intro d
  induction d with
  | zero => intro n r h; cases h
  | succ d ih =>
    have hmap : ∀ (l : List Str) (refs : List (Str × Ref)),
        (l.mapM fun n => do .ok (n, ← Spec.lookup env s d n) : Py (List (Str × Ref))) = .ok refs → ∀ q ∈ refs, q.2.BasesIn p := by
      intro l
      induction l with
      | nil => intro refs h q hq; cases h; cases hq
      | cons n l ihl =>
        intro refs h q hq
        rw [List.mapM_cons] at h
        cases h1 : Spec.lookup env s d n with
        | error e => simp only [h1, bind, Except.bind] at h; cases h
        | ok a =>
          simp only [h1, bind, Except.bind] at h
          cases h2 : (l.mapM fun n => (do .ok (n, ← Spec.lookup env s d n) : Py (Str × Ref))) with
          | error e => simp only [bind, Except.bind] at h2; rw [h2] at h; cases h
          | ok rest =>
            have h2' := h2
            simp only [bind, Except.bind] at h2
            rw [h2] at h
            cases h
            rcases List.mem_cons.1 hq with rfl | hq
            · exact ih n a h1
            · exact ihl rest h2' q hq
    have hent : ∀ m e r, direct s m = some e → Spec.entry env s (Spec.lookup env s d) e = .ok r → r.BasesIn p := by
      intro m e r hm h
      cases e with
      | unit a => cases h; exact hreg m _ hm
      | lazy i =>
        change Spec.resolve env s _ i = _ at h
        unfold Spec.resolve at h
        cases ho : s.heap[i]? with
        | none => rw [ho] at h; cases h
        | some o =>
          simp only [ho] at h
          cases h1 : env.parse o.defn with
          | error e => simp only [h1, bind, Except.bind] at h; cases h
          | ok e =>
            simp only [h1, bind, Except.bind] at h
            cases h2 : ((env.order e.identifiers).mapM fun n => (do .ok (n, ← Spec.lookup env s d n) : Py (Str × Ref))) with
            | error x => simp only [bind, Except.bind] at h2; rw [h2] at h; cases h
            | ok refs =>
              have h3 := hmap _ _ h2
              simp only [bind, Except.bind] at h2
              rw [h2] at h
              simp only at h
              rw [(mkUnit_iff.1 h).1]
              exact basesIn_unit fun n a hn => h3 _ (Dict.get_mem hn)
    intro n r h
    change Spec.step env s _ n = _ at h
    unfold Spec.step at h
    cases hd : direct s n with
    | some e => rw [hd] at h; exact hent n e r hd h
    | none =>
      simp only [hd] at h
      cases hf : Spec.firstSplit s n (s.prefixNames ++ s.prefixSymbols) with
      | none => rw [hf] at h; cases h
      | some w =>
        obtain ⟨q, pre, rest, e⟩ := w
        simp only [hf] at h
        have hdr := (firstSplit_some hf).2.1
        cases hu : Spec.entry env s (Spec.lookup env s d) e with
        | error x => simp only [hu, bind, Except.bind] at h; cases h
        | ok a =>
          simp only [hu, bind, Except.bind] at h
          unfold prefixed at h
          rw [(mkUnit_iff.1 h).1]
          refine basesIn_unit fun k b hb => ?_
          rw [Dict.get_set] at hb
          split at hb
          · cases hb; exact hent _ _ _ hdr hu
          · rw [Dict.get_set] at hb
            split at hb
            · cases hb; exact basesIn_pre _
            · cases hb

theorem firstSplit_of {s : System} {n : Str} {p : Str} {pre : Prefix} {rest : Str} {e : Entry} (hn : n = p ++ rest)
    (hd : direct s rest = some e) : ∀ (before after : List (Str × Prefix)),
    (∀ q ∈ before, ∀ rest', n = q.1 ++ rest' → direct s rest' = none) →
    Spec.firstSplit s n (before ++ (p, pre) :: after) = some (p, pre, rest, e)
  | [], after, _ => by
    rw [List.nil_append, Spec.firstSplit, dropPrefix_eq_some.2 hn]
    simp only [hd]
  | q :: before, after, h => by
    have ih := firstSplit_of (pre := pre) hn hd before after fun q hq => h q (List.mem_cons_of_mem _ hq)
    rw [List.cons_append, Spec.firstSplit]
    cases hq : dropPrefix q.1 n with
    | none => exact ih
    | some r =>
      simp only [h q (List.mem_cons_self ..) r (dropPrefix_eq_some.1 hq)]
      exact ih

/-- lookups of a list of names, one by one -/
theorem mapM_lookup {look : Str → Py Ref} {f : Str → Ref} : ∀ (l : List Str), (∀ n ∈ l, look n = .ok (f n)) →
    (l.mapM fun n => do .ok (n, ← look n) : Py (List (Str × Ref))) = .ok (l.map fun n => (n, f n))
  | [], _ => rfl
  | n :: l, h => by
    rw [List.mapM_cons, mapM_lookup l fun n hn => h n (List.mem_cons_of_mem _ hn), h n (List.mem_cons_self ..)]
    rfl

end Verif

import Verif.Spec.Expanded
import Verif.Lemmas.Alike
import Verif.Lemmas.Magnitude
import Verif.Props.Dims
/-!
# Reading back the printed expansion of a unit
-/

namespace Verif
open Spec (Flat FlatFactor FlatAtom Printable respell NoSuperscript)

/-- `a·b` as the parser nests it -/
def glue (a : Node) : Node → Node
  | .mul x y => glue (glue a x) y
  | .div x y => .div (glue a x) y
  | e => .mul a e

/-- the expression as the parser nests its text -/
def reassoc : Node → Node
  | .mul x y => glue (reassoc x) y
  | .div x y => .div (reassoc x) y
  | e => e

theorem flatAtom_cases {e : Node} (h : FlatAtom e) : Printable .atom e ∧ NoSuperscript e ∧ Plain e ∧
    (∀ a, glue a e = .mul a e) ∧ reassoc e = e := by
  cases e with
  | ident w => exact ⟨.ident h, trivial, trivial, fun _ => rfl, rfl⟩
  | number v raw =>
    cases v with
    | int i => exact ⟨.int, trivial, trivial, fun _ => rfl, rfl⟩
    | dec d => exact ⟨.dec, trivial, trivial, fun _ => rfl, rfl⟩
    | str s => exact h.elim
  | _ => exact h.elim

theorem flatFactor_cases {e : Node} (h : FlatFactor e) : Printable .factor e ∧ NoSuperscript e ∧ Plain e ∧
    (∀ a, glue a e = .mul a e) ∧ reassoc e = e := by
  have atom : FlatAtom e → Printable .factor e ∧ NoSuperscript e ∧ Plain e ∧ (∀ a, glue a e = .mul a e) ∧ reassoc e = e := by
    intro h
    obtain ⟨h1, h2⟩ := flatAtom_cases h
    exact ⟨.plain h1, h2⟩
  unfold FlatFactor at h
  split at h
  · obtain ⟨h1, h2, h3, _⟩ := flatAtom_cases h
    exact ⟨.power h1, ⟨h2, trivial⟩, ⟨h3, _, _, rfl⟩, fun _ => rfl, rfl⟩
  · exact atom h

theorem flat_other {e : Node} (h : Flat e) (h1 : ∀ a b, e ≠ .mul a b) (h2 : ∀ a b, e ≠ .div a b) : FlatFactor e := by
  cases e with
  | mul a b => exact absurd rfl (h1 a b)
  | div a b => exact absurd rfl (h2 a b)
  | _ => exact h

theorem flat_induct {P : Node → Prop} (hm : ∀ a b, Flat a → Flat b → P a → P b → P (.mul a b))
    (hd : ∀ a b, Flat a → FlatFactor b → P a → P (.div a b)) (hf : ∀ e, FlatFactor e → P e) : ∀ e, Flat e → P e := by
  intro e
  induction e with
  | mul a b iha ihb => intro h; exact hm a b h.1 h.2 (iha h.1) (ihb h.2)
  | div a b iha _ => intro h; exact hd a b h.1 h.2 (iha h.1)
  | _ => intro h; exact hf _ h

theorem flat_plain {e : Node} (h : Flat e) : Plain e ∧ NoSuperscript e := by
  revert h
  apply flat_induct
  · exact fun a b _ _ h1 h2 => ⟨⟨h1.1, h2.1⟩, h1.2, h2.2⟩
  · exact fun a b _ hb h1 => ⟨⟨h1.1, (flatFactor_cases hb).2.2.1⟩, h1.2, (flatFactor_cases hb).2.1⟩
  · exact fun e h => ⟨(flatFactor_cases h).2.2.1, (flatFactor_cases h).2.1⟩

theorem glue_spec {b : Node} (h : Flat b) : ∀ a, Printable .product a → NoSuperscript a → Plain a →
    Printable .product (glue a b) ∧ NoSuperscript (glue a b) ∧ Plain (glue a b) ∧
    (glue a b).str = a.str ++ '·' :: b.str ∧
    (∀ σ, evalNode σ (glue a b) = evalNode σ a * evalNode σ b) ∧
    (∀ P, degree P (glue a b) = degree P a + degree P b) ∧
    (∀ n, n ∈ (glue a b).identifiers ↔ n ∈ a.identifiers ∨ n ∈ b.identifiers) := by
  revert h
  revert b
  apply flat_induct
  · intro x y hx hy ihx ihy a h1 h2 h3
    obtain ⟨p1, p2, p3, p4, p5, p6, p7⟩ := ihx a h1 h2 h3
    obtain ⟨q1, q2, q3, q4, q5, q6, q7⟩ := ihy (glue a x) p1 p2 p3
    refine ⟨q1, q2, q3, ?_, ?_, ?_, ?_⟩
    · rw [glue, q4, p4]; simp [Node.str]
    · intro σ; rw [glue, q5, p5, evalNode, mul_assoc]
    · intro P; rw [glue, q6, p6, degree]; omega
    · intro n; rw [glue, q7, p7]; simp only [Node.identifiers, mem_setUnion, List.not_mem_nil, false_or, or_assoc]
  · intro x y hx hy ihx a h1 h2 h3
    obtain ⟨p1, p2, p3, p4, p5, p6, p7⟩ := ihx a h1 h2 h3
    obtain ⟨f1, f2, f3, _⟩ := flatFactor_cases hy
    refine ⟨.div p1 f1, ⟨p2, f2⟩, ⟨p3, f3⟩, ?_, ?_, ?_, ?_⟩
    · rw [glue, Node.str, p4]; simp [Node.str]
    · intro σ; rw [glue, evalNode, p5, evalNode, mul_div_assoc]
    · intro P; rw [glue, degree, p6, degree]; omega
    · intro n; rw [glue, Node.identifiers, mem_setUnion, mem_setUnion, p7]; simp only [Node.identifiers, mem_setUnion, List.not_mem_nil, false_or, or_assoc]
  · intro e he a h1 h2 h3
    obtain ⟨f1, f2, f3, f4, _⟩ := flatFactor_cases he
    rw [f4]
    refine ⟨.mul h1 f1, ⟨h2, f2⟩, ⟨h3, f3⟩, rfl, fun _ => rfl, fun _ => rfl, ?_⟩
    intro n; simp only [Node.identifiers, mem_setUnion, List.not_mem_nil, false_or]

theorem reassoc_spec {e : Node} (h : Flat e) :
    Printable .product (reassoc e) ∧ NoSuperscript (reassoc e) ∧ Plain (reassoc e) ∧ (reassoc e).str = e.str ∧
    (∀ σ, evalNode σ (reassoc e) = evalNode σ e) ∧ (∀ P, degree P (reassoc e) = degree P e) ∧
    (∀ n, n ∈ (reassoc e).identifiers ↔ n ∈ e.identifiers) := by
  revert h
  revert e
  apply flat_induct
  · intro x y hx hy ihx _
    obtain ⟨p1, p2, p3, p4, p5, p6, p7⟩ := ihx
    obtain ⟨q1, q2, q3, q4, q5, q6, q7⟩ := glue_spec hy _ p1 p2 p3
    refine ⟨q1, q2, q3, ?_, ?_, ?_, ?_⟩
    · rw [reassoc, q4, p4]; rfl
    · intro σ; rw [reassoc, q5, p5, evalNode]
    · intro P; rw [reassoc, q6, p6, degree]
    · intro n; rw [reassoc, q7, p7]; simp only [Node.identifiers, mem_setUnion, List.not_mem_nil, false_or]
  · intro x y hx hy ihx
    obtain ⟨p1, p2, p3, p4, p5, p6, p7⟩ := ihx
    obtain ⟨f1, f2, f3, _⟩ := flatFactor_cases hy
    refine ⟨.div p1 f1, ⟨p2, f2⟩, ⟨p3, f3⟩, ?_, ?_, ?_, ?_⟩
    · rw [reassoc, Node.str, p4]; rfl
    · intro σ; rw [reassoc, evalNode, p5, evalNode]
    · intro P; rw [reassoc, degree, p6, degree]
    · intro n; rw [reassoc, Node.identifiers, mem_setUnion, mem_setUnion, p7]; simp only [Node.identifiers, mem_setUnion, List.not_mem_nil, false_or]
  · intro e he
    obtain ⟨f1, f2, f3, _, f5⟩ := flatFactor_cases he
    rw [f5]
    exact ⟨.factor f1, f2, f3, rfl, fun _ => rfl, fun _ => rfl, fun _ => Iff.rfl⟩

/-! respelling -/

theorem evalNode_alike {a b : Node} (h : Alike a b) (σ : Str → ℝ) : evalNode σ a = evalNode σ b := by
  induction h with
  | refl => rfl
  | num h => simp only [evalNode, numVal, h]
  | mul _ _ h1 h2 => simp only [evalNode, h1, h2]
  | div _ _ h1 h2 => simp only [evalNode, h1, h2]
  | raise _ h1 => simp only [evalNode, h1]
  | shift => rfl
  | log => rfl

theorem degree_alike {a b : Node} (h : Alike a b) (P : Str → Int) : degree P a = degree P b := by
  induction h with
  | refl => rfl
  | num h => rfl
  | mul _ _ h1 h2 => simp only [degree, h1, h2]
  | div _ _ h1 h2 => simp only [degree, h1, h2]
  | raise _ h1 => simp only [degree, h1]
  | shift _ _ h1 _ => simp only [degree, h1]
  | log _ h1 => simp only [degree, h1]

theorem plain_alike {a b : Node} (h : Alike a b) : Plain a → Plain b := by
  induction h with
  | refl => exact id
  | num h => exact fun _ => trivial
  | mul _ _ h1 h2 => exact fun h => ⟨h1 h.1, h2 h.2⟩
  | div _ _ h1 h2 => exact fun h => ⟨h1 h.1, h2 h.2⟩
  | raise _ h1 => exact fun h => ⟨h1 h.1, _, _, rfl⟩
  | shift => exact fun h => h.elim
  | log => exact fun h => h.elim

theorem identifiers_alike {a b : Node} (h : Alike a b) : a.identifiers = b.identifiers := by
  induction h with
  | refl => rfl
  | num => rfl
  | mul _ _ h1 h2 => simp only [Node.identifiers, h1, h2]
  | div _ _ h1 h2 => simp only [Node.identifiers, h1, h2]
  | raise _ h1 => simp only [Node.identifiers, h1]
  | shift _ _ h1 h2 => simp only [Node.identifiers, h1, h2]
  | log _ h1 => simp only [Node.identifiers, h1]

/-- what the text of a flat expression parses to -/
theorem parse_flat {e : Node} (h : Flat e) : ∃ e', parse e.str = .ok e' ∧ Plain e' ∧ (∀ σ, evalNode σ e' = evalNode σ e) ∧
    (∀ P, degree P e' = degree P e) ∧ ∀ n, n ∈ e'.identifiers ↔ n ∈ e.identifiers := by
  obtain ⟨p1, p2, p3, p4, p5, p6, p7⟩ := reassoc_spec h
  have ha := alike_respell p1 p2
  refine ⟨respell (reassoc e), ?_, plain_alike ha p3, ?_, ?_, ?_⟩
  · rw [← p4]; exact parse_print (.product p1)
  · intro σ; rw [← evalNode_alike ha, p5]
  · intro P; rw [← degree_alike ha, p6]
  · intro n; rw [← identifiers_alike ha, p7]

/-! dimensionality of a linear unit from its expansion -/

theorem degree_substitute {subs : Dict Str Node} (P : Str → Int) {n : Node} (h : Plain n) :
    degree P (n.substitute subs) = degree (fun k => match Dict.get k subs with
      | some e => degree P e
      | none => P k) n := by
  induction n with
  | number v r => rfl
  | ident k => simp only [Node.substitute, degree]; cases Dict.get k subs <;> rfl
  | unhandled r => exact h.elim
  | mul l r hl hr => rw [Node.substitute, degree, degree, hl h.1, hr h.2]
  | div l r hl hr => rw [Node.substitute, degree, degree, hl h.1, hr h.2]
  | raise l r hl hr =>
    obtain ⟨h1, i, raw, rfl⟩ := h
    simp only [Node.substitute, degree, hl h1]
  | shift => exact h.elim
  | log => exact h.elim

/-- how often a basis unit occurs -/
def ind (s : Str) : Str → Int := fun n => if n = s then 1 else 0

theorem linear_degree {s : Str} {r : Ref} (h : Linear s r) : ∀ {e : Node}, r.expand = .ok e →
    (∀ d, r.dims? = .ok (some d) → Dims.power s d = degree (ind s) e) ∧ (r.dims? = .ok none → degree (ind s) e = 0) := by
  induction h with
  | basis b hb =>
    intro e he
    cases he
    refine ⟨fun d hd => ?_, fun hd => ?_⟩
    · rw [Ref.dims?] at hd
      cases hd
      simp only [degree, ind]
      by_cases h : b.ref = s
      · rw [if_pos h, hb h]; simp [Dims.power, Dims.get?, h]
      · rw [if_neg h]; split <;> simp [Dims.power, Dims.get?, h]
    · rw [Ref.dims?] at hd; cases hd
  | pre p =>
    intro e he
    obtain ⟨d, raw, rfl⟩ := expand_pre_number he
    exact ⟨fun d hd => (by rw [Ref.dims?] at hd; cases hd), fun _ => rfl⟩
  | unit names defn refs hp hrefs ih =>
    intro e he
    obtain ⟨es, h1, rfl⟩ := expand_unit he
    refine ⟨fun d hd => ?_, fun hd => ?_⟩
    · rw [degree_substitute _ hp]
      have hdn : defnDims refs defn = .ok d := by
        have := dims_unit names defn refs
        unfold Ref.dims at this
        rw [hd] at this
        exact this.symm
      obtain ⟨hok, hpow⟩ := defnDims_plain_inv hp hdn
      rw [hpow s]
      apply degree_congr
      intro k hk
      obtain ⟨x, o, hx, ho⟩ := hok k hk
      obtain ⟨e', g1, g2⟩ := get_expandList h1 hx
      obtain ⟨i1, i2⟩ := ih k x hx g1
      simp only [g2]
      unfold refPower
      rw [hx]
      simp only [ho]
      cases o with
      | none => rw [i2 ho]
      | some d' => rw [← i1 d' ho, Dims.power_eq_total (dims?_wf ho).1]
    · have := dims_unit names defn refs
      unfold Ref.dims at this
      rw [hd] at this
      rw [Ref.dims?] at hd
      cases hx : unitDims (fun n => Dict.get n (Ref.dimsList refs)) defn with
      | error e => rw [hx] at hd; cases hd
      | ok d => rw [hx] at hd; cases hd

end Verif

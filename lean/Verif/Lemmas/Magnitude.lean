import Verif.Lemmas.ConvertErr
/-!
# The symbolic definition computes the magnitude
-/

namespace Verif

/-- product of powers -/
noncomputable def powProd (ρ : Str → ℝ) (d : List (Str × Int)) : ℝ := (d.map fun q => ρ q.1 ^ q.2).prod

/-- the value of a monomial -/
noncomputable def Mono.value (ρ : Str → ℝ) (m : Mono) : ℝ := (m.coef : ℝ) * powProd ρ m.exps

theorem powProd_ne {ρ : Str → ℝ} (h : ∀ s, ρ s ≠ 0) (d : List (Str × Int)) : powProd ρ d ≠ 0 := by
  unfold powProd
  induction d with
  | nil => simp
  | cons q d ih =>
    rw [List.map_cons, List.prod_cons]
    exact mul_ne_zero (zpow_ne_zero _ (h _)) ih

theorem powProd_set {ρ : Str → ℝ} (h : ∀ s, ρ s ≠ 0) (s : Str) (e : Int) (d : Dict Str Int) :
    powProd ρ (Dict.set s ((Dict.get s d).getD 0 + e) d) = powProd ρ d * ρ s ^ e := by
  unfold powProd
  induction d with
  | nil => simp [Dict.set, Dict.get]
  | cons q d ih =>
    obtain ⟨k, v⟩ := q
    by_cases hk : k = s
    · subst hk
      simp only [Dict.set, Dict.get, if_pos, List.map_cons, List.prod_cons, Option.getD_some]
      rw [zpow_add₀ (h k)]
      ring
    · simp only [Dict.set, Dict.get, if_neg hk, List.map_cons, List.prod_cons]
      rw [ih]
      ring

theorem powProd_merge {ρ : Str → ℝ} (h : ∀ s, ρ s ≠ 0) (l : List (Str × Int)) : ∀ d : Dict Str Int,
    powProd ρ (Mono.mergeExps l d) = powProd ρ d * powProd ρ l := by
  induction l with
  | nil => intro d; simp [Mono.mergeExps, powProd]
  | cons q l ih =>
    obtain ⟨k, v⟩ := q
    intro d
    rw [Mono.mergeExps, ih, powProd_set h]
    simp only [powProd, List.map_cons, List.prod_cons]
    ring

theorem powProd_filter (ρ : Str → ℝ) (d : List (Str × Int)) :
    powProd ρ (d.filter fun (_, e) => e ≠ 0) = powProd ρ d := by
  unfold powProd
  induction d with
  | nil => rfl
  | cons q d ih =>
    obtain ⟨k, v⟩ := q
    by_cases hv : v = 0
    · subst hv
      rw [List.filter_cons_of_neg (by simp), ih]; simp
    · rw [List.filter_cons_of_pos (by simpa using hv), List.map_cons, List.prod_cons, ih]
      simp

theorem value_norm (ρ : Str → ℝ) (m : Mono) : m.norm.value ρ = m.value ρ := by
  unfold Mono.norm Mono.value
  split
  · rename_i h; simp [h]
  · simp only [powProd_filter]

theorem value_mul {ρ : Str → ℝ} (h : ∀ s, ρ s ≠ 0) (a b : Mono) : (a.mul b).value ρ = a.value ρ * b.value ρ := by
  unfold Mono.mul
  rw [value_norm]
  unfold Mono.value
  rw [powProd_merge h]
  push_cast
  ring

theorem powProd_neg (ρ : Str → ℝ) (d : List (Str × Int)) :
    powProd ρ (d.map fun (s, e) => (s, -e)) = (powProd ρ d)⁻¹ := by
  unfold powProd
  induction d with
  | nil => simp
  | cons q d ih =>
    simp only [List.map_cons, List.prod_cons, ih, mul_inv, zpow_neg]

theorem powProd_mul (ρ : Str → ℝ) (k : Int) (d : List (Str × Int)) :
    powProd ρ (d.map fun (s, e) => (s, e * k)) = powProd ρ d ^ k := by
  unfold powProd
  induction d with
  | nil => simp
  | cons q d ih =>
    simp only [List.map_cons, List.prod_cons, ih, mul_zpow, zpow_mul]

theorem value_inv {ρ : Str → ℝ} {a b : Mono} (h : a.inv = .ok b) : b.value ρ = (a.value ρ)⁻¹ := by
  unfold Mono.inv at h
  split at h
  · cases h
  · cases h
    unfold Mono.value
    simp only
    rw [powProd_neg, mul_inv]
    push_cast
    rfl

theorem value_div {ρ : Str → ℝ} (hρ : ∀ s, ρ s ≠ 0) {a b c : Mono} (h : a.div b = .ok c) :
    c.value ρ = a.value ρ / b.value ρ := by
  unfold Mono.div at h
  cases hi : b.inv with
  | error e => rw [hi] at h; cases h
  | ok b' =>
    rw [hi] at h; cases h
    rw [value_mul hρ, value_inv hi, div_eq_mul_inv]

theorem value_pow {ρ : Str → ℝ} {a c : Mono} {n : Int} (h : a.pow n = .ok c) :
    c.value ρ = a.value ρ ^ n := by
  unfold Mono.pow at h
  cases n with
  | ofNat k =>
    simp only at h
    cases h
    rw [value_norm]
    unfold Mono.value
    simp only
    rw [powProd_mul ρ (k : Int)]
    simp [mul_pow]
  | negSucc k =>
    simp only at h
    cases hi : a.inv with
    | error e => rw [hi] at h; cases h
    | ok b =>
      rw [hi] at h; cases h
      rw [value_norm]
      have hb := value_inv (ρ := ρ) hi
      rw [zpow_negSucc, ← inv_pow, ← hb]
      unfold Mono.value
      simp only
      rw [powProd_mul ρ ((k + 1 : Nat) : Int)]
      rw [mul_pow]
      push_cast
      norm_cast

theorem toMono_value {ρ : Str → ℝ} (hρ : ∀ s, ρ s ≠ 0) {n : Node} (hp : Plain n) :
    ∀ {m : Mono}, n.toMono = .ok m → evalNode ρ n = m.value ρ := by
  induction n with
  | number v r =>
    intro m h
    simp only [Node.toMono] at h
    cases hv : v.toRat with
    | error e => rw [hv] at h; cases h
    | ok q =>
      rw [hv] at h; cases h
      simp [evalNode, numVal, hv, Mono.value, Mono.ofRat, powProd]
  | ident n =>
    intro m h; cases h
    simp [evalNode, Mono.value, Mono.sym, powProd]
  | unhandled r => exact absurd hp (by simp [Plain])
  | mul l r hl hr =>
    intro m h
    simp only [Node.toMono] at h
    cases h1 : l.toMono with
    | error e => rw [h1] at h; cases h
    | ok a =>
      cases h2 : r.toMono with
      | error e => rw [h1, h2] at h; cases h
      | ok b =>
        rw [h1, h2] at h; cases h
        rw [value_mul hρ, evalNode, hl hp.1 h1, hr hp.2 h2]
  | div l r hl hr =>
    intro m h
    simp only [Node.toMono] at h
    cases h1 : l.toMono with
    | error e => rw [h1] at h; cases h
    | ok a =>
      cases h2 : r.toMono with
      | error e => rw [h1, h2] at h; cases h
      | ok b =>
        rw [h1, h2] at h
        rw [value_div hρ h, evalNode, hl hp.1 h1, hr hp.2 h2]
  | raise l r hl hr =>
    obtain ⟨hp1, i, raw, rfl⟩ := hp
    intro m h
    simp only [Node.toMono] at h
    cases h1 : l.toMono with
    | error e => rw [h1] at h; cases h
    | ok a =>
      rw [h1] at h
      rw [evalNode, hl hp1 h1]
      exact (value_pow h).symm
  | shift u f => exact absurd hp (by simp [Plain])
  | log fn t => exact absurd hp (by simp [Plain])

theorem substitute_plain {subs : Dict Str Node} {n : Node} (h : Plain n)
    (hs : ∀ k e, Dict.get k subs = some e → Plain e) : Plain (n.substitute subs) := by
  induction n with
  | number v r => trivial
  | ident n =>
    simp only [Node.substitute]
    cases hg : Dict.get n subs with
    | none => trivial
    | some e => exact hs n e hg
  | unhandled r => exact absurd h (by simp [Plain])
  | mul l r hl hr => exact ⟨hl h.1, hr h.2⟩
  | div l r hl hr => exact ⟨hl h.1, hr h.2⟩
  | raise l r hl hr =>
    obtain ⟨h1, i, raw, rfl⟩ := h
    exact ⟨hl h1, i, raw, rfl⟩
  | shift u f => exact absurd h (by simp [Plain])
  | log fn t => exact absurd h (by simp [Plain])

theorem eval_substitute (ρ : Str → ℝ) {subs : Dict Str Node} {n : Node} (h : Plain n) :
    evalNode ρ (n.substitute subs) =
      evalNode (fun k => ((Dict.get k subs).map (evalNode ρ)).getD (ρ k)) n := by
  induction n with
  | number v r => rfl
  | ident n =>
    simp only [Node.substitute, evalNode]
    cases Dict.get n subs with
    | none => rfl
    | some e => rfl
  | unhandled r => exact absurd h (by simp [Plain])
  | mul l r hl hr => simp only [Node.substitute, evalNode, hl h.1, hr h.2]
  | div l r hl hr => simp only [Node.substitute, evalNode, hl h.1, hr h.2]
  | raise l r hl hr =>
    obtain ⟨h1, i, raw, rfl⟩ := h
    simp only [Node.substitute, evalNode, hl h1]
  | shift u f => exact absurd h (by simp [Plain])
  | log fn t => exact absurd h (by simp [Plain])

theorem get_magnitudes (ρ : Str → ℝ) (n : Str) (refs : List (Str × Ref)) :
    Dict.get n (Ref.magnitudes ρ refs) = (Dict.get n refs).map (Ref.magnitude ρ) := by
  induction refs with
  | nil => rfl
  | cons q l ih =>
    obtain ⟨k, r⟩ := q
    rw [Ref.magnitudes]
    simp only [Dict.get]
    split
    · rfl
    · exact ih

theorem linear_magnitude {s : Str} {r : Ref} (h : Linear s r) (ρ : Str → ℝ) :
    ∀ {e : Node}, r.expand = .ok e → Plain e ∧ evalNode ρ e = r.magnitude ρ := by
  induction h with
  | basis b _ =>
    intro e he
    rw [Ref.expand] at he; cases he
    exact ⟨trivial, by rw [evalNode, Ref.magnitude]⟩
  | pre p =>
    intro e he
    rw [Ref.expand, Prefix.expand] at he
    rw [Ref.magnitude]
    cases h1 : Dec.parse p.value with
    | error x => rw [h1] at he; cases he
    | ok d => rw [h1] at he; cases he; exact ⟨trivial, rfl⟩
  | unit names defn refs hp hr ih =>
    intro e he
    obtain ⟨es, h1, rfl⟩ := expand_unit he
    have key : ∀ k e, Dict.get k es = some e → ∃ r, Dict.get k refs = some r ∧ r.expand = .ok e := by
      intro k e hk
      cases hg : Dict.get k refs with
      | none => rw [get_expandList_none h1 hg] at hk; cases hk
      | some r =>
        obtain ⟨e', a1, a2⟩ := get_expandList h1 hg
        rw [hk] at a2; cases a2
        exact ⟨r, rfl, a1⟩
    refine ⟨substitute_plain hp fun k e hk => ?_, ?_⟩
    · obtain ⟨r, g1, g2⟩ := key k e hk
      exact (ih k r g1 g2).1
    · rw [eval_substitute ρ hp, Ref.magnitude]
      congr 1
      funext k
      rw [get_magnitudes]
      cases hg : Dict.get k refs with
      | none => rw [get_expandList_none h1 hg]; rfl
      | some r =>
        obtain ⟨e', a1, a2⟩ := get_expandList h1 hg
        rw [a2]
        exact (ih k r hg a1).2

theorem linear_symDef {r : Ref} (h : LinearUnit r) {t : List TOp} {m : Mono} (hs : r.symDef = .ok (t, m)) :
    t = [] ∧ (∀ ρ : Str → ℝ, (∀ s, ρ s ≠ 0) → m.value ρ = r.magnitude ρ) := by
  unfold Ref.symDef at hs
  cases he : r.expand with
  | error x => rw [he] at hs; cases hs
  | ok e =>
    rw [he] at hs
    have hp := (linear_magnitude (h []) (fun _ => 1) he).1
    obtain ⟨h1, h2⟩ := (symDef_noTransform (plain_noTransform hp) t m).1 hs
    refine ⟨h1, fun ρ hρ => ?_⟩
    rw [← toMono_value hρ hp h2]
    exact (linear_magnitude (h []) ρ he).2

theorem powProd_congr {ρ : Str → ℝ} {a b : Mono} (ha : a.WF) (hb : b.WF) (h : ∀ s, a.exp s = b.exp s) :
    powProd ρ a.exps = powProd ρ b.exps := by
  unfold powProd
  apply List.Perm.prod_eq
  apply List.Perm.map
  have nd : ∀ m : Mono, m.WF → List.Nodup (α := Str × Int) m.exps :=
    fun m hm => List.Nodup.of_map Prod.fst hm.nodup
  apply (List.perm_ext_iff_of_nodup (α := Str × Int) (nd a ha) (nd b hb)).2
  have key : ∀ a b : Mono, a.WF → b.WF → (∀ s, a.exp s = b.exp s) → ∀ q, q ∈ a.exps → q ∈ b.exps := by
    rintro a b ha hb h ⟨s, e⟩ hq
    have h1 : a.exp s = e := by unfold Mono.exp; rw [Dict.get_of_mem_nodup ha.nodup hq]; rfl
    have h2 : e ≠ 0 := ha.nz _ hq
    rw [h s] at h1
    unfold Mono.exp at h1
    cases hg : Dict.get s b.exps with
    | none => rw [hg] at h1; exact absurd h1.symm h2
    | some e' => rw [hg] at h1; cases h1; exact Dict.get_mem hg
  exact fun q => ⟨key a b ha hb h q, key b a hb ha (fun s => (h s).symm) q⟩

theorem means_affine {r : Ref} {f} (h : Means r f) (s : Str) : Affine s r := by
  induction h with
  | linear h => exact .linear (h s)
  | ident hg _ ih => exact .ident hg ih
  | shift h _ => exact .shift (.linear (h s))
  | log _ h => exact .log (.linear (h s))

theorem log_table {fn : Str} {b : Option Nat}
    (h : (fn, b) ∈ [(c!"lb", some 2), (c!"lg", some 10), (c!"ln", none), (c!"log", none)]) : logBase fn = .ok b := by
  simp only [List.mem_cons, Prod.mk.injEq, List.not_mem_nil, or_false] at h
  rcases h with ⟨rfl, rfl⟩ | ⟨rfl, rfl⟩ | ⟨rfl, rfl⟩ | ⟨rfl, rfl⟩ <;> decide +kernel

theorem symDef_ident {names : Option UnitReference} {n : Str} {refs : List (Str × Ref)} {r : Ref} {q : List TOp × Mono}
    (hg : Dict.get n refs = some r) (h : (Ref.unit names (.ident n) refs).symDef = .ok q) : r.symDef = .ok q := by
  unfold Ref.symDef at h ⊢
  cases he : (Ref.unit names (.ident n) refs).expand with
  | error x => rw [he] at h; cases h
  | ok e =>
    rw [he] at h
    obtain ⟨es, h1, rfl⟩ := expand_unit he
    obtain ⟨e', a1, a2⟩ := get_expandList h1 hg
    rw [a1]
    simpa only [Node.substitute, a2] using h

/-- the symbolic definition of `u @ k` / `lg(re u)` in terms of that of `u` -/
theorem symDef_shift {names : Option UnitReference} {u : Node} {refs : List (Str × Ref)} {k : Num} {raw : Option Str}
    {q : Rat} (hu : LinearUnit (.unit names u refs)) (hq : k.toRat = .ok q) {t : List TOp} {m : Mono} :
    (Ref.unit names (.shift u (.number k raw)) refs).symDef = .ok (t, m) ↔
      t = [.sub q] ∧ (Ref.unit names u refs).symDef = .ok ([], m) := by
  unfold Ref.symDef
  rw [Ref.expand, Ref.expand]
  cases h1 : Ref.expandList refs with
  | error x =>
    constructor
    · intro h; cases h
    · rintro ⟨_, h⟩; cases h
  | ok es =>
    have hp := (linear_magnitude (hu []) (fun _ => 1) (e := u.substitute es) (by rw [Ref.expand, h1]; rfl)).1
    have hn := plain_noTransform hp
    change (Node.shift (u.substitute es) (.number k raw)).symDef = _ ↔ _ ∧ (u.substitute es).symDef = _
    rw [symDef_iff, symDef_noTransform hn]
    have hsp : (Node.shift (u.substitute es) (.number k raw)).split true =
        .ok (some (.shift .value (.number k raw)), u.substitute es) := by
      simp only [Node.split, noTransform_split hn]
      rfl
    have hops : opsOf (some (Trans.shift .value (.number k raw))) = .ok [.sub q] := by
      simp only [opsOf, Trans.ops, bind, Except.bind, hq, List.nil_append]
    rw [hsp]
    constructor
    · rintro ⟨ot, b, h1, h2, h3⟩
      cases h1
      rw [hops] at h2; cases h2
      exact ⟨rfl, rfl, h3⟩
    · rintro ⟨rfl, _, h3⟩
      exact ⟨_, _, rfl, hops, h3⟩

theorem symDef_log {names : Option UnitReference} {u : Node} {refs : List (Str × Ref)} {fn : Str} {b : Option Nat}
    (hu : LinearUnit (.unit names u refs)) (hq : logBase fn = .ok b) {t : List TOp} {m : Mono} :
    (Ref.unit names (.log fn u) refs).symDef = .ok (t, m) ↔
      t = [.log b] ∧ (Ref.unit names u refs).symDef = .ok ([], m) := by
  unfold Ref.symDef
  rw [Ref.expand, Ref.expand]
  cases h1 : Ref.expandList refs with
  | error x =>
    constructor
    · intro h; cases h
    · rintro ⟨_, h⟩; cases h
  | ok es =>
    have hp := (linear_magnitude (hu []) (fun _ => 1) (e := u.substitute es) (by rw [Ref.expand, h1]; rfl)).1
    have hn := plain_noTransform hp
    change (Node.log fn (u.substitute es)).symDef = _ ↔ _ ∧ (u.substitute es).symDef = _
    rw [symDef_iff, symDef_noTransform hn]
    have hsp : (Node.log fn (u.substitute es)).split true = .ok (some (.log fn .value), u.substitute es) := by
      simp only [Node.split, noTransform_split hn]
      rfl
    have hops : opsOf (some (Trans.log fn .value)) = .ok [.log b] := by
      simp only [opsOf, Trans.ops, bind, Except.bind, hq, List.nil_append]
    rw [hsp]
    constructor
    · rintro ⟨ot, b, h1, h2, h3⟩
      cases h1
      rw [hops] at h2; cases h2
      exact ⟨rfl, rfl, h3⟩
    · rintro ⟨rfl, _, h3⟩
      exact ⟨_, _, rfl, hops, h3⟩

theorem means_symDef {r : Ref} {f} (h : Means r f) : ∀ {t : List TOp} {m : Mono}, r.symDef = .ok (t, m) →
    SymFree t ∧ ∀ ρ : Str → ℝ, (∀ s, ρ s ≠ 0) → ∀ x, f ρ x = undoAll t x * m.value ρ := by
  induction h with
  | linear h =>
    intro t m hs
    obtain ⟨rfl, h2⟩ := linear_symDef h hs
    refine ⟨(fun m hm => nomatch hm), fun ρ hρ x => ?_⟩
    rw [undoAll, h2 ρ hρ]
  | ident hg _ ih =>
    intro t m hs
    exact ih (symDef_ident hg hs)
  | shift h hq =>
    intro t m hs
    obtain ⟨rfl, h2⟩ := (symDef_shift h hq).1 hs
    refine ⟨fun m hm => by simp at hm, fun ρ hρ x => ?_⟩
    rw [(linear_symDef h h2).2 ρ hρ]
    rfl
  | log hb h =>
    intro t m hs
    obtain ⟨rfl, h2⟩ := (symDef_log h (log_table hb)).1 hs
    refine ⟨fun m hm => by simp at hm, fun ρ hρ x => ?_⟩
    rw [(linear_symDef h h2).2 ρ hρ]
    rfl

theorem value_one (m : Mono) : m.value (fun _ => 1) = m.coef := by
  have : powProd (fun _ => (1 : ℝ)) m.exps = 1 := by
    unfold powProd
    induction m.exps with
    | nil => rfl
    | cons q d ih => rw [List.map_cons, List.prod_cons, ih]; simp
  unfold Mono.value
  rw [this, mul_one]

theorem affine_exp {r : Ref} (h : ∀ s, Affine s r) {t : List TOp} {m : Mono} (hs : r.symDef = .ok (t, m))
    (hc : m.coef ≠ 0) {d : Dims} (hd : r.dims = .ok d) : SymFree t ∧ ∀ s, m.exp s = Dims.power s d := by
  have hg := obj_symDef_good (u := .unit r) hs
  unfold Ref.symDef at hs
  cases he : r.expand with
  | error x => rw [he] at hs; cases hs
  | ok e =>
    rw [he] at hs
    obtain ⟨ot, b, h1, h2, h3⟩ := symDef_iff.1 hs
    have key := fun s => (affine_spec (h s)).sym e _ he (refPow_of_dims hd) true ot b h1
    refine ⟨fun k hk => ?_, fun s => (key s).2 m h3 hc⟩
    have hk' := hg.1 _ hk
    exact (Mono.exps_nil_iff hk'.1).2 fun s => (key s).1 t h2 k hk

/-- `x` of `a` and `v` of `b` are the same quantity / reciprocal quantities -/
def SameQuantity : Bool → ℝ → ℝ → Prop
  | true, q, q' => q' = q
  | false, q, q' => q ≠ 0 ∧ q' = q⁻¹

theorem powProd_neg_congr {ρ : Str → ℝ} {a b : Mono} (ha : a.WF) (hb : b.WF) (h : ∀ s, a.exp s = - b.exp s) :
    powProd ρ a.exps = (powProd ρ b.exps)⁻¹ := by
  by_cases hc : b.coef = 0
  · have hb0 := hb.zero hc
    have : a.exps = [] := (Mono.exps_nil_iff ha).2 fun s => by rw [h s]; unfold Mono.exp; rw [hb0]; rfl
    rw [this, hb0]; simp [powProd]
  · obtain ⟨_, _, _, h4, h5⟩ := Mono.inv_spec hb (Mono.inv_ok hc)
    rw [powProd_congr ha h4 (fun s => by rw [h s, h5 s]), powProd_neg]

theorem convert_means {a b : Ref} {f g} (ha : Means a f) (hb : Means b g) {d1 d2 : Dims}
    (h1 : a.dims = .ok d1) (h2 : b.dims = .ok d2) {ops : List COp}
    (hops : Converter.build (.unit a) (.unit b) = .ok ops) (hz : ∃ x, f (fun _ => 1) x ≠ 0)
    {σ : Bool} (hσ : ∀ s, Dims.power s d1 = (if σ then Dims.power s d2 else - Dims.power s d2))
    (hσ' : σ = false → ¬ ∀ s, Dims.power s d1 = Dims.power s d2)
    (ρ : Str → ℝ) (hρ : ∀ s, ρ s ≠ 0) (x v : ℝ) :
    convert (.unit a) (.unit b) x = .ok v ↔ SameQuantity σ (f ρ x) (g ρ v) := by
  obtain ⟨fd, td, t1, d1', t2, d2', t1i, link, τ, e1, e2, e3, e4, e5, e6, e7, e8, e9⟩ := build_inv hops
  obtain ⟨_, _, _, _, _, _, _, hnzb, _⟩ := build_facts hops
  have e5' : a.symDef = .ok (t1, d1') := e5
  have e6' : b.symDef = .ok (t2, d2') := e6
  obtain ⟨s1, m1⟩ := means_symDef ha e5'
  obtain ⟨s2, m2⟩ := means_symDef hb e6'
  have c1 : d1'.coef ≠ 0 := by
    obtain ⟨y, hy⟩ := hz
    rw [m1 _ (fun _ => one_ne_zero), value_one] at hy
    intro h0
    rw [h0] at hy
    simp at hy
  have c2 : d2'.coef ≠ 0 := by
    obtain ⟨t, d, q1, q2⟩ := hnzb
    rw [e6] at q1; cases q1; exact q2
  have x1 := (affine_exp (means_affine ha) e5' c1 h1).2
  have x2 := (affine_exp (means_affine hb) e6' c2 h2).2
  have w1 := (obj_symDef_good e5).2
  have w2 := (obj_symDef_good e6).2
  -- the link is the expected one
  have hfd : fd.power = fun s => Dims.power s d1 := by
    obtain ⟨d, rfl, _, _⟩ := e2
    cases a with
    | basis b => cases e1
    | pre p => cases e1
    | unit n e r =>
      have : (Ref.unit n e r).dimObj = .ok (.dimensionality d) := e1
      simp only [Ref.dimObj, h1] at this
      cases this; rfl
  have hστ : τ = σ := by
    have hprop : Proper td ∨ ∃ d, td = .dict d := by
      rcases dimObj_cases e3 with ⟨d, h, h'⟩ | ⟨d, h, h'⟩
      · exact Or.inl ⟨d, h, h'⟩
      · exact Or.inr ⟨d, h⟩
    rcases hprop with hp | ⟨d, rfl⟩
    · have htd : td.power = fun s => Dims.power s d2 := by
        obtain ⟨d, rfl, _, _⟩ := hp
        cases b with
        | basis b => cases e3
        | pre p => cases e3
        | unit n e r =>
          have : (Ref.unit n e r).dimObj = .ok (.dimensionality d) := e3
          simp only [Ref.dimObj, h2] at this
          cases this; rfl
      rw [link_proper e2 hp] at e4
      cases τ with
      | true =>
        cases σ with
        | true => rfl
        | false => exact absurd (fun s => ((congrFun hfd s).symm.trans (e4 s)).trans (congrFun htd s)) (hσ' rfl)
      | false =>
        cases σ with
        | false => rfl
        | true => exact absurd (fun s => ((congrFun hfd s).trans (hσ s)).trans (congrFun htd s).symm) e4.1
    · obtain ⟨g1, g2, g3⟩ := link_dict e2 e4
      subst g1
      cases σ with
      | true => rfl
      | false =>
        exfalso
        apply hσ' rfl
        intro s
        have h0 : Dims.power s d1 = 0 := by
          have := congrFun hfd s
          simp only [DimObj.power, g2] at this
          exact this.symm
        have := hσ s
        simp only [Bool.false_eq_true, if_false] at this
        omega
  subst hστ
  rw [convert_iff e1 e2 e3 e4 ⟨t1, d1', e5, c1⟩ hnzb]
  rw [m1 ρ hρ, m2 ρ hρ]
  have pn1 := powProd_ne hρ d1'.exps
  have pn2 := powProd_ne hρ d2'.exps
  have cr1 : (d1'.coef : ℝ) ≠ 0 := by exact_mod_cast c1
  have cr2 : (d2'.coef : ℝ) ≠ 0 := by exact_mod_cast c2
  have key : (∃ q E q' E', Base (.unit a) x q E ∧ Base (.unit b) v q' E' ∧ Related τ q E q' E') ↔
      Related τ (undoAll t1 x * d1'.coef) (fun s => d1'.exp s) (undoAll t2 v * d2'.coef) (fun s => d2'.exp s) := by
    constructor
    · rintro ⟨q, E, q', E', b1, b2, r⟩
      obtain ⟨rfl, rfl⟩ := (base_iff_of_symFree e5 c1 s1 x q E).1 b1
      obtain ⟨rfl, rfl⟩ := (base_iff_of_symFree e6 c2 s2 v q' E').1 b2
      exact r
    · intro r
      exact ⟨_, _, _, _, (base_iff_of_symFree e5 c1 s1 x _ _).2 ⟨rfl, rfl⟩,
        (base_iff_of_symFree e6 c2 s2 v _ _).2 ⟨rfl, rfl⟩, r⟩
  rw [key]
  unfold Mono.value
  cases τ with
  | true =>
    have hE : (fun s => d2'.exp s) = fun s => d1'.exp s := by
      funext s; rw [x1, x2, hσ s]; rfl
    rw [powProd_congr w1 w2 (fun s => (congrFun hE s).symm)]
    simp only [Related, SameQuantity, hE, and_true]
    rw [← mul_assoc, ← mul_assoc]
    constructor
    · intro h; rw [h]
    · intro h; exact mul_right_cancel₀ pn2 h
  | false =>
    have hE : ∀ s, d1'.exp s = - d2'.exp s := by
      intro s; rw [x1, x2, hσ s]; rfl
    have hE' : (fun s => d2'.exp s) = fun s => - d1'.exp s := by
      funext s; rw [hE s, Int.neg_neg]
    rw [powProd_neg_congr w1 w2 hE]
    simp only [Related, SameQuantity, hE', and_true]
    rw [← mul_assoc, ← mul_assoc]
    constructor
    · rintro ⟨h, h'⟩
      refine ⟨mul_ne_zero h (inv_ne_zero pn2), ?_⟩
      rw [h', mul_inv _ ((powProd ρ d2'.exps)⁻¹), inv_inv]
    · rintro ⟨h, h'⟩
      refine ⟨(mul_ne_zero_iff.1 h).1, ?_⟩
      rw [mul_inv _ ((powProd ρ d2'.exps)⁻¹), inv_inv] at h'
      exact mul_right_cancel₀ pn2 h'

end Verif

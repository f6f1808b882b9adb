import Verif.Model.Convert
import Verif.Lemmas.Dict
import Mathlib.Tactic.Ring
import Mathlib.Tactic.FieldSimp
import Mathlib.Tactic.Linarith
/-!
# Algebra of monomials and of compiled conversions
-/

namespace Verif

namespace Mono

/-- canonical form: distinct symbols, no zero exponent, and nothing but `0` when the factor is 0 -/
structure WF (m : Mono) : Prop where
  nodup : Dict.Nodup m.exps
  nz : ∀ q ∈ m.exps, q.2 ≠ 0
  zero : m.coef = 0 → m.exps = []

theorem wf_ofRat (q : Rat) : (ofRat q).WF :=
  ⟨by simp [ofRat, Dict.Nodup, Dict.keys], by simp [ofRat], fun _ => rfl⟩

theorem wf_sym (s : Str) : (sym s).WF :=
  ⟨by simp [sym, Dict.Nodup, Dict.keys], by simp [sym], fun h => by simp [sym] at h⟩

/-- adding up exponents -/
def sumExp (s : Str) : List (Str × Int) → Int
  | [] => 0
  | (k, e) :: l => (if k = s then e else 0) + sumExp s l

theorem sumExp_eq_zero {s : Str} {d : List (Str × Int)} (h : s ∉ Dict.keys d) : sumExp s d = 0 := by
  induction d with
  | nil => rfl
  | cons q d ih =>
    obtain ⟨k, e⟩ := q
    simp only [Dict.keys, List.map_cons, List.mem_cons, not_or] at h
    rw [sumExp, if_neg (fun hk => h.1 hk.symm), ih h.2]; rfl

theorem getD_eq_sumExp {s : Str} {d : Dict Str Int} (h : Dict.Nodup d) : (Dict.get s d).getD 0 = sumExp s d := by
  induction d with
  | nil => rfl
  | cons q d ih =>
    obtain ⟨k, e⟩ := q
    have h' : k ∉ Dict.keys d ∧ Dict.Nodup d := by
      unfold Dict.Nodup Dict.keys at h ⊢
      simpa only [List.map_cons, List.nodup_cons] using h
    rw [Dict.get_cons, sumExp]
    by_cases hk : k = s
    · subst hk
      rw [sumExp_eq_zero h'.1]; simp
    · simp [hk, ih h'.2]

theorem getD_set (k s : Str) (v : Int) (d : Dict Str Int) :
    (Dict.get s (Dict.set k v d)).getD 0 = if k = s then v else (Dict.get s d).getD 0 := by
  rw [Dict.get_set]
  by_cases h : k = s
  · subst h; simp
  · rw [if_neg h]; split <;> simp_all

theorem mergeExps_nodup (l : List (Str × Int)) : ∀ d : Dict Str Int, Dict.Nodup d → Dict.Nodup (mergeExps l d) := by
  induction l with
  | nil => intro d h; exact h
  | cons q l ih => obtain ⟨k, e⟩ := q; intro d h; exact ih _ (Dict.nodup_set _ _ h)

theorem getD_mergeExps (s : Str) (l : List (Str × Int)) : ∀ d : Dict Str Int,
    (Dict.get s (mergeExps l d)).getD 0 = (Dict.get s d).getD 0 + sumExp s l := by
  induction l with
  | nil => intro d; simp [mergeExps, sumExp]
  | cons q l ih =>
    obtain ⟨k, e⟩ := q
    intro d
    rw [mergeExps, ih, getD_set, sumExp]
    by_cases h : k = s
    · subst h; simp; ring
    · simp [h]

theorem nodup_filter {d : Dict Str Int} (h : Dict.Nodup d) (p : Str × Int → Bool) : Dict.Nodup (List.filter p d) :=
  List.Nodup.sublist (List.Sublist.map _ List.filter_sublist) h

theorem sumExp_filter (s : Str) (d : List (Str × Int)) :
    sumExp s (d.filter fun (_, e) => e ≠ 0) = sumExp s d := by
  induction d with
  | nil => rfl
  | cons q d ih =>
    obtain ⟨k, e⟩ := q
    by_cases he : e = 0
    · subst he
      simpa [sumExp] using ih
    · have : (((k, e) :: d).filter fun (_, e) => e ≠ 0) = (k, e) :: (d.filter fun (_, e) => e ≠ 0) := by
        simp [he]
      rw [this, sumExp, sumExp, ih]

theorem wf_norm {m : Mono} (h : Dict.Nodup m.exps) : m.norm.WF := by
  unfold norm
  split
  · exact ⟨by simp [Dict.Nodup, Dict.keys], by simp, fun _ => rfl⟩
  · rename_i hc
    refine ⟨nodup_filter h _, ?_, fun h' => absurd h' hc⟩
    intro q hq
    have := (List.mem_filter.1 hq).2
    simpa using this

theorem coef_norm (m : Mono) : m.norm.coef = m.coef := by
  unfold norm
  split
  · rename_i h; exact h.symm
  · rfl

theorem exp_norm {m : Mono} (h : Dict.Nodup m.exps) (hc : m.coef ≠ 0) (s : Str) :
    m.norm.exp s = (Dict.get s m.exps).getD 0 := by
  unfold norm
  rw [if_neg hc]
  unfold exp
  simp only
  rw [getD_eq_sumExp h, getD_eq_sumExp (nodup_filter h _), sumExp_filter]

theorem wf_mul {a : Mono} (b : Mono) (ha : a.WF) : (a.mul b).WF := wf_norm (mergeExps_nodup _ _ ha.nodup)

theorem coef_mul (a b : Mono) : (a.mul b).coef = a.coef * b.coef := coef_norm _

theorem exp_mul {a b : Mono} (ha : a.WF) (hb : b.WF) (h1 : a.coef ≠ 0) (h2 : b.coef ≠ 0) (s : Str) :
    (a.mul b).exp s = a.exp s + b.exp s := by
  unfold mul
  rw [exp_norm (mergeExps_nodup _ _ ha.nodup) (by simp [h1, h2])]
  simp only
  rw [getD_mergeExps]
  unfold exp
  rw [getD_eq_sumExp hb.nodup]

theorem inv_ok {a : Mono} (h : a.coef ≠ 0) :
    a.inv = .ok ⟨a.coef⁻¹, a.exps.map fun (s, e) => (s, -e)⟩ := by
  unfold inv; rw [if_neg h]

theorem sumExp_map (s : Str) (f : Int → Int) (hf : f 0 = 0) (hadd : ∀ a b, f (a + b) = f a + f b) (d : List (Str × Int)) :
    sumExp s (d.map fun (k, e) => (k, f e)) = f (sumExp s d) := by
  induction d with
  | nil => simp [sumExp, hf]
  | cons q d ih =>
    obtain ⟨k, e⟩ := q
    rw [List.map_cons, sumExp, sumExp, ih, hadd]
    split <;> simp [hf]

theorem nodup_map (f : Int → Int) {d : Dict Str Int} (h : Dict.Nodup d) :
    Dict.Nodup (d.map fun (k, e) => (k, f e)) := by
  unfold Dict.Nodup Dict.keys at h ⊢
  rw [List.map_map]
  exact h

theorem inv_spec {a b : Mono} (ha : a.WF) (h : a.inv = .ok b) :
    a.coef ≠ 0 ∧ b.coef = a.coef⁻¹ ∧ b.coef ≠ 0 ∧ b.WF ∧ ∀ s, b.exp s = - a.exp s := by
  by_cases hc : a.coef = 0
  · unfold inv at h; rw [if_pos hc] at h; cases h
  · rw [inv_ok hc] at h
    cases h
    refine ⟨hc, rfl, inv_ne_zero hc, ⟨nodup_map (fun e => -e) ha.nodup, ?_, fun h => absurd h (inv_ne_zero hc)⟩, ?_⟩
    · intro q hq
      obtain ⟨q', hq', rfl⟩ := List.mem_map.1 hq
      exact Int.neg_ne_zero.2 (ha.nz q' hq')
    · intro s
      unfold exp
      simp only
      rw [getD_eq_sumExp (nodup_map (fun e => -e) ha.nodup), getD_eq_sumExp ha.nodup,
        sumExp_map s (fun e => -e) (by simp) (by intro a b; ring)]

theorem div_spec {a b c : Mono} (ha : a.WF) (hb : b.WF) (h : a.div b = .ok c) :
    b.coef ≠ 0 ∧ c.coef = a.coef / b.coef ∧ c.WF ∧ (a.coef ≠ 0 → ∀ s, c.exp s = a.exp s - b.exp s) := by
  unfold div at h
  cases hi : b.inv with
  | error e => rw [hi] at h; cases h
  | ok b' =>
    rw [hi] at h; cases h
    obtain ⟨h1, h2, h3, h4, h5⟩ := inv_spec hb hi
    refine ⟨h1, by rw [coef_mul, h2, div_eq_mul_inv], wf_mul _ ha, fun hc s => ?_⟩
    rw [exp_mul ha h4 hc h3, h5]; ring

theorem div_total {a b : Mono} (h : b.coef ≠ 0) : ∃ c, a.div b = .ok c := by
  unfold div; rw [inv_ok h]; exact ⟨_, rfl⟩

theorem pow_spec {a c : Mono} (ha : a.WF) {n : Int} (h : a.pow n = .ok c) :
    c.WF ∧ c.coef = a.coef ^ n ∧ (a.coef ≠ 0 → ∀ s, c.exp s = n * a.exp s) := by
  unfold pow at h
  cases n with
  | ofNat k =>
    simp only at h
    cases h
    have hn := nodup_map (fun e => e * (k : Int)) ha.nodup
    refine ⟨wf_norm hn, by rw [coef_norm]; simp, fun hc s => ?_⟩
    rw [exp_norm hn (by simp [hc])]
    simp only
    rw [getD_eq_sumExp hn, sumExp_map s (fun e => e * (k : Int)) (by simp) (by intro a b; ring)]
    unfold exp
    rw [getD_eq_sumExp ha.nodup]
    simp; ring
  | negSucc k =>
    simp only at h
    cases hi : a.inv with
    | error e => rw [hi] at h; cases h
    | ok b =>
      rw [hi] at h; cases h
      obtain ⟨h1, h2, h3, h4, h5⟩ := inv_spec ha hi
      have hn := nodup_map (fun e => e * ((k + 1 : Nat) : Int)) h4.nodup
      refine ⟨wf_norm hn, by rw [coef_norm, h2]; simp [zpow_negSucc], fun hc s => ?_⟩
      rw [exp_norm hn (by simp [h3])]
      simp only
      rw [getD_eq_sumExp hn, sumExp_map s (fun e => e * ((k + 1 : Nat) : Int)) (by simp) (by intro a b; ring)]
      have := h5 s
      unfold exp at this ⊢
      rw [← getD_eq_sumExp h4.nodup, this, Int.negSucc_eq]
      push_cast; ring

theorem exps_nil_iff {m : Mono} (h : m.WF) : m.exps = [] ↔ ∀ s, m.exp s = 0 := by
  constructor
  · intro he s; unfold exp; rw [he]; rfl
  · intro he
    cases hx : m.exps with
    | nil => rfl
    | cons q d =>
      obtain ⟨k, e⟩ := q
      have := he k
      unfold exp at this
      rw [hx, Dict.get_cons] at this
      simp at this
      exact absurd this (h.nz (k, e) (by rw [hx]; exact List.mem_cons_self ..))

theorem beq_iff {a b : Mono} (ha : a.WF) (hb : b.WF) : a.beq b = true ↔ a.coef = b.coef ∧ ∀ s, a.exp s = b.exp s := by
  unfold beq
  simp only [Bool.and_eq_true, beq_iff_eq, List.all_eq_true]
  constructor
  · rintro ⟨⟨h1, h2⟩, h3⟩
    refine ⟨h1, fun s => ?_⟩
    by_cases hs : s ∈ Dict.keys a.exps
    · obtain ⟨v, hv⟩ := Option.isSome_iff_exists.1 ((Dict.get_isSome_iff s a.exps).2 hs)
      have := h2 _ (Dict.get_mem hv)
      simp only at this
      rw [this]; unfold exp; rw [hv]; rfl
    · by_cases hs' : s ∈ Dict.keys b.exps
      · obtain ⟨v, hv⟩ := Option.isSome_iff_exists.1 ((Dict.get_isSome_iff s b.exps).2 hs')
        have := h3 _ (Dict.get_mem hv)
        simp only at this
        rw [this]; unfold exp; rw [hv]; rfl
      · unfold exp
        rw [(Dict.get_eq_none_iff s a.exps).2 hs, (Dict.get_eq_none_iff s b.exps).2 hs']
  · rintro ⟨h1, h2⟩
    refine ⟨⟨h1, ?_⟩, ?_⟩
    · rintro ⟨s, e⟩ hq
      rw [← h2 s]; unfold exp; rw [Dict.get_of_mem_nodup ha.nodup hq]; rfl
    · rintro ⟨s, e⟩ hq
      rw [h2 s]; unfold exp; rw [Dict.get_of_mem_nodup hb.nodup hq]; rfl

end Mono

/-! ## toMono is canonical -/

theorem toMono_wf {n : Node} : ∀ {m : Mono}, n.toMono = .ok m → m.WF := by
  induction n with
  | number v r =>
    intro m h
    simp only [Node.toMono] at h
    cases hv : v.toRat with
    | error e => rw [hv] at h; cases h
    | ok q => rw [hv] at h; cases h; exact Mono.wf_ofRat q
  | ident n => intro m h; cases h; exact Mono.wf_sym n
  | unhandled r => intro m h; cases h
  | mul l r hl hr =>
    intro m h
    simp only [Node.toMono] at h
    cases h1 : l.toMono with
    | error e => rw [h1] at h; cases h
    | ok a =>
      rw [h1] at h
      cases h2 : r.toMono with
      | error e => rw [h2] at h; cases h
      | ok b => rw [h2] at h; cases h; exact Mono.wf_mul _ (hl h1)
  | div l r hl hr =>
    intro m h
    simp only [Node.toMono] at h
    cases h1 : l.toMono with
    | error e => rw [h1] at h; cases h
    | ok a =>
      rw [h1] at h
      cases h2 : r.toMono with
      | error e => rw [h2] at h; cases h
      | ok b => rw [h2] at h; exact (Mono.div_spec (hl h1) (hr h2) h).2.2.1
  | raise l r hl hr =>
    intro m h
    simp only [Node.toMono] at h
    cases h1 : l.toMono with
    | error e => rw [h1] at h; cases h
    | ok a =>
      rw [h1] at h
      cases h2 : r.asExponent with
      | error e => rw [h2] at h; cases h
      | ok b => rw [h2] at h; exact (Mono.pow_spec (hl h1) h).1
  | shift u f => intro m h; cases h
  | log fn t => intro m h; cases h

/-- all factors of a transformation are canonical and non-zero -/
def TOp.Good : TOp → Prop
  | .scale m => m.WF ∧ m.coef ≠ 0
  | .sub _ => True
  | .log b => lnBase b ≠ 0

theorem logBase_good {fn : Str} {b : Option Nat} (h : logBase fn = .ok b) : lnBase b ≠ 0 := by
  have h2 : Real.log (2 : ℝ) ≠ 0 := (Real.log_pos (by norm_num)).ne'
  have h10 : Real.log (10 : ℝ) ≠ 0 := (Real.log_pos (by norm_num)).ne'
  unfold logBase at h
  split at h
  · cases h; simpa [lnBase] using h2
  · split at h
    · cases h; simpa [lnBase] using h10
    · split at h
      · cases h; simp [lnBase]
      · split at h
        · cases h; simp [lnBase]
        · cases h

theorem mkScale_good {m : Mono} {o : TOp} (hm : m.WF) (h : TOp.mkScale m = .ok o) : o = .scale m ∧ o.Good := by
  unfold TOp.mkScale at h
  split at h
  · cases h
  · rename_i hc; cases h; exact ⟨rfl, hm, hc⟩

theorem ops_good {t : Trans} : ∀ {l : List TOp}, t.ops = .ok l → ∀ o ∈ l, o.Good := by
  induction t with
  | value => intro l h; cases h; intro o ho; cases ho
  | shift t f ih =>
    intro l h
    simp only [Trans.ops] at h
    cases h1 : t.ops with
    | error e => rw [h1] at h; cases h
    | ok o =>
      rw [h1] at h
      cases f with
      | number v r =>
        change (do .ok (o ++ [.sub (← v.toRat)]) : Py (List TOp)) = _ at h
        cases h2 : v.toRat with
        | error e => rw [h2] at h; cases h
        | ok q =>
          rw [h2] at h; cases h
          intro x hx
          rcases List.mem_append.1 hx with hx | hx
          · exact ih h1 x hx
          · simp at hx; subst hx; trivial
      | _ => cases h
  | mulR t d ih =>
    intro l h
    simp only [Trans.ops] at h
    cases h1 : t.ops with
    | error e => rw [h1] at h; cases h
    | ok o =>
      rw [h1] at h
      change (do let m ← d.toMono; .ok (o ++ [← TOp.mkScale m]) : Py (List TOp)) = _ at h
      cases h2 : d.toMono with
      | error e => rw [h2] at h; cases h
      | ok m =>
        rw [h2] at h
        change (do .ok (o ++ [← TOp.mkScale m]) : Py (List TOp)) = _ at h
        cases h3 : TOp.mkScale m with
        | error e => rw [h3] at h; cases h
        | ok s =>
          rw [h3] at h; cases h
          intro x hx
          rcases List.mem_append.1 hx with hx | hx
          · exact ih h1 x hx
          · simp at hx; subst hx; exact (mkScale_good (toMono_wf h2) h3).2
  | mulL d t ih =>
    intro l h
    simp only [Trans.ops] at h
    cases h2 : d.toMono with
    | error e => rw [h2] at h; cases h
    | ok m =>
      rw [h2] at h
      change (do let o ← t.ops; .ok (o ++ [← TOp.mkScale m]) : Py (List TOp)) = _ at h
      cases h1 : t.ops with
      | error e => rw [h1] at h; cases h
      | ok o =>
        rw [h1] at h
        change (do .ok (o ++ [← TOp.mkScale m]) : Py (List TOp)) = _ at h
        cases h3 : TOp.mkScale m with
        | error e => rw [h3] at h; cases h
        | ok s =>
          rw [h3] at h; cases h
          intro x hx
          rcases List.mem_append.1 hx with hx | hx
          · exact ih h1 x hx
          · simp at hx; subst hx; exact (mkScale_good (toMono_wf h2) h3).2
  | log fn t ih =>
    intro l h
    simp only [Trans.ops] at h
    cases h2 : logBase fn with
    | error e => rw [h2] at h; cases h
    | ok b =>
      rw [h2] at h
      change (do let o ← t.ops; .ok (o ++ [.log b]) : Py (List TOp)) = _ at h
      cases h1 : t.ops with
      | error e => rw [h1] at h; cases h
      | ok o =>
        rw [h1] at h; cases h
        intro x hx
        rcases List.mem_append.1 hx with hx | hx
        · exact ih h1 x hx
        · simp at hx; subst hx; exact logBase_good h2

/-- operations of an optional transformation -/
def opsOf : Option Trans → Py (List TOp)
  | none => .ok []
  | some t => t.ops

theorem symDef_eq (e : Node) : e.symDef = (do
    let q ← e.split true
    let ops ← opsOf q.1
    let m ← q.2.toMono
    .ok (ops, m)) := by
  unfold Node.symDef
  cases e.split true with
  | error x => rfl
  | ok q => obtain ⟨ot, b⟩ := q; cases ot <;> rfl

theorem symDef_iff {e : Node} {t : List TOp} {d : Mono} :
    e.symDef = .ok (t, d) ↔ ∃ ot b, e.split true = .ok (ot, b) ∧ opsOf ot = .ok t ∧ b.toMono = .ok d := by
  rw [symDef_eq]
  cases h1 : e.split true with
  | error x =>
    constructor
    · intro h; cases h
    · rintro ⟨_, _, h, _⟩; cases h
  | ok q =>
    obtain ⟨ot, b⟩ := q
    change (do let ops ← opsOf ot; let m ← b.toMono; .ok (ops, m) : Py (List TOp × Mono)) = _ ↔ _
    cases h2 : opsOf ot with
    | error x =>
      constructor
      · intro h; cases h
      · rintro ⟨_, _, h, h', _⟩; cases h; rw [h2] at h'; cases h'
    | ok ops =>
      change (do let m ← b.toMono; .ok (ops, m) : Py (List TOp × Mono)) = _ ↔ _
      cases h3 : b.toMono with
      | error x =>
        constructor
        · intro h; cases h
        · rintro ⟨_, _, h, _, h'⟩; cases h; rw [h3] at h'; cases h'
      | ok m =>
        constructor
        · intro h; cases h; exact ⟨ot, b, rfl, h2, h3⟩
        · rintro ⟨_, _, h, h', h''⟩
          cases h
          rw [h2] at h'; cases h'
          rw [h3] at h''; cases h''
          rfl

theorem symDef_good {e : Node} {t : List TOp} {d : Mono} (h : e.symDef = .ok (t, d)) :
    (∀ o ∈ t, o.Good) ∧ d.WF := by
  obtain ⟨ot, b, _, h2, h3⟩ := symDef_iff.1 h
  refine ⟨?_, toMono_wf h3⟩
  cases ot with
  | none => cases h2; intro o ho; cases ho
  | some t' => exact ops_good h2

theorem obj_symDef_good {u : UObj} {t : List TOp} {d : Mono} (h : u.symDef = .ok (t, d)) :
    (∀ o ∈ t, o.Good) ∧ d.WF := by
  have key : ∀ r : Ref, r.symDef = .ok (t, d) → (∀ o ∈ t, o.Good) ∧ d.WF := by
    intro r h
    unfold Ref.symDef at h
    cases h1 : r.expand with
    | error e => rw [h1] at h; cases h
    | ok e => rw [h1] at h; exact symDef_good h
  cases u with
  | unit r => exact key r h
  | date r _ => exact key r h

/-! ## Conversions without symbols -/

/-- a step on a real number, ignoring unit symbols -/
noncomputable def COp.run1 (op : COp) (x : ℝ) : Py ℝ :=
  match op with
  | .scale m => .ok ((m.coef : ℝ) * x)
  | op => op.run x

noncomputable def run1 : List COp → ℝ → Py ℝ
  | [], x => .ok x
  | op :: r, x => do
    let y ← op.run1 x
    run1 r y

theorem run1_append (a b : List COp) (x : ℝ) : run1 (a ++ b) x = (do let y ← run1 a x; run1 b y) := by
  induction a generalizing x with
  | nil => rfl
  | cons op a ih =>
    simp only [List.cons_append, run1]
    cases op.run1 x with
    | error e => rfl
    | ok y => exact ih y

/-- The exponents of the unit symbols collected by the steps, starting from `w` and ending with `w'`:
a step that is not a scaling needs all symbols to have cancelled. -/
def Flow : (Str → Int) → List COp → (Str → Int) → Prop
  | w, [], w' => w = w'
  | w, .scale m :: r, w' => Flow (fun s => w s + m.exp s) r w'
  | w, .recip :: r, w' => Flow (fun s => - w s) r w'
  | w, .add _ :: r, w' => w = (fun _ => 0) ∧ Flow (fun _ => 0) r w'
  | w, .log _ :: r, w' => w = (fun _ => 0) ∧ Flow (fun _ => 0) r w'
  | w, .exp _ :: r, w' => w = (fun _ => 0) ∧ Flow (fun _ => 0) r w'

theorem flow_append (a b : List COp) : ∀ w w'', Flow w (a ++ b) w'' ↔ ∃ w', Flow w a w' ∧ Flow w' b w'' := by
  induction a with
  | nil => intro w w''; simp [Flow]
  | cons op a ih =>
    intro w w''
    cases op <;> simp only [List.cons_append, Flow, ih]
    · constructor
      · rintro ⟨h, w', h1, h2⟩; exact ⟨w', ⟨h, h1⟩, h2⟩
      · rintro ⟨w', ⟨h, h1⟩, h2⟩; exact ⟨h, w', h1, h2⟩
    · constructor
      · rintro ⟨h, w', h1, h2⟩; exact ⟨w', ⟨h, h1⟩, h2⟩
      · rintro ⟨w', ⟨h, h1⟩, h2⟩; exact ⟨h, w', h1, h2⟩
    · constructor
      · rintro ⟨h, w', h1, h2⟩; exact ⟨w', ⟨h, h1⟩, h2⟩
      · rintro ⟨w', ⟨h, h1⟩, h2⟩; exact ⟨h, w', h1, h2⟩

theorem flow_det (a : List COp) : ∀ {w w1 w2}, Flow w a w1 → Flow w a w2 → w1 = w2 := by
  induction a with
  | nil => intro w w1 w2 h1 h2; exact h1.symm.trans h2
  | cons op a ih =>
    intro w w1 w2 h1 h2
    cases op with
    | scale m => exact ih h1 h2
    | recip => exact ih h1 h2
    | add q => exact ih h1.2 h2.2
    | log q => exact ih h1.2 h2.2
    | exp q => exact ih h1.2 h2.2

/-- all factors canonical and non-zero -/
def COp.Good : COp → Prop
  | .scale m => m.WF ∧ m.coef ≠ 0
  | _ => True

theorem wf_one : (⟨1, []⟩ : Mono).WF := Mono.wf_ofRat 1

theorem simplify_break {op : COp} (hop : (∀ m, op ≠ .scale m) ∧ op ≠ .recip) (p : Mono) (r : List COp) :
    simplifyOps p (op :: r) = (do .ok (.scale p :: op :: (← simplifyOps ⟨1, []⟩ r))) := by
  cases op with
  | scale m => exact absurd rfl (hop.1 m)
  | recip => exact absurd rfl hop.2
  | _ => rfl

theorem hasSymbol_scale {p : Mono} (hp : p.WF) : COp.hasSymbol (.scale p) = false ↔ (fun s => p.exp s) = fun _ => 0 := by
  unfold COp.hasSymbol
  simp only [Bool.not_eq_false', List.isEmpty_iff]
  rw [Mono.exps_nil_iff hp]
  constructor
  · intro h; funext s; exact h s
  · intro h s; exact congrFun h s

theorem exp_one : (fun s => (⟨1, []⟩ : Mono).exp s) = fun _ => 0 := rfl

theorem simplify_spec (ops : List COp) : ∀ p : Mono, p.WF → p.coef ≠ 0 → (∀ o ∈ ops, o.Good) →
    ∃ ops', simplifyOps p ops = .ok ops' ∧
      ((ops'.any COp.hasSymbol = false) ↔ Flow (fun s => p.exp s) ops (fun _ => 0)) ∧
      (ops'.any COp.hasSymbol = false → ∀ x, runOps ops' x = run1 ops ((p.coef : ℝ) * x)) := by
  induction ops with
  | nil =>
    intro p hp hc _
    refine ⟨[.scale p], rfl, ?_, ?_⟩
    · simp only [List.any_cons, List.any_nil, Bool.or_false]
      exact hasSymbol_scale hp
    · intro h x
      simp only [List.any_cons, List.any_nil, Bool.or_false] at h
      have he := (Mono.exps_nil_iff hp).2 fun s => congrFun ((hasSymbol_scale hp).1 h) s
      simp only [runOps, COp.run, he, if_true, run1]
      rfl
  | cons op r ih =>
    intro p hp hc hg
    have hgr : ∀ o ∈ r, o.Good := fun o ho => hg o (List.mem_cons_of_mem _ ho)
    have hop := hg op (List.mem_cons_self ..)
    have breaking : (∀ m, op ≠ .scale m) → op ≠ .recip →
        (Flow (fun s => p.exp s) (op :: r) (fun _ => 0) ↔ (fun s => p.exp s) = (fun _ => 0) ∧ Flow (fun _ => 0) r (fun _ => 0)) →
        (op.hasSymbol = false) → (∀ y, op.run1 y = op.run y) →
        ∃ ops', simplifyOps p (op :: r) = .ok ops' ∧
          ((ops'.any COp.hasSymbol = false) ↔ Flow (fun s => p.exp s) (op :: r) (fun _ => 0)) ∧
          (ops'.any COp.hasSymbol = false → ∀ x, runOps ops' x = run1 (op :: r) ((p.coef : ℝ) * x)) := by
      intro h1 h2 hf hs hrun
      obtain ⟨ops', e1, e2, e3⟩ := ih ⟨1, []⟩ wf_one (by simp) hgr
      refine ⟨.scale p :: op :: ops', ?_, ?_, ?_⟩
      · rw [simplify_break ⟨h1, h2⟩, e1]; rfl
      · rw [hf, List.any_cons, List.any_cons, hs, Bool.false_or, Bool.or_eq_false_iff, hasSymbol_scale hp, e2, exp_one]
      · intro h x
        rw [List.any_cons, List.any_cons, hs, Bool.false_or, Bool.or_eq_false_iff] at h
        have he := (Mono.exps_nil_iff hp).2 fun s => congrFun ((hasSymbol_scale hp).1 h.1) s
        simp only [runOps, COp.run, he, if_true, run1]
        change (do let y ← op.run ((p.coef : ℝ) * x); runOps ops' y) = _
        rw [hrun]
        cases op.run ((p.coef : ℝ) * x) with
        | error e => rfl
        | ok y =>
          change runOps ops' y = run1 r y
          rw [e3 h.2 y]; simp
    cases op with
    | scale m =>
      obtain ⟨ops', e1, e2, e3⟩ := ih (p.mul m) (Mono.wf_mul _ hp)
        (by rw [Mono.coef_mul]; exact mul_ne_zero hc hop.2) hgr
      refine ⟨ops', e1, ?_, ?_⟩
      · rw [e2]
        have : (fun s => (p.mul m).exp s) = fun s => p.exp s + m.exp s := by
          funext s; exact Mono.exp_mul hp hop.1 hc hop.2 s
        rw [this]; rfl
      · intro h x
        rw [e3 h x, Mono.coef_mul]
        simp only [run1, COp.run1]
        change _ = run1 r _
        congr 1
        push_cast; ring
    | recip =>
      have hi := Mono.inv_ok hc
      obtain ⟨_, i2, i3, i4, i5⟩ := Mono.inv_spec hp hi
      obtain ⟨ops', e1, e2, e3⟩ := ih _ i4 i3 hgr
      refine ⟨.recip :: ops', ?_, ?_, ?_⟩
      · simp only [simplifyOps, hi]
        change (do .ok (COp.recip :: (← simplifyOps _ r)) : Py (List COp)) = _
        rw [e1]; rfl
      · rw [List.any_cons]
        simp only [COp.hasSymbol, Bool.false_or]
        rw [e2]
        have : (fun s => (⟨p.coef⁻¹, p.exps.map fun (s, e) => (s, -e)⟩ : Mono).exp s) = fun s => - p.exp s := by
          funext s; exact i5 s
        rw [this]; rfl
      · intro h x
        rw [List.any_cons] at h
        simp only [COp.hasSymbol, Bool.false_or] at h
        simp only [runOps, run1, COp.run, COp.run1]
        have hc' : (p.coef : ℝ) ≠ 0 := by exact_mod_cast hc
        by_cases hx : x = 0
        · subst hx; simp; rfl
        · rw [if_neg hx, if_neg (mul_ne_zero hc' hx)]
          change runOps ops' x⁻¹ = run1 r _
          rw [e3 h]
          congr 1
          simp only
          push_cast
          rw [mul_inv]
    | add q => exact breaking (by intro m h; cases h) (by intro h; cases h) Iff.rfl rfl fun _ => rfl
    | log q => exact breaking (by intro m h; cases h) (by intro h; cases h) Iff.rfl rfl fun _ => rfl
    | exp q => exact breaking (by intro m h; cases h) (by intro h; cases h) Iff.rfl rfl fun _ => rfl

/-- A conversion gives a number iff the symbols cancel and the real computation is defined. -/
theorem convert_ok_iff {ops : List COp} (hg : ∀ o ∈ ops, o.Good) (x v : ℝ) :
    Converter.convert ops x = .ok v ↔ Flow (fun _ => 0) ops (fun _ => 0) ∧ run1 ops x = .ok v := by
  obtain ⟨ops', e1, e2, e3⟩ := simplify_spec ops ⟨1, []⟩ wf_one (by simp) hg
  unfold Converter.convert
  rw [e1]
  change (if ops'.any COp.hasSymbol then .error .nameError else runOps ops' x : Py ℝ) = _ ↔ _
  rw [exp_one] at e2
  cases hs : ops'.any COp.hasSymbol with
  | true =>
    rw [hs] at e2
    simp only [if_true]
    constructor
    · intro h; cases h
    · rintro ⟨h, _⟩; cases e2.2 h
  | false =>
    rw [hs] at e2
    have := e3 hs x
    simp only [Bool.false_eq_true, if_false]
    rw [this]
    simp only [Rat.cast_one, one_mul]
    exact ⟨fun h => ⟨e2.1 rfl, h⟩, fun h => h.2⟩

end Verif

import Verif.Lemmas.Renaming
import Verif.Lemmas.Alike
/-! # Lemmas: equality of units commutes with renaming -/

namespace Verif

open Spec (Printable respell respellNum Tidy IdentWord)

variable {φ : Str → Str}

theorem rename_inj (h : KeepsApart φ) : ∀ a b : Node, a.rename φ = b.rename φ → a = b
  | .ident n, b, e => by cases b <;> simp only [Node.rename, Node.ident.injEq, reduceCtorEq] at e; rw [h _ _ e]
  | .number v r, b, e => by cases b <;> simp only [Node.rename, reduceCtorEq] at e; exact e
  | .unhandled r, b, e => by cases b <;> simp only [Node.rename, reduceCtorEq] at e; exact e
  | .mul l r, b, e => by
    cases b <;> simp only [Node.rename, reduceCtorEq, Node.mul.injEq] at e
    rw [rename_inj h l _ e.1, rename_inj h r _ e.2]
  | .div l r, b, e => by
    cases b <;> simp only [Node.rename, reduceCtorEq, Node.div.injEq] at e
    rw [rename_inj h l _ e.1, rename_inj h r _ e.2]
  | .raise l r, b, e => by
    cases b <;> simp only [Node.rename, reduceCtorEq, Node.raise.injEq] at e
    rw [rename_inj h l _ e.1, rename_inj h r _ e.2]
  | .shift l r, b, e => by
    cases b <;> simp only [Node.rename, reduceCtorEq, Node.shift.injEq] at e
    rw [rename_inj h l _ e.1, rename_inj h r _ e.2]
  | .log fn r, b, e => by
    cases b <;> simp only [Node.rename, reduceCtorEq, Node.log.injEq] at e
    rw [rename_inj h r _ e.2, e.1]

theorem respellNum_rename (v : Num) : (respellNum v).rename φ = respellNum v := by
  cases v with
  | int i => rfl
  | dec d => simp only [respellNum]; split <;> rfl
  | str s => simp only [respellNum]; cases parseInt? s <;> rfl

theorem respell_rename : ∀ e : Node, respell (e.rename φ) = (respell e).rename φ
  | .ident _ => rfl
  | .number v _ => (respellNum_rename v).symm
  | .unhandled _ => rfl
  | .mul l r => by simp only [Node.rename, respell, respell_rename l, respell_rename r]
  | .div l r => by simp only [Node.rename, respell, respell_rename l, respell_rename r]
  | .raise l r => by simp only [Node.rename, respell, respell_rename l, respell_rename r]
  | .shift l r => by simp only [Node.rename, respell, respell_rename l, respell_rename r]
  | .log _ r => by simp only [Node.rename, respell, respell_rename r]

theorem printable_rename (hw : ∀ w, IdentWord w → IdentWord (φ w)) {l : Spec.Level} {e : Node} (h : Printable l e) :
    Printable l (e.rename φ) := by
  induction h with
  | ident w => exact .ident (hw _ w)
  | int => exact .int
  | dec => exact .dec
  | log h _ ih => exact .log h ih
  | plain _ ih => exact .plain ih
  | power _ ih => exact .power ih
  | superscript _ hs ih => exact .superscript ih hs
  | factor _ ih => exact .factor ih
  | mul _ _ ih1 ih2 => exact .mul ih1 ih2
  | div _ _ ih1 ih2 => exact .div ih1 ih2
  | product _ ih => exact .product ih
  | shiftInt _ ih => exact .shiftInt ih
  | shiftDec _ ih => exact .shiftDec ih
  | shiftDate _ hd ih => exact .shiftDate ih hd

theorem tidy_rename : ∀ e : Node, Tidy e → Tidy (e.rename φ)
  | .ident _, _ => trivial
  | .number v _, h => h
  | .unhandled _, _ => trivial
  | .mul l r, h => ⟨tidy_rename l h.1, tidy_rename r h.2⟩
  | .div l r, h => ⟨tidy_rename l h.1, tidy_rename r h.2⟩
  | .raise l r, h => ⟨tidy_rename l h.1, tidy_rename r h.2⟩
  | .shift l r, h => ⟨tidy_rename l h.1, tidy_rename r h.2⟩
  | .log _ r, h => tidy_rename r h

theorem str_eq_iff {a b : Node} (ha : Printable .whole a) (hb : Printable .whole b) (ta : Tidy a) (tb : Tidy b) :
    a.str = b.str ↔ respell a = respell b := by
  constructor
  · intro h
    have h1 := parse_print ha
    rw [h, parse_print hb] at h1
    exact (Except.ok.inj h1).symm
  · intro h
    rw [← str_respell ha ta, ← str_respell hb tb, h]

theorem str_rename_iff (h : KeepsApart φ) (hw : ∀ w, IdentWord w → IdentWord (φ w)) {a b : Node} (ha : Printable .whole a)
    (hb : Printable .whole b) (ta : Tidy a) (tb : Tidy b) : (a.rename φ).str = (b.rename φ).str ↔ a.str = b.str := by
  rw [str_eq_iff ha hb ta tb, str_eq_iff (printable_rename hw ha) (printable_rename hw hb) (tidy_rename a ta) (tidy_rename b tb),
    respell_rename, respell_rename]
  exact ⟨rename_inj h _ _, fun e => by rw [e]⟩

theorem monoExp_rename (h : KeepsApart φ) (m : Mono) (s : Str) : (m.rename φ).exp (φ s) = m.exp s := by
  unfold Mono.exp Mono.rename
  rw [get_mapKeys h]

theorem all_rename (h : KeepsApart φ) (a b : Mono) :
    ((a.rename φ).exps.all fun q => (b.rename φ).exp q.1 == q.2) = (a.exps.all fun q => b.exp q.1 == q.2) := by
  rw [show (a.rename φ).exps = mapKeys φ a.exps from rfl, mapKeys, List.all_map]
  congr 1
  funext q
  exact congrArg (· == q.2) (monoExp_rename h b q.1)

theorem monoBeq_rename (h : KeepsApart φ) (a b : Mono) : (a.rename φ).beq (b.rename φ) = a.beq b := by
  have h1 := all_rename h a b
  have h2 := all_rename h b a
  unfold Mono.beq
  exact congrArg₂ (· && ·) (congrArg₂ (· && ·) rfl h1) h2

theorem tBeq_rename (h : KeepsApart φ) (a b : TOp) : (a.rename φ).beq (b.rename φ) = a.beq b := by
  cases a <;> cases b <;> first | rfl | exact monoBeq_rename h _ _

theorem rename_eq_one (m : Mono) : m.rename φ = ⟨1, []⟩ ↔ m = ⟨1, []⟩ := by
  obtain ⟨c, e⟩ := m
  simp [Mono.rename, mapKeys]

theorem canonT_rename (h : KeepsApart φ) : ∀ (t : List TOp) (p : Mono),
    canonT (p.rename φ) (t.map (TOp.rename φ)) = (canonT p t).map (TOp.rename φ)
  | [], p => by
    simp only [List.map_nil, canonT, rename_eq_one]
    split <;> rfl
  | op :: t, p => by
    cases op with
    | scale m =>
      simp only [List.map_cons, TOp.rename, canonT, mul_rename h]
      exact canonT_rename h t _
    | sub q =>
      have ih := canonT_rename h t ⟨1, []⟩
      rw [show (⟨1, []⟩ : Mono).rename φ = ⟨1, []⟩ from rfl] at ih
      simp only [List.map_cons, TOp.rename, canonT, ih, rename_eq_one]
      by_cases hq : q = 0 <;> by_cases hp : p = ⟨1, []⟩ <;> simp only [hq, hp, if_true, if_false] <;> rfl
    | log b =>
      have ih := canonT_rename h t ⟨1, []⟩
      rw [show (⟨1, []⟩ : Mono).rename φ = ⟨1, []⟩ from rfl] at ih
      simp only [List.map_cons, TOp.rename, canonT, ih, rename_eq_one]
      by_cases hp : p = ⟨1, []⟩ <;> simp only [hp, if_true, if_false] <;> rfl

theorem go_rename (h : KeepsApart φ) : ∀ a b : List TOp,
    transEq.go (a.map (TOp.rename φ)) (b.map (TOp.rename φ)) = transEq.go a b
  | [], [] => rfl
  | [], _ :: _ => rfl
  | _ :: _, [] => rfl
  | x :: xs, y :: ys => by simp only [List.map_cons, transEq.go, tBeq_rename h, go_rename h xs ys]

theorem transEq_rename (h : KeepsApart φ) (a b : List TOp) :
    transEq (a.map (TOp.rename φ)) (b.map (TOp.rename φ)) = transEq a b := by
  have h1 := canonT_rename h a ⟨1, []⟩
  have h2 := canonT_rename h b ⟨1, []⟩
  rw [show (⟨1, []⟩ : Mono).rename φ = ⟨1, []⟩ from rfl] at h1 h2
  simp only [transEq, h1, h2, go_rename h]

theorem defn_rename (r : Ref) : (r.rename φ).defn = r.defn.rename φ := by cases r <;> rfl

theorem eq_rename (h : KeepsApart φ) {a b : Ref}
    (hs : (b.defn.rename φ).str = (a.defn.rename φ).str ↔ b.defn.str = a.defn.str) :
    (a.rename φ).eq (b.rename φ) = a.eq b := by
  unfold Ref.eq
  rw [defn_rename, defn_rename]
  by_cases he : b.defn.str = a.defn.str
  · rw [if_pos he, if_pos (hs.2 he)]
  · rw [if_neg he, if_neg (fun e => he (hs.1 e)), symDef_rename h, symDef_rename h]
    cases a.symDef with
    | error e => rfl
    | ok p =>
      cases b.symDef with
      | error e => rfl
      | ok q =>
        simp only [Except.map, bind, Except.bind, renameSym, monoBeq_rename h, transEq_rename h]

end Verif

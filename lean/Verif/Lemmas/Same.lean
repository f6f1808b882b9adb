import Verif.Lemmas.Errors
import Verif.Model.Sympy
import Verif.Spec.Same
/-!
# Observations that do not depend on the order of dict entries
-/

namespace Verif
open Spec (Same SameObj)

theorem get_dimsList (n : Str) (refs : List (Str × Ref)) :
    Dict.get n (Ref.dimsList refs) = (Dict.get n refs).map Ref.dims? := by
  induction refs with
  | nil => rw [Ref.dimsList]; rfl
  | cons q refs ih =>
    obtain ⟨m, r⟩ := q
    rw [Ref.dimsList, Dict.get_cons, Dict.get_cons, ih]
    split <;> rfl

/-- same keys, and same values up to `R` -/
def DictRel (R : Ref → Ref → Prop) (r1 r2 : List (Str × Ref)) : Prop :=
  (∀ k, (Dict.get k r1).isSome = (Dict.get k r2).isSome) ∧
  (∀ k a b, Dict.get k r1 = some a → Dict.get k r2 = some b → R a b)

theorem DictRel.mono {R S : Ref → Ref → Prop} {r1 r2 : List (Str × Ref)} (h : DictRel R r1 r2)
    (hRS : ∀ a b, R a b → S a b) : DictRel S r1 r2 :=
  ⟨h.1, fun k a b h1 h2 => hRS a b (h.2 k a b h1 h2)⟩

theorem DictRel.dimsList {r1 r2 : List (Str × Ref)} (h : DictRel (fun a b => a.dims? = b.dims?) r1 r2) :
    (fun n => Dict.get n (Ref.dimsList r1)) = (fun n => Dict.get n (Ref.dimsList r2)) := by
  funext n
  rw [get_dimsList, get_dimsList]
  have h1 := h.1 n
  have h2 := h.2 n
  cases ha : Dict.get n r1 with
  | none =>
    cases hb : Dict.get n r2 with
    | none => rfl
    | some b => rw [ha, hb] at h1; cases h1
  | some a =>
    cases hb : Dict.get n r2 with
    | none => rw [ha, hb] at h1; cases h1
    | some b => simp only [Option.map_some, h2 _ _ ha hb]

theorem Spec.Same.dims? {a b : Ref} (h : Same a b) : a.dims? = b.dims? := by
  induction h with
  | refl a => rfl
  | pre => rfl
  | unit _ _ hk _ ih =>
    rw [Ref.dims?, Ref.dims?]
    rw [DictRel.dimsList ⟨hk, ih⟩]

theorem Spec.Same.dims {a b : Ref} (h : Same a b) : a.dims = b.dims := by
  unfold Ref.dims; rw [h.dims?]

theorem Spec.Same.isTimeUnit {a b : Ref} (h : Same a b) : a.isTimeUnit = b.isTimeUnit := by
  cases h with
  | refl => rfl
  | pre => rfl
  | unit h1 h2 h3 h4 =>
    unfold Ref.isTimeUnit
    dsimp only
    rw [(Same.unit h1 h2 h3 h4).dims]

theorem Spec.Same.dimObj {a b : Ref} (h : Same a b) : a.dimObj = b.dimObj := by
  cases h with
  | refl => rfl
  | pre => rfl
  | unit h1 h2 h3 h4 =>
    unfold Ref.dimObj
    dsimp only
    rw [(Same.unit h1 h2 h3 h4).dims]

theorem defnDims_congr {r1 r2 : List (Str × Ref)} (h : DictRel Same r1 r2) (n : Node) :
    defnDims r1 n = defnDims r2 n := by
  unfold defnDims
  rw [DictRel.dimsList (h.mono fun _ _ => Same.dims?)]

theorem normalise_congr {r1 r2 : List (Str × Ref)} (h : DictRel Same r1 r2) (n : Node) :
    normalise r1 n = normalise r2 n := by
  induction n with
  | number v r => rfl
  | ident n => rfl
  | unhandled r => rfl
  | mul l r hl hr => simp only [normalise, hl, hr]
  | div l r hl hr => simp only [normalise, hl, hr]
  | raise l r hl hr => simp only [normalise, hl, hr]
  | log fn t ht => simp only [normalise, ht]
  | shift u f hu hf => simp only [normalise, hu, defnDims_congr h]

/-- `Unit(...)` succeeds or fails alike and gives equal values. -/
theorem mkUnit_congr {r1 r2 : List (Str × Ref)} (h : DictRel Same r1 r2) (h1 : Dict.Nodup r1)
    (h2 : Dict.Nodup r2) (names : Option UnitReference) (d : Node) :
    (∃ e, mkUnit names d r1 = .error e ∧ mkUnit names d r2 = .error e) ∨
    (mkUnit names d r1 = .ok (.unit names d r1) ∧ mkUnit names d r2 = .ok (.unit names d r2) ∧
      Same (.unit names d r1) (.unit names d r2)) := by
  unfold mkUnit normalisedNode
  rw [normalise_congr h]
  cases normalise r2 d with
  | error e => exact Or.inl ⟨e, rfl, rfl⟩
  | ok x => exact Or.inr ⟨rfl, rfl, Same.unit h1 h2 h.1 h.2⟩

theorem unitFromExpr_congr {r1 r2 : List (Str × Ref)} (h : DictRel Same r1 r2) (h1 : Dict.Nodup r1)
    (h2 : Dict.Nodup r2) (e : Node) :
    (∃ err, unitFromExpr e r1 = .error err ∧ unitFromExpr e r2 = .error err) ∨
    (∃ a b, unitFromExpr e r1 = .ok a ∧ unitFromExpr e r2 = .ok b ∧ SameObj a b) := by
  have plain : ∀ n, (∃ err, (do let r ← mkUnit none n r1; .ok (.unit r) : Py UObj) = .error err ∧
        (do let r ← mkUnit none n r2; .ok (.unit r) : Py UObj) = .error err) ∨
      (∃ a b, (do let r ← mkUnit none n r1; .ok (.unit r) : Py UObj) = .ok a ∧
        (do let r ← mkUnit none n r2; .ok (.unit r) : Py UObj) = .ok b ∧ SameObj a b) := by
    intro n
    rcases mkUnit_congr h h1 h2 none n with ⟨err, a, b⟩ | ⟨a, b, c⟩
    · rw [a, b]; exact Or.inl ⟨err, rfl, rfl⟩
    · rw [a, b]; exact Or.inr ⟨_, _, rfl, rfl, .unit c⟩
  cases e with
  | shift u f =>
    simp only [unitFromExpr]
    rcases mkUnit_congr h h1 h2 none u with ⟨err, a, b⟩ | ⟨a, b, c⟩
    · rw [a, b]; exact Or.inl ⟨err, rfl, rfl⟩
    · rw [a, b]
      have ht := Same.isTimeUnit c
      have hd : ∀ raw, (∃ err, mkDate (.unit none u r1) raw = .error err ∧ mkDate (.unit none u r2) raw = .error err) ∨
          (∃ a b, mkDate (.unit none u r1) raw = .ok a ∧ mkDate (.unit none u r2) raw = .ok b ∧ SameObj a b) := by
        intro raw
        unfold mkDate
        rw [ht]
        cases (Ref.unit none u r2).isTimeUnit with
        | error e => exact Or.inl ⟨e, rfl, rfl⟩
        | ok t =>
          cases t with
          | false => exact Or.inl ⟨_, rfl, rfl⟩
          | true => exact Or.inr ⟨_, _, rfl, rfl, .date c⟩
      show (∃ err, (do if ← (Ref.unit none u r1).isTimeUnit then _ else _ : Py UObj) = .error err ∧
        (do if ← (Ref.unit none u r2).isTimeUnit then _ else _ : Py UObj) = .error err) ∨
        (∃ a b, (do if ← (Ref.unit none u r1).isTimeUnit then _ else _ : Py UObj) = .ok a ∧
        (do if ← (Ref.unit none u r2).isTimeUnit then _ else _ : Py UObj) = .ok b ∧ _)
      rw [ht]
      cases (Ref.unit none u r2).isTimeUnit with
      | error e => exact Or.inl ⟨e, rfl, rfl⟩
      | ok t =>
        cases t with
        | false => exact plain _
        | true =>
          cases f with
          | number v raw => exact hd raw
          | unhandled raw => exact hd (some raw)
          | _ => exact Or.inl ⟨_, rfl, rfl⟩
  | _ => exact plain _

/-! ## Expansion -/

theorem expandList_ok {refs : List (Str × Ref)} {es : List (Str × Node)}
    (h : Ref.expandList refs = .ok es) :
    ∀ k, (∀ a, Dict.get k refs = some a → ∃ e, a.expand = .ok e ∧ Dict.get k es = some e) ∧
      (Dict.get k refs = none → Dict.get k es = none) := by
  induction refs generalizing es with
  | nil => rw [Ref.expandList] at h; cases h; intro k; exact ⟨(by intro a h; cases h), fun _ => rfl⟩
  | cons q refs ih =>
    obtain ⟨n, r⟩ := q
    rw [Ref.expandList] at h
    cases hr : r.expand with
    | error e => rw [hr] at h; cases h
    | ok e =>
      rw [hr] at h
      cases hl : Ref.expandList refs with
      | error e => rw [hl] at h; cases h
      | ok es' =>
        rw [hl] at h
        cases h
        intro k
        rw [Dict.get_cons, Dict.get_cons]
        by_cases hnk : n = k
        · simp only [hnk, if_true]
          exact ⟨(by intro a ha; cases ha; exact ⟨e, hr, rfl⟩), (by intro h; cases h)⟩
        · simp only [hnk, if_false]
          exact ih hl k

theorem expandList_total {refs : List (Str × Ref)} (h : ∀ k a, (k, a) ∈ refs → ∃ e, a.expand = .ok e) :
    ∃ es, Ref.expandList refs = .ok es := by
  induction refs with
  | nil => exact ⟨[], by rw [Ref.expandList]⟩
  | cons q refs ih =>
    obtain ⟨n, r⟩ := q
    obtain ⟨e, he⟩ := h n r (List.mem_cons_self ..)
    obtain ⟨es, hes⟩ := ih fun k a hk => h k a (List.mem_cons_of_mem _ hk)
    exact ⟨(n, e) :: es, by rw [Ref.expandList, he, hes]; rfl⟩

theorem substitute_congr {s1 s2 : Dict Str Node} (h : ∀ k, Dict.get k s1 = Dict.get k s2) (n : Node) :
    n.substitute s1 = n.substitute s2 := by
  induction n with
  | ident n => simp only [Node.substitute, h]
  | number v r => rfl
  | unhandled r => rfl
  | mul l r hl hr => simp only [Node.substitute, hl, hr]
  | div l r hl hr => simp only [Node.substitute, hl, hr]
  | raise l r hl hr => simp only [Node.substitute, hl, hr]
  | shift l r hl hr => simp only [Node.substitute, hl, hr]
  | log fn t ht => simp only [Node.substitute, ht]

/-- If one expansion exists so does the other, and they are the same tree. -/
theorem Spec.Same.expand {a b : Ref} (h : Same a b) : ∀ e, a.expand = .ok e ↔ b.expand = .ok e := by
  induction h with
  | refl a => intro e; rfl
  | @pre p q _ hv _ => intro e; rw [Ref.expand, Ref.expand, Prefix.expand, Prefix.expand, hv]
  | @unit names defn r1 r2 n1 n2 hk hs ih =>
    have key : ∀ (r1 r2 : List (Str × Ref)), Dict.Nodup r2 →
        (∀ k, (Dict.get k r1).isSome = (Dict.get k r2).isSome) →
        (∀ k a b, Dict.get k r1 = some a → Dict.get k r2 = some b → ∀ e, a.expand = .ok e → b.expand = .ok e) →
        ∀ e, (Ref.unit names defn r1).expand = .ok e → (Ref.unit names defn r2).expand = .ok e := by
      intro r1 r2 n2 hk ih e he
      rw [Ref.expand] at he ⊢
      cases hl : Ref.expandList r1 with
      | error err => rw [hl] at he; cases he
      | ok es =>
        rw [hl] at he
        cases he
        have h1 := expandList_ok hl
        have back : ∀ k b, Dict.get k r2 = some b → ∃ a, Dict.get k r1 = some a := by
          intro k b hb
          have := hk k
          rw [hb] at this
          exact Option.isSome_iff_exists.1 this
        obtain ⟨es2, hes2⟩ : ∃ es2, Ref.expandList r2 = .ok es2 := by
          apply expandList_total
          intro k b hb
          have hb := Dict.get_of_mem_nodup n2 hb
          obtain ⟨a, ha⟩ := back k b hb
          obtain ⟨e, he, _⟩ := (h1 k).1 a ha
          exact ⟨e, ih k a b ha hb e he⟩
        rw [hes2]
        have h2 := expandList_ok hes2
        have : ∀ k, Dict.get k es2 = Dict.get k es := by
          intro k
          cases hb : Dict.get k r2 with
          | none =>
            rw [(h2 k).2 hb]
            have := hk k
            rw [hb] at this
            rw [(h1 k).2 (by cases h : Dict.get k r1 <;> simp_all)]
          | some b =>
            obtain ⟨a, ha⟩ := back k b hb
            obtain ⟨e, he, hg⟩ := (h1 k).1 a ha
            obtain ⟨e', he', hg'⟩ := (h2 k).1 b hb
            have := ih k a b ha hb e he
            rw [this] at he'; cases he'
            rw [hg, hg']
        show Except.ok _ = Except.ok _
        rw [substitute_congr this]
    intro e
    constructor
    · exact key r1 r2 n2 hk (fun k a b ha hb e => (ih k a b ha hb e).1) e
    · exact key r2 r1 n1 (fun k => (hk k).symm) (fun k a b ha hb e => (ih k b a hb ha e).2) e

theorem Spec.Same.str {a b : Ref} (h : Same a b) : a.str = b.str := by cases h <;> rfl

theorem Spec.Same.symDef {a b : Ref} (h : Same a b) : ∀ d, a.symDef = .ok d ↔ b.symDef = .ok d := by
  intro d
  unfold Ref.symDef
  constructor
  · intro hd
    cases ha : a.expand with
    | error e => rw [ha] at hd; cases hd
    | ok e => rw [ha] at hd; rw [(h.expand e).1 ha]; exact hd
  · intro hd
    cases ha : b.expand with
    | error e => rw [ha] at hd; cases hd
    | ok e => rw [ha] at hd; rw [(h.expand e).2 ha]; exact hd

theorem Spec.Same.symm {a b : Ref} (h : Same a b) : Same b a := by
  induction h with
  | refl a => exact .refl a
  | pre h1 h2 h3 => exact .pre h1.symm h2.symm h3.symm
  | unit n1 n2 hk _ ih => exact .unit n2 n1 (fun k => (hk k).symm) fun k a b ha hb => ih k b a hb ha

end Verif

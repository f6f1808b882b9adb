import Verif.Lemmas.Frames
import Verif.Lemmas.Dict
/-!
# Lemmas about the nested calls of units
-/

namespace Verif
namespace Frames

/-- what splitting leaves is no deeper -/
theorem split_depth : ∀ (e : Node) (r : Bool) (x : Option Trans × Node), e.split r = .ok x → x.2.depth ≤ e.depth
  | .number _ _, _, x, h => by simp only [Node.split] at h; cases h; exact Nat.le_refl _
  | .ident _, _, x, h => by simp only [Node.split] at h; cases h; exact Nat.le_refl _
  | .unhandled _, _, x, h => by simp only [Node.split] at h; cases h; exact Nat.le_refl _
  | .mul a b, r, z, h => by
    rw [split_mul] at h
    cases ha : a.split false with
    | error e => rw [ha] at h; cases h
    | ok x =>
      cases hb : b.split false with
      | error e => rw [ha, hb] at h; cases h
      | ok y =>
        rw [ha, hb] at h
        have h1 := split_depth a false x ha
        have h2 := split_depth b false y hb
        change splitMul x y = _ at h
        obtain ⟨t1, d1⟩ := x
        obtain ⟨t2, d2⟩ := y
        unfold splitMul at h
        cases t1 <;> cases t2 <;> cases h <;> simp only [Node.depth] at h1 h2 ⊢ <;> omega
  | .div a b, r, z, h => by
    rw [split_div] at h
    cases ha : a.split false with
    | error e => rw [ha] at h; cases h
    | ok x =>
      cases hb : b.split false with
      | error e => rw [ha, hb] at h; cases h
      | ok y =>
        rw [ha, hb] at h
        have h1 := split_depth a false x ha
        have h2 := split_depth b false y hb
        change splitDiv x y = _ at h
        obtain ⟨t1, d1⟩ := x
        obtain ⟨t2, d2⟩ := y
        unfold splitDiv at h
        cases t1 <;> cases t2 <;> cases h <;> simp only [Node.depth] at h1 h2 ⊢ <;> omega
  | .raise a b, r, z, h => by
    rw [split_raise] at h
    cases ha : a.split false with
    | error e => rw [ha] at h; cases h
    | ok x =>
      cases hb : b.split false with
      | error e => rw [ha, hb] at h; cases h
      | ok y =>
        rw [ha, hb] at h
        have h1 := split_depth a false x ha
        have h2 := split_depth b false y hb
        change splitRaise x y = _ at h
        obtain ⟨t1, d1⟩ := x
        obtain ⟨t2, d2⟩ := y
        unfold splitRaise at h
        cases t1 <;> cases t2 <;> cases h <;> simp only [Node.depth] at h1 h2 ⊢ <;> omega
  | .shift u f, r, z, h => by
    rw [split_shift] at h
    cases ha : u.split false with
    | error e => rw [ha] at h; cases h
    | ok x =>
      rw [ha] at h
      have h1 := split_depth u false x ha
      cases r <;> cases h <;> simp only [Node.depth] at h1 ⊢ <;> simp <;> omega
  | .log fn u, r, z, h => by
    rw [split_log] at h
    cases ha : u.split false with
    | error e => rw [ha] at h; cases h
    | ok x =>
      rw [ha] at h
      have h1 := split_depth u false x ha
      cases h
      simp only [Node.depth] at h1 ⊢
      omega

/-- two tables of dimensionalities agree, up to the calls needed -/
def Agree (n : Nat) : Option (Nat → Py (Option Dims)) → Option (Py (Option Dims)) → Prop
  | none, none => True
  | some f, some x => Needs f x n
  | _, _ => False

theorem needs_dimsLoop {look : Str → Option (Nat → Py (Option Dims))} {look' : Str → Option (Py (Option Dims))} {n : Nat}
    (h : ∀ k, Agree n (look k) (look' k)) : ∀ (items : List (Str × PyVal)) (r : Dims),
    Needs (fun k => dimsLoop look k items r) (Verif.dimsLoop look' items r) n
  | [], r => (Needs.pure _).mono (Nat.zero_le n)
  | (a, order) :: items, r => by
    refine Needs.congr (fun k => by rw [dimsLoop]) ?_
    rw [Verif.dimsLoop]
    have ha := h a
    cases hl : look a with
    | none =>
      cases hl' : look' a with
      | none => exact (Needs.pure _).mono (Nat.zero_le n)
      | some x => rw [hl, hl'] at ha; exact ha.elim
    | some f =>
      cases hl' : look' a with
      | none => rw [hl, hl'] at ha; exact ha.elim
      | some x =>
        rw [hl, hl'] at ha
        refine (Needs.bind (m := n) ha fun v _ => ?_).mono (by omega)
        cases v with
        | none => exact needs_dimsLoop h items r
        | some ud =>
          refine (Needs.bind (m := n) (Needs.pure (dimsAddAll order ud r)) fun r' _ => ?_).mono (by omega)
          exact needs_dimsLoop h items r'

theorem needs_unitDims {look : Str → Option (Nat → Py (Option Dims))} {look' : Str → Option (Py (Option Dims))} {n m : Nat}
    (h : ∀ k, Agree n (look k) (look' k)) {defn : Node} (hm : n ≤ m) (hd : 2 * defn.depth + 3 ≤ m) :
    Needs (unitDims look defn) (Verif.unitDims look' defn) (m + 1) := by
  refine Needs.congr (fun k => by rw [unitDims]) ?_
  have e : Verif.unitDims look' defn = (defn.split true >>= fun x => x.2.dimCount >>= fun r =>
      Verif.dimsLoop look' r [] >>= fun result => .ok (Dims.dropZero result)) := by
    unfold Verif.unitDims
    cases defn.split true <;> rfl
  rw [e]
  refine .calls 1 ?_
  refine (Needs.bind (m := m) (needs_split defn true) fun x hx => ?_).mono (by omega)
  have := split_depth _ _ _ hx
  refine (Needs.bind (m := m) (needs_dimCount x.2) fun r _ => ?_).mono (by omega)
  exact (Needs.bind (m := 0) (needs_dimsLoop h r []) fun _ _ => .pure _).mono (by omega)

theorem chain_get {refs : List (Str × Ref)} {n : Str} {r : Ref} (h : (n, r) ∈ refs) :
    r.chain ≤ Ref.chainAll refs ∧ r.deepest ≤ Ref.deepestAll refs := by
  induction refs with
  | nil => cases h
  | cons p rest ih =>
    obtain ⟨k, v⟩ := p
    simp only [Ref.chainAll, Ref.deepestAll]
    cases h with
    | head => omega
    | tail _ h => have := ih h; omega

mutual
theorem needs_dims? : ∀ r : Ref, Needs (dims? r) r.dims? (r.chain + 2 * r.deepest + 3)
  | .basis b => by
    refine Needs.congr (fun k => by rw [dims?]) ?_
    rw [Ref.dims?]
    cases b.dimensionless with
    | true => exact (Needs.leaf 1 _).mono (by omega)
    | false => exact (Needs.leaf 2 _).mono (by omega)
  | .pre p => by
    refine Needs.congr (fun k => by rw [dims?]) ?_
    rw [Ref.dims?]
    exact (Needs.pure _).mono (Nat.zero_le _)
  | .unit names defn refs => by
    refine Needs.congr (fun k => by rw [dims?]) ?_
    rw [Ref.dims?]
    have h := needs_dimsList refs
    simp only [Ref.chain, Ref.deepest]
    refine (Needs.bind (m := 0) (needs_unitDims (m := Ref.chainAll refs + 2 * max defn.depth (Ref.deepestAll refs) + 3) h ?_ ?_)
      fun _ _ => .pure _).mono (by omega) <;> omega
theorem needs_dimsList : ∀ (refs : List (Str × Ref)) (n : Str),
    Agree (Ref.chainAll refs + 2 * Ref.deepestAll refs + 3) (Dict.get n (dimsList refs)) (Dict.get n (Ref.dimsList refs))
  | [], n => by simp only [dimsList, Ref.dimsList, Dict.get, Agree]
  | (k, r) :: rest, n => by
    simp only [dimsList, Ref.dimsList, Dict.get_cons]
    by_cases hk : k = n
    · rw [if_pos hk, if_pos hk]
      exact (needs_dims? r).mono (by simp only [Ref.chainAll, Ref.deepestAll]; omega)
    · rw [if_neg hk, if_neg hk]
      have := needs_dimsList rest n
      revert this
      generalize Dict.get n (dimsList rest) = x
      generalize Dict.get n (Ref.dimsList rest) = y
      intro h
      match x, y, h with
      | none, none, _ => trivial
      | some f, some x, h => exact Needs.mono h (by simp only [Ref.chainAll, Ref.deepestAll]; omega)
end

theorem needs_dims (r : Ref) : Needs (dims r) r.dims (r.chain + 2 * r.deepest + 3) := by
  refine Needs.congr (fun k => by rw [dims]) ?_
  rw [Ref.dims]
  refine (Needs.bind (m := 0) (needs_dims? r) fun v _ => ?_).mono (by omega)
  cases v <;> exact .pure _

theorem needs_isTimeUnit (r : Ref) : Needs (isTimeUnit r) r.isTimeUnit (r.chain + 2 * r.deepest + 4) := by
  cases r with
  | basis b =>
    refine Needs.congr (fun k => by rw [isTimeUnit]) ?_
    exact (Needs.leaf 1 _).mono (by omega)
  | pre p =>
    refine Needs.congr (fun k => by rw [isTimeUnit]) ?_
    exact (Needs.pure _).mono (by omega)
  | unit n d rs =>
    refine Needs.congr (fun k => by rw [isTimeUnit]; all_goals (intros; simp_all)) ?_
    have e : (Ref.unit n d rs).isTimeUnit = ((Ref.unit n d rs).dims >>= fun d => .ok (Dims.isTime d)) := rfl
    rw [e]
    exact Needs.unary (needs_dims _)

theorem rebuild_depth {mk : Node → Node → Node} (hmk : ∀ a b, (mk a b).depth = max a.depth b.depth + 1) {l r : Node}
    {nl nr : Option Node} (hl : (nl.getD l).depth ≤ l.depth) (hr : (nr.getD r).depth ≤ r.depth) :
    ((rebuild mk l r nl nr).getD (mk l r)).depth ≤ max l.depth r.depth + 1 := by
  unfold rebuild
  cases nl <;> cases nr <;> simp only [Option.getD, hmk] at * <;> omega

/-- normalising makes nothing deeper -/
theorem normalise_depth (refs : List (Str × Ref)) : ∀ (e : Node) (x : Option Node), Verif.normalise refs e = .ok x →
    (x.getD e).depth ≤ e.depth
  | .number _ _, x, h => by simp only [Verif.normalise] at h; cases h; exact Nat.le_refl _
  | .ident _, x, h => by simp only [Verif.normalise] at h; cases h; exact Nat.le_refl _
  | .unhandled _, x, h => by simp only [Verif.normalise] at h; cases h
  | .mul a b, x, h => by
    simp only [Verif.normalise, bind, Except.bind] at h
    cases ha : Verif.normalise refs a with
    | error e => rw [ha] at h; cases h
    | ok na =>
      cases hb : Verif.normalise refs b with
      | error e => rw [ha, hb] at h; cases h
      | ok nb =>
        rw [ha, hb] at h
        cases h
        exact rebuild_depth (fun _ _ => rfl) (normalise_depth refs a na ha) (normalise_depth refs b nb hb)
  | .div a b, x, h => by
    simp only [Verif.normalise, bind, Except.bind] at h
    cases ha : Verif.normalise refs a with
    | error e => rw [ha] at h; cases h
    | ok na =>
      cases hb : Verif.normalise refs b with
      | error e => rw [ha, hb] at h; cases h
      | ok nb =>
        rw [ha, hb] at h
        cases h
        exact rebuild_depth (fun _ _ => rfl) (normalise_depth refs a na ha) (normalise_depth refs b nb hb)
  | .raise a b, x, h => by
    simp only [Verif.normalise, bind, Except.bind] at h
    cases ha : Verif.normalise refs a with
    | error e => rw [ha] at h; cases h
    | ok na =>
      cases hb : Verif.normalise refs b with
      | error e => rw [ha, hb] at h; cases h
      | ok nb =>
        rw [ha, hb] at h
        cases h
        exact rebuild_depth (fun _ _ => rfl) (normalise_depth refs a na ha) (normalise_depth refs b nb hb)
  | .log fn a, x, h => by
    simp only [Verif.normalise, bind, Except.bind] at h
    cases ha : Verif.normalise refs a with
    | error e => rw [ha] at h; cases h
    | ok na =>
      rw [ha] at h
      cases h
      have := normalise_depth refs a na ha
      cases na <;> simp only [Option.getD, Option.map, Node.depth] at * <;> omega
  | .shift u f, x, h => by
    simp only [Verif.normalise, bind, Except.bind] at h
    cases ha : Verif.normalise refs u with
    | error e => rw [ha] at h; cases h
    | ok na =>
      rw [ha] at h
      have h1 := normalise_depth refs u na ha
      dsimp only at h
      cases hd : defnDims refs (na.getD u) with
      | error e => rw [hd] at h; cases h
      | ok d =>
        rw [hd] at h
        dsimp only at h
        by_cases ht : d.isTime = true
        · rw [if_pos ht] at h; cases h
        · rw [if_neg ht] at h
          cases f <;> cases h
          simp only [Option.getD, Node.depth] at *
          omega

theorem needs_normalise (refs : List (Str × Ref)) : ∀ e : Node, Needs (normalise refs e) (Verif.normalise refs e)
    (2 * e.depth + Ref.chainAll refs + 2 * Ref.deepestAll refs + 5)
  | .number _ _ => by
    refine Needs.congr (fun k => by rw [normalise]) ?_
    exact (Needs.leaf 2 _).mono (by omega)
  | .ident _ => by
    refine Needs.congr (fun k => by rw [normalise]) ?_
    exact (Needs.leaf 2 _).mono (by omega)
  | .unhandled _ => by
    refine Needs.congr (fun k => by rw [normalise]) ?_
    exact (Needs.leaf 2 _).mono (by omega)
  | .mul a b => by
    refine Needs.congr (fun k => by rw [normalise]) ?_
    exact (Needs.binary (needs_normalise refs a) (needs_normalise refs b)).mono (by simp only [Node.depth]; omega)
  | .div a b => by
    refine Needs.congr (fun k => by rw [normalise]) ?_
    exact (Needs.binary (needs_normalise refs a) (needs_normalise refs b)).mono (by simp only [Node.depth]; omega)
  | .raise a b => by
    refine Needs.congr (fun k => by rw [normalise]) ?_
    exact (Needs.binary (needs_normalise refs a) (needs_normalise refs b)).mono (by simp only [Node.depth]; omega)
  | .log _ a => by
    refine Needs.congr (fun k => by rw [normalise]) ?_
    exact (Needs.unary (needs_normalise refs a)).mono (by simp only [Node.depth]; omega)
  | .shift u f => by
    refine Needs.congr (fun k => by rw [normalise]) ?_
    have e : Verif.normalise refs (.shift u f) = (Verif.normalise refs u >>= fun nu =>
        (Ref.unit none (nu.getD u) refs).isTimeUnit >>= fun time => if time then .error .refusingDates
          else match f with
            | .number _ _ => .ok (some (.shift (nu.getD u) f))
            | _ => .error .nonNumericShift) := by
      simp only [Verif.normalise, bind, Except.bind]
      cases Verif.normalise refs u with
      | error e => rfl
      | ok nu =>
        simp only [Ref.isTimeUnit, Ref.dims, Ref.dims?, bind, Except.bind]
        rw [defnDims]
        cases Verif.unitDims (fun n => Dict.get n (Ref.dimsList refs)) (nu.getD u) <;> rfl
    rw [e]
    refine (Needs.calls (n := 2 * u.depth + Ref.chainAll refs + 2 * Ref.deepestAll refs + 5) 2 ?_).mono
      (by simp only [Node.depth]; omega)
    refine (Needs.bind (m := 2 * u.depth + Ref.chainAll refs + 2 * Ref.deepestAll refs + 5) (needs_normalise refs u)
      fun nu hnu => ?_).mono (by omega)
    have := normalise_depth refs u nu hnu
    refine (Needs.bind (m := 0) (needs_isTimeUnit _) fun t _ => .pure _).mono ?_
    simp only [Ref.chain, Ref.deepest]
    omega

theorem needs_mkUnit (names : Option UnitReference) (defn : Node) (refs : List (Str × Ref)) :
    Needs (mkUnit names defn refs) (Verif.mkUnit names defn refs)
      (2 * defn.depth + Ref.chainAll refs + 2 * Ref.deepestAll refs + 8) := by
  refine Needs.congr (fun k => by rw [mkUnit]) ?_
  have e : Verif.mkUnit names defn refs = (Verif.normalise refs defn >>= fun _ => .ok (.unit names defn refs)) := by
    simp only [Verif.mkUnit, normalisedNode, bind, Except.bind]
    cases Verif.normalise refs defn <;> rfl
  rw [e]
  have := Needs.unary (c := if names.isSome then 3 else 2) (h := fun _ => .ok (Ref.unit names defn refs)) (needs_normalise refs defn)
  refine this.mono ?_
  split <;> omega

theorem mkUnit_ok {names : Option UnitReference} {defn : Node} {refs : List (Str × Ref)} {r : Ref}
    (h : Verif.mkUnit names defn refs = .ok r) : r = .unit names defn refs := by
  simp only [Verif.mkUnit, bind, Except.bind] at h
  cases hn : normalisedNode refs defn with
  | error e => rw [hn] at h; cases h
  | ok x => rw [hn] at h; cases h; rfl

theorem needs_mkDate (r : Ref) (t : Option Str) : Needs (mkDate r t) (Verif.mkDate r t) (r.chain + 2 * r.deepest + 5) := by
  refine Needs.congr (fun k => by rw [mkDate]) ?_
  exact Needs.unary (needs_isTimeUnit r)

theorem needs_unitFromExpr (e : Node) (refs : List (Str × Ref)) : Needs (unitFromExpr e refs) (Verif.unitFromExpr e refs)
    (2 * e.depth + Ref.chainAll refs + 2 * Ref.deepestAll refs + 9) := by
  have plain : Needs (fun k => calls 1 k fun k => mkUnit none e refs k >>= fun r => .ok (UObj.unit r))
      (Verif.mkUnit none e refs >>= fun r => .ok (UObj.unit r)) (2 * e.depth + Ref.chainAll refs + 2 * Ref.deepestAll refs + 9) :=
    Needs.unary (needs_mkUnit none e refs)
  cases e with
  | shift u f =>
    refine Needs.congr (fun k => by rw [unitFromExpr]) ?_
    rw [Verif.unitFromExpr]
    refine .calls (n := 2 * (u.shift f).depth + Ref.chainAll refs + 2 * Ref.deepestAll refs + 8) 1 ?_
    have hd : u.depth + 1 ≤ (u.shift f).depth := by simp only [Node.depth]; omega
    refine (Needs.bind (m := 2 * (u.shift f).depth + Ref.chainAll refs + 2 * Ref.deepestAll refs + 8)
      (needs_mkUnit none u refs) fun su hsu => ?_).mono (by omega)
    obtain rfl := mkUnit_ok hsu
    have hc : (Ref.unit none u refs).chain = Ref.chainAll refs + 1 := by simp only [Ref.chain]
    have hp : (Ref.unit none u refs).deepest = max u.depth (Ref.deepestAll refs) := by simp only [Ref.deepest]
    refine (Needs.bind (m := 2 * (u.shift f).depth + Ref.chainAll refs + 2 * Ref.deepestAll refs + 8)
      (needs_isTimeUnit _) fun t _ => ?_).mono (by rw [hc, hp]; omega)
    cases t with
    | true =>
      simp only [if_true]
      cases f with
      | number v raw => exact (needs_mkDate _ _).mono (by rw [hc, hp]; omega)
      | unhandled raw => exact (needs_mkDate _ _).mono (by rw [hc, hp]; omega)
      | _ => exact (Needs.pure _).mono (by omega)
    | false =>
      simp only [Bool.false_eq_true, if_false]
      exact (Needs.bind (m := 0) (needs_mkUnit none (u.shift f) refs) fun _ _ => .pure _).mono (by omega)
  | _ =>
    refine Needs.congr (fun k => by rw [unitFromExpr]; all_goals (intros; simp_all)) ?_
    rw [Verif.unitFromExpr]
    · exact plain
    all_goals (intros; simp_all)

theorem mkDate_ok {r : Ref} {t : Option Str} {x : UObj} (h : Verif.mkDate r t = .ok x) : x = .date r t := by
  simp only [Verif.mkDate, bind, Except.bind] at h
  cases hn : r.isTimeUnit with
  | error e => rw [hn] at h; cases h
  | ok b =>
    rw [hn] at h
    cases b <;> cases h
    rfl

/-- the unit of what is made from an expression: the expression, or what is left of the reference date -/
theorem unitFromExpr_ref {e : Node} {refs : List (Str × Ref)} {x : UObj} (h : Verif.unitFromExpr e refs = .ok x) :
    ∃ c, c.depth ≤ e.depth ∧ x.ref = .unit none c refs := by
  have plain : ∀ {e : Node}, (Verif.mkUnit none e refs >>= fun r => .ok (UObj.unit r)) = .ok x →
      ∃ c, c.depth ≤ e.depth ∧ x.ref = .unit none c refs := by
    intro e h
    cases hm : Verif.mkUnit none e refs with
    | error y => rw [hm] at h; cases h
    | ok r =>
      rw [hm] at h; cases h
      exact ⟨e, Nat.le_refl _, mkUnit_ok hm⟩
  cases e with
  | shift u f =>
    rw [Verif.unitFromExpr] at h
    simp only [bind, Except.bind] at h
    cases hm : Verif.mkUnit none u refs with
    | error y => rw [hm] at h; cases h
    | ok su =>
      obtain rfl := mkUnit_ok hm
      rw [hm] at h
      dsimp only at h
      have hd : u.depth ≤ (u.shift f).depth := by simp only [Node.depth]; omega
      cases ht : (Ref.unit none u refs).isTimeUnit with
      | error y => rw [ht] at h; cases h
      | ok b =>
        rw [ht] at h
        cases b with
        | true =>
          simp only [if_true] at h
          cases f with
          | number v raw => obtain rfl := mkDate_ok h; exact ⟨u, hd, rfl⟩
          | unhandled raw => obtain rfl := mkDate_ok h; exact ⟨u, hd, rfl⟩
          | _ => cases h
        | false =>
          simp only [Bool.false_eq_true, if_false] at h
          exact plain h
  | _ =>
    rw [Verif.unitFromExpr] at h
    · exact plain h
    all_goals (intros; simp_all)

theorem substitute_depth {subs : Dict Str Node} {n : Nat} (h : ∀ k e, Dict.get k subs = some e → e.depth ≤ n) :
    ∀ e : Node, (e.substitute subs).depth ≤ e.depth + n
  | .number _ _ => by simp only [Node.substitute, Node.depth]; omega
  | .ident k => by
    unfold Node.substitute
    cases hk : Dict.get k subs with
    | none => simp only [Node.depth]; omega
    | some e => simp only [Node.depth]; have := h k e hk; omega
  | .unhandled _ => by simp only [Node.substitute, Node.depth]; omega
  | .mul a b => by
    have h1 := substitute_depth h a
    have h2 := substitute_depth h b
    simp only [Node.substitute, Node.depth]; omega
  | .div a b => by
    have h1 := substitute_depth h a
    have h2 := substitute_depth h b
    simp only [Node.substitute, Node.depth]; omega
  | .raise a b => by
    have h1 := substitute_depth h a
    have h2 := substitute_depth h b
    simp only [Node.substitute, Node.depth]; omega
  | .shift a b => by
    have h1 := substitute_depth h a
    have h2 := substitute_depth h b
    simp only [Node.substitute, Node.depth]; omega
  | .log _ a => by
    have h1 := substitute_depth h a
    simp only [Node.substitute, Node.depth]; omega

mutual
/-- an expansion is no deeper than the definitions written out -/
theorem expand_depth : ∀ (r : Ref) (e : Node), r.expand = .ok e → e.depth ≤ r.unfolded
  | .basis b, e, h => by rw [Ref.expand] at h; cases h; simp only [Node.depth]; omega
  | .pre p, e, h => by
    rw [Ref.expand] at h
    simp only [Prefix.expand, bind, Except.bind] at h
    cases hd : Dec.parse p.value with
    | error x => rw [hd] at h; cases h
    | ok d => rw [hd] at h; cases h; simp only [Node.depth]; omega
  | .unit _ defn refs, e, h => by
    rw [Ref.expand] at h
    cases hs : Ref.expandList refs with
    | error x => rw [hs] at h; cases h
    | ok subs =>
      rw [hs] at h
      cases h
      exact substitute_depth (expandList_depth refs subs hs) defn
theorem expandList_depth : ∀ (refs : List (Str × Ref)) (es : List (Str × Node)),
    Ref.expandList refs = .ok es → ∀ k e, Dict.get k es = some e → e.depth ≤ Ref.unfoldedAll refs
  | [], es, h, k, e, hk => by rw [Ref.expandList] at h; cases h; cases hk
  | (m, r) :: rest, es, h, k, e, hk => by
    simp only [Ref.expandList, bind, Except.bind] at h
    simp only [Ref.unfoldedAll]
    cases hr : r.expand with
    | error x => rw [hr] at h; cases h
    | ok e' =>
      cases hs : Ref.expandList rest with
      | error x => rw [hr, hs] at h; cases h
      | ok es' =>
        rw [hr, hs] at h
        cases h
        rw [Dict.get_cons] at hk
        by_cases hm : m = k
        · rw [if_pos hm] at hk
          cases hk
          have := expand_depth r e hr
          omega
        · rw [if_neg hm] at hk
          have := expandList_depth rest es' hs k e hk
          omega
end

mutual
theorem needs_expand : ∀ r : Ref, Needs (expand r) r.expand (2 * r.chain + 2 * r.deepest + 2)
  | .basis b => by
    refine Needs.congr (fun k => by rw [expand]) ?_
    exact (Needs.leaf 1 _).mono (by omega)
  | .pre p => by
    refine Needs.congr (fun k => by rw [expand]) ?_
    rw [Ref.expand]
    exact (Needs.leaf 2 _).mono (by omega)
  | .unit names defn refs => by
    refine Needs.congr (fun k => by rw [expand]) ?_
    rw [Ref.expand]
    simp only [Ref.chain, Ref.deepest]
    refine (Needs.calls (n := 2 * Ref.chainAll refs + 2 * max defn.depth (Ref.deepestAll refs) + 3) 1 ?_).mono (by omega)
    exact (Needs.bind (m := 2 * defn.depth + 3) (needs_expandList refs) fun subs _ => needs_substitute subs defn).mono (by omega)
theorem needs_expandList : ∀ refs : List (Str × Ref),
    Needs (expandList refs) (Ref.expandList refs) (2 * Ref.chainAll refs + 2 * Ref.deepestAll refs + 3)
  | [] => by
    refine Needs.congr (fun k => by rw [expandList]) ?_
    exact (Needs.pure _).mono (Nat.zero_le _)
  | (n, r) :: rest => by
    refine Needs.congr (fun k => by rw [expandList]) ?_
    rw [Ref.expandList]
    simp only [Ref.chainAll, Ref.deepestAll]
    exact (Needs.bind (m := 2 * Ref.chainAll rest + 2 * Ref.deepestAll rest + 3) (Needs.calls 1 (needs_expand r)) fun e _ =>
      (Needs.bind (m := 0) (needs_expandList rest) fun _ _ => .pure _).mono (by omega)).mono (by omega)
end

theorem needs_text (r : Ref) : Needs (fun k => calls 1 k fun k => expand r k >>= fun e => str e k)
    (r.expand >>= fun e => .ok e.str) (max (2 * r.chain + 2 * r.deepest + 2) (r.unfolded + 1) + 1) := by
  refine .calls 1 ?_
  refine (Needs.bind (m := r.unfolded + 1) (needs_expand r) fun e he => ?_).mono (by omega)
  have := expand_depth r e he
  exact (needs_str e).mono (by omega)

theorem needs_expanded (x : UObj) : Needs (expanded x) x.expanded
    (max (2 * x.ref.chain + 2 * x.ref.deepest + 2) (x.ref.unfolded + 1) + 2) := by
  cases x with
  | unit r =>
    refine Needs.congr (fun k => by rw [expanded]) ?_
    exact (needs_text r).mono (by simp only [UObj.ref]; omega)
  | date u t =>
    refine Needs.congr (fun k => by rw [expanded]) ?_
    have e : (UObj.date u t).expanded = ((u.expand >>= fun e => .ok e.str) >>= fun s => .ok (s ++ (c!" since " ++ t.getD c!"None"))) := by
      simp only [UObj.expanded, bind, Except.bind]
      cases u.expand <;> rfl
    rw [e]
    exact (Needs.unary (needs_text u)).mono (by simp only [UObj.ref]; omega)

theorem needs_unitStr (r : Ref) : Needs (unitStr r) (.ok r.str) (r.deepest + 2) := by
  cases r with
  | basis b =>
    refine Needs.congr (fun k => by rw [unitStr]) ?_
    exact (Needs.leaf 1 _).mono (by omega)
  | pre p =>
    refine Needs.congr (fun k => by rw [unitStr]) ?_
    exact (Needs.pure _).mono (by omega)
  | unit n d rs =>
    refine Needs.congr (fun k => by rw [unitStr]) ?_
    exact (Needs.calls 1 (needs_str d)).mono (by simp only [Ref.deepest]; omega)

theorem needs_symbolic (r : Ref) : Needs (symbolic r) (r.expand >>= fun e => e.split true)
    (max (2 * r.chain + 2 * r.deepest + 2) (2 * r.unfolded + 2) + 1) := by
  refine Needs.congr (fun k => by rw [symbolic]) ?_
  refine .calls 1 ?_
  refine (Needs.bind (m := 2 * r.unfolded + 2) (needs_expand r) fun e he => ?_).mono (by omega)
  have := expand_depth r e he
  exact (needs_split e true).mono (by omega)

end Frames
end Verif

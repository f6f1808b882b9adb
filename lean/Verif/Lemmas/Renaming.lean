import Verif.Spec.Renaming
/-! # Lemmas: every function on units commutes with renaming -/

namespace Verif

variable {φ : Str → Str}

/-- keys renamed -/
def mapKeys {ν : Type} (φ : Str → Str) (d : Dict Str ν) : Dict Str ν := d.map fun q => (φ q.1, q.2)

theorem get_mapKeys {ν : Type} (h : KeepsApart φ) (k : Str) : ∀ d : Dict Str ν, Dict.get (φ k) (mapKeys φ d) = Dict.get k d
  | [] => rfl
  | (k', v) :: d => by
    have ih := get_mapKeys h k d
    simp only [mapKeys, List.map_cons, Dict.get] at ih ⊢
    by_cases hk : k' = k
    · subst hk; simp
    · rw [if_neg hk, if_neg (fun e => hk (h _ _ e))]; exact ih

theorem set_mapKeys {ν : Type} (h : KeepsApart φ) (k : Str) (v : ν) : ∀ d : Dict Str ν,
    Dict.set (φ k) v (mapKeys φ d) = mapKeys φ (Dict.set k v d)
  | [] => rfl
  | (k', v') :: d => by
    have ih := set_mapKeys h k v d
    simp only [mapKeys, List.map_cons, Dict.set] at ih ⊢
    by_cases hk : k' = k
    · subst hk; simp
    · rw [if_neg hk, if_neg (fun e => hk (h _ _ e)), ih]; rfl

/-! ## expressions -/

theorem substitute_rename (h : KeepsApart φ) {subs : Dict Str Node} : ∀ n : Node,
    (n.rename φ).substitute (mapKeys φ (subs.map fun q => (q.1, q.2.rename φ))) = (n.substitute subs).rename φ
  | .ident n => by
    have : ∀ d : Dict Str Node, Dict.get n (d.map fun q => (q.1, q.2.rename φ)) = (Dict.get n d).map (Node.rename φ) := by
      intro d
      induction d with
      | nil => rfl
      | cons q d ih =>
        obtain ⟨k, v⟩ := q
        simp only [List.map_cons, Dict.get]
        by_cases hk : k = n
        · simp [hk]
        · simp [hk, ih]
    simp only [Node.rename, Node.substitute]
    rw [get_mapKeys h, this]
    cases Dict.get n subs <;> rfl
  | .number _ _ => rfl
  | .unhandled _ => rfl
  | .mul l r => by simp only [Node.rename, Node.substitute, substitute_rename h l, substitute_rename h r]
  | .div l r => by simp only [Node.rename, Node.substitute, substitute_rename h l, substitute_rename h r]
  | .raise l r => by simp only [Node.rename, Node.substitute, substitute_rename h l, substitute_rename h r]
  | .shift l r => by simp only [Node.rename, Node.substitute, substitute_rename h l, substitute_rename h r]
  | .log _ r => by simp only [Node.rename, Node.substitute, substitute_rename h r]

/-- identifiers inside a value transformation renamed -/
def Trans.rename (φ : Str → Str) : Trans → Trans
  | .value => .value
  | .shift t f => .shift (t.rename φ) (f.rename φ)
  | .mulR t d => .mulR (t.rename φ) (d.rename φ)
  | .mulL d t => .mulL (d.rename φ) (t.rename φ)
  | .log fn t => .log fn (t.rename φ)

/-- both halves of a split expression -/
def renameSplit (φ : Str → Str) (p : Option Trans × Node) : Option Trans × Node := (p.1.map (Trans.rename φ), p.2.rename φ)

theorem split_rename : ∀ (root : Bool) (n : Node), (n.rename φ).split root = (n.split root).map (renameSplit φ)
  | _, .ident _ => rfl
  | _, .number _ _ => rfl
  | _, .unhandled _ => rfl
  | root, .shift u f => by
    simp only [Node.rename, Node.split, bind, Except.bind, split_rename false u]
    rcases u.split false with e | ⟨t, d⟩
    · rfl
    · cases t <;> cases root <;> rfl
  | root, .log fn u => by
    simp only [Node.rename, Node.split, bind, Except.bind, split_rename false u]
    rcases u.split false with e | ⟨t, d⟩
    · rfl
    · cases t <;> rfl
  | root, .raise l r => by
    simp only [Node.rename, Node.split, bind, Except.bind, split_rename false l, split_rename false r]
    rcases l.split false with e | ⟨t, d⟩
    · rfl
    · rcases r.split false with e | ⟨t', d'⟩
      · rfl
      · cases t' <;> rfl
  | root, .mul l r => by
    simp only [Node.rename, Node.split, bind, Except.bind, split_rename false l, split_rename false r]
    rcases l.split false with e | ⟨t, d⟩
    · rfl
    · rcases r.split false with e | ⟨t', d'⟩
      · rfl
      · cases t <;> cases t' <;> rfl
  | root, .div l r => by
    simp only [Node.rename, Node.split, bind, Except.bind, split_rename false l, split_rename false r]
    rcases l.split false with e | ⟨t, d⟩
    · rfl
    · rcases r.split false with e | ⟨t', d'⟩
      · rfl
      · cases t <;> cases t' <;> rfl

theorem dimMerge_rename (h : KeepsApart φ) (op : PyVal → PyVal → Py PyVal) : ∀ (items : List (Str × PyVal)) (d : Dict Str PyVal),
    dimMerge op (mapKeys φ items) (mapKeys φ d) = (dimMerge op items d).map (mapKeys φ)
  | [], _ => rfl
  | (k, v) :: items, d => by
    have ih := fun d => dimMerge_rename h op items d
    simp only [mapKeys, List.map_cons, dimMerge, bind, Except.bind] at ih ⊢
    rw [show Dict.get (φ k) (d.map fun q => (φ q.1, q.2)) = Dict.get k d from get_mapKeys h k d]
    cases op ((Dict.get k d).getD (.int 0)) v with
    | error e => rfl
    | ok w =>
      have := set_mapKeys h k w d
      simp only [mapKeys] at this
      simp only [this]
      exact ih _

theorem dimScale_rename (n : Num) : ∀ d : Dict Str PyVal, dimScale n (mapKeys φ d) = (dimScale n d).map (mapKeys φ)
  | [] => rfl
  | (k, v) :: d => by
    have ih := dimScale_rename n d
    simp only [mapKeys, List.map_cons, dimScale, bind, Except.bind] at ih ⊢
    cases n.asPyVal with
    | error e => rfl
    | ok w =>
      dsimp only
      cases PyVal.mul v w with
      | error e => rfl
      | ok z =>
        dsimp only
        rw [ih]
        cases dimScale n d <;> rfl

theorem dimCount_rename (h : KeepsApart φ) : ∀ n : Node, (n.rename φ).dimCount = n.dimCount.map (mapKeys φ)
  | .ident _ => rfl
  | .number _ _ => rfl
  | .unhandled _ => rfl
  | .mul l r => by
    simp only [Node.rename, Node.dimCount, bind, Except.bind, dimCount_rename h l, dimCount_rename h r]
    cases l.dimCount with
    | error e => rfl
    | ok a =>
      cases r.dimCount with
      | error e => rfl
      | ok b => exact dimMerge_rename h _ _ _
  | .div l r => by
    simp only [Node.rename, Node.dimCount, bind, Except.bind, dimCount_rename h l, dimCount_rename h r]
    cases l.dimCount with
    | error e => rfl
    | ok a =>
      cases r.dimCount with
      | error e => rfl
      | ok b => exact dimMerge_rename h _ _ _
  | .raise l r => by
    cases r with
    | number n raw =>
      simp only [Node.rename, Node.dimCount, bind, Except.bind, dimCount_rename h l]
      cases l.dimCount with
      | error e => rfl
      | ok a => exact dimScale_rename _ _
    | _ => rfl
  | .shift u _ => by simp only [Node.rename, Node.dimCount, dimCount_rename h u]
  | .log _ u => by simp only [Node.rename, Node.dimCount, dimCount_rename h u]

/-! ## dimensionality -/

theorem dims_get_rename (h : KeepsApart φ) (r : Str) : ∀ d : Dims, Dims.get? (φ r) (d.rename φ) = Dims.get? r d
  | [] => rfl
  | (b, v) :: d => by
    have ih := dims_get_rename h r d
    simp only [Dims.rename, List.map_cons, Dims.get?, Basis.rename] at ih ⊢
    by_cases hk : b.ref = r
    · subst hk; simp
    · rw [if_neg hk, if_neg (fun e => hk (h _ _ e))]; exact ih

theorem dims_power_rename (h : KeepsApart φ) (r : Str) (d : Dims) : Dims.power (φ r) (d.rename φ) = Dims.power r d := by
  unfold Dims.power; rw [dims_get_rename h]

theorem dims_set_rename (h : KeepsApart φ) (b : Basis) (v : Int) : ∀ d : Dims,
    Dims.set (b.rename φ) v (d.rename φ) = (Dims.set b v d).rename φ
  | [] => rfl
  | (b', v') :: d => by
    have ih := dims_set_rename h b v d
    simp only [Dims.rename, List.map_cons, Dims.set] at ih ⊢
    by_cases hk : b'.ref = b.ref
    · rw [if_pos hk, if_pos (by simp only [Basis.rename, hk])]; rfl
    · rw [if_neg hk, if_neg (fun e : (b'.rename φ).ref = (b.rename φ).ref => hk (h _ _ e)), ih]; rfl

theorem dims_eq_rename (h : KeepsApart φ) (a b : Dims) : Dims.eq (a.rename φ) (b.rename φ) = Dims.eq a b := by
  unfold Dims.eq
  congr 1
  · simp only [Dims.rename, List.length_map]
  · simp only [Dims.rename, List.all_map]
    congr 1
    funext q
    obtain ⟨k, v⟩ := q
    exact congrArg (· == some v) (dims_get_rename h k.ref b)

theorem dims_inverted_rename (d : Dims) : Dims.inverted (d.rename φ) = (Dims.inverted d).rename φ := by
  simp only [Dims.inverted, Dims.rename, List.map_map]; rfl

theorem dims_dropZero_rename (d : Dims) : Dims.dropZero (d.rename φ) = (Dims.dropZero d).rename φ := by
  simp only [Dims.dropZero, Dims.rename, List.filter_map]; rfl

theorem dims_isTime_rename (d : Dims) : Dims.isTime (d.rename φ) = Dims.isTime d := by
  match d with
  | [] => rfl
  | [(b, v)] => rfl
  | _ :: _ :: _ => rfl

theorem dimsAddAll_rename (h : KeepsApart φ) (order : PyVal) : ∀ (items : List (Basis × Int)) (d : Dims),
    dimsAddAll order (Dims.rename φ items) (d.rename φ) = (dimsAddAll order items d).map (Dims.rename φ)
  | [], _ => rfl
  | (b, k) :: items, d => by
    have ih := fun d => dimsAddAll_rename h order items d
    rw [show Dims.rename φ ((b, k) :: items) = (b.rename φ, k) :: Dims.rename φ items from rfl]
    simp only [dimsAddAll, bind, Except.bind]
    cases PyVal.mul (.int k) order with
    | error e => rfl
    | ok p =>
      dsimp only
      rw [show (b.rename φ).ref = φ b.ref from rfl, dims_power_rename h]
      cases PyVal.add (.int (Dims.power b.ref d)) p with
      | error e => rfl
      | ok v =>
        cases v with
        | str s => rfl
        | int i => dsimp only; rw [dims_set_rename h]; exact ih _

/-- what a renamed mapping answers -/
def renamedLook (φ : Str → Str) (x : Option (Py (Option Dims))) : Option (Py (Option Dims)) :=
  x.map fun p => p.map fun o => o.map (Dims.rename φ)

theorem dimsLoop_rename (h : KeepsApart φ) {look look' : Str → Option (Py (Option Dims))}
    (hl : ∀ n, look' (φ n) = renamedLook φ (look n)) : ∀ (items : List (Str × PyVal)) (d : Dims),
    dimsLoop look' (mapKeys φ items) (d.rename φ) = (dimsLoop look items d).map (Dims.rename φ)
  | [], _ => rfl
  | (n, order) :: items, d => by
    have ih := fun d => dimsLoop_rename h hl items d
    rw [show mapKeys φ ((n, order) :: items) = (φ n, order) :: mapKeys φ items from rfl]
    simp only [dimsLoop, hl]
    rcases look n with _ | p
    · rfl
    · rcases p with e | o
      · rfl
      · rcases o with _ | ud
        · exact ih d
        · simp only [renamedLook, Option.map_some, Except.map, bind, Except.bind]
          have := dimsAddAll_rename h order ud d
          rw [this]
          cases dimsAddAll order ud d with
          | error e => rfl
          | ok r => exact ih r

theorem unitDims_rename (h : KeepsApart φ) {look look' : Str → Option (Py (Option Dims))}
    (hl : ∀ n, look' (φ n) = renamedLook φ (look n)) (defn : Node) :
    unitDims look' (defn.rename φ) = (unitDims look defn).map (Dims.rename φ) := by
  simp only [unitDims, bind, Except.bind, split_rename]
  rcases defn.split true with e | ⟨t, d⟩
  · rfl
  · simp only [Except.map, renameSplit, dimCount_rename h]
    cases d.dimCount with
    | error e => rfl
    | ok r =>
      simp only []
      have := dimsLoop_rename h hl r []
      rw [show Dims.rename φ [] = [] from rfl] at this
      rw [this]
      cases dimsLoop look r [] with
      | error e => rfl
      | ok d => exact congrArg Except.ok (dims_dropZero_rename d)

theorem dimsList_get {n : Str} {l : List (Str × Ref)} : Dict.get n (Ref.dimsList l) = (Dict.get n l).map Ref.dims? := by
  induction l with
  | nil => rfl
  | cons q l ih =>
    obtain ⟨k, r⟩ := q
    simp only [Ref.dimsList, Dict.get]
    by_cases hk : k = n
    · simp [hk]
    · simp [hk, ih]

mutual
theorem dims?_rename (h : KeepsApart φ) : ∀ r : Ref, (r.rename φ).dims? = r.dims?.map (fun o => o.map (Dims.rename φ))
  | .basis b => by
    obtain ⟨r, d, t, n⟩ := b
    cases d <;> rfl
  | .pre _ => rfl
  | .unit n defn refs => by
    simp only [Ref.rename, Ref.dims?, bind, Except.bind]
    rw [unitDims_rename (look := fun n => Dict.get n (Ref.dimsList refs)) h (fun n => dimsList_rename h refs n) defn]
    cases unitDims (fun n => Dict.get n (Ref.dimsList refs)) defn <;> rfl
theorem dimsList_rename (h : KeepsApart φ) : ∀ (l : List (Str × Ref)) (n : Str),
    Dict.get (φ n) (Ref.dimsList (Ref.renameAll φ l)) = renamedLook φ (Dict.get n (Ref.dimsList l))
  | [], _ => rfl
  | (k, r) :: l, n => by
    simp only [Ref.renameAll, Ref.dimsList, Dict.get]
    by_cases hk : k = n
    · subst hk
      rw [if_pos rfl, if_pos rfl, dims?_rename h r]; rfl
    · rw [if_neg hk, if_neg (fun e => hk (h _ _ e))]
      exact dimsList_rename h l n
end

theorem dims_rename (h : KeepsApart φ) (r : Ref) : (r.rename φ).dims = r.dims.map (Dims.rename φ) := by
  simp only [Ref.dims, bind, Except.bind, dims?_rename h]
  rcases r.dims? with e | o
  · rfl
  · cases o <;> rfl

/-- dimensionality objects -/
def DimObj.rename (φ : Str → Str) : DimObj → DimObj
  | .dimensionality d => .dimensionality (d.rename φ)
  | .dict d => .dict (d.rename φ)

theorem dimObj_rename (h : KeepsApart φ) (r : Ref) : (r.rename φ).dimObj = r.dimObj.map (DimObj.rename φ) := by
  cases r with
  | basis b =>
    obtain ⟨r, d, t, n⟩ := b
    cases d <;> rfl
  | pre _ => rfl
  | unit n d refs =>
    have := dims_rename h (.unit n d refs)
    simp only [Ref.rename] at this
    simp only [Ref.rename, Ref.dimObj, bind, Except.bind, this]
    cases (Ref.unit n d refs).dims <;> rfl

theorem uDimObj_rename (h : KeepsApart φ) (u : UObj) : (u.rename φ).dimObj = u.dimObj.map (DimObj.rename φ) := by
  cases u <;> exact dimObj_rename h _

theorem dimObj_eq_rename (h : KeepsApart φ) (a b : DimObj) : (a.rename φ).eq (b.rename φ) = a.eq b := by
  cases a <;> cases b <;> simp only [DimObj.rename, DimObj.eq, dims_eq_rename h]
  all_goals simp only [Dims.rename, List.isEmpty_map]

theorem dimObj_inverted_rename (a : DimObj) : (a.rename φ).inverted = a.inverted.map (DimObj.rename φ) := by
  cases a with
  | dict d => rfl
  | dimensionality d => exact congrArg (fun d => Except.ok (DimObj.dimensionality d)) (dims_inverted_rename d)

theorem isConvertibleTo_rename (h : KeepsApart φ) (a b : UObj) :
    (a.rename φ).isConvertibleTo (b.rename φ) = a.isConvertibleTo b := by
  cases a with
  | date => rfl
  | unit a =>
    cases b with
    | date => rfl
    | unit b =>
      simp only [UObj.rename, UObj.isConvertibleTo, bind, Except.bind, dimObj_rename h]
      cases a.dimObj with
      | error e => rfl
      | ok sd =>
        cases b.dimObj with
        | error e => rfl
        | ok od =>
          simp only [Except.map, dimObj_eq_rename h, dimObj_inverted_rename]
          cases sd.eq od
          · cases sd.inverted with
            | error e => rfl
            | ok i => simp only [Except.map, dimObj_eq_rename h]
          · rfl

theorem isDimensionless_rename (h : KeepsApart φ) (u : UObj) : (u.rename φ).isDimensionless = u.isDimensionless := by
  cases u with
  | date => rfl
  | unit r =>
    simp only [UObj.rename, UObj.isDimensionless, bind, Except.bind, dims_rename h]
    cases r.dims with
    | error e => rfl
    | ok d => simp only [Except.map, Dims.rename, List.isEmpty_map]

theorem isTimeUnit_rename (h : KeepsApart φ) (r : Ref) : (r.rename φ).isTimeUnit = r.isTimeUnit := by
  cases r with
  | basis b => rfl
  | pre p => rfl
  | unit n d refs =>
    have := dims_rename h (.unit n d refs)
    simp only [Ref.rename] at this
    simp only [Ref.rename, Ref.isTimeUnit, bind, Except.bind, this]
    cases (Ref.unit n d refs).dims with
    | error e => rfl
    | ok d => simp only [Except.map, dims_isTime_rename]

/-! ## expansion -/

mutual
theorem expand_rename (h : KeepsApart φ) : ∀ r : Ref, (r.rename φ).expand = r.expand.map (Node.rename φ)
  | .basis b => rfl
  | .pre p => by
    simp only [Ref.rename, Ref.expand, Prefix.expand, bind, Except.bind]
    cases Dec.parse p.value <;> rfl
  | .unit n defn refs => by
    simp only [Ref.rename, Ref.expand, bind, Except.bind, expandList_rename h refs]
    cases Ref.expandList refs with
    | error e => rfl
    | ok subs => exact congrArg Except.ok (substitute_rename h defn)
theorem expandList_rename (h : KeepsApart φ) : ∀ l : List (Str × Ref),
    Ref.expandList (Ref.renameAll φ l) = (Ref.expandList l).map (fun s => mapKeys φ (s.map fun q => (q.1, q.2.rename φ)))
  | [] => rfl
  | (k, r) :: l => by
    simp only [Ref.renameAll, Ref.expandList, bind, Except.bind, expand_rename h r, expandList_rename h l]
    cases r.expand with
    | error e => rfl
    | ok e =>
      cases Ref.expandList l <;> rfl
end

/-! ## symbolic definitions -/

/-- symbols renamed -/
def Mono.rename (φ : Str → Str) (m : Mono) : Mono := ⟨m.coef, mapKeys φ m.exps⟩

theorem mergeExps_rename (h : KeepsApart φ) : ∀ (a b : Dict Str Int),
    Mono.mergeExps (mapKeys φ a) (mapKeys φ b) = mapKeys φ (Mono.mergeExps a b)
  | [], _ => rfl
  | (s, e) :: a, b => by
    rw [show mapKeys φ ((s, e) :: a) = (φ s, e) :: mapKeys φ a from rfl]
    simp only [Mono.mergeExps, get_mapKeys h, set_mapKeys h]
    exact mergeExps_rename h a _

theorem norm_rename (m : Mono) : (m.rename φ).norm = m.norm.rename φ := by
  obtain ⟨c, e⟩ := m
  by_cases h : c = 0
  · simp only [Mono.norm, Mono.rename, h, if_true]; rfl
  · simp only [Mono.norm, Mono.rename, h, if_false]; simp only [mapKeys, List.filter_map]; rfl

theorem mul_rename (h : KeepsApart φ) (a b : Mono) : (a.rename φ).mul (b.rename φ) = (a.mul b).rename φ := by
  simp only [Mono.mul, ← norm_rename]
  congr 1
  simp only [Mono.rename, mergeExps_rename h]

theorem inv_rename (a : Mono) : (a.rename φ).inv = a.inv.map (Mono.rename φ) := by
  obtain ⟨c, e⟩ := a
  by_cases h : c = 0
  · simp only [Mono.inv, Mono.rename, h, if_true]; rfl
  · simp only [Mono.inv, Mono.rename, h, if_false]; simp only [Except.map, Mono.rename, mapKeys, List.map_map]; rfl

theorem div_rename (h : KeepsApart φ) (a b : Mono) : (a.rename φ).div (b.rename φ) = (a.div b).map (Mono.rename φ) := by
  simp only [Mono.div, bind, Except.bind, inv_rename]
  cases b.inv with
  | error e => rfl
  | ok c => exact congrArg Except.ok (mul_rename h _ _)

theorem pow_rename (a : Mono) (n : Int) : (a.rename φ).pow n = (a.pow n).map (Mono.rename φ) := by
  cases n with
  | ofNat k =>
    simp only [Mono.pow, Except.map, ← norm_rename]
    simp only [Mono.rename, mapKeys, List.map_map]; rfl
  | negSucc k =>
    simp only [Mono.pow, bind, Except.bind, inv_rename]
    cases a.inv with
    | error e => rfl
    | ok b =>
      simp only [Except.map, ← norm_rename]
      simp only [Mono.rename, mapKeys, List.map_map]; rfl

theorem asExponent_rename (n : Node) : (n.rename φ).asExponent = n.asExponent := by
  cases n with
  | number v raw => cases v <;> rfl
  | _ => rfl

theorem toMono_rename (h : KeepsApart φ) : ∀ n : Node, (n.rename φ).toMono = n.toMono.map (Mono.rename φ)
  | .number v _ => by
    simp only [Node.rename, Node.toMono, bind, Except.bind]
    cases v.toRat <;> rfl
  | .ident _ => rfl
  | .unhandled _ => rfl
  | .mul l r => by
    simp only [Node.rename, Node.toMono, bind, Except.bind, toMono_rename h l, toMono_rename h r]
    cases l.toMono with
    | error e => rfl
    | ok a =>
      cases r.toMono with
      | error e => rfl
      | ok b => exact congrArg Except.ok (mul_rename h _ _)
  | .div l r => by
    simp only [Node.rename, Node.toMono, bind, Except.bind, toMono_rename h l, toMono_rename h r]
    cases l.toMono with
    | error e => rfl
    | ok a =>
      cases r.toMono with
      | error e => rfl
      | ok b => exact div_rename h _ _
  | .raise l r => by
    simp only [Node.rename, Node.toMono, bind, Except.bind, toMono_rename h l, asExponent_rename]
    cases l.toMono with
    | error e => rfl
    | ok a =>
      cases r.asExponent with
      | error e => rfl
      | ok b => exact pow_rename _ _
  | .shift _ _ => rfl
  | .log _ _ => rfl

/-- one step of a value transformation -/
def TOp.rename (φ : Str → Str) : TOp → TOp
  | .scale m => .scale (m.rename φ)
  | .sub q => .sub q
  | .log b => .log b

theorem mkScale_rename (m : Mono) : TOp.mkScale (m.rename φ) = (TOp.mkScale m).map (TOp.rename φ) := by
  obtain ⟨c, e⟩ := m
  by_cases h : c = 0
  · simp only [TOp.mkScale, Mono.rename, h, if_true]; rfl
  · simp only [TOp.mkScale, Mono.rename, h, if_false]; rfl

theorem ops_rename (h : KeepsApart φ) : ∀ t : Trans, (t.rename φ).ops = t.ops.map (List.map (TOp.rename φ))
  | .value => rfl
  | .shift t f => by
    simp only [Trans.rename, Trans.ops, bind, Except.bind, ops_rename h t]
    cases t.ops with
    | error e => rfl
    | ok o =>
      cases f with
      | number v raw =>
        simp only [Except.map, Node.rename]
        cases v.toRat with
        | error e => rfl
        | ok q => simp only [List.map_append]; rfl
      | _ => rfl
  | .mulR t d => by
    simp only [Trans.rename, Trans.ops, bind, Except.bind, ops_rename h t, toMono_rename h d]
    cases t.ops with
    | error e => rfl
    | ok o =>
      cases d.toMono with
      | error e => rfl
      | ok m =>
        simp only [Except.map, mkScale_rename]
        cases TOp.mkScale m with
        | error e => rfl
        | ok s => simp only [Except.map, List.map_append]; rfl
  | .mulL d t => by
    simp only [Trans.rename, Trans.ops, bind, Except.bind, ops_rename h t, toMono_rename h d]
    cases d.toMono with
    | error e => rfl
    | ok m =>
      cases t.ops with
      | error e => rfl
      | ok o =>
        simp only [Except.map, mkScale_rename]
        cases TOp.mkScale m with
        | error e => rfl
        | ok s => simp only [Except.map, List.map_append]; rfl
  | .log fn t => by
    simp only [Trans.rename, Trans.ops, bind, Except.bind, ops_rename h t]
    cases logBase fn with
    | error e => rfl
    | ok b =>
      cases t.ops with
      | error e => rfl
      | ok o => simp only [Except.map, List.map_append]; rfl

/-- a symbolic definition -/
def renameSym (φ : Str → Str) (p : List TOp × Mono) : List TOp × Mono := (p.1.map (TOp.rename φ), p.2.rename φ)

theorem nodeSymDef_rename (h : KeepsApart φ) (n : Node) : (n.rename φ).symDef = n.symDef.map (renameSym φ) := by
  simp only [Node.symDef, bind, Except.bind, split_rename]
  rcases n.split true with e | ⟨t, d⟩
  · rfl
  · simp only [Except.map, renameSplit]
    cases t with
    | none =>
      simp only [Option.map_none, toMono_rename h]
      cases d.toMono <;> rfl
    | some t =>
      simp only [Option.map_some, ops_rename h, toMono_rename h]
      cases t.ops with
      | error e => rfl
      | ok o => cases d.toMono <;> rfl

theorem symDef_rename (h : KeepsApart φ) (r : Ref) : (r.rename φ).symDef = r.symDef.map (renameSym φ) := by
  simp only [Ref.symDef, bind, Except.bind, expand_rename h]
  cases r.expand with
  | error e => rfl
  | ok n => exact nodeSymDef_rename h n

theorem uSymDef_rename (h : KeepsApart φ) (u : UObj) : (u.rename φ).symDef = u.symDef.map (renameSym φ) := by
  cases u <;> exact symDef_rename h _

/-! ## converters -/

/-- one step of a conversion -/
def COp.rename (φ : Str → Str) : COp → COp
  | .scale m => .scale (m.rename φ)
  | .add q => .add q
  | .log b => .log b
  | .exp b => .exp b
  | .recip => .recip

theorem invertAll_rename : ∀ t : List TOp, invertAll (t.map (TOp.rename φ)) = (invertAll t).map (List.map (COp.rename φ))
  | [] => rfl
  | op :: t => by
    simp only [List.map_cons, invertAll, bind, Except.bind, invertAll_rename t]
    cases invertAll t with
    | error e => rfl
    | ok r =>
      cases op with
      | scale m =>
        simp only [Except.map, TOp.rename, TOp.invert, bind, Except.bind, inv_rename]
        cases m.inv with
        | error e => rfl
        | ok i => simp only [Except.map, List.map_append]; rfl
      | sub q => simp only [Except.map, TOp.rename, TOp.invert, List.map_append]; rfl
      | log b => simp only [Except.map, TOp.rename, TOp.invert, List.map_append]; rfl

theorem forward_rename (t : List TOp) : (t.map (TOp.rename φ)).map TOp.forward = (t.map TOp.forward).map (COp.rename φ) := by
  simp only [List.map_map]
  apply List.map_congr_left
  intro op _
  cases op <;> rfl

theorem build_rename (h : KeepsApart φ) (a b : UObj) :
    Converter.build (a.rename φ) (b.rename φ) = (Converter.build a b).map (List.map (COp.rename φ)) := by
  simp only [Converter.build, bind, Except.bind, uDimObj_rename h, uSymDef_rename h]
  cases a.dimObj with
  | error e => rfl
  | ok fd =>
    cases b.dimObj with
    | error e => rfl
    | ok td =>
      simp only [Except.map, dimObj_inverted_rename]
      cases fd.inverted with
      | error e => rfl
      | ok inv =>
        simp only [Except.map, dimObj_eq_rename h]
        cases hd : fd.eq td <;> cases hi : inv.eq td
        · rfl
        all_goals
          simp only [Bool.or_true, Bool.or_false, Bool.not_true, Bool.false_eq_true, if_false, if_true]
          cases a.symDef with
          | error e => rfl
          | ok p =>
            cases b.symDef with
            | error e => rfl
            | ok q =>
              simp only [renameSym, invertAll_rename]
              cases invertAll p.1 with
              | error e => rfl
              | ok t1 =>
                simp only [Except.map, div_rename h, mul_rename h, inv_rename]
                first
                  | (cases p.2.div q.2 with
                     | error e => rfl
                     | ok l => simp only [Except.map, List.map_append, forward_rename]; rfl)
                  | (cases (p.2.mul q.2).inv with
                     | error e => rfl
                     | ok l => simp only [Except.map, List.map_append, forward_rename]; rfl)

theorem simplifyOps_rename (h : KeepsApart φ) : ∀ (ops : List COp) (p : Mono),
    simplifyOps (p.rename φ) (ops.map (COp.rename φ)) = (simplifyOps p ops).map (List.map (COp.rename φ))
  | [], _ => rfl
  | op :: ops, p => by
    cases op with
    | scale m =>
      simp only [List.map_cons, COp.rename, simplifyOps, mul_rename h]
      exact simplifyOps_rename h ops _
    | recip =>
      simp only [List.map_cons, COp.rename, simplifyOps, bind, Except.bind, inv_rename]
      cases p.inv with
      | error e => rfl
      | ok i =>
        simp only [Except.map, simplifyOps_rename h ops]
        cases simplifyOps i ops <;> rfl
    | add q =>
      have := simplifyOps_rename h ops ⟨1, []⟩
      rw [show (⟨1, []⟩ : Mono).rename φ = ⟨1, []⟩ from rfl] at this
      simp only [List.map_cons, COp.rename, simplifyOps, bind, Except.bind, this]
      cases simplifyOps ⟨1, []⟩ ops <;> rfl
    | log q =>
      have := simplifyOps_rename h ops ⟨1, []⟩
      rw [show (⟨1, []⟩ : Mono).rename φ = ⟨1, []⟩ from rfl] at this
      simp only [List.map_cons, COp.rename, simplifyOps, bind, Except.bind, this]
      cases simplifyOps ⟨1, []⟩ ops <;> rfl
    | exp q =>
      have := simplifyOps_rename h ops ⟨1, []⟩
      rw [show (⟨1, []⟩ : Mono).rename φ = ⟨1, []⟩ from rfl] at this
      simp only [List.map_cons, COp.rename, simplifyOps, bind, Except.bind, this]
      cases simplifyOps ⟨1, []⟩ ops <;> rfl

theorem hasSymbol_rename (op : COp) : (op.rename φ).hasSymbol = op.hasSymbol := by
  cases op with
  | scale m => simp only [COp.rename, COp.hasSymbol, Mono.rename, mapKeys, List.isEmpty_map]
  | _ => rfl

theorem run_rename (op : COp) (x : ℝ) : (op.rename φ).run x = op.run x := by
  cases op with
  | scale m => simp only [COp.rename, COp.run, Mono.rename, mapKeys, List.map_eq_nil_iff]
  | _ => rfl

theorem runOps_rename : ∀ (ops : List COp) (x : ℝ), runOps (ops.map (COp.rename φ)) x = runOps ops x
  | [], _ => rfl
  | op :: ops, x => by
    simp only [List.map_cons, runOps, run_rename, bind, Except.bind]
    cases op.run x with
    | error e => rfl
    | ok y => exact runOps_rename ops y

theorem convertOps_rename (h : KeepsApart φ) (ops : List COp) (x : ℝ) :
    Converter.convert (ops.map (COp.rename φ)) x = Converter.convert ops x := by
  have := simplifyOps_rename h ops ⟨1, []⟩
  rw [show (⟨1, []⟩ : Mono).rename φ = ⟨1, []⟩ from rfl] at this
  simp only [Converter.convert, bind, Except.bind, this]
  cases simplifyOps ⟨1, []⟩ ops with
  | error e => rfl
  | ok o => simp only [Except.map, List.any_map, runOps_rename]; congr 2; congr 1; funext op; exact hasSymbol_rename op

theorem convert_rename (h : KeepsApart φ) (a b : UObj) (x : ℝ) : convert (a.rename φ) (b.rename φ) x = convert a b x := by
  simp only [convert, bind, Except.bind, build_rename h]
  cases Converter.build a b with
  | error e => rfl
  | ok ops => exact convertOps_rename h ops x

end Verif

import Verif.Lemmas.Fast
import Verif.Lemmas.Strict
import Verif.Spec.Resolve
/-! Kernel-friendly checks of the local conditions of C48 for a concrete document. -/
namespace Verif
open Spec

/-- all claimed spellings with their units, in order of precedence -/
def claimsOf (keys : UnitReference → List Str) (we : List (UnitReference × Entry)) : List (Str × Entry) :=
  we.flatMap fun x => (keys x.1).map fun k => (k, x.2)

theorem mem_claimsOf {keys : UnitReference → List Str} {we : List (UnitReference × Entry)} {k : Str} {e : Entry} :
    (k, e) ∈ claimsOf keys we ↔ ∃ r, (r, e) ∈ we ∧ k ∈ keys r := by
  unfold claimsOf
  simp only [List.mem_flatMap, List.mem_map]
  constructor
  · rintro ⟨⟨r, e'⟩, h1, k', h2, h3⟩; cases h3; exact ⟨r, h1, h2⟩
  · rintro ⟨r, h1, h2⟩; exact ⟨(r, e), h1, k, h2, rfl⟩

theorem get_claimsOf {claims : UnitReference → Str → Prop} {keys : UnitReference → List Str}
    (hk : ∀ r k, k ∈ keys r ↔ claims r k) {we : List (UnitReference × Entry)} {d : Dict Str Entry}
    (h : TableIs claims we d) (k : Str) : Dict.get k (claimsOf keys we) = Dict.get k d := by
  cases hg : Dict.get k (claimsOf keys we) with
  | some e =>
    obtain ⟨r, h1, h2⟩ := mem_claimsOf.1 (Dict.get_mem hg)
    exact ((h k e).2 ⟨r, h1, (hk _ _).1 h2⟩).symm
  | none =>
    cases hd : Dict.get k d with
    | none => rfl
    | some e =>
      obtain ⟨r, h1, h2⟩ := (h k e).1 hd
      have hm := mem_claimsOf.2 ⟨r, h1, (hk _ _).2 h2⟩
      rw [Dict.get_eq_none_iff] at hg
      exact absurd (List.mem_map.2 ⟨_, hm, rfl⟩) hg

theorem get_append {α} (k : Str) : ∀ (a b : List (Str × α)), Dict.get k (a ++ b) = (Dict.get k a).or (Dict.get k b)
  | [], _ => by simp [Dict.get]
  | (k', v) :: a, b => by
    rw [List.cons_append, Dict.get_cons, Dict.get_cons, get_append k a b]
    split <;> simp

/-- everything claimed, names first -/
def allClaims (we : List (UnitReference × Entry)) : List (Str × Entry) :=
  claimsOf (fun r => nameKeys r.name) we ++ (claimsOf (fun r => aliasKeys r.aliasNames) we ++
    (claimsOf (fun r => r.symbols) we ++ claimsOf (fun r => r.aliasSymbols) we))

theorem direct_claims {we : List (UnitReference × Entry)} {s : System} (h : Tables we s) (n : Str) :
    direct s n = Dict.get n (allClaims we) := by
  unfold allClaims
  rw [get_append, get_append, get_append, get_claimsOf (fun _ _ => mem_nameKeys_iff) h.1,
    get_claimsOf (fun _ _ => mem_aliasKeys_iff) h.2.2.1, get_claimsOf (fun _ _ => Iff.rfl) h.2.1,
    get_claimsOf (fun _ _ => Iff.rfl) h.2.2.2]
  unfold Spec.direct
  cases Dict.get n s.names <;> cases Dict.get n s.aliasNames <;> cases Dict.get n s.symbols <;>
    cases Dict.get n s.aliasSymbols <;> rfl

/-- first prefix that leaves a spelling of the tree -/
def splitB (t : Tree Entry) (n : Str) : List (Str × Prefix) → Option Entry
  | [] => none
  | (p, _) :: l =>
    match dropPrefix p n with
    | none => splitB t n l
    | some rest =>
      match t.find (enc rest) with
      | none => splitB t n l
      | some e => some e

/-- how a spelling is read -/
def readsB (t : Tree Entry) (pres : List (Str × Prefix)) (n : Str) : Option Entry :=
  match t.find (enc n) with
  | some e => some e
  | none => splitB t n pres

theorem splitB_eq {s : System} {t : Tree Entry} (h : ∀ n, t.find (enc n) = direct s n) (n : Str) :
    ∀ l, splitB t n l = (firstSplit s n l).map fun x => x.2.2.2
  | [] => rfl
  | (p, pre) :: l => by
    unfold splitB firstSplit
    cases dropPrefix p n with
    | none => exact splitB_eq h n l
    | some rest =>
      simp only [h]
      cases direct s rest with
      | none => exact splitB_eq h n l
      | some e => rfl

theorem readsB_some {s : System} {t : Tree Entry} (h : ∀ n, t.find (enc n) = direct s n) {n : Str} {e : Entry}
    (hr : readsB t (s.prefixNames ++ s.prefixSymbols) n = some e) : Reads s n e := by
  unfold readsB at hr
  rw [h] at hr
  cases hd : direct s n with
  | some e' => rw [hd] at hr; cases hr; exact .inl hd
  | none =>
    rw [hd] at hr
    simp only at hr
    rw [splitB_eq h] at hr
    cases hf : firstSplit s n (s.prefixNames ++ s.prefixSymbols) with
    | none => rw [hf] at hr; cases hr
    | some q =>
      obtain ⟨p, pre, rest, e'⟩ := q
      rw [hf] at hr; cases hr
      exact .inr ⟨hd, p, pre, rest, firstSplit_some hf⟩

theorem readsB_none {s : System} {t : Tree Entry} (h : ∀ n, t.find (enc n) = direct s n) {n : Str}
    (hr : readsB t (s.prefixNames ++ s.prefixSymbols) n = none) (e : Entry) : ¬ Reads s n e := by
  unfold readsB at hr
  rw [h] at hr
  rintro (hd | ⟨hd, p, pre, rest, hf⟩)
  · rw [hd] at hr; cases hr
  · rw [hd] at hr
    simp only at hr
    rw [splitB_eq h, FirstSplit_unique hf] at hr
    cases hr

/-- decidable `ShiftFree` -/
def shiftFreeB : Node → Bool
  | .number _ _ | .ident _ => true
  | .unhandled _ | .shift _ _ => false
  | .mul l r | .div l r | .raise l r => shiftFreeB l && shiftFreeB r
  | .log _ t => shiftFreeB t

theorem shiftFreeB_sound : ∀ n, shiftFreeB n = true → ShiftFree n
  | .number _ _, _ => trivial
  | .ident _, _ => trivial
  | .mul l r, h => by
    simp only [shiftFreeB, Bool.and_eq_true] at h; exact ⟨shiftFreeB_sound l h.1, shiftFreeB_sound r h.2⟩
  | .div l r, h => by
    simp only [shiftFreeB, Bool.and_eq_true] at h; exact ⟨shiftFreeB_sound l h.1, shiftFreeB_sound r h.2⟩
  | .raise l r, h => by
    simp only [shiftFreeB, Bool.and_eq_true] at h; exact ⟨shiftFreeB_sound l h.1, shiftFreeB_sound r h.2⟩
  | .log _ t, h => shiftFreeB_sound t h

/-- an identifier is read as something finished or of smaller (non-zero) rank -/
def identOk (t : Tree Entry) (pres : List (Str × Prefix)) (ranks : List Nat) (r : Nat) (n : Str) : Bool :=
  match readsB t pres n with
  | some (.unit _) => true
  | some (.lazy b) => (ranks[b]?).any fun rb => decide (0 < rb) && decide (rb < r)
  | none => false

/-- the conditions on one definition; rank 0 means broken -/
def defOk (pf : Str → Py Node) (t : Tree Entry) (pres : List (Str × Prefix)) (ranks shifts : List Nat) (id : Nat) (defn : Str) : Bool :=
  match ranks[id]? with
  | none => false
  | some 0 =>
    (match pf defn with
      | .error _ => true
      | .ok expr => expr.identifiers.any fun n => (readsB t pres n).isNone)
  | some (r + 1) =>
    (match pf defn with
      | .error _ => false
      | .ok expr => (shiftFreeB expr || decide (id ∈ shifts)) && expr.identifiers.all (identOk t pres ranks (r + 1)))

/-- all definitions -/
def defsOk (pf : Str → Py Node) (t : Tree Entry) (pres : List (Str × Prefix)) (ranks shifts : List Nat) : Nat → List LazyObj → Bool
  | _, [] => true
  | id, o :: l => defOk pf t pres ranks shifts id o.defn && defsOk pf t pres ranks shifts (id + 1) l

theorem defsOk_get {pf : Str → Py Node} {t : Tree Entry} {pres : List (Str × Prefix)} {ranks shifts : List Nat} : ∀ (l : List LazyObj) (k : Nat),
    defsOk pf t pres ranks shifts k l = true → ∀ (i : Nat) (o : LazyObj), l[i]? = some o →
    defOk pf t pres ranks shifts (k + i) o.defn = true
  | [], _, _, i, o, h => by simp at h
  | o' :: l, k, h, i, o, ho => by
    rw [defsOk, Bool.and_eq_true] at h
    cases i with
    | zero => simp at ho; subst ho; exact h.1
    | succ i =>
      have := defsOk_get l (k + 1) h.2 i o (by simpa using ho)
      rw [show k + (i + 1) = k + 1 + i by omega]; exact this

/-- the rank of a definition -/
def rankOf (ranks : List Nat) (id : Nat) : Nat := (ranks[id]?).getD 0

theorem wellFounded_of_check {pf : Str → Py Node} {s : System} {t : Tree Entry} (ht : ∀ n, t.find (enc n) = direct s n)
    {ranks shifts : List Nat} (hc : defsOk pf t (s.prefixNames ++ s.prefixSymbols) ranks shifts 0 s.heap = true)
    (order : List Str → List Str)
    (hsh : ∀ id ∈ shifts, ∀ o expr, s.heap[id]? = some o → pf o.defn = .ok expr →
      Builds ⟨pf, order⟩ s o.names expr) (hlen : ranks.length = s.heap.length) :
    WellFounded ⟨pf, order⟩ s (fun id => rankOf ranks id ≠ 0) (rankOf ranks) ∧
    ∀ id, id < s.heap.length → rankOf ranks id = 0 → Broken ⟨pf, order⟩ s id := by
  constructor
  · intro id hid
    have hlt : id < ranks.length := by
      by_cases hlt : id < ranks.length
      · exact hlt
      · unfold rankOf at hid; rw [List.getElem?_eq_none (by omega)] at hid; exact absurd rfl hid
    obtain ⟨o, ho⟩ : ∃ o, s.heap[id]? = some o := ⟨_, List.getElem?_eq_getElem (by omega)⟩
    have hd := defsOk_get _ 0 hc id o ho
    rw [Nat.zero_add] at hd
    obtain ⟨r, hr⟩ : ∃ r, ranks[id]? = some r := ⟨_, List.getElem?_eq_getElem hlt⟩
    unfold rankOf at hid
    rw [hr] at hid
    obtain ⟨r', rfl⟩ : ∃ r', r = r' + 1 := ⟨r - 1, by simp at hid; omega⟩
    unfold defOk at hd
    rw [hr] at hd
    simp only at hd
    cases hp : pf o.defn with
    | error e => rw [hp] at hd; cases hd
    | ok expr =>
      rw [hp] at hd
      simp only [Bool.and_eq_true, Bool.or_eq_true, decide_eq_true_eq, List.all_eq_true] at hd
      refine ⟨o, expr, ho, hp, ?_, ?_⟩
      · rcases hd.1 with h | h
        · exact .inl (shiftFreeB_sound _ h)
        · exact .inr (hsh id h o expr ho hp)
      · intro n hn
        have := hd.2 n hn
        unfold identOk at this
        cases hrd : readsB t (s.prefixNames ++ s.prefixSymbols) n with
        | none => rw [hrd] at this; cases this
        | some e =>
          refine ⟨e, readsB_some ht hrd, ?_⟩
          rintro b rfl
          rw [hrd] at this
          simp only at this
          cases hb : ranks[b]? with
          | none => rw [hb] at this; cases this
          | some rb =>
            rw [hb] at this
            simp only [Option.any_some, Bool.and_eq_true, decide_eq_true_eq] at this
            have e1 : rankOf ranks b = rb := by unfold rankOf; rw [hb]; rfl
            have e2 : rankOf ranks id = r' + 1 := by unfold rankOf; rw [hr]; rfl
            rw [e1, e2]
            exact ⟨by omega, this.2⟩
  · intro id hid h0
    obtain ⟨o, ho⟩ : ∃ o, s.heap[id]? = some o := ⟨_, List.getElem?_eq_getElem hid⟩
    have hd := defsOk_get _ 0 hc id o ho
    rw [Nat.zero_add] at hd
    unfold rankOf at h0
    rw [List.getElem?_eq_getElem (by omega : id < ranks.length)] at h0
    simp only [Option.getD_some] at h0
    unfold defOk at hd
    rw [List.getElem?_eq_getElem (by omega : id < ranks.length), h0] at hd
    simp only at hd
    cases hp : pf o.defn with
    | error e => exact .badSyntax ho hp
    | ok expr =>
      rw [hp] at hd
      simp only [List.any_eq_true] at hd
      obtain ⟨n, hn, hno⟩ := hd
      have hnone : readsB t (s.prefixNames ++ s.prefixSymbols) n = none := by simpa using hno
      exact .unreadable ho hp hn (readsB_none ht hnone)

end Verif

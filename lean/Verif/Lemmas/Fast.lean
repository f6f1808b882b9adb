import Verif.Lemmas.Load
/-! A kernel-friendly check that strings are distinct: strings are numbered injectively and put into a search tree. -/
namespace Verif

/-- injective numbering of strings -/
def enc : Str → Nat
  | [] => 0
  | c :: s => c.toNat + 1 + 2097152 * enc s

theorem char_lt (c : Char) : c.toNat + 1 < 2097152 := by
  have := c.valid
  have h : c.toNat = c.val.toNat := rfl
  rcases this with h1 | h1
  · have : c.val.toNat < 0xd800 := h1
    omega
  · have : c.val.toNat < 0x110000 := h1.2
    omega

theorem enc_inj : ∀ {a b : Str}, enc a = enc b → a = b
  | [], [], _ => rfl
  | [], c :: s, h => by simp only [enc] at h; omega
  | c :: s, [], h => by simp only [enc] at h; omega
  | c :: s, d :: t, h => by
    simp only [enc] at h
    have hc := char_lt c
    have hd := char_lt d
    have h1 : c.toNat = d.toNat := by omega
    have h2 : enc s = enc t := by omega
    have : c = d := Char.ext (UInt32.toNat_inj.1 h1)
    rw [this, enc_inj h2]

/-- a binary search tree of numbers with values -/
inductive Tree (α : Type) where
  | leaf
  | node (l : Tree α) (k : Nat) (v : α) (r : Tree α)

namespace Tree
variable {α : Type}

/-- search -/
def find (k : Nat) : Tree α → Option α
  | leaf => none
  | node l x v r => bif Nat.blt k x then find k l else bif Nat.blt x k then find k r else some v

/-- insertion (the first value of a key stays) -/
def insert (k : Nat) (v : α) : Tree α → Tree α
  | leaf => node leaf k v leaf
  | node l x w r =>
    bif Nat.blt k x then node (insert k v l) x w r else bif Nat.blt x k then node l x w (insert k v r) else node l x w r

theorem find_insert (k k' : Nat) (v : α) : ∀ t : Tree α,
    find k' (insert k v t) = if k' = k then some ((find k t).getD v) else find k' t
  | leaf => by
    have tt : ∀ {a b : Nat}, a < b → Nat.blt a b = true := fun h => by rw [Nat.blt_eq]; exact h
    have ff : ∀ {a b : Nat}, ¬ a < b → Nat.blt a b = false := fun h => by
      rw [Bool.eq_false_iff]; intro hh; rw [Nat.blt_eq] at hh; exact h hh
    by_cases h : k' = k
    · subst h; simp [insert, find, ff (Nat.lt_irrefl _)]
    · rw [if_neg h]
      rcases Nat.lt_or_gt_of_ne h with h | h
      · simp [insert, tt h, find]
      · simp [insert, ff (Nat.not_lt_of_gt h), tt h, find]
  | node l x w r => by
    have tt : ∀ {a b : Nat}, a < b → Nat.blt a b = true := fun h => by rw [Nat.blt_eq]; exact h
    have ff : ∀ {a b : Nat}, ¬ a < b → Nat.blt a b = false := fun h => by
      rw [Bool.eq_false_iff]; intro hh; rw [Nat.blt_eq] at hh; exact h hh
    rcases Nat.lt_trichotomy k x with hk | hk | hk
    · simp only [insert, tt hk, cond_true]
      rcases Nat.lt_trichotomy k' x with h | h | h
      · simp only [find, tt h, tt hk, cond_true]; exact find_insert k k' v l
      · subst h; have : k' ≠ k := by omega
        simp [find, ff (Nat.lt_irrefl _), this]
      · have : k' ≠ k := by omega
        simp [find, ff (Nat.not_lt_of_gt h), tt h, this]
    · subst hk
      simp only [insert, ff (Nat.lt_irrefl k), cond_false]
      by_cases h : k' = k
      · subst h; simp [find, ff (Nat.lt_irrefl _)]
      · simp [h]
    · simp only [insert, tt hk, ff (Nat.not_lt_of_gt hk), cond_true, cond_false]
      rcases Nat.lt_trichotomy k' x with h | h | h
      · have : k' ≠ k := by omega
        simp [find, tt h, this]
      · subst h; have : k' ≠ k := by omega
        simp [find, ff (Nat.lt_irrefl _), this]
      · simp only [find, ff (Nat.not_lt_of_gt h), tt h, ff (Nat.not_lt_of_gt hk), tt hk, cond_true, cond_false]
        exact find_insert k k' v r

/-- the tree of an association list (the first binding of a key counts, as in a `dict` lookup) -/
def ofList : List (Str × α) → Tree α → Tree α
  | [], t => t
  | (k, v) :: l, t => ofList l (insert (enc k) v t)

theorem find_ofList (k : Str) : ∀ (l : List (Str × α)) (t : Tree α),
    find (enc k) (ofList l t) = (find (enc k) t).or (Dict.get k l)
  | [], t => by simp [ofList]
  | (k', v) :: l, t => by
    unfold ofList
    rw [find_ofList k l, find_insert, Dict.get_cons]
    by_cases h : k' = k
    · subst h
      simp only [if_true]
      cases find (enc k') t <;> rfl
    · have : enc k ≠ enc k' := fun e => h (enc_inj e).symm
      rw [if_neg this, if_neg h]

end Tree

/-- all strings of `l` are new with respect to `t`, and distinct -/
def distinctB : List Nat → Tree Unit → Bool
  | [], _ => true
  | k :: l, t => bif (t.find k).isSome then false else distinctB l (t.insert k () )

theorem distinctB_sound : ∀ (l : List Str) (t : Tree Unit), distinctB (l.map enc) t = true →
    l.Nodup ∧ ∀ k ∈ l, t.find (enc k) = none
  | [], _, _ => ⟨List.nodup_nil, by simp⟩
  | k :: l, t, h => by
    rw [List.map_cons, distinctB] at h
    cases hf : t.find (enc k) with
    | some u => rw [hf] at h; cases h
    | none =>
      rw [hf] at h
      obtain ⟨h1, h2⟩ := distinctB_sound l _ h
      refine ⟨List.nodup_cons.2 ⟨?_, h1⟩, ?_⟩
      · intro hk
        have := h2 k hk
        rw [Tree.find_insert, if_pos rfl] at this
        cases this
      · intro x hx
        rcases List.mem_cons.1 hx with rfl | hx
        · exact hf
        · have := h2 x hx
          rw [Tree.find_insert] at this
          split at this
          · cases this
          · exact this

/-- distinctness of the claims of a list of units from distinctness of all claims together -/
theorem distinct_of_nodup {claims : UnitReference → Str → Prop} {keys : UnitReference → List Str}
    (hk : ∀ r k, claims r k → k ∈ keys r) : ∀ (ds : List UnitDecl), (ds.flatMap fun d => keys (Spec.declRef d)).Nodup →
    Spec.Distinct claims ds
  | [], _ => List.Pairwise.nil
  | d :: ds, h => by
    rw [List.flatMap_cons, List.nodup_append] at h
    refine List.Pairwise.cons ?_ (distinct_of_nodup hk ds h.2.1)
    rintro d' hd' k ⟨h1, h2⟩
    exact h.2.2 k (hk _ _ h1) k (List.mem_flatMap.2 ⟨d', hd', hk _ _ h2⟩) rfl

end Verif

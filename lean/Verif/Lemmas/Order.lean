import Verif.Lemmas.Same
/-!
# Iteration order of identifier sets; definitional dependencies
-/

namespace Verif
open Spec (Same SameObj)

theorem setInsert_nodup {x : Str} {l : List Str} (h : l.Nodup) : (setInsert x l).Nodup := by
  unfold setInsert
  split
  · exact h
  · rename_i hx
    rw [List.nodup_append]
    refine ⟨h, by simp, ?_⟩
    intro a ha b hb
    simp at hb; subst hb
    rintro rfl
    exact hx ha

theorem setUnion_nodup {a : List Str} (b : List Str) (h : a.Nodup) : (setUnion a b).Nodup := by
  unfold setUnion
  induction b generalizing a with
  | nil => exact h
  | cons x b ih => exact ih (setInsert_nodup h)

theorem mem_setInsert {x y : Str} {l : List Str} : y ∈ setInsert x l ↔ y = x ∨ y ∈ l := by
  unfold setInsert
  split
  · rename_i h
    constructor
    · exact Or.inr
    · rintro (rfl | h')
      · exact h
      · exact h'
  · simp [or_comm]

theorem mem_setUnion {y : Str} {a b : List Str} : y ∈ setUnion a b ↔ y ∈ a ∨ y ∈ b := by
  unfold setUnion
  induction b generalizing a with
  | nil => simp
  | cons x b ih =>
    show y ∈ List.foldl _ (setInsert x a) b ↔ _
    rw [ih, mem_setInsert]
    simp only [List.mem_cons]
    constructor
    · rintro ((h | h) | h)
      · exact Or.inr (Or.inl h)
      · exact Or.inl h
      · exact Or.inr (Or.inr h)
    · rintro (h | h | h)
      · exact Or.inl (Or.inr h)
      · exact Or.inl (Or.inl h)
      · exact Or.inr h

/-- `ExtractIdentifiers` returns a set. -/
theorem identifiers_nodup (n : Node) : n.identifiers.Nodup := by
  cases n with
  | ident n => simp [Node.identifiers]
  | number v r => simp [Node.identifiers]
  | unhandled r => simp [Node.identifiers]
  | mul l r => exact setUnion_nodup _ (setUnion_nodup _ List.nodup_nil)
  | div l r => exact setUnion_nodup _ (setUnion_nodup _ List.nodup_nil)
  | raise l r => exact setUnion_nodup _ (setUnion_nodup _ List.nodup_nil)
  | shift l r => exact setUnion_nodup _ (setUnion_nodup _ List.nodup_nil)
  | log fn t => exact setUnion_nodup _ List.nodup_nil

theorem mapM_refs_ok {look : Str → Py Ref} {ids : List Str} {l : List (Str × Ref)}
    (h : ids.mapM (fun n => do .ok (n, ← look n) : Str → Py (Str × Ref)) = .ok l) :
    Dict.keys l = ids ∧ ∀ k ∈ ids, ∃ r, look k = .ok r ∧ Dict.get k l = some r := by
  induction ids generalizing l with
  | nil => cases h; exact ⟨rfl, by simp⟩
  | cons n ids ih =>
    rw [List.mapM_cons] at h
    cases hn : look n with
    | error e => rw [hn] at h; cases h
    | ok r =>
      rw [hn] at h
      cases hl : ids.mapM (fun n => do .ok (n, ← look n) : Str → Py (Str × Ref)) with
      | error e => rw [hl] at h; cases h
      | ok l' =>
        rw [hl] at h
        cases h
        obtain ⟨h1, h2⟩ := ih hl
        refine ⟨by show n :: Dict.keys l' = _; rw [h1], ?_⟩
        intro k hk
        rw [Dict.get_cons]
        by_cases hnk : n = k
        · subst hnk
          exact ⟨r, hn, by simp⟩
        · rcases List.mem_cons.1 hk with rfl | hk
          · exact absurd rfl hnk
          · simpa [hnk] using h2 k hk

theorem mapM_refs_total {look : Str → Py Ref} {ids : List Str}
    (h : ∀ k ∈ ids, ∃ r, look k = .ok r) :
    ∃ l, ids.mapM (fun n => do .ok (n, ← look n) : Str → Py (Str × Ref)) = .ok l := by
  induction ids with
  | nil => exact ⟨[], rfl⟩
  | cons n ids ih =>
    obtain ⟨r, hr⟩ := h n (List.mem_cons_self ..)
    obtain ⟨l, hl⟩ := ih fun k hk => h k (List.mem_cons_of_mem _ hk)
    exact ⟨(n, r) :: l, by rw [List.mapM_cons, hr, hl]; rfl⟩

/-- The dict comprehension over two iteration orders of the same set. -/
theorem mapM_refs_perm {look1 look2 : Str → Py Ref} {ids ids1 ids2 : List Str}
    (hnd : ids.Nodup) (p1 : ids1.Perm ids) (p2 : ids2.Perm ids)
    (hl : ∀ n r1, look1 n = .ok r1 → ∃ r2, look2 n = .ok r2 ∧ Same r1 r2) {l1 : List (Str × Ref)}
    (h : ids1.mapM (fun n => do .ok (n, ← look1 n) : Str → Py (Str × Ref)) = .ok l1) :
    ∃ l2, ids2.mapM (fun n => do .ok (n, ← look2 n) : Str → Py (Str × Ref)) = .ok l2 ∧
      DictRel Same l1 l2 ∧ Dict.Nodup l1 ∧ Dict.Nodup l2 := by
  obtain ⟨k1, g1⟩ := mapM_refs_ok h
  obtain ⟨l2, h2⟩ : ∃ l2, ids2.mapM (fun n => do .ok (n, ← look2 n) : Str → Py (Str × Ref)) = .ok l2 := by
    apply mapM_refs_total
    intro k hk
    obtain ⟨r, hr, _⟩ := g1 k (p1.symm.subset (p2.subset hk))
    obtain ⟨r2, h2, _⟩ := hl k r hr
    exact ⟨r2, h2⟩
  obtain ⟨k2, g2⟩ := mapM_refs_ok h2
  refine ⟨l2, h2, ⟨?_, ?_⟩, ?_, ?_⟩
  · intro k
    rw [Bool.eq_iff_iff, Dict.get_isSome_iff, Dict.get_isSome_iff, k1, k2]
    exact ⟨fun h => p2.symm.subset (p1.subset h), fun h => p1.symm.subset (p2.subset h)⟩
  · intro k a b ha hb
    have hk1 : k ∈ ids1 := by
      rw [← k1, ← Dict.get_isSome_iff, ha]; rfl
    have hk2 : k ∈ ids2 := p2.symm.subset (p1.subset hk1)
    obtain ⟨r, hr, hg⟩ := g1 k hk1
    obtain ⟨r', hr', hg'⟩ := g2 k hk2
    rw [ha] at hg; cases hg
    rw [hb] at hg'; cases hg'
    obtain ⟨r2, h2, hs⟩ := hl k _ hr
    rw [hr'] at h2; cases h2
    exact hs
  · unfold Dict.Nodup; rw [k1]; exact p1.symm.nodup hnd
  · unfold Dict.Nodup; rw [k2]; exact p2.symm.nodup hnd

/-- Two systems that read every spelling alike, up to the order of the symbols of prefixes. -/
structure SysSame (s1 s2 : System) : Prop where
  heap : s1.heap = s2.heap
  direct : ∀ n, Spec.direct s1 n = Spec.direct s2 n
  split : ∀ n,
    (Spec.firstSplit s1 n (s1.prefixNames ++ s1.prefixSymbols) = none ∧
      Spec.firstSplit s2 n (s2.prefixNames ++ s2.prefixSymbols) = none) ∨
    ∃ p pre1 pre2 rest e,
      Spec.firstSplit s1 n (s1.prefixNames ++ s1.prefixSymbols) = some (p, pre1, rest, e) ∧
      Spec.firstSplit s2 n (s2.prefixNames ++ s2.prefixSymbols) = some (p, pre2, rest, e) ∧
      pre1.name = pre2.name ∧ pre1.value = pre2.value ∧ pre1.symbols.Perm pre2.symbols

theorem SysSame.refl (s : System) : SysSame s s := by
  refine ⟨rfl, fun _ => rfl, fun n => ?_⟩
  cases h : Spec.firstSplit s n (s.prefixNames ++ s.prefixSymbols) with
  | none => exact .inl ⟨rfl, rfl⟩
  | some q => obtain ⟨p, pre, rest, e⟩ := q; exact .inr ⟨p, pre, pre, rest, e, rfl, rfl, rfl, rfl, .refl _⟩

section
variable {env1 env2 : Env} {s1 s2 : System} (hsys : SysSame s1 s2)
  (hparse : env1.parse = env2.parse)
  (ho1 : ∀ l, (env1.order l).Perm l) (ho2 : ∀ l, (env2.order l).Perm l)

include hsys hparse ho1 ho2 in
theorem spec_resolve_same {look1 look2 : Str → Py Ref}
    (hl : ∀ n r1, look1 n = .ok r1 → ∃ r2, look2 n = .ok r2 ∧ Same r1 r2) {id : Nat} {r1 : Ref}
    (h : Spec.resolve env1 s1 look1 id = .ok r1) :
    ∃ r2, Spec.resolve env2 s2 look2 id = .ok r2 ∧ Same r1 r2 := by
  unfold Spec.resolve at h ⊢
  rw [hsys.heap] at h
  cases ho : s2.heap[id]? with
  | none => rw [ho] at h; cases h
  | some o =>
    rw [ho] at h
    simp only at h ⊢
    rw [hparse] at h
    cases hp : env2.parse o.defn with
    | error e => rw [hp] at h; cases h
    | ok expr =>
      rw [hp] at h
      change (do
        let refs ← (env1.order expr.identifiers).mapM (fun n => do .ok (n, ← look1 n) : Str → Py (Str × Ref))
        mkUnit (some o.names) expr refs : Py Ref) = .ok r1 at h
      show ∃ r2, (do
        let refs ← (env2.order expr.identifiers).mapM (fun n => do .ok (n, ← look2 n) : Str → Py (Str × Ref))
        mkUnit (some o.names) expr refs : Py Ref) = .ok r2 ∧ Same r1 r2
      cases hm : (env1.order expr.identifiers).mapM (fun n => do .ok (n, ← look1 n) : Str → Py (Str × Ref)) with
      | error e => rw [hm] at h; cases h
      | ok l1 =>
        rw [hm] at h
        obtain ⟨l2, h2, hd, n1, n2⟩ := mapM_refs_perm (identifiers_nodup expr) (ho1 _) (ho2 _) hl hm
        rw [h2]
        change mkUnit _ _ _ = _ at h
        show ∃ r2, mkUnit _ _ _ = _ ∧ _
        rcases mkUnit_congr hd n1 n2 (some o.names) expr with ⟨e, a, b⟩ | ⟨a, b, c⟩
        · rw [a] at h; cases h
        · rw [a] at h; cases h
          exact ⟨_, b, c⟩

theorem prefixed_same {u1 u2 : Ref} (hu : Same u1 u2) {p : Str} {pre1 pre2 : Prefix} {rest : Str} {r1 : Ref}
    (hp : Same (.pre pre1) (.pre pre2))
    (h : prefixed p pre1 rest u1 = .ok r1) : ∃ r2, prefixed p pre2 rest u2 = .ok r2 ∧ Same r1 r2 := by
  have hn : ∀ pre u, Dict.Nodup (Dict.set rest u (Dict.set p (Ref.pre pre) [])) := fun pre u =>
    Dict.nodup_set _ _ (Dict.nodup_set _ _ (by simp [Dict.Nodup, Dict.keys]))
  have hd : DictRel Same (Dict.set rest u1 (Dict.set p (Ref.pre pre1) []))
      (Dict.set rest u2 (Dict.set p (Ref.pre pre2) [])) := by
    constructor
    · intro k
      by_cases hk : k = rest
      · simp [Dict.get_set, hk]
      · by_cases hk' : k = p
        · simp only [Dict.get_set, if_neg hk, if_pos hk', Option.isSome_some]
        · simp only [Dict.get_set, if_neg hk, if_neg hk']
    · intro k a b ha hb
      rw [Dict.get_set] at ha hb
      split at ha
      · rename_i hk
        rw [if_pos hk] at hb
        cases ha; cases hb; exact hu
      · rename_i hk
        rw [if_neg hk] at hb
        rw [Dict.get_set] at ha hb
        split at ha
        · rename_i hk'
          rw [if_pos hk'] at hb
          cases ha; cases hb; exact hp
        · cases ha
  unfold prefixed at h ⊢
  rcases mkUnit_congr hd (hn pre1 u1) (hn pre2 u2) none (.mul (.ident p) (.ident rest)) with ⟨e, a, b⟩ | ⟨a, b, c⟩
  · rw [a] at h; cases h
  · rw [a] at h; cases h
    exact ⟨_, b, c⟩

include hsys hparse ho1 ho2 in
theorem spec_lookup_same (d : Nat) : ∀ (n : Str) (r1 : Ref), Spec.lookup env1 s1 d n = .ok r1 →
    ∃ r2, Spec.lookup env2 s2 d n = .ok r2 ∧ Same r1 r2 := by
  induction d with
  | zero => intro n r1 h; cases h
  | succ d ih =>
    intro n r1 h
    have hent : ∀ e r1, Spec.entry env1 s1 (Spec.lookup env1 s1 d) e = .ok r1 →
        ∃ r2, Spec.entry env2 s2 (Spec.lookup env2 s2 d) e = .ok r2 ∧ Same r1 r2 := by
      intro e r1 he
      cases e with
      | unit r => cases he; exact ⟨_, rfl, .refl _⟩
      | lazy id => exact spec_resolve_same hsys hparse ho1 ho2 ih he
    change Spec.step env1 s1 _ n = _ at h
    show ∃ r2, Spec.step env2 s2 _ n = _ ∧ _
    unfold Spec.step at h ⊢
    rw [hsys.direct] at h
    cases hd : Spec.direct s2 n with
    | some e => rw [hd] at h; exact hent e r1 h
    | none =>
      rw [hd] at h
      rcases hsys.split n with ⟨hf, hf'⟩ | ⟨p, pre1, pre2, rest, e, hf, hf', hn, hv, hy⟩
      · rw [hf] at h; cases h
      · rw [hf] at h
        rw [hf']
        simp only at h ⊢
        cases hu : Spec.entry env1 s1 (Spec.lookup env1 s1 d) e with
        | error err => rw [hu] at h; cases h
        | ok u =>
          rw [hu] at h
          obtain ⟨u2, hu2, hs⟩ := hent e u hu
          rw [hu2]
          exact prefixed_same hs (.pre hn hv hy) h

include hsys hparse ho1 ho2 in
theorem spec_unit_same (d : Nat) (t : Str) {a : UObj} (h : Spec.unit env1 s1 d t = .ok a) :
    ∃ b, Spec.unit env2 s2 d t = .ok b ∧ SameObj a b := by
  unfold Spec.unit at h ⊢
  rw [hparse] at h
  cases hp : env2.parse t with
  | error e => rw [hp] at h; cases h
  | ok expr =>
    rw [hp] at h
    change (do
      let refs ← (env1.order expr.identifiers).mapM (fun n => do .ok (n, ← Spec.lookup env1 s1 d n) : Str → Py (Str × Ref))
      unitFromExpr expr refs : Py UObj) = .ok a at h
    show ∃ b, (do
      let refs ← (env2.order expr.identifiers).mapM (fun n => do .ok (n, ← Spec.lookup env2 s2 d n) : Str → Py (Str × Ref))
      unitFromExpr expr refs : Py UObj) = .ok b ∧ SameObj a b
    cases hm : (env1.order expr.identifiers).mapM (fun n => do .ok (n, ← Spec.lookup env1 s1 d n) : Str → Py (Str × Ref)) with
    | error e => rw [hm] at h; cases h
    | ok l1 =>
      rw [hm] at h
      obtain ⟨l2, h2, hd, n1, n2⟩ := mapM_refs_perm (identifiers_nodup expr) (ho1 _) (ho2 _)
        (spec_lookup_same hsys hparse ho1 ho2 d) hm
      rw [h2]
      change unitFromExpr _ _ = _ at h
      show ∃ r2, unitFromExpr _ _ = _ ∧ _
      rcases unitFromExpr_congr hd n1 n2 expr with ⟨e, x, y⟩ | ⟨x, y, h1, h2, hs⟩
      · rw [x] at h; cases h
      · rw [h1] at h; cases h
        exact ⟨y, h2, hs⟩
end

end Verif

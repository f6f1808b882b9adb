import Verif.Lemmas.Threads
import Verif.Lemmas.Registry
import Verif.Spec.Live
/-! Facts about systems built from a base system by some of the registrations of a list. -/
namespace Verif.Live
open Spec

/-- the keys written to a table -/
def keysOf (ref : UnitReference) : Table → List Str
  | .names => nameKeys ref.name
  | .symbols => ref.symbols
  | .aliasNames => aliasKeys ref.aliasNames
  | .aliasSymbols => ref.aliasSymbols

theorem mem_keysOf {ref : UnitReference} {k : Str} {t : Table} : k ∈ keysOf ref t ↔ KeyOf ref k t := by
  cases t with
  | names => exact mem_nameKeys_iff
  | symbols => exact Iff.rfl
  | aliasNames => exact mem_aliasKeys_iff
  | aliasSymbols => exact Iff.rfl

theorem register_table (s : System) (ref : UnitReference) (e : Entry) (t : Table) :
    (s.register ref e).table t = setAll (keysOf ref t) e (s.table t) := by cases t <;> rfl

theorem register_ptable (s : System) (ref : UnitReference) (e : Entry) (t : PTable) :
    (s.register ref e).ptable t = s.ptable t := by cases t <;> rfl

theorem create_table (j : Job) (s : System) (t : Table) : (j.create s).table t = s.table t := by
  cases j <;> cases t <;> rfl

theorem create_ptable (j : Job) (s : System) (t : PTable) : (j.create s).ptable t = s.ptable t := by
  cases j <;> cases t <;> rfl

/-- the objects a job creates -/
def objects : Job → List LazyObj
  | .define d names _ => [⟨d, names, none⟩]
  | _ => []

theorem create_heap (j : Job) (s : System) : (j.create s).heap = s.heap ++ objects j := by
  cases j <;> simp [Job.create, objects, System.alloc]

theorem foldl_create_heap (js : List Job) (s : System) :
    (js.foldl (fun s j => j.create s) s).heap = s.heap ++ js.flatMap objects := by
  induction js generalizing s with
  | nil => simp
  | cons j js ih => rw [List.foldl_cons, ih, create_heap]; simp

theorem created_eq (js : List Job) (s : System) : created js s = s.heap.length + (js.flatMap objects).length := by
  unfold created; rw [foldl_create_heap]; simp

/-- what `complete` does, as far as units are concerned -/
theorem complete_cases (j : Job) (s : System) :
    (∃ ref e, Registers s.heap.length j ref e ∧ (∀ ref' e', Registers s.heap.length j ref' e' → ref' = ref ∧ e' = e) ∧
      ∀ t, (complete j s).table t = setAll (keysOf ref t) e (s.table t)) ∨
    ((∀ ref e, ¬ Registers s.heap.length j ref e) ∧ ∀ t, (complete j s).table t = s.table t) := by
  cases j with
  | lookup l n => right; exact ⟨fun _ _ h => (nomatch h), fun _ => rfl⟩
  | unit l n => right; exact ⟨fun _ _ h => (nomatch h), fun _ => rfl⟩
  | addPrefix p => right; exact ⟨fun _ _ h => (nomatch h), fun t => by cases t <;> rfl⟩
  | define d names replace =>
    left
    refine ⟨_, _, .define d names replace, ?_, fun t => ?_⟩
    · intro ref' e' h; cases h; exact ⟨rfl, rfl⟩
    · unfold complete; rw [register_table]; cases t <;> rfl
  | addUnit u replace =>
    cases u with
    | basis b =>
      left
      refine ⟨_, _, .basis b replace, ?_, fun t => ?_⟩
      · intro ref' e' h; cases h; exact ⟨rfl, rfl⟩
      · unfold complete; simp only [System.namesOf]; rw [register_table]
    | pre p => right; exact ⟨fun _ _ h => (nomatch h), fun _ => rfl⟩
    | unit n d refs =>
      cases n with
      | none => right; exact ⟨fun _ _ h => (nomatch h), fun _ => rfl⟩
      | some n =>
        left
        refine ⟨_, _, .unit n d refs replace, ?_, fun t => ?_⟩
        · intro ref' e' h; cases h; exact ⟨rfl, rfl⟩
        · unfold complete; simp only [System.namesOf]; rw [register_table]

theorem complete_table {j : Job} {s : System} {t : Table} {k : Str} {e : Entry}
    (h : Dict.get k ((complete j s).table t) = some e) :
    Dict.get k (s.table t) = some e ∨ ∃ ref, Registers s.heap.length j ref e ∧ KeyOf ref k t := by
  rcases complete_cases j s with ⟨ref, e', hr, _, ht⟩ | ⟨_, ht⟩
  · rw [ht, get_setAll] at h
    by_cases hk : k ∈ keysOf ref t
    · rw [if_pos hk] at h; cases h; exact Or.inr ⟨ref, hr, mem_keysOf.1 hk⟩
    · rw [if_neg hk] at h; exact Or.inl h
  · rw [ht] at h; exact Or.inl h

theorem complete_keep {j : Job} {s : System} {t : Table} {k : Str} (h : Dict.get k (s.table t) ≠ none) :
    Dict.get k ((complete j s).table t) ≠ none := by
  rcases complete_cases j s with ⟨ref, e', hr, _, ht⟩ | ⟨_, ht⟩
  · rw [ht, get_setAll]
    by_cases hk : k ∈ keysOf ref t
    · rw [if_pos hk]; simp
    · rw [if_neg hk]; exact h
  · rw [ht]; exact h

theorem complete_new {j : Job} {s : System} {t : Table} {k : Str} {ref : UnitReference} {e : Entry}
    (h : Registers s.heap.length j ref e) (hk : KeyOf ref k t) : Dict.get k ((complete j s).table t) ≠ none := by
  rcases complete_cases j s with ⟨ref', e', hr, hu, ht⟩ | ⟨hno, _⟩
  · obtain ⟨rfl, rfl⟩ := hu _ _ h
    rw [ht, get_setAll, if_pos (mem_keysOf.2 hk)]; simp
  · exact absurd h (hno _ _)

theorem complete_heap (j : Job) (s : System) : (complete j s).heap = s.heap ++ objects j := by
  cases j with
  | addUnit u r =>
    cases h : s.namesOf (.unit u) with
    | ok ref => simp only [complete, h, objects, List.append_nil]; rfl
    | error e => simp only [complete, h, objects, List.append_nil]
  | define d n r => simp [complete, objects, System.register, System.alloc]
  | _ => simp [complete, objects, System.addPrefix]

/-! ### Prefix tables -/

theorem foldl_set_keys (ys : List Str) (p : Prefix) (d : Dict Str Prefix) :
    ∃ l, Dict.keys (ys.foldl (fun d y => Dict.set y p d) d) = Dict.keys d ++ l := by
  induction ys generalizing d with
  | nil => exact ⟨[], by simp⟩
  | cons y ys ih =>
    obtain ⟨l, hl⟩ := ih (Dict.set y p d)
    rw [List.foldl_cons, hl, Dict.keys_set]
    by_cases h : y ∈ Dict.keys d
    · rw [if_pos h]; exact ⟨l, rfl⟩
    · rw [if_neg h]; exact ⟨y :: l, by simp⟩

theorem foldl_set_nodup (ys : List Str) (p : Prefix) {d : Dict Str Prefix} (h : Dict.Nodup d) :
    Dict.Nodup (ys.foldl (fun d y => Dict.set y p d) d) := by
  induction ys generalizing d with
  | nil => exact h
  | cons y ys ih => exact ih (Dict.nodup_set y p h)

theorem mem_set {k : Str} {v : Prefix} {d : Dict Str Prefix} {x : Str × Prefix} (h : x ∈ Dict.set k v d) :
    x ∈ d ∨ x = (k, v) := by
  induction d with
  | nil => simp [Dict.set] at h; exact Or.inr h
  | cons q d ih =>
    obtain ⟨k', v'⟩ := q
    simp only [Dict.set] at h
    by_cases e : k' = k
    · rw [if_pos e] at h
      rcases List.mem_cons.1 h with h | h
      · rw [e] at h; exact Or.inr h
      · exact Or.inl (List.mem_cons_of_mem _ h)
    · rw [if_neg e] at h
      rcases List.mem_cons.1 h with h | h
      · exact Or.inl (by rw [h]; simp)
      · rcases ih h with h | h
        · exact Or.inl (List.mem_cons_of_mem _ h)
        · exact Or.inr h

theorem foldl_set_mem {ys : List Str} {p : Prefix} {d : Dict Str Prefix} {x : Str × Prefix}
    (h : x ∈ ys.foldl (fun d y => Dict.set y p d) d) : x ∈ d ∨ ∃ y ∈ ys, x = (y, p) := by
  induction ys generalizing d with
  | nil => exact Or.inl h
  | cons y ys ih =>
    rcases ih h with h | ⟨y', hy, h⟩
    · rcases mem_set h with h | h
      · exact Or.inl h
      · exact Or.inr ⟨y, by simp, h⟩
    · exact Or.inr ⟨y', List.mem_cons_of_mem _ hy, h⟩

theorem foldl_set_has {ys : List Str} {p : Prefix} {d : Dict Str Prefix} {y : Str} (h : y ∈ ys) :
    y ∈ Dict.keys (ys.foldl (fun d y => Dict.set y p d) d) := by
  induction ys generalizing d with
  | nil => cases h
  | cons z ys ih =>
    rcases List.mem_cons.1 h with rfl | h
    · obtain ⟨l, hl⟩ := foldl_set_keys ys p (Dict.set y p d)
      rw [List.foldl_cons, hl, Dict.keys_set]
      by_cases e : y ∈ Dict.keys d
      · rw [if_pos e]; exact List.mem_append_left _ e
      · rw [if_neg e]; simp
    · exact ih h

/-- the keys of a prefix in a table -/
def pkeysOf (p : Prefix) : PTable → List Str
  | .names => [p.name]
  | .symbols => p.symbols

theorem complete_ptable (j : Job) (s : System) (t : PTable) :
    (∃ p, j = .addPrefix p ∧ (complete j s).ptable t =
      (pkeysOf p t).foldl (fun d y => Dict.set y p d) (s.ptable t)) ∨
    (complete j s).ptable t = s.ptable t := by
  cases j with
  | addPrefix p => left; exact ⟨p, rfl, by cases t <;> rfl⟩
  | addUnit u r =>
    right
    cases h : s.namesOf (.unit u) with
    | ok ref => simp only [complete, h]; exact register_ptable _ _ _ _
    | error e => simp only [complete, h]
  | define d n r => right; unfold complete; rw [register_ptable]; cases t <;> rfl
  | _ => right; rfl

/-! ### Between the base and the completed system -/

/-- `X` contains the base system, and of the rest only what is claimed. -/
structure Between (s : System) (js : List Job) (X : System) : Prop where
  tab : ∀ t k e, Dict.get k (X.table t) = some e → Claim s js t k e
  base : ∀ t k, Dict.get k (s.table t) ≠ none → Dict.get k (X.table t) ≠ none
  ptab : ∀ t p pre, (p, pre) ∈ X.ptable t → PrefixClaim s js t p pre
  pkeys : ∀ t, ∃ l, Dict.keys (X.ptable t) = Dict.keys (s.ptable t) ++ l
  nodup : ∀ t, Dict.Nodup (X.ptable t)

theorem Between.refl {s : System} (hd : PrefixDicts s) (js : List Job) : Between s js s where
  tab := fun _ _ _ h => .base h
  base := fun _ _ h => h
  ptab := fun t _ _ h => .base _ _ _ (Dict.get_of_mem_nodup (hd t) h)
  pkeys := fun _ => ⟨[], by simp⟩
  nodup := hd

theorem Between.build {s : System} {js : List Job} (l : List (Job × Bool)) (done rest : List Job) (X : System)
    (hjs : js = done ++ l.map Prod.fst ++ rest) (hX : Between s js X) (hl : X.heap.length = created done s) :
    Between s js (build l X) ∧ (build l X).heap = X.heap ++ (l.map Prod.fst).flatMap objects := by
  induction l generalizing done X with
  | nil => exact ⟨hX, by simp [Spec.build]⟩
  | cons x l ih =>
    obtain ⟨j, b⟩ := x
    have hj : js = done ++ j :: (l.map Prod.fst ++ rest) := by rw [hjs]; simp
    have hjm : j ∈ js := by rw [hj]; simp
    have hc : created (done ++ [j]) s = created done s + (objects j).length := by
      simp [created_eq, Nat.add_assoc]
    cases b with
    | false =>
      have hX' : Between s js (j.create X) := by
        refine ⟨?_, ?_, ?_, ?_, ?_⟩
        · intro t k e h; rw [create_table] at h; exact hX.tab t k e h
        · intro t k h; rw [create_table]; exact hX.base t k h
        · intro t p pre h; rw [create_ptable] at h; exact hX.ptab t p pre h
        · intro t; rw [create_ptable]; exact hX.pkeys t
        · intro t; rw [create_ptable]; exact hX.nodup t
      obtain ⟨h1, h2⟩ := ih (done ++ [j]) (j.create X) (by rw [hj]; simp) hX' (by
        rw [create_heap, List.length_append, hl, hc])
      refine ⟨h1, ?_⟩
      show (Spec.build l (j.create X)).heap = _
      rw [h2, create_heap]; simp
    | true =>
      have hX' : Between s js (complete j X) := by
        refine ⟨?_, ?_, ?_, ?_, ?_⟩
        · intro t k e h
          rcases complete_table h with h | ⟨ref, hr, hk⟩
          · exact hX.tab t k e h
          · exact .call done _ j ref hj (by rw [← hl]; exact hr) hk
        · intro t k h; exact complete_keep (hX.base t k h)
        · intro t p pre h
          rcases complete_ptable j X t with ⟨q, rfl, e⟩ | e
          · rw [e] at h
            rcases foldl_set_mem h with h | ⟨y, hy, h⟩
            · exact hX.ptab t p pre h
            · cases h
              cases t with
              | names => simp only [pkeysOf, List.mem_singleton] at hy; subst hy; exact .name _ hjm
              | symbols => exact .symbol _ _ hjm hy
          · rw [e] at h; exact hX.ptab t p pre h
        · intro t
          obtain ⟨l1, h1⟩ := hX.pkeys t
          rcases complete_ptable j X t with ⟨q, rfl, e⟩ | e
          · rw [e]
            obtain ⟨l2, h2⟩ := foldl_set_keys (pkeysOf q t) q (X.ptable t)
            exact ⟨l1 ++ l2, by rw [h2, h1]; simp⟩
          · rw [e]; exact ⟨l1, h1⟩
        · intro t
          rcases complete_ptable j X t with ⟨q, rfl, e⟩ | e
          · rw [e]; exact foldl_set_nodup _ _ (hX.nodup t)
          · rw [e]; exact hX.nodup t
      obtain ⟨h1, h2⟩ := ih (done ++ [j]) (complete j X) (by rw [hj]; simp) hX' (by
        rw [complete_heap, List.length_append, hl, hc])
      refine ⟨h1, ?_⟩
      show (Spec.build l (complete j X)).heap = _
      rw [h2, complete_heap]; simp

theorem build_keep (l : List (Job × Bool)) {X : System} {t : Table} {k : Str} (h : Dict.get k (X.table t) ≠ none) :
    Dict.get k ((build l X).table t) ≠ none := by
  induction l generalizing X with
  | nil => exact h
  | cons x l ih =>
    obtain ⟨j, b⟩ := x
    cases b with
    | false => exact ih (X := j.create X) (by rw [create_table]; exact h)
    | true => exact ih (X := complete j X) (complete_keep h)

theorem build_pkeep (l : List (Job × Bool)) {X : System} {t : PTable} {k : Str} (h : k ∈ Dict.keys (X.ptable t)) :
    k ∈ Dict.keys ((build l X).ptable t) := by
  induction l generalizing X with
  | nil => exact h
  | cons x l ih =>
    obtain ⟨j, b⟩ := x
    cases b with
    | false => exact ih (X := j.create X) (by rw [create_ptable]; exact h)
    | true =>
      refine ih (X := complete j X) ?_
      rcases complete_ptable j X t with ⟨q, rfl, e⟩ | e
      · rw [e]
        obtain ⟨l2, h2⟩ := foldl_set_keys (pkeysOf q t) q (X.ptable t)
        rw [h2]; exact List.mem_append_left _ h
      · rw [e]; exact h

theorem build_append (a b : List (Job × Bool)) (s : System) : build (a ++ b) s = build b (build a s) := by
  simp [build, List.foldl_append]

/-- every key of a marked registration is there -/
theorem build_has {s : System} {js : List Job} (hd : PrefixDicts s) {l : List (Job × Bool)} {rest : List Job}
    (hjs : js = l.map Prod.fst ++ rest) {a b : List (Job × Bool)} {j : Job} (hl : l = a ++ (j, true) :: b) :
    (∀ ref e t k, Registers (created (a.map Prod.fst) s) j ref e → KeyOf ref k t → Dict.get k ((build l s).table t) ≠ none) ∧
    (∀ p, j = .addPrefix p → p.name ∈ Dict.keys ((build l s).ptable .names) ∧
      ∀ y ∈ p.symbols, y ∈ Dict.keys ((build l s).ptable .symbols)) := by
  have e : build l s = build b (complete j (build a s)) := by
    rw [hl, build_append]; rfl
  have hh := (Between.build a [] (j :: b.map Prod.fst ++ rest) s (by rw [hjs, hl]; simp) (Between.refl hd js)
    (by simp [created_eq])).2
  have hlen : (build a s).heap.length = created (a.map Prod.fst) s := by rw [hh, created_eq]; simp
  constructor
  · intro ref en t k hr hk
    rw [e]
    exact build_keep b (complete_new (by rw [hlen]; exact hr) hk)
  · rintro p rfl
    rw [e]
    refine ⟨build_pkeep b ?_, fun y hy => build_pkeep b ?_⟩
    · exact foldl_set_has (ys := [p.name]) (d := (build a s).ptable .names) (by simp)
    · exact foldl_set_has (ys := p.symbols) (d := (build a s).ptable .symbols) hy

/-! ### The completed system -/

variable {s : System} {js : List Job}

theorem map_fst_true (js : List Job) : (js.map fun j => (j, true)).map Prod.fst = js := by
  simp [Function.comp_def]

theorem completed_between (hd : PrefixDicts s) : Between s js (completed js s) :=
  (Between.build _ [] [] s (by rw [map_fst_true]; simp) (Between.refl hd js) (by simp [created_eq])).1

theorem completed_heap (hd : PrefixDicts s) : (completed js s).heap = s.heap ++ js.flatMap objects := by
  have := (Between.build (js.map fun j => (j, true)) [] [] s (by rw [map_fst_true]; simp) (Between.refl hd js) (by simp [created_eq])).2
  rw [map_fst_true] at this
  exact this

theorem completed_has (hd : PrefixDicts s) {t : Table} {k : Str} {e : Entry} (h : Claim s js t k e) :
    Dict.get k ((completed js s).table t) ≠ none := by
  cases h with
  | base h => exact (completed_between hd).base t k (by rw [h]; simp)
  | call before after j ref hj hr hk =>
    refine (build_has hd (rest := []) (by rw [map_fst_true, List.append_nil])
      (a := before.map fun j => (j, true)) (b := after.map fun j => (j, true)) (j := j) (by rw [hj]; simp)).1 ref e t k ?_ hk
    rw [map_fst_true]; exact hr

theorem completed_phas (hd : PrefixDicts s) {t : PTable} {p : Str} {pre : Prefix} (h : PrefixClaim s js t p pre) :
    p ∈ Dict.keys ((completed js s).ptable t) := by
  have get : ∀ q, Job.addPrefix q ∈ js → q.name ∈ Dict.keys ((completed js s).ptable .names) ∧
      ∀ y ∈ q.symbols, y ∈ Dict.keys ((completed js s).ptable .symbols) := by
    intro q hq
    obtain ⟨before, after, hj⟩ := List.append_of_mem hq
    exact (build_has hd (rest := []) (by rw [map_fst_true, List.append_nil])
      (a := before.map fun j => (j, true)) (b := after.map fun j => (j, true)) (j := .addPrefix q) (by rw [hj]; simp)).2 q rfl
  cases h with
  | base _ _ _ h =>
    obtain ⟨l, hl⟩ := (completed_between (js := js) hd).pkeys t
    rw [hl]
    exact List.mem_append_left _ ((Dict.get_isSome_iff _ _).1 (by rw [h]; rfl))
  | name _ h => exact (get _ h).1
  | symbol _ _ h hy => exact (get _ h).2 _ hy

/-- the objects of the completed system claim their spellings -/
theorem completed_conflictFree (hd : PrefixDicts s) (hc : ConflictFree s) {id : Nat} {o : LazyObj}
    (h : (completed js s).heap[id]? = some o) {t : Table} {k : Str} (hk : k ∈ keysOf o.names t) :
    Claim s js t k (.lazy id) := by
  rw [completed_heap hd] at h
  by_cases hlt : id < s.heap.length
  · rw [List.getElem?_append_left hlt] at h
    obtain ⟨c1, c2, c3, c4⟩ := hc id o h
    refine .base ?_
    cases t with
    | names => exact c1 k hk
    | symbols => exact c2 k hk
    | aliasNames => exact c3 k hk
    | aliasSymbols => exact c4 k hk
  · rw [List.getElem?_append_right (by omega)] at h
    have key : ∀ (js : List Job) (i : Nat) (o : LazyObj), (js.flatMap objects)[i]? = some o →
        ∃ before after d r, js = before ++ Job.define d o.names r :: after ∧ (before.flatMap objects).length = i := by
      intro js
      induction js with
      | nil => intro i o h; simp at h
      | cons j js ih =>
        intro i o h
        have more : ∀ i', i = (objects j).length + i' → (js.flatMap objects)[i']? = some o →
            ∃ before after d r, j :: js = before ++ Job.define d o.names r :: after ∧ (before.flatMap objects).length = i := by
          intro i' hi h
          obtain ⟨b, a, d, r, e, hl⟩ := ih i' o h
          exact ⟨j :: b, a, d, r, by rw [e]; rfl, by simp [hl, hi]⟩
        rw [List.flatMap_cons] at h
        cases j with
        | define d names r =>
          cases i with
          | zero =>
            simp [objects] at h
            subst h
            exact ⟨[], js, d, r, rfl, rfl⟩
          | succ i => exact more i (by simp [objects]; omega) (by simpa [objects] using h)
        | _ => exact more i (by simp [objects]) (by simpa [objects] using h)
    obtain ⟨before, after, d, r, hj, hl⟩ := key js _ o h
    have e : created before s = id := by rw [created_eq, hl]; omega
    exact .call before after _ o.names hj (by rw [e]; exact .define d o.names r) (mem_keysOf.1 hk)

end Verif.Live

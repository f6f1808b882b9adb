import Verif.Lemmas.LiveSeen
/-! A finite check that registrations give no spelling a second meaning. -/
namespace Verif.Live
open Spec

/-- everything in the unit tables -/
def baseClaims (s : System) : List (Str × Entry) := s.names ++ s.aliasNames ++ s.symbols ++ s.aliasSymbols

/-- everything in the prefix tables -/
def basePrefixes (s : System) : List (Str × Prefix) := s.prefixNames ++ s.prefixSymbols

/-- all keys of a unit -/
def allKeys (ref : UnitReference) : List Str :=
  keysOf ref .names ++ keysOf ref .aliasNames ++ keysOf ref .symbols ++ keysOf ref .aliasSymbols

/-- what one registration wants -/
def jobClaim (id : Nat) : Job → List (Str × Entry)
  | .addUnit (.basis b) _ => (allKeys b.names).map fun k => (k, .unit (.basis b))
  | .addUnit (.unit (some n) d refs) _ => (allKeys n).map fun k => (k, .unit (.unit (some n) d refs))
  | .define _ names _ => (allKeys names).map fun k => (k, .lazy id)
  | _ => []

/-- what all registrations want -/
def jobClaims : Nat → List Job → List (Str × Entry)
  | _, [] => []
  | id, j :: js => jobClaim id j ++ jobClaims (id + (objects j).length) js

def jobPrefixes (js : List Job) : List (Str × Prefix) :=
  js.flatMap fun j => match j with
    | .addPrefix p => (p.name :: p.symbols).map fun k => (k, p)
    | _ => []

/-- a reading: its text and what it says -/
abbrev Read := Str × Option (Str × Prefix) × Entry

def plain (c : List (Str × Entry)) : List Read := c.map fun x => (x.1, none, x.2)
def withPrefix (p : List (Str × Prefix)) (c : List (Str × Entry)) : List Read :=
  p.flatMap fun p => c.map fun x => (p.1 ++ x.1, some p, x.2)

def newReads (s : System) (js : List Job) : List Read :=
  plain (jobClaims s.heap.length js) ++ withPrefix (basePrefixes s) (jobClaims s.heap.length js) ++
  withPrefix (jobPrefixes js) (baseClaims s ++ jobClaims s.heap.length js)

def oldReads (s : System) : List Read := plain (baseClaims s) ++ withPrefix (basePrefixes s) (baseClaims s)

/-- the check -/
def oneMeaning (s : System) (js : List Job) : Bool :=
  (newReads s js).all fun r => (newReads s js ++ oldReads s).all fun r' => decide (r'.1 = r.1 → r'.2 = r.2)

variable {s : System} {js : List Job}

theorem mem_allKeys {ref : UnitReference} {k : Str} {t : Table} (h : KeyOf ref k t) : k ∈ allKeys ref := by
  have h := mem_keysOf.2 h
  unfold allKeys
  cases t <;> simp [h]

theorem mem_jobClaim {id : Nat} {j : Job} {ref : UnitReference} {e : Entry} {t : Table} {k : Str}
    (h : Registers id j ref e) (hk : KeyOf ref k t) : (k, e) ∈ jobClaim id j := by
  have := mem_allKeys hk
  cases h <;> exact List.mem_map.2 ⟨k, this, rfl⟩

theorem mem_jobClaims : ∀ (before : List Job) (id : Nat) {after : List Job} {j : Job} {k : Str} {e : Entry},
    (k, e) ∈ jobClaim (id + (before.flatMap objects).length) j → (k, e) ∈ jobClaims id (before ++ j :: after)
  | [], id, after, j, k, e, h => by
    simp only [List.nil_append, jobClaims]
    exact List.mem_append_left _ (by simpa using h)
  | b :: before, id, after, j, k, e, h => by
    simp only [List.cons_append, jobClaims]
    refine List.mem_append_right _ (mem_jobClaims before _ ?_)
    simpa [Nat.add_assoc] using h

theorem mem_base {t : Table} {k : Str} {e : Entry} (h : Dict.get k (s.table t) = some e) : (k, e) ∈ baseClaims s := by
  have h := Dict.get_mem h
  unfold baseClaims
  cases t <;> simp only [System.table] at h <;> simp [h]

theorem mem_claims {t : Table} {k : Str} {e : Entry} (h : Claim s js t k e) :
    Claim s [] t k e ∧ (k, e) ∈ baseClaims s ∨ (k, e) ∈ jobClaims s.heap.length js := by
  cases h with
  | base h => exact Or.inl ⟨.base h, mem_base h⟩
  | call b a j ref hj hr hk =>
    right
    rw [hj]
    refine mem_jobClaims b _ ?_
    rw [← created_eq]
    exact mem_jobClaim hr hk

theorem mem_prefixes {t : PTable} {k : Str} {p : Prefix} (h : PrefixClaim s js t k p) :
    PrefixClaim s [] t k p ∧ (k, p) ∈ basePrefixes s ∨ (k, p) ∈ jobPrefixes js := by
  cases h with
  | base _ _ _ h =>
    refine Or.inl ⟨.base _ _ _ h, ?_⟩
    have h := Dict.get_mem h
    unfold basePrefixes
    cases t <;> simp only [System.ptable] at h <;> simp [h]
  | name _ h => exact Or.inr (List.mem_flatMap.2 ⟨_, h, by simp⟩)
  | symbol _ _ h hy => exact Or.inr (List.mem_flatMap.2 ⟨_, h, by simp [hy]⟩)

theorem mem_withPrefix {p : List (Str × Prefix)} {c : List (Str × Entry)} {k : Str} {pre : Prefix} {rest : Str} {e : Entry}
    (hp : (k, pre) ∈ p) (hc : (rest, e) ∈ c) : (k ++ rest, some (k, pre), e) ∈ withPrefix p c :=
  List.mem_flatMap.2 ⟨(k, pre), hp, List.mem_map.2 ⟨(rest, e), hc, rfl⟩⟩

theorem mem_reads {n : Str} {c : Way} (h : CanRead s js n c) :
    CanRead s [] n c ∧ (n, c.what) ∈ oldReads s ∨ (n, c.what) ∈ newReads s js := by
  cases c with
  | direct t e =>
    rcases mem_claims h with ⟨h1, h2⟩ | h
    · exact Or.inl ⟨h1, List.mem_append_left _ (List.mem_map.2 ⟨_, h2, rfl⟩)⟩
    · exact Or.inr (List.mem_append_left _ (List.mem_append_left _ (List.mem_map.2 ⟨_, h, rfl⟩)))
  | prefixed pt p pre t e =>
    obtain ⟨hp, rest, rfl, hc⟩ := h
    rcases mem_prefixes hp with ⟨hp0, hp⟩ | hp
    · rcases mem_claims hc with ⟨hc0, hc⟩ | hc
      · exact Or.inl ⟨⟨hp0, rest, rfl, hc0⟩, List.mem_append_right _ (mem_withPrefix hp hc)⟩
      · exact Or.inr (List.mem_append_left _ (List.mem_append_right _ (mem_withPrefix hp hc)))
    · refine Or.inr (List.mem_append_right _ (mem_withPrefix hp ?_))
      rcases mem_claims hc with ⟨_, hc⟩ | hc
      · exact List.mem_append_left _ hc
      · exact List.mem_append_right _ hc

theorem noSecondMeaning_of_check (h : oneMeaning s js = true) : NoSecondMeaning s js := by
  intro n c hc
  rcases mem_reads hc with ⟨h0, _⟩ | hnew
  · exact Or.inl h0
  · refine Or.inr fun c' hc' => ?_
    have := List.all_eq_true.1 h _ hnew
    have hmem : (n, c'.what) ∈ newReads s js ++ oldReads s := by
      rcases mem_reads hc' with ⟨_, h⟩ | h
      · exact List.mem_append_right _ h
      · exact List.mem_append_left _ h
    exact of_decide_eq_true (List.all_eq_true.1 this _ hmem) rfl

end Verif.Live

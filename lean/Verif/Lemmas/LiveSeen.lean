import Verif.Lemmas.LiveBuild
import Verif.Lemmas.Errors
/-! Which reading of a spelling is chosen, in the completed system and on the way there. -/
namespace Verif.Live
open Spec

/-- the reading chosen in a fixed table -/
def pick (X : System) (n : Str) : Option (Option (Str × Prefix) × Entry) :=
  match direct X n with
  | some e => some (none, e)
  | none =>
    match firstSplit X n (X.prefixNames ++ X.prefixSymbols) with
    | none => none
    | some (p, pre, _, e) => some (some (p, pre), e)

/-- what a reading evaluates to -/
def wval (env : Env) (X : System) (look : Str → Py Ref) (n : Str) : Option (Str × Prefix) × Entry → Py Ref
  | (none, e) => entry env X look e
  | (some (p, pre), e) => do
    let u ← entry env X look e
    prefixed p pre (n.drop p.length) u

theorem firstSplit_rest {X : System} {n : Str} {l p pre rest e} (h : firstSplit X n l = some (p, pre, rest, e)) :
    n = p ++ rest ∧ direct X rest = some e ∧
      ∃ before after, l = before ++ (p, pre) :: after ∧ ∀ q ∈ before, ∀ r, n = q.1 ++ r → direct X r = none :=
  Verif.firstSplit_some h

theorem firstSplit_mk {s : System} {n : Str} {p : Str} {pre : Prefix} {rest : Str} {e : Entry} (hn : n = p ++ rest)
    (hd : direct s rest = some e) : ∀ (before after : List (Str × Prefix)),
    (∀ q ∈ before, ∀ rest', n = q.1 ++ rest' → direct s rest' = none) →
    Spec.firstSplit s n (before ++ (p, pre) :: after) = some (p, pre, rest, e)
  | [], after, _ => by
    rw [List.nil_append, Spec.firstSplit, dropPrefix_eq_some.2 hn]
    simp only [hd]
  | q :: before, after, h => by
    have ih := firstSplit_mk (pre := pre) hn hd before after fun q hq => h q (List.mem_cons_of_mem _ hq)
    rw [List.cons_append, Spec.firstSplit]
    cases hq : dropPrefix q.1 n with
    | none => exact ih
    | some r =>
      simp only [h q (List.mem_cons_self ..) r (dropPrefix_eq_some.1 hq)]
      exact ih

theorem step_pick (env : Env) (X : System) (look : Str → Py Ref) (n : Str) :
    Spec.step env X look n = match pick X n with
      | none => .error (.unresolvable n)
      | some w => wval env X look n w := by
  unfold Spec.step pick
  cases direct X n with
  | some e => rfl
  | none =>
    cases h : firstSplit X n (X.prefixNames ++ X.prefixSymbols) with
    | none => rfl
    | some x =>
      obtain ⟨p, pre, rest, e⟩ := x
      obtain ⟨hn, _⟩ := firstSplit_rest h
      have : n.drop p.length = rest := by rw [hn]; simp
      simp only [wval, this]

/-- the tables looked at before -/
def before : Table → List Table
  | .names => []
  | .aliasNames => [.names]
  | .symbols => [.names, .aliasNames]
  | .aliasSymbols => [.names, .aliasNames, .symbols]

theorem direct_none {X : System} {n : Str} : direct X n = none ↔ ∀ t, Dict.get n (X.table t) = none := by
  constructor
  · intro h t
    unfold direct at h
    cases h1 : Dict.get n X.names <;> cases h2 : Dict.get n X.aliasNames <;> cases h3 : Dict.get n X.symbols <;>
      cases h4 : Dict.get n X.aliasSymbols <;> rw [h1, h2, h3, h4] at h <;> cases h
    cases t <;> assumption
  · intro h
    have h1 := h .names; have h2 := h .aliasNames; have h3 := h .symbols; have h4 := h .aliasSymbols
    simp only [System.table] at h1 h2 h3 h4
    simp [direct, h1, h2, h3, h4]

theorem direct_some {X : System} {n : Str} {e : Entry} : direct X n = some e ↔
    ∃ t, Dict.get n (X.table t) = some e ∧ ∀ t' ∈ before t, Dict.get n (X.table t') = none := by
  constructor
  · intro h
    unfold direct at h
    cases h1 : Dict.get n X.names with
    | some x => rw [h1] at h; cases h; exact ⟨.names, h1, by simp [before]⟩
    | none =>
      cases h2 : Dict.get n X.aliasNames with
      | some x => rw [h1, h2] at h; cases h; exact ⟨.aliasNames, h2, by simp [before, System.table, h1]⟩
      | none =>
        cases h3 : Dict.get n X.symbols with
        | some x => rw [h1, h2, h3] at h; cases h; exact ⟨.symbols, h3, by simp [before, System.table, h1, h2]⟩
        | none =>
          rw [h1, h2, h3] at h
          exact ⟨.aliasSymbols, h, by simp [before, System.table, h1, h2, h3]⟩
  · rintro ⟨t, h, hb⟩
    cases t <;> simp [before, System.table] at h hb <;> simp [direct, h, hb]

section
variable {s : System} {js : List Job}

/-- A key found in a table, the earlier tables of the base system not having it. -/
def Found (s : System) (js : List Job) (m : Str) (e : Entry) : Prop :=
  ∃ t, Claim s js t m e ∧ ∀ t' ∈ before t, Dict.get m (s.table t') = none

/-- no reading with this prefix in the base system -/
def NoRead (X : System) (n q : Str) : Prop := ∀ r, n = q ++ r → direct X r = none

/-- A reading with a prefix found in table `pt`, the earlier ones of the base system giving none. -/
structure SeenP (s : System) (js : List Job) (n : Str) (pt : PTable) (p : Str) (pre : Prefix) (e : Entry) : Prop where
  claim : PrefixClaim s js pt p pre
  found : ∃ rest, n = p ++ rest ∧ Found s js rest e
  first : ∃ a b l, Dict.keys (s.ptable pt) ++ l = a ++ p :: b ∧ ∀ q ∈ a, NoRead s n q

/-- A reading that may be seen on the way. -/
inductive Seen (s : System) (js : List Job) (n : Str) : Option (Str × Prefix) × Entry → Prop
  | direct (e : Entry) (h : Found s js n e) : Seen s js n (none, e)
  | name (p : Str) (pre : Prefix) (e : Entry) (hd : direct s n = none) (h : SeenP s js n .names p pre e) :
      Seen s js n (some (p, pre), e)
  | symbol (p : Str) (pre : Prefix) (e : Entry) (hd : direct s n = none)
      (hn : ∀ q ∈ Dict.keys (s.ptable .names), NoRead s n q) (h : SeenP s js n .symbols p pre e) :
      Seen s js n (some (p, pre), e)

theorem Seen.canRead {n : Str} {w} (h : Seen s js n w) : ∃ c, CanRead s js n c ∧ c.what = w := by
  cases h with
  | direct e h => obtain ⟨t, h, _⟩ := h; exact ⟨.direct t e, h, rfl⟩
  | name p pre e hd h =>
    obtain ⟨rest, hn, t, h', _⟩ := h.found
    exact ⟨.prefixed .names p pre t e, ⟨h.claim, rest, hn, h'⟩, rfl⟩
  | symbol p pre e hd _ h =>
    obtain ⟨rest, hn, t, h', _⟩ := h.found
    exact ⟨.prefixed .symbols p pre t e, ⟨h.claim, rest, hn, h'⟩, rfl⟩

theorem Claim.of_nil {t : Table} {k : Str} {e : Entry} (h : Claim s [] t k e) : Dict.get k (s.table t) = some e := by
  cases h with
  | base h => exact h
  | call b a j ref h _ _ => cases b <;> simp at h

theorem PrefixClaim.of_nil {t : PTable} {k : Str} {p : Prefix} (h : PrefixClaim s [] t k p) : Dict.get k (s.ptable t) = some p := by
  cases h with
  | base _ _ _ h => exact h
  | name _ h => cases h
  | symbol _ _ h _ => cases h

theorem Found.base {m : Str} {e : Entry} (h : Found s js m e) (ha : ∀ t e, Claim s js t m e → Dict.get m (s.table t) = some e) :
    direct s m = some e := by
  obtain ⟨t, h, hb⟩ := h
  exact direct_some.2 ⟨t, ha t e h, hb⟩

/-- a list of entries splits as its list of keys does -/
theorem keys_split {d : Dict Str Prefix} {a b : List Str} {p : Str} (h : Dict.keys d = a ++ p :: b) :
    ∃ B v A, d = B ++ (p, v) :: A ∧ Dict.keys B = a := by
  unfold Dict.keys at h
  obtain ⟨B, r, rfl, hB, hr⟩ := List.map_eq_append_iff.1 h
  obtain ⟨x, A, rfl, hx, hA⟩ := List.map_eq_cons_iff.1 hr
  obtain ⟨q, v⟩ := x
  simp only at hx; subst hx
  exact ⟨B, v, A, rfl, hB⟩

/-- every reading of the spelling was there at the beginning -/
def Old (s : System) (js : List Job) (n : Str) : Prop := ∀ c, CanRead s js n c → CanRead s [] n c

theorem SeenP.base {n : Str} {pt : PTable} {p : Str} {pre : Prefix} {e : Entry} (hd : PrefixDicts s) (ha : Old s js n)
    (h : SeenP s js n pt p pre e) :
    ∃ rest B A, s.ptable pt = B ++ (p, pre) :: A ∧ n = p ++ rest ∧ direct s rest = some e ∧
      ∀ q ∈ B, ∀ r, n = q.1 ++ r → direct s r = none := by
  obtain ⟨rest, hn, hf⟩ := h.found
  have hbase : direct s rest = some e := by
    refine hf.base fun t e' hc => ?_
    obtain ⟨_, rest', hn', hc'⟩ := ha (.prefixed pt p pre t e') ⟨h.claim, rest, hn, hc⟩
    have : rest' = rest := by rw [hn] at hn'; exact (List.append_cancel_left hn').symm
    subst this
    exact Claim.of_nil hc'
  have hpre : Dict.get p (s.ptable pt) = some pre := by
    obtain ⟨t, hc, _⟩ := hf
    exact PrefixClaim.of_nil (ha (.prefixed pt p pre t e) ⟨h.claim, rest, hn, hc⟩).1
  obtain ⟨a, b, l, hk, hno⟩ := h.first
  have hp : p ∈ Dict.keys (s.ptable pt) := (Dict.get_isSome_iff _ _).1 (by rw [hpre]; rfl)
  have : ∃ b', Dict.keys (s.ptable pt) = a ++ p :: b' := by
    rcases List.append_eq_append_iff.1 hk with ⟨a', h1, h2⟩ | ⟨c', h1, h2⟩
    · have : p ∈ a := by rw [h1]; exact List.mem_append_left _ hp
      have := hno p this rest hn
      rw [hbase] at this; cases this
    · cases c' with
      | nil =>
        have : p ∈ a := by rw [h1] at hp; simpa using hp
        have := hno p this rest hn
        rw [hbase] at this; cases this
      | cons x c' =>
        simp only [List.cons_append, List.cons.injEq] at h2
        exact ⟨c', by rw [h1, h2.1]⟩
  obtain ⟨b', hb'⟩ := this
  obtain ⟨B, v, A, hs, hB⟩ := keys_split hb'
  have hv : v = pre := by
    have := Dict.get_of_mem_nodup (hd pt) (k := p) (v := v) (by rw [hs]; simp)
    rw [hpre] at this; cases this; rfl
  subst hv
  refine ⟨rest, B, A, hs, hn, hbase, fun q hq r hr => ?_⟩
  exact hno q.1 (by rw [← hB]; exact List.mem_map_of_mem hq) r hr

theorem Seen.base {n : Str} {w} (hd : PrefixDicts s) (ha : Old s js n) (h : Seen s js n w) : pick s n = some w := by
  cases h with
  | direct e h =>
    have := h.base fun t e' hc => Claim.of_nil (ha (.direct t e') hc)
    simp [pick, this]
  | name p pre e hdn h =>
    obtain ⟨rest, B, A, hs, hn, hr, hB⟩ := h.base hd ha
    have : firstSplit s n (s.prefixNames ++ s.prefixSymbols) = some (p, pre, rest, e) := by
      have e1 : s.prefixNames = B ++ (p, pre) :: A := hs
      have e2 : s.prefixNames ++ s.prefixSymbols = B ++ (p, pre) :: (A ++ s.prefixSymbols) := by
        rw [e1, List.append_assoc]; rfl
      rw [e2]
      exact firstSplit_mk hn hr B _ hB
    simp [pick, hdn, this]
  | symbol p pre e hdn hno h =>
    obtain ⟨rest, B, A, hs, hn, hr, hB⟩ := h.base hd ha
    have : firstSplit s n (s.prefixNames ++ s.prefixSymbols) = some (p, pre, rest, e) := by
      have e1 : s.prefixSymbols = B ++ (p, pre) :: A := hs
      have e2 : s.prefixNames ++ s.prefixSymbols = (s.prefixNames ++ B) ++ (p, pre) :: A := by
        rw [e1, List.append_assoc]
      rw [e2]
      refine firstSplit_mk hn hr _ _ ?_
      intro q hq r hr
      rcases List.mem_append.1 hq with hq | hq
      · exact hno q.1 (List.mem_map_of_mem hq) r hr
      · exact hB q hq r hr
    simp [pick, hdn, this]

/-- Whatever is seen on the way, it is always the same reading. -/
theorem Seen.unique {n : Str} {w w'} (hd : PrefixDicts s) (hm : NoSecondMeaning s js) (h : Seen s js n w) (h' : Seen s js n w') :
    w = w' := by
  by_cases ha : Old s js n
  · have e := h.base hd ha
    rw [h'.base hd ha] at e
    cases e; rfl
  · have : ∃ c, CanRead s js n c ∧ ¬ CanRead s [] n c := by
      refine Classical.byContradiction fun hno => ha fun c hc => Classical.byContradiction fun hn => hno ⟨c, hc, hn⟩
    obtain ⟨c, hc, hn⟩ := this
    rcases hm n c hc with h0 | hall
    · exact absurd h0 hn
    · obtain ⟨c1, h1, rfl⟩ := h.canRead
      obtain ⟨c2, h2, rfl⟩ := h'.canRead
      rw [hall c1 h1, hall c2 h2]

theorem Between.found {X : System} (hX : Between s js X) {m : Str} {e : Entry} (h : direct X m = some e) : Found s js m e := by
  obtain ⟨t, h, hb⟩ := direct_some.1 h
  refine ⟨t, hX.tab t m e h, fun t' ht' => Classical.byContradiction fun hne => hX.base t' m hne (hb t' ht')⟩

theorem Between.absent {X : System} (hX : Between s js X) {m : Str} (h : direct X m = none) : direct s m = none := by
  rw [direct_none] at h ⊢
  exact fun t => Classical.byContradiction fun hne => hX.base t m hne (h t)

theorem Between.seenP {X : System} (hX : Between s js X) {n : Str} {pt : PTable} {p : Str} {pre : Prefix} {rest : Str} {e : Entry}
    {B A : Dict Str Prefix} (hs : X.ptable pt = B ++ (p, pre) :: A) (hn : n = p ++ rest) (hr : direct X rest = some e)
    (hB : ∀ q ∈ B, ∀ r, n = q.1 ++ r → direct X r = none) : SeenP s js n pt p pre e where
  claim := hX.ptab pt p pre (by rw [hs]; simp)
  found := ⟨rest, hn, hX.found hr⟩
  first := by
    obtain ⟨l, hl⟩ := hX.pkeys pt
    refine ⟨Dict.keys B, Dict.keys A, l, ?_, ?_⟩
    · rw [← hl, hs]; simp [Dict.keys]
    · intro q hq r hr
      obtain ⟨x, hx, rfl⟩ := List.mem_map.1 hq
      exact hX.absent (hB x hx r hr)

theorem Between.seen {X : System} (hX : Between s js X) {n : Str} {w} (h : pick X n = some w) : Seen s js n w := by
  unfold pick at h
  cases hd : direct X n with
  | some e => rw [hd] at h; cases h; exact .direct e (hX.found hd)
  | none =>
    rw [hd] at h
    simp only at h
    cases hf : firstSplit X n (X.prefixNames ++ X.prefixSymbols) with
    | none => rw [hf] at h; cases h
    | some x =>
      obtain ⟨p, pre, rest, e⟩ := x
      rw [hf] at h
      cases h
      obtain ⟨hn, hr, B, A, hl, hB⟩ := firstSplit_rest hf
      rcases List.append_eq_append_iff.1 hl with ⟨a', h1, h2⟩ | ⟨c', h1, h2⟩
      · refine .symbol p pre e (hX.absent hd) ?_ (hX.seenP (pt := .symbols) (B := a') h2 hn hr ?_)
        · intro q hq r hqr
          obtain ⟨l, hl⟩ := hX.pkeys .names
          have : q ∈ Dict.keys (X.ptable .names) := by rw [hl]; exact List.mem_append_left _ hq
          obtain ⟨x, hx, rfl⟩ := List.mem_map.1 this
          exact hX.absent (hB x (by rw [h1]; exact List.mem_append_left _ hx) r hqr)
        · intro q hq; exact hB q (by rw [h1]; exact List.mem_append_right _ hq)
      · cases c' with
        | nil =>
          refine .symbol p pre e (hX.absent hd) ?_ (hX.seenP (pt := .symbols) (B := []) (A := A) h2.symm hn hr (fun _ h => nomatch h))
          intro q hq r hqr
          obtain ⟨l, hl⟩ := hX.pkeys .names
          have : q ∈ Dict.keys (X.ptable .names) := by rw [hl]; exact List.mem_append_left _ hq
          obtain ⟨x, hx, rfl⟩ := List.mem_map.1 this
          have h1' : X.prefixNames = B := by simpa using h1
          exact hX.absent (hB x (by rw [← h1']; exact hx) r hqr)
        | cons x c' =>
          simp only [List.cons_append, List.cons.injEq] at h2
          refine .name p pre e (hX.absent hd) (hX.seenP (pt := .names) (B := B) (A := c') ?_ hn hr hB)
          show X.prefixNames = _
          rw [h1, h2.1]

theorem Seen.picked {n : Str} {w} (hd : PrefixDicts s) (hm : NoSecondMeaning s js) (h : Seen s js n w) :
    pick (completed js s) n = some w := by
  have hR := completed_between (js := js) hd
  have hex : ∃ w', Live.pick (completed js s) n = some w' := by
    cases hdir : Spec.direct (completed js s) n with
    | some e => exact ⟨(none, e), by simp [Live.pick, hdir]⟩
    | none =>
      obtain ⟨c, hc, _⟩ := h.canRead
      cases c with
      | direct t e => exact absurd (direct_none.1 hdir t) (completed_has hd hc)
      | prefixed pt p pre t e =>
        obtain ⟨hp, rest, hn, hc⟩ := hc
        cases hf : firstSplit (completed js s) n ((completed js s).prefixNames ++ (completed js s).prefixSymbols) with
        | some x => exact ⟨(some (x.1, x.2.1), x.2.2.2), by simp [Live.pick, hdir, hf]⟩
        | none =>
          have := Verif.firstSplit_none.1 hf
          obtain ⟨x, hx, rfl⟩ := List.mem_map.1 (completed_phas hd hp)
          have h0 : Spec.direct (completed js s) rest = none := by
            refine this x ?_ rest hn
            cases pt with
            | names => exact List.mem_append_left _ hx
            | symbols => exact List.mem_append_right _ hx
          exact absurd (direct_none.1 h0 t) (completed_has hd hc)
  obtain ⟨w', hw'⟩ := hex
  rw [hw', Seen.unique hd hm (hR.seen hw') h]

end
end Verif.Live

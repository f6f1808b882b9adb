import Verif.Spec.Objects
import Verif.Lemmas.Dict
/-!
# Lemmas for C73
-/

namespace Verif.Objects
open Spec.Objects

/-- addresses point to something, caches hold what would be computed -/
structure Inv (limit : Nat) (st : Store) : Prop where
  entries : ∀ (m : Nat) (es : Dict Str Nat), st.maps[m]? = some es → ∀ e ∈ es, e.2 < st.cells.length
  units : ∀ (i : Nat) (names : Option UnitReference) (defn : Node) (m : Nat), st.cells[i]? = some (.unit names defn m) → m < st.maps.length
  dates : ∀ (i u : Nat) (r : Option Str), st.cells[i]? = some (.date u r) → u < st.cells.length
  caches : ∀ (i : Nat) (v : SymForm), Dict.get i st.caches = some v →
    i < st.cells.length ∧ (do (← st.follow limit i).symDef) = .ok v

/-- the memory later: there is more of it, and what was in use is the same -/
structure Ext (st st' : Store) : Prop where
  cells : ∀ (i : Nat) (c : Cell), st.cells[i]? = some c → st'.cells[i]? = some c
  maps : ∀ m : Nat, InUse st m → st'.maps[m]? = st.maps[m]?
  caches : ∀ i : Nat, Dict.get i st.caches ≠ none → Dict.get i st'.caches ≠ none

theorem InUse.ext {st st' : Store} (h : Ext st st') {m : Nat} (hm : InUse st m) : InUse st' m := by
  obtain ⟨n, d, hmem⟩ := hm
  obtain ⟨i, hi⟩ := List.mem_iff_getElem?.1 hmem
  exact ⟨n, d, List.mem_iff_getElem?.2 ⟨i, h.cells i _ hi⟩⟩

theorem Ext.refl (st : Store) : Ext st st := ⟨fun _ _ h => h, fun _ _ => rfl, fun _ h => h⟩

theorem Ext.trans {a b c : Store} (h₁ : Ext a b) (h₂ : Ext b c) : Ext a c :=
  ⟨fun i x h => h₂.cells i x (h₁.cells i x h),
   fun m hm => (h₂.maps m (InUse.ext h₁ hm)).trans (h₁.maps m hm),
   fun i h => h₂.caches i (h₁.caches i h)⟩

theorem lt_of_get {α : Type} {l : List α} {i : Nat} {a : α} (h : l[i]? = some a) : i < l.length :=
  (List.getElem?_eq_some_iff.1 h).1

theorem get_of_lt {α : Type} {l : List α} {i : Nat} (h : i < l.length) : ∃ a, l[i]? = some a :=
  ⟨l[i], List.getElem?_eq_some_iff.2 ⟨h, rfl⟩⟩

theorem followAll_congr {f g : Nat → Py Ref} (es : Dict Str Nat) (h : ∀ e ∈ es, f e.2 = g e.2) :
    followAll f es = followAll g es := by
  induction es with
  | nil => rfl
  | cons e es ih =>
    obtain ⟨k, i⟩ := e
    have h1 : f i = g i := h (k, i) (by simp)
    simp only [followAll, h1, ih fun e he => h e (by simp [he])]

theorem Ext.follow {limit : Nat} {st st' : Store} (hi : Inv limit st) (h : Ext st st') (n i : Nat)
    (hlt : i < st.cells.length) : st'.follow n i = st.follow n i := by
  induction n generalizing i with
  | zero => rfl
  | succ n ih =>
    obtain ⟨c, hc⟩ := get_of_lt hlt
    unfold Store.follow
    rw [hc, h.cells i c hc]
    cases c with
    | basis b => rfl
    | pre p => rfl
    | date u r => rfl
    | unit names defn m =>
      simp only
      have hm : InUse st m := ⟨names, defn, List.mem_iff_getElem?.2 ⟨i, hc⟩⟩
      rw [h.maps m hm]
      obtain ⟨es, hes⟩ := get_of_lt (hi.units i names defn m hc)
      rw [hes]
      simp only [Option.getD_some]
      rw [followAll_congr es fun e he => ih e.2 (hi.entries m es hes e he)]

theorem Ext.owner {st st' : Store} (h : Ext st st') {i : Nat} (hlt : i < st.cells.length) : st'.owner i = st.owner i := by
  obtain ⟨c, hc⟩ := get_of_lt hlt
  unfold Store.owner
  rw [hc, h.cells i c hc]

theorem owner_lt {limit : Nat} {st : Store} (hi : Inv limit st) {i : Nat} (hlt : i < st.cells.length) :
    st.owner i < st.cells.length := by
  obtain ⟨c, hc⟩ := get_of_lt hlt
  unfold Store.owner
  rw [hc]
  cases c with
  | date u r => exact hi.dates i u r hc
  | _ => exact hlt

theorem Ext.load {limit : Nat} {st st' : Store} (hi : Inv limit st) (h : Ext st st') {i : Nat} (hlt : i < st.cells.length) :
    st'.load limit i = st.load limit i := by
  obtain ⟨c, hc⟩ := get_of_lt hlt
  unfold Store.load
  rw [hc, h.cells i c hc]
  cases c with
  | date u r => simp only [h.follow hi limit u (hi.dates i u r hc)]
  | _ => simp only [h.follow hi limit i hlt]

/-- the symbolic definition of an object is that of the owner of its cache -/
theorem symDef_owner (limit : Nat) (st : Store) (i : Nat) :
    (do (← st.load limit i).symDef : Py SymForm) = (do (← st.follow limit (st.owner i)).symDef) := by
  unfold Store.load Store.owner
  split
  · rename_i u r _
    cases st.follow limit u <;> rfl
  · rename_i c
    cases st.follow limit i <;> rfl

theorem mentions_ext {st st' : Store} (h : Ext st st') {i : Nat} (hlt : i < st.cells.length) : i < st'.cells.length := by
  obtain ⟨c, hc⟩ := get_of_lt hlt
  exact lt_of_get (h.cells i c hc)

/-- the objects of a method call exist -/
def There (st : Store) : Call → Prop
  | .expanded i => i < st.cells.length
  | .dimensionality i => i < st.cells.length
  | .isConvertibleTo i j => i < st.cells.length ∧ j < st.cells.length
  | .equal i j => i < st.cells.length ∧ j < st.cells.length
  | .converter i j => i < st.cells.length ∧ j < st.cells.length
  | _ => True

theorem There.ext {st st' : Store} (h : Ext st st') {c : Call} (ht : There st c) : There st' c := by
  cases c with
  | expanded i => exact mentions_ext h ht
  | dimensionality i => exact mentions_ext h ht
  | isConvertibleTo i j => exact ⟨mentions_ext h ht.1, mentions_ext h ht.2⟩
  | equal i j => exact ⟨mentions_ext h ht.1, mentions_ext h ht.2⟩
  | converter i j => exact ⟨mentions_ext h ht.1, mentions_ext h ht.2⟩
  | _ => trivial

theorem answer_ext {limit : Nat} {st st' : Store} (hi : Inv limit st) (h : Ext st st') {c : Call} (ht : There st c) :
    answer limit st' c = answer limit st c := by
  cases c with
  | expanded i => simp only [answer, h.load hi ht]
  | dimensionality i => simp only [answer, h.load hi ht]
  | isConvertibleTo i j => simp only [answer, h.load hi ht.1, h.load hi ht.2]
  | equal i j => simp only [answer, h.load hi ht.1, h.load hi ht.2]
  | converter i j => simp only [answer, h.load hi ht.1, h.load hi ht.2]
  | _ => rfl

/-- what is left to do will give the answer, whatever happens meanwhile -/
def Post (limit : Nat) (c : Call) : Prog → Store → Prop
  | .done r, st => r = answer limit st c
  | .look k, st => ∀ st', Ext st st' → Inv limit st' → Post limit c (k st') st'
  | .get i k, st => ∀ st', Ext st st' → Inv limit st' → Post limit c (k (Dict.get i st'.caches)) st'
  | .set i v k, st => i < st.cells.length ∧ (do (← st.follow limit i).symDef) = .ok v ∧
      ∀ st', Ext st st' → Inv limit st' → Dict.get i st'.caches ≠ none → Post limit c k st'

theorem Post.ext {limit : Nat} {c : Call} {m : Prog} {st st' : Store} (hi : Inv limit st) (h : Ext st st') (ht : There st c)
    (hp : Post limit c m st) : Post limit c m st' := by
  cases m with
  | done r => exact hp.trans (answer_ext hi h ht).symm
  | look k => exact fun st'' h' hi' => hp st'' (h.trans h') hi'
  | get i k => exact fun st'' h' hi' => hp st'' (h.trans h') hi'
  | set i v k =>
    refine ⟨mentions_ext h hp.1, ?_, fun st'' h' hi' hg => hp.2.2 st'' (h.trans h') hi' hg⟩
    rw [h.follow hi limit i hp.1]; exact hp.2.1

theorem symbolic_post {limit : Nat} {c : Call} {i : Nat} {k : SymForm → Prog} {st : Store} (hi : Inv limit st)
    (hlt : i < st.cells.length) (ht : There st c)
    (herr : ∀ e, (do (← st.load limit i).symDef) = .error e → answer limit st c = .error e)
    (hok : ∀ v, (do (← st.load limit i).symDef) = .ok v → ∀ st', Ext st st' → Inv limit st' → Post limit c (k v) st') :
    Post limit c (symbolic limit i k) st := by
  intro st₁ h₁ hi₁
  have ho : st₁.owner i = st.owner i := h₁.owner hlt
  have holt : st.owner i < st.cells.length := owner_lt hi hlt
  have hret : ∀ st₂, Ext st st₂ → Dict.get (st.owner i) st₂.caches ≠ none → Post limit c (.get (st.owner i) fun
      | some v => k v
      | none => .done (.error .typeError)) st₂ := by
    intro st₂ h₂ hg st₃ h₃ hi₃
    have hg₃ := h₃.caches _ hg
    have h := h₂.trans h₃
    cases hv : Dict.get (st.owner i) st₃.caches with
    | none => exact absurd hv hg₃
    | some v =>
      simp only
      refine hok v ?_ st₃ h hi₃
      have := (hi₃.caches _ _ hv).2
      rw [h.follow hi limit _ holt] at this
      rw [symDef_owner]; exact this
  show Post limit c (.get (st₁.owner i) _) st₁
  rw [ho]
  intro st₂ h₂ hi₂
  have h := h₁.trans h₂
  cases hv : Dict.get (st.owner i) st₂.caches with
  | some v => exact hret st₂ h (by rw [hv]; simp)
  | none =>
    intro st₃ h₃ hi₃
    have h' := h.trans h₃
    simp only [h'.load hi hlt]
    cases hs : (do (← st.load limit i).symDef : Py SymForm) with
    | error e =>
      simp only
      show _ = answer limit st₃ c
      rw [answer_ext hi h' ht, herr e hs]
    | ok v =>
      simp only
      refine ⟨mentions_ext h' holt, ?_, ?_⟩
      · rw [h'.follow hi limit _ holt, ← symDef_owner]; exact hs
      · intro st₄ h₄ hi₄ hg
        exact hret st₄ (h'.trans h₄) hg

theorem build_eq (a b : UObj) : Converter.build a b = (do
    let direct ← directness a b
    let v ← a.symDef
    let w ← b.symDef
    link direct v w) := by
  unfold Converter.build directness
  cases a.dimObj with
  | error e => rfl
  | ok fd =>
    cases b.dimObj with
    | error e => rfl
    | ok td =>
      cases hinv : fd.inverted with
      | error e => simp [hinv, bind, Except.bind]
      | ok inv =>
        simp only [hinv, bind, Except.bind]
        cases hd : (!(fd.eq td || inv.eq td)) with
        | true => rfl
        | false =>
          simp only [Bool.false_eq_true, if_false]
          cases a.symDef with
          | error e => rfl
          | ok v =>
            cases b.symDef with
            | error e => rfl
            | ok w => rfl

theorem prog_post {limit : Nat} {c : Call} (hm : c.isMethod = true) {st : Store} (hi : Inv limit st) (ht : There st c) :
    Post limit c (c.prog limit) st := by
  cases c with
  | expanded i => intro st' h hi'; exact rfl
  | dimensionality i => intro st' h hi'; exact rfl
  | isConvertibleTo i j => intro st' h hi'; exact rfl
  | equal i j =>
    intro st₁ h₁ hi₁
    have hi1 := mentions_ext h₁ ht.1
    have hj1 := mentions_ext h₁ ht.2
    have ht₁ : There st₁ (.equal i j) := ⟨hi1, hj1⟩
    simp only
    cases ha : st₁.load limit i with
    | error e =>
      simp only
      show Except.error e = answer limit st₁ _
      simp [answer, ha, bind, Except.bind]
    | ok a =>
      cases hb : st₁.load limit j with
      | error e =>
        have : answer limit st₁ (.equal i j) = .error e := by simp [answer, ha, hb, bind, Except.bind]
        cases a <;> exact this.symm
      | ok b =>
        cases a with
        | date u r =>
          show Except.ok (Result.bool (i == j)) = answer limit st₁ _
          simp [answer, ha, hb, bind, Except.bind]
        | unit a =>
          cases b with
          | date u r =>
            show Except.ok (Result.bool (i == j)) = answer limit st₁ _
            simp [answer, ha, hb, bind, Except.bind]
          | unit b =>
            simp only
            by_cases hs : b.defn.str = a.defn.str
            · rw [if_pos hs]
              show Except.ok (Result.bool true) = answer limit st₁ _
              simp [answer, ha, hb, bind, Except.bind, Ref.eq, hs]
            · rw [if_neg hs]
              refine symbolic_post hi₁ hi1 ht₁ ?_ ?_
              · intro e he
                rw [ha] at he
                have he' : a.symDef = .error e := he
                simp [answer, ha, hb, bind, Except.bind, Ref.eq, hs, he']
              · intro v hv st₂ h₂ hi₂
                rw [ha] at hv
                have hv' : a.symDef = .ok v := hv
                obtain ⟨ta, da⟩ := v
                have ha2 : st₂.load limit i = .ok (.unit a) := by rw [h₂.load hi₁ hi1, ha]
                have hb2 : st₂.load limit j = .ok (.unit b) := by rw [h₂.load hi₁ hj1, hb]
                have ht₂ := There.ext h₂ ht₁
                refine symbolic_post hi₂ ht₂.2 ht₂ ?_ ?_
                · intro e he
                  rw [hb2] at he
                  have he' : b.symDef = .error e := he
                  simp [answer, ha2, hb2, bind, Except.bind, Ref.eq, hs, hv', he']
                · intro w hw st₃ h₃ hi₃
                  rw [hb2] at hw
                  have hw' : b.symDef = .ok w := hw
                  obtain ⟨tb, db⟩ := w
                  show _ = answer limit st₃ _
                  rw [answer_ext hi₂ h₃ ht₂]
                  simp [answer, ha2, hb2, bind, Except.bind, Ref.eq, hs, hv', hw']
  | converter i j =>
    intro st₁ h₁ hi₁
    have hi1 := mentions_ext h₁ ht.1
    have hj1 := mentions_ext h₁ ht.2
    have ht₁ : There st₁ (.converter i j) := ⟨hi1, hj1⟩
    simp only
    cases ha : st₁.load limit i with
    | error e =>
      show Except.error e = answer limit st₁ _
      simp [answer, ha, bind, Except.bind]
    | ok a =>
      cases hb : st₁.load limit j with
      | error e =>
        show Except.error e = answer limit st₁ _
        simp [answer, ha, hb, bind, Except.bind]
      | ok b =>
        simp only [bind, Except.bind]
        cases hd : directness a b with
        | error e =>
          show Except.error e = answer limit st₁ _
          simp [answer, ha, hb, bind, Except.bind, build_eq, hd]
        | ok direct =>
          simp only
          refine symbolic_post hi₁ hi1 ht₁ ?_ ?_
          · intro e he
            rw [ha] at he
            have he' : a.symDef = .error e := he
            simp [answer, ha, hb, bind, Except.bind, build_eq, hd, he']
          · intro v hv st₂ h₂ hi₂
            rw [ha] at hv
            have hv' : a.symDef = .ok v := hv
            have ha2 : st₂.load limit i = .ok a := by rw [h₂.load hi₁ hi1, ha]
            have hb2 : st₂.load limit j = .ok b := by rw [h₂.load hi₁ hj1, hb]
            have ht₂ := There.ext h₂ ht₁
            refine symbolic_post hi₂ ht₂.2 ht₂ ?_ ?_
            · intro e he
              rw [hb2] at he
              have he' : b.symDef = .error e := he
              simp [answer, ha2, hb2, bind, Except.bind, build_eq, hd, hv', he']
            · intro w hw st₃ h₃ hi₃
              rw [hb2] at hw
              have hw' : b.symDef = .ok w := hw
              show _ = answer limit st₃ _
              rw [answer_ext hi₂ h₃ ht₂]
              simp only [answer, ha2, hb2, bind, Except.bind, build_eq, hd, hv', hw']
              cases link direct v w <;> rfl
  | _ => cases hm

/-! ## Steps -/

theorem get_set_ne_none (k k' : Nat) (v : SymForm) (d : Dict Nat SymForm) (h : Dict.get k' d ≠ none) :
    Dict.get k' (Dict.set k v d) ≠ none := by
  rw [Dict.get_set]
  split
  · simp
  · exact h

theorem get_set_cases (k k' : Nat) (v w : SymForm) (d : Dict Nat SymForm) (h : Dict.get k' (Dict.set k v d) = some w) :
    (k' = k ∧ w = v) ∨ Dict.get k' d = some w := by
  rw [Dict.get_set] at h
  split at h
  · rename_i hk; cases h; exact Or.inl ⟨hk, rfl⟩
  · exact Or.inr h

theorem mem_set {κ ν : Type} [DecidableEq κ] (k : κ) (v : ν) (d : Dict κ ν) (e : κ × ν) (h : e ∈ Dict.set k v d) :
    e.2 = v ∨ e ∈ d := by
  induction d with
  | nil => simp [Dict.set] at h; exact Or.inl (by rw [h])
  | cons a d ih =>
    obtain ⟨a, b⟩ := a
    unfold Dict.set at h
    by_cases hk : a = k
    · rw [if_pos hk] at h
      rcases List.mem_cons.1 h with rfl | h
      · exact Or.inl rfl
      · exact Or.inr (by simp [h])
    · rw [if_neg hk] at h
      rcases List.mem_cons.1 h with rfl | h
      · exact Or.inr (by simp)
      · rcases ih h with h | h
        · exact Or.inl h
        · exact Or.inr (by simp [h])

/-- the memory after something, and it is in order -/
structure Next (limit : Nat) (st st' : Store) : Prop where
  ext : Ext st st'
  inv : Inv limit st'

theorem Next.same {limit : Nat} {st : Store} (hi : Inv limit st) : Next limit st st := ⟨Ext.refl st, hi⟩

/-- caches stay right when memory grows -/
theorem caches_ext {limit : Nat} {st st' : Store} (hi : Inv limit st) (h : Ext st st') (hc : st'.caches = st.caches)
    (i : Nat) (v : SymForm) (hv : Dict.get i st'.caches = some v) :
    i < st'.cells.length ∧ (do (← st'.follow limit i).symDef) = .ok v := by
  rw [hc] at hv
  obtain ⟨hlt, hs⟩ := hi.caches i v hv
  exact ⟨mentions_ext h hlt, by rw [h.follow hi limit i hlt]; exact hs⟩

theorem alloc_next {limit : Nat} {st : Store} (hi : Inv limit st) (c : Cell)
    (hu : ∀ names defn m, c = .unit names defn m → m < st.maps.length)
    (hd : ∀ u r, c = .date u r → u < st.cells.length) : Next limit st (st.alloc c).2 := by
  have hext : Ext st (st.alloc c).2 := by
    refine ⟨fun i x h => ?_, fun m hm => rfl, fun i h => h⟩
    show (st.cells ++ [c])[i]? = some x
    rw [List.getElem?_append_left (lt_of_get h)]; exact h
  have hcell : ∀ (i : Nat) (x : Cell), (st.cells ++ [c])[i]? = some x → st.cells[i]? = some x ∨ x = c := by
    intro i x h
    rw [List.getElem?_append] at h
    split at h
    · exact Or.inl h
    · right
      cases hn : i - st.cells.length with
      | zero => rw [hn] at h; simpa using h.symm
      | succ n => rw [hn] at h; simp at h
  have hlen : ∀ i, i < st.cells.length → i < (st.cells ++ [c]).length := by
    intro i h; rw [List.length_append]; omega
  refine ⟨hext, ?_, ?_, ?_, caches_ext hi hext rfl⟩
  · intro m es hm e he
    exact hlen _ (hi.entries m es hm e he)
  · intro i names defn m h
    rcases hcell i _ h with h | h
    · exact hi.units i names defn m h
    · exact hu names defn m h.symm
  · intro i u r h
    rcases hcell i _ h with h | h
    · exact hlen _ (hi.dates i u r h)
    · exact hlen _ (hd u r h.symm)

theorem construct_next {limit : Nat} {st : Store} (hi : Inv limit st) (c : Call) (hm : c.mentions st = true)
    (hs : ∀ m k i, c = .setItem m k i → ¬ InUse st m) : Next limit st (c.construct limit st).2 := by
  cases c with
  | newBasis names dl t =>
    unfold Call.construct
    simp only
    split
    · exact alloc_next hi _ (fun _ _ _ h => by cases h) (fun _ _ h => by cases h)
    · exact Next.same hi
  | newPrefix p => exact alloc_next hi _ (fun _ _ _ h => by cases h) (fun _ _ h => by cases h)
  | newMap entries =>
    have hall : ∀ e ∈ entries, e.2 < st.cells.length := by
      intro e he
      have := List.all_eq_true.1 hm e he
      exact of_decide_eq_true this
    have hext : Ext st { st with maps := st.maps ++ [entries] } := by
      refine ⟨fun i x h => h, fun m hu => ?_, fun i h => h⟩
      obtain ⟨n, d, hmem⟩ := hu
      obtain ⟨i, hi'⟩ := List.mem_iff_getElem?.1 hmem
      exact List.getElem?_append_left (hi.units i n d m hi')
    refine ⟨hext, ?_, ?_, hi.dates, caches_ext hi hext rfl⟩
    · intro m es h
      replace h : (st.maps ++ [entries])[m]? = some es := h
      rw [List.getElem?_append] at h
      split at h
      · exact hi.entries m es h
      · cases hn : m - st.maps.length with
        | zero => rw [hn] at h; simp at h; rw [← h]; exact hall
        | succ n => rw [hn] at h; simp at h
    · intro i names defn m h
      have := hi.units i names defn m h
      show m < (st.maps ++ [entries]).length
      rw [List.length_append]; omega
  | newUnit names defn m =>
    unfold Call.construct
    simp only
    split
    · exact alloc_next hi _ (fun _ _ _ h => by cases h; exact of_decide_eq_true hm) (fun _ _ h => by cases h)
    · exact Next.same hi
  | newDate u r =>
    unfold Call.construct
    simp only
    split
    · exact alloc_next hi _ (fun _ _ _ h => by cases h) (fun _ _ h => by cases h; exact of_decide_eq_true hm)
    · exact Next.same hi
  | setItem m k i =>
    have hm' : m < st.maps.length ∧ i < st.cells.length := by
      simpa [Call.mentions] using hm
    have hnot := hs m k i rfl
    have hext : Ext st { st with maps := st.maps.modify m (Dict.set k i) } := by
      refine ⟨fun i x h => h, fun m' hu => ?_, fun i h => h⟩
      have hne : m ≠ m' := by intro h; subst h; exact hnot hu
      show (st.maps.modify m (Dict.set k i))[m']? = st.maps[m']?
      rw [List.getElem?_modify]
      simp [hne]
    refine ⟨hext, ?_, ?_, hi.dates, caches_ext hi hext rfl⟩
    · intro m' es h e he
      replace h : (st.maps.modify m (Dict.set k i))[m']? = some es := h
      rw [List.getElem?_modify] at h
      by_cases hmm : m = m'
      · subst hmm
        obtain ⟨es0, h0⟩ := get_of_lt hm'.1
        rw [h0] at h
        simp at h
        subst h
        rcases mem_set k i es0 e he with h | h
        · rw [h]; exact hm'.2
        · exact hi.entries m es0 h0 e h
      · simp [hmm] at h
        exact hi.entries m' es h e he
    · intro i' names defn m' h
      have := hi.units i' names defn m' h
      show m' < (st.maps.modify m (Dict.set k i)).length
      simpa using this
  | _ => exact Next.same hi

/-- the threads will answer -/
structure PoolInv (limit : Nat) (p : Pool) : Prop where
  inv : Inv limit p.store
  threads : ∀ (n : Nat) (c : Call) (m : Prog), p.threads[n]? = some ⟨c, some m⟩ → c.isMethod = true →
    There p.store c ∧ Post limit c m p.store
  others : ∀ (n : Nat) (c : Call) (m : Prog), p.threads[n]? = some ⟨c, some m⟩ → c.isMethod ≠ true → ∃ r, m = .done r

theorem prog_step {limit : Nat} {c : Call} {m : Prog} {st : Store} (hi : Inv limit st) (ht : There st c)
    (hp : Post limit c m st) : Next limit st (m.step st).2 ∧ Post limit c (m.step st).1 (m.step st).2 := by
  cases m with
  | done r => exact ⟨Next.same hi, hp⟩
  | look k => exact ⟨Next.same hi, hp st (Ext.refl st) hi⟩
  | get i k => exact ⟨Next.same hi, hp st (Ext.refl st) hi⟩
  | set i v k =>
    have hext : Ext st { st with caches := Dict.set i v st.caches } :=
      ⟨fun _ _ h => h, fun _ _ => rfl, fun j h => get_set_ne_none i j v st.caches h⟩
    have hinv : Inv limit { st with caches := Dict.set i v st.caches } := by
      refine ⟨hi.entries, hi.units, hi.dates, ?_⟩
      intro j w hw
      rcases get_set_cases i j v w st.caches hw with ⟨rfl, rfl⟩ | h
      · refine ⟨hp.1, ?_⟩
        rw [hext.follow hi limit j hp.1]; exact hp.2.1
      · have hj := hi.caches j w h
        refine ⟨hj.1, ?_⟩
        rw [hext.follow hi limit j hj.1]; exact hj.2
    exact ⟨⟨hext, hinv⟩, hp.2.2 _ hext hinv (by show Dict.get i (Dict.set i v st.caches) ≠ none; rw [Dict.get_set_self]; simp)⟩

theorem there_of_mentions {st : Store} {c : Call} (h : c.mentions st = true) : There st c := by
  cases c <;> simp [Call.mentions, There] at h ⊢ <;> assumption

theorem PoolInv.step {limit : Nat} {p : Pool} (h : PoolInv limit p) (ev : Event)
    (hs : ∀ m k i, ev = .call (.setItem m k i) → ¬ InUse p.store m) : PoolInv limit (p.step limit ev) := by
  cases ev with
  | call c =>
    unfold Pool.step
    simp only
    split
    · rename_i hm
      split
      · rename_i hmeth
        refine ⟨h.inv, fun n c' m hn hc' => ?_, ?_⟩
        simp only at hn
        rw [List.getElem?_append] at hn
        split at hn
        · exact h.threads n c' m hn hc'
        · cases hk : n - p.threads.length with
          | zero =>
            rw [hk] at hn
            simp at hn
            obtain ⟨rfl, rfl⟩ := hn
            exact ⟨there_of_mentions hm, prog_post hmeth h.inv (there_of_mentions hm)⟩
          | succ k => rw [hk] at hn; simp at hn
        · intro n c' m hn hc'
          simp only at hn
          rw [List.getElem?_append] at hn
          split at hn
          · exact h.others n c' m hn hc'
          · cases hk : n - p.threads.length with
            | zero =>
              rw [hk] at hn
              simp at hn
              obtain ⟨rfl, rfl⟩ := hn
              exact absurd hmeth hc'
            | succ k => rw [hk] at hn; simp at hn
      · rename_i hmeth
        have hn := construct_next h.inv c hm fun m k i e => hs m k i (by rw [e])
        refine ⟨hn.inv, fun n c' m hg hc' => ?_, ?_⟩
        simp only at hg
        rw [List.getElem?_append] at hg
        split at hg
        · obtain ⟨h1, h2⟩ := h.threads n c' m hg hc'
          exact ⟨There.ext hn.ext h1, Post.ext h.inv hn.ext h1 h2⟩
        · cases hk : n - p.threads.length with
          | zero =>
            rw [hk] at hg
            simp at hg
            obtain ⟨rfl, rfl⟩ := hg
            exact absurd hc' hmeth
          | succ k => rw [hk] at hg; simp at hg
        · intro n c' m hg hc'
          simp only at hg
          rw [List.getElem?_append] at hg
          split at hg
          · exact h.others n c' m hg hc'
          · cases hk : n - p.threads.length with
            | zero =>
              rw [hk] at hg
              simp at hg
              obtain ⟨rfl, rfl⟩ := hg
              exact ⟨_, rfl⟩
            | succ k => rw [hk] at hg; simp at hg
    · exact h
  | run i =>
    unfold Pool.step
    simp only
    split
    · rename_i c m hg
      by_cases hmeth : c.isMethod = true
      · obtain ⟨h1, h2⟩ := h.threads i c m hg hmeth
        obtain ⟨hn, hpost⟩ := prog_step h.inv h1 h2
        refine ⟨hn.inv, fun n c' m' hn' hc' => ?_, ?_⟩
        simp only at hn'
        rw [List.getElem?_set] at hn'
        split at hn'
        · split at hn'
          · simp only [Option.some.injEq, Thread.mk.injEq] at hn'
            obtain ⟨rfl, rfl⟩ := hn'
            exact ⟨There.ext hn.ext h1, hpost⟩
          · cases hn'
        · obtain ⟨h1', h2'⟩ := h.threads n c' m' hn' hc'
          exact ⟨There.ext hn.ext h1', Post.ext h.inv hn.ext h1' h2'⟩
        · intro n c' m' hn' hc'
          simp only at hn'
          rw [List.getElem?_set] at hn'
          split at hn'
          · split at hn'
            · simp only [Option.some.injEq, Thread.mk.injEq] at hn'
              obtain ⟨rfl, rfl⟩ := hn'
              exact absurd hmeth hc'
            · cases hn'
          · exact h.others n c' m' hn' hc'
      · obtain ⟨r, rfl⟩ := h.others i c m hg hmeth
        have : p.threads.set i ⟨c, some (.done r)⟩ = p.threads := by
          obtain ⟨hlt, he⟩ := List.getElem?_eq_some_iff.1 hg
          rw [← he]; exact List.set_getElem_self hlt
        show PoolInv limit { store := p.store, threads := p.threads.set i ⟨c, some (.done r)⟩ }
        rw [this]
        exact h
    · exact h
  | kill i =>
    unfold Pool.step
    simp only
    split
    · rename_i c m hg
      refine ⟨h.inv, fun n c' m' hn' hc' => ?_, ?_⟩
      simp only at hn'
      rw [List.getElem?_set] at hn'
      split at hn'
      · split at hn' <;> simp at hn'
      · exact h.threads n c' m' hn' hc'
      · intro n c' m' hn' hc'
        simp only at hn'
        rw [List.getElem?_set] at hn'
        split at hn'
        · split at hn' <;> simp at hn'
        · exact h.others n c' m' hn' hc'
    · exact h

theorem PoolInv.start (limit : Nat) : PoolInv limit {} := by
  refine ⟨⟨?_, ?_, ?_, ?_⟩, ?_, ?_⟩ <;> intros <;> simp_all [Dict.get]

theorem PoolInv.run {limit : Nat} (evs : List Event) (hs : Settled limit evs) : PoolInv limit (Pool.run limit {} evs) := by
  have key : ∀ (after before : List Event), evs = before ++ after → PoolInv limit (Pool.run limit {} before) →
      PoolInv limit (Pool.run limit {} evs) := by
    intro after
    induction after with
    | nil => intro before he h; rw [he, List.append_nil]; exact h
    | cons ev after ih =>
      intro before he h
      refine ih (before ++ [ev]) (by rw [he]; simp) ?_
      have : Pool.run limit {} (before ++ [ev]) = (Pool.run limit {} before).step limit ev := by simp [Pool.run]
      rw [this]
      refine h.step ev fun m k i e => ?_
      subst e
      exact hs before m k i after he
  exact key evs [] rfl (PoolInv.start limit)

end Verif.Objects

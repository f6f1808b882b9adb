import Verif.Lemmas.Objects
/-!
# Lemmas for C73: what was created, no cycles, number of steps
-/

namespace Verif.Objects
open Spec.Objects

/-- units refer to older objects only; a unit that was created is there -/
structure Created (limit : Nat) (p : Pool) : Prop where
  older : ∀ (k : Nat) (names : Option UnitReference) (defn : Node) (m : Nat), p.store.cells[k]? = some (.unit names defn m) →
    ∀ e ∈ (p.store.maps[m]?).getD [], e.2 < k
  dates : ∀ (k u : Nat) (r : Option Str), p.store.cells[k]? = some (.date u r) → u < k
  there : ∀ (n : Nat) (names : Option UnitReference) (defn : Node) (m k : Nat),
    p.threads[n]? = some ⟨.newUnit names defn m, some (.done (.ok (.address k)))⟩ →
    p.store.cells[k]? = some (.unit names defn m) ∧
      ∃ refs, followAll (p.store.follow limit) ((p.store.maps[m]?).getD []) = .ok refs ∧
        mkUnit names defn refs = .ok (.unit names defn refs)

/-- nothing new, only caches and threads -/
theorem Created.same {limit : Nat} {p p' : Pool} (h : Created limit p) (hc : p'.store.cells = p.store.cells)
    (hm : p'.store.maps = p.store.maps)
    (ht : ∀ (n : Nat) (names : Option UnitReference) (defn : Node) (m k : Nat),
      p'.threads[n]? = some ⟨.newUnit names defn m, some (.done (.ok (.address k)))⟩ →
      p.threads[n]? = some ⟨.newUnit names defn m, some (.done (.ok (.address k)))⟩) : Created limit p' := by
  have hf : ∀ n i, p'.store.follow n i = p.store.follow n i := by
    intro n
    induction n with
    | zero => intro i; rfl
    | succ n ih =>
      intro i
      unfold Store.follow
      rw [hc, hm]
      have : p'.store.follow n = p.store.follow n := funext ih
      rw [this]
  refine ⟨?_, ?_, ?_⟩
  · rw [hc, hm]; exact h.older
  · rw [hc]; exact h.dates
  · intro n names defn m k hn
    rw [hc, hm, show p'.store.follow limit = p.store.follow limit from funext (hf limit)]
    exact h.there n names defn m k (ht n names defn m k hn)

theorem mkUnit_ok {names : Option UnitReference} {defn : Node} {refs : List (Str × Ref)} {r : Ref}
    (h : mkUnit names defn refs = .ok r) : r = .unit names defn refs := by
  unfold mkUnit at h
  cases hn : normalisedNode refs defn with
  | error e => rw [hn] at h; cases h
  | ok x => rw [hn] at h; exact (Except.ok.inj h).symm

theorem Created.step {limit : Nat} {p : Pool} (hp : PoolInv limit p) (h : Created limit p) (ev : Event)
    (hs : ∀ m k i, ev = .call (.setItem m k i) → ¬ InUse p.store m) : Created limit (p.step limit ev) := by
  cases ev with
  | kill i =>
    unfold Pool.step
    simp only
    split
    · rename_i c m hg
      refine h.same rfl rfl fun n names defn m' k hn => ?_
      simp only at hn
      rw [List.getElem?_set] at hn
      split at hn
      · split at hn <;> simp at hn
      · exact hn
    · exact h
  | run i =>
    unfold Pool.step
    simp only
    split
    · rename_i c m hg
      have hst : (m.step p.store).2.cells = p.store.cells ∧ (m.step p.store).2.maps = p.store.maps := by
        cases m <;> exact ⟨rfl, rfl⟩
      refine h.same hst.1 hst.2 fun n names defn m' k hn => ?_
      simp only at hn
      rw [List.getElem?_set] at hn
      split at hn
      · rename_i hin
        split at hn
        · simp only [Option.some.injEq, Thread.mk.injEq] at hn
          obtain ⟨rfl, hm'⟩ := hn
          obtain ⟨r, rfl⟩ := hp.others i _ m hg (by simp [Call.isMethod])
          rw [← hin, hg]
          simp only [Prog.step] at hm'
          rw [hm']
        · cases hn
      · exact hn
    · exact h
  | call c =>
    unfold Pool.step
    simp only
    by_cases hm : c.mentions p.store = true
    case neg => rw [if_neg hm]; exact h
    rw [if_pos hm]
    split
    · rename_i hmeth
      refine h.same rfl rfl fun n names defn m' k hn => ?_
      simp only at hn
      rw [List.getElem?_append] at hn
      split at hn
      · exact hn
      · cases hk : n - p.threads.length with
        | zero =>
          rw [hk] at hn
          simp at hn
          obtain ⟨rfl, _⟩ := hn
          cases hmeth
        | succ k => rw [hk] at hn; simp at hn
    · rename_i hmeth
      have hnext := construct_next hp.inv c hm fun m k i e => hs m k i (by rw [e])
      -- old units
      have hold : ∀ (k : Nat) (names : Option UnitReference) (defn : Node) (m : Nat),
          p.store.cells[k]? = some (.unit names defn m) →
          (c.construct limit p.store).2.maps[m]? = p.store.maps[m]? := fun k names defn m hk =>
        hnext.ext.maps m ⟨names, defn, List.mem_iff_getElem?.2 ⟨k, hk⟩⟩
      have hfollow : ∀ (k : Nat) (names : Option UnitReference) (defn : Node) (m : Nat),
          p.store.cells[k]? = some (.unit names defn m) →
          followAll ((c.construct limit p.store).2.follow limit) (((c.construct limit p.store).2.maps[m]?).getD []) =
            followAll (p.store.follow limit) ((p.store.maps[m]?).getD []) := by
        intro k names defn m hk
        rw [hold k names defn m hk]
        refine followAll_congr _ fun e he => ?_
        cases hmm : p.store.maps[m]? with
        | none => rw [hmm] at he; simp at he
        | some es =>
          rw [hmm] at he
          exact hnext.ext.follow hp.inv limit e.2 (hp.inv.entries m es hmm e he)
      -- new cells
      have hnew : ∀ (k : Nat) (x : Cell), (c.construct limit p.store).2.cells[k]? = some x →
          p.store.cells[k]? = some x ∨ (k = p.store.cells.length ∧ (∀ names defn m, x = .unit names defn m →
            c = .newUnit names defn m) ∧ ∀ u r, x = .date u r → c = .newDate u r) := by
        intro k x hk
        have halloc : ∀ y : Cell, (p.store.cells ++ [y])[k]? = some x → p.store.cells[k]? = some x ∨ (k = p.store.cells.length ∧ x = y) := by
          intro y hy
          rw [List.getElem?_append] at hy
          split at hy
          · exact Or.inl hy
          · rename_i hlt
            cases hd : k - p.store.cells.length with
            | zero => rw [hd] at hy; simp at hy; exact Or.inr ⟨by omega, hy.symm⟩
            | succ n => rw [hd] at hy; simp at hy
        unfold Call.construct at hk
        cases c with
        | newBasis a b d =>
          simp only at hk
          split at hk
          · rcases halloc _ hk with h | ⟨h1, h2⟩
            · exact Or.inl h
            · exact Or.inr ⟨h1, fun _ _ _ e => (by rw [h2] at e; cases e), fun _ _ e => (by rw [h2] at e; cases e)⟩
          · exact Or.inl hk
        | newPrefix a =>
          rcases halloc _ hk with h | ⟨h1, h2⟩
          · exact Or.inl h
          · exact Or.inr ⟨h1, fun _ _ _ e => (by rw [h2] at e; cases e), fun _ _ e => (by rw [h2] at e; cases e)⟩
        | newUnit a b d =>
          simp only at hk
          split at hk
          · rcases halloc _ hk with h | ⟨h1, h2⟩
            · exact Or.inl h
            · exact Or.inr ⟨h1, fun _ _ _ e => (by rw [h2] at e; cases e; rfl), fun _ _ e => (by rw [h2] at e; cases e)⟩
          · exact Or.inl hk
        | newDate a b =>
          simp only at hk
          split at hk
          · rcases halloc _ hk with h | ⟨h1, h2⟩
            · exact Or.inl h
            · exact Or.inr ⟨h1, fun _ _ _ e => (by rw [h2] at e; cases e), fun _ _ e => (by rw [h2] at e; cases e; rfl)⟩
          · exact Or.inl hk
        | newMap a => exact Or.inl hk
        | setItem a b d => exact Or.inl hk
        | expanded a => exact Or.inl hk
        | dimensionality a => exact Or.inl hk
        | isConvertibleTo a b => exact Or.inl hk
        | equal a b => exact Or.inl hk
        | converter a b => exact Or.inl hk
      refine ⟨?_, ?_, ?_⟩
      · intro k names defn m hk e he
        rcases hnew k _ hk with hk' | ⟨rfl, hu, _⟩
        · simp only [hold k names defn m hk'] at he
          exact h.older k names defn m hk' e he
        · have hc := hu names defn m rfl
          subst hc
          have hmaps : ((Call.newUnit names defn m).construct limit p.store).2.maps = p.store.maps := by
            unfold Call.construct; simp only; split <;> rfl
          simp only [hmaps] at he
          cases hmm : p.store.maps[m]? with
          | none => rw [hmm] at he; simp at he
          | some es => rw [hmm] at he; exact hp.inv.entries m es hmm e he
      · intro k u r hk
        rcases hnew k _ hk with hk' | ⟨rfl, _, hd⟩
        · exact h.dates k u r hk'
        · have hc := hd u r rfl
          subst hc
          exact of_decide_eq_true hm
      · intro n names defn m k hn
        simp only at hn
        rw [List.getElem?_append] at hn
        split at hn
        · obtain ⟨h1, refs, h2, h3⟩ := h.there n names defn m k hn
          exact ⟨hnext.ext.cells k _ h1, refs, (hfollow k names defn m h1).trans h2, h3⟩
        · cases hk : n - p.threads.length with
          | succ k => rw [hk] at hn; simp at hn
          | zero =>
            rw [hk] at hn
            simp at hn
            obtain ⟨rfl, hr⟩ := hn
            have hthis : ∃ refs, followAll (p.store.follow limit) ((p.store.maps[m]?).getD []) = .ok refs ∧
                mkUnit names defn refs = .ok (.unit names defn refs) ∧ k = p.store.cells.length ∧
                ((Call.newUnit names defn m).construct limit p.store).2 = (p.store.alloc (.unit names defn m)).2 := by
              unfold Call.construct at hr ⊢
              simp only at hr ⊢
              cases hfl : followAll (p.store.follow limit) ((p.store.maps[m]?).getD []) with
              | error e => rw [hfl] at hr; simp [bind, Except.bind] at hr
              | ok refs =>
                rw [hfl] at hr
                simp only [bind, Except.bind] at hr ⊢
                cases hmk : mkUnit names defn refs with
                | error e => rw [hmk] at hr; simp at hr
                | ok x =>
                  rw [hmk] at hr
                  have := mkUnit_ok hmk
                  subst this
                  simp only [Store.alloc, Except.ok.injEq, Result.address.injEq] at hr
                  exact ⟨refs, rfl, hmk, hr.symm, rfl⟩
            obtain ⟨refs, h1, h2, h3, h4⟩ := hthis
            have hcell : ((Call.newUnit names defn m).construct limit p.store).2.cells[k]? = some (.unit names defn m) := by
              rw [h4, h3]; simp [Store.alloc]
            refine ⟨hcell, refs, ?_, h2⟩
            have hmaps : ((Call.newUnit names defn m).construct limit p.store).2.maps = p.store.maps := by rw [h4]; rfl
            simp only [hmaps]
            rw [← h1]
            refine followAll_congr _ fun e he => ?_
            cases hmm : p.store.maps[m]? with
            | none => rw [hmm] at he; simp at he
            | some es =>
              rw [hmm] at he
              exact hnext.ext.follow hp.inv limit e.2 (hp.inv.entries m es hmm e he)

theorem run_snoc (limit : Nat) (before : List Event) (ev : Event) :
    Pool.run limit {} (before ++ [ev]) = (Pool.run limit {} before).step limit ev := by simp [Pool.run]

theorem Settled.before {limit : Nat} {a b : List Event} (h : Settled limit (a ++ b)) : Settled limit a := by
  intro before m k i after he
  exact h before m k i (after ++ b) (by rw [he]; simp)

theorem Created.run {limit : Nat} (evs : List Event) (hs : Settled limit evs) : Created limit (Pool.run limit {} evs) := by
  induction hlen : evs.length generalizing evs with
  | zero =>
    have : evs = [] := List.length_eq_zero_iff.1 hlen
    subst this
    refine ⟨?_, ?_, ?_⟩ <;> intros <;> simp_all [Pool.run]
  | succ n ih =>
    have hne : evs ≠ [] := by intro h; rw [h] at hlen; cases hlen
    have he := List.dropLast_concat_getLast hne
    rw [← he] at hs ⊢
    have hb := Settled.before hs
    rw [run_snoc]
    refine Created.step (PoolInv.run _ hb) (ih _ hb (by rw [List.length_dropLast]; omega)) _ fun m k i e => ?_
    exact hs _ m k i [] (by rw [e])

/-- the memory grows along a schedule -/
theorem PoolInv.next {limit : Nat} {p : Pool} (h : PoolInv limit p) (ev : Event)
    (hs : ∀ m k i, ev = .call (.setItem m k i) → ¬ InUse p.store m) : Ext p.store (p.step limit ev).store := by
  cases ev with
  | call c =>
    unfold Pool.step
    simp only
    split
    · rename_i hm
      split
      · exact Ext.refl _
      · exact (construct_next h.inv c hm fun m k i e => hs m k i (by rw [e])).ext
    · exact Ext.refl _
  | run i =>
    unfold Pool.step
    simp only
    split
    · rename_i c m hg
      by_cases hmeth : c.isMethod = true
      · obtain ⟨h1, h2⟩ := h.threads i c m hg hmeth
        exact (prog_step h.inv h1 h2).1.ext
      · obtain ⟨r, rfl⟩ := h.others i c m hg hmeth
        exact Ext.refl _
    · exact Ext.refl _
  | kill i =>
    unfold Pool.step
    simp only
    split <;> exact Ext.refl _

theorem ext_run {limit : Nat} (evs evs' : List Event) (hs : Settled limit (evs ++ evs')) :
    Ext (Pool.run limit {} evs).store (Pool.run limit {} (evs ++ evs')).store := by
  induction evs' generalizing evs with
  | nil => rw [List.append_nil]; exact Ext.refl _
  | cons ev evs' ih =>
    have he : evs ++ ev :: evs' = (evs ++ [ev]) ++ evs' := by simp
    rw [he] at hs ⊢
    refine Ext.trans ?_ (ih (evs ++ [ev]) hs)
    have hb := Settled.before hs
    rw [run_snoc]
    refine PoolInv.next (PoolInv.run _ (Settled.before hb)) ev fun m k i e => ?_
    exact hb evs m k i [] (by rw [e])

/-! ## No circles -/

theorem followAll_recursion {f : Nat → Py Ref} (es : Dict Str Nat) (h : ∀ e ∈ es, f e.2 ≠ .error .recursionError) :
    followAll f es ≠ .error .recursionError := by
  induction es with
  | nil => intro h; cases h
  | cons e es ih =>
    obtain ⟨k, i⟩ := e
    intro hx
    have h1 : f i ≠ .error .recursionError := h (k, i) (by simp)
    simp only [followAll] at hx
    cases hf : f i with
    | error e => rw [hf] at h1 hx; simp only [bind, Except.bind] at hx; exact h1 (by cases hx; rfl)
    | ok r =>
      rw [hf] at hx
      simp only [bind, Except.bind] at hx
      cases hr : followAll f es with
      | error e => rw [hr] at hx; exact ih (fun e he => h e (by simp [he])) (hr.trans hx)
      | ok rs => rw [hr] at hx; cases hx

theorem follow_recursion {limit : Nat} {p : Pool} (h : Created limit p) (n i : Nat) (hlt : i < n) :
    p.store.follow n i ≠ .error .recursionError := by
  induction n generalizing i with
  | zero => omega
  | succ n ih =>
    unfold Store.follow
    cases hc : p.store.cells[i]? with
    | none => intro h; cases h
    | some c =>
      cases c with
      | basis b => intro h; cases h
      | pre q => intro h; cases h
      | date u r => intro h; cases h
      | unit names defn m =>
        simp only
        intro hx
        have hall := followAll_recursion (f := p.store.follow n) ((p.store.maps[m]?).getD []) fun e he =>
          ih e.2 (by have := h.older i names defn m hc e he; omega)
        cases hr : followAll (p.store.follow n) ((p.store.maps[m]?).getD []) with
        | error e => rw [hr] at hx; simp only [bind, Except.bind] at hx; exact hall (by cases hx; exact hr)
        | ok rs => rw [hr] at hx; cases hx

/-! ## Number of steps -/

/-- the program ends after at most so many steps, whatever it finds -/
def Within : Nat → Prog → Prop
  | _, .done _ => True
  | 0, _ => False
  | n + 1, .look k => ∀ st, Within n (k st)
  | n + 1, .get _ k => ∀ v, Within n (k v)
  | n + 1, .set _ _ k => Within n k

theorem Within.more {n : Nat} {m : Prog} (h : Within n m) : Within (n + 1) m := by
  induction n generalizing m with
  | zero =>
    cases m with
    | done r => trivial
    | _ => cases h
  | succ n ih =>
    cases m with
    | done r => trivial
    | look k => exact fun st => ih (h st)
    | get i k => exact fun v => ih (h v)
    | set i v k => exact ih h

theorem Within.le {n n' : Nat} {m : Prog} (h : Within n m) (hle : n ≤ n') : Within n' m := by
  induction hle with
  | refl => exact h
  | step _ ih => exact ih.more

theorem done_within (n : Nat) (r : Py Result) : Within n (.done r) := by cases n <;> trivial

theorem symbolic_within {n limit i : Nat} {k : SymForm → Prog} (h : ∀ v, Within n (k v)) : Within (n + 5) (symbolic limit i k) := by
  intro st
  have hret : Within (n + 1) (.get (st.owner i) fun
      | some v => k v
      | none => .done (.error .typeError)) := by
    intro v
    cases v with
    | none => exact (by cases n <;> trivial : Within n (.done _))
    | some v => exact h v
  intro v
  cases v with
  | some v => exact hret.le (by omega)
  | none =>
    intro st'
    simp only
    split
    · exact hret
    · exact done_within _ _

theorem prog_within (limit : Nat) (c : Call) : Within 11 (c.prog limit) := by
  cases c with
  | equal i j =>
    intro st
    simp only
    split
    · split
      · exact done_within _ _
      · exact symbolic_within fun _ => symbolic_within fun _ => done_within _ _
    · exact done_within _ _
    · exact done_within _ _
    · exact done_within _ _
  | converter i j =>
    intro st
    simp only
    split
    · exact done_within _ _
    · exact symbolic_within fun _ => symbolic_within fun _ => done_within _ _
  | expanded i => intro st; exact done_within _ _
  | dimensionality i => intro st; exact done_within _ _
  | isConvertibleTo i j => intro st; exact done_within _ _
  | _ => exact done_within _ _

/-- thread `n` runs so often in the schedule -/
def turns (n : Nat) : List Event → Nat
  | [] => 0
  | .run i :: evs => (if i = n then 1 else 0) + turns n evs
  | _ :: evs => turns n evs

theorem within_run {limit : Nat} (evs : List Event) (p : Pool) (n k : Nat) (c : Call) (m : Prog)
    (hg : p.threads[n]? = some ⟨c, some m⟩) (hw : Within k m) (hk : k ≤ turns n evs) (hkill : Event.kill n ∉ evs) :
    ∃ r, Finished (Pool.run limit p evs) n c r := by
  induction evs generalizing p k m with
  | nil =>
    have : k = 0 := by simpa [turns] using hk
    subst this
    cases m with
    | done r => exact ⟨r, hg⟩
    | _ => cases hw
  | cons ev evs ih =>
    show ∃ r, Finished (Pool.run limit (p.step limit ev) evs) n c r
    have hkill' : Event.kill n ∉ evs := fun h => hkill (by simp [h])
    cases ev with
    | call c' =>
      refine ih (p.step limit (.call c')) k m ?_ hw hk hkill'
      unfold Pool.step
      simp only
      split
      · split
        · rw [← hg]; exact List.getElem?_append_left (lt_of_get hg)
        · rw [← hg]; exact List.getElem?_append_left (lt_of_get hg)
      · exact hg
    | kill i =>
      refine ih (p.step limit (.kill i)) k m ?_ hw hk hkill'
      have hne : i ≠ n := by intro e; subst e; exact hkill (by simp)
      unfold Pool.step
      simp only
      split
      · show (p.threads.set i _)[n]? = _
        rw [List.getElem?_set_ne hne]; exact hg
      · exact hg
    | run i =>
      by_cases hin : i = n
      · subst hin
        have hk' : k ≤ 1 + turns i evs := by simpa [turns] using hk
        have hstep : (p.step limit (.run i)).threads[i]? = some ⟨c, some (m.step p.store).1⟩ := by
          unfold Pool.step
          simp only [hg]
          rw [List.getElem?_set_self (lt_of_get hg)]
        refine ih (p.step limit (.run i)) (k - 1) _ hstep ?_ (by omega) hkill'
        cases m with
        | done r => exact done_within _ _
        | look f =>
          cases k with
          | zero => cases hw
          | succ k => exact hw p.store
        | get j f =>
          cases k with
          | zero => cases hw
          | succ k => exact hw _
        | set j v f =>
          cases k with
          | zero => cases hw
          | succ k => exact hw
      · have hk' : k ≤ turns n evs := by simpa [turns, hin] using hk
        refine ih (p.step limit (.run i)) k m ?_ hw hk' hkill'
        unfold Pool.step
        simp only
        split
        · show (p.threads.set i _)[n]? = _
          rw [List.getElem?_set_ne hin]; exact hg
        · exact hg

end Verif.Objects

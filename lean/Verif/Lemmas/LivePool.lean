import Verif.Lemmas.LiveLook
import Verif.Props.Threads
/-! Threads that register and threads that look things up, together. -/
namespace Verif.Live
open Spec

section
variable {env : Env} {s : System} {js : List Job} {q : Prop} {L : System}

/-! ### Registrations -/

theorem ok_checkKeys (t : Table) (ks : List Str) (S : System) : Ok env s js q (fun _ _ => True) (checkKeysP t ks) S := by
  induction ks generalizing S with
  | nil => exact fun _ _ _ => trivial
  | cons k ks ih =>
    refine Ok.one_read (a := .get t k) (fun _ => rfl) fun S' _ _ => ?_
    simp only [Act.run]
    cases Dict.get k (S'.table t) with
    | some e => exact fun _ _ _ => trivial
    | none => exact ih S'

theorem ok_register {ref : UnitReference} {e : Entry} (hf : ∀ t, ∀ k ∈ keysOf ref t, Fits env s js t k e) (replace : Bool)
    {S : System} (hS : Inv env s js S) :
    Ok env s js q (fun r S => ∀ x, r = .ok x → Present ref S) (registerP ref e replace) S := by
  have w : ∀ {S}, Inv env s js S → Ok env s js q (fun r S => ∀ x, r = .ok x → Present ref S) (writeUnitP ref e) S :=
    fun hS => Ok.weaken (fun r S h x _ => h.2) (ok_writeUnit hf hS)
  unfold registerP
  cases replace with
  | true => exact w hS
  | false =>
    rw [if_neg (by simp)]
    refine Ok.bind (Q := fun _ _ => True) (fun e S _ x hx => by cases hx) hS (ok_checkKeys _ _ S) fun _ S1 h1 _ _ => ?_
    refine Ok.bind (Q := fun _ _ => True) (fun e S _ x hx => by cases hx) h1 (ok_checkKeys _ _ S1) fun _ S2 h2 _ _ => ?_
    exact w h2

/-- all keys of the prefix are there -/
def PPresent (p : Prefix) (S : System) : Prop :=
  p.name ∈ Dict.keys (S.ptable .names) ∧ ∀ y ∈ p.symbols, y ∈ Dict.keys (S.ptable .symbols)

/-- a fact that stays true may be added to the result -/
theorem Ok.carry {α} {Q : Py α → System → Prop} {P : System → Prop} (hP : ∀ S S', Grows q S S' → P S → P S') :
    ∀ {m : Prog α} {S}, P S → Ok env s js q Q m S → Ok env s js q (fun r S => Q r S ∧ P S) m S := by
  intro m
  induction m with
  | done r => exact fun hp h S' hI hG => ⟨h S' hI hG, hP _ _ hG hp⟩
  | act a c ih =>
    intro S hp h S' hI hG
    obtain ⟨h1, h2, h3⟩ := h S' hI hG
    exact ⟨h1, h2, ih _ (hP _ _ h2 (hP _ _ hG hp)) h3⟩

theorem Grows.pkey {S S' : System} (g : Grows q S S') {t : PTable} {k : Str} (h : k ∈ Dict.keys (S.ptable t)) :
    k ∈ Dict.keys (S'.ptable t) := by
  obtain ⟨l, e, _⟩ := g.pre t
  rw [e]; exact List.mem_append_left _ h

theorem setPrefix_has (S : System) (t : PTable) (k : Str) (p : Prefix) : k ∈ Dict.keys ((S.setPrefix t k p).ptable t) := by
  rw [ptable_setPrefix, if_pos rfl]
  exact (Dict.get_isSome_iff _ _).1 (by rw [Dict.get_set, if_pos rfl]; rfl)

theorem ok_setPrefixSymbols (p : Prefix) (hj : Job.addPrefix p ∈ js) : ∀ (ys : List Str) (S : System), (∀ y ∈ ys, y ∈ p.symbols) →
    Ok env s js False (fun r S => r = .ok () ∧ ∀ y ∈ ys, y ∈ Dict.keys (S.ptable .symbols)) (setPrefixSymbolsP p ys) S
  | [], _, _ => fun _ _ _ => ⟨rfl, fun _ h => nomatch h⟩
  | y :: ys, S, hy => fun S' hI _ => by
    refine ⟨hI.setPrefix (.symbol p y hj (hy y (by simp))), Grows.act (.setPrefix .symbols y p) S' False.elim, ?_⟩
    refine Ok.weaken ?_ (Ok.carry (P := fun S => y ∈ Dict.keys (S.ptable .symbols)) (fun _ _ g h => g.pkey h)
      (setPrefix_has S' .symbols y p) (ok_setPrefixSymbols p hj ys _ fun y' h => hy y' (by simp [h])))
    rintro r S2 ⟨⟨h1, h2⟩, h3⟩
    refine ⟨h1, fun y' hy' => ?_⟩
    rcases List.mem_cons.1 hy' with rfl | hy'
    · exact h3
    · exact h2 y' hy'

theorem ok_addPrefix (p : Prefix) (hj : Job.addPrefix p ∈ js) (S : System) :
    Ok env s js False (fun r S => r = .ok () ∧ PPresent p S) (addPrefixP p) S := by
  intro S' hI _
  refine ⟨hI.setPrefix (.name p hj), Grows.act (.setPrefix .names p.name p) S' False.elim, ?_⟩
  refine Ok.weaken ?_ (Ok.carry (P := fun S => p.name ∈ Dict.keys (S.ptable .names)) (fun _ _ g h => g.pkey h)
    (setPrefix_has S' .names p.name p) (ok_setPrefixSymbols p hj p.symbols _ fun _ h => h))
  rintro r S2 ⟨⟨h1, h2⟩, h3⟩
  exact ⟨h1, h3, h2⟩

/-! ### Calls -/

/-- what a returned call leaves behind -/
def Kept (env : Env) (s : System) (js : List Job) (j : Job) (id : Nat) (r : Py Answer) (S : System) : Prop :=
  ∀ a, r = .ok a → (IsQuery j → ∃ depth, answer env (completed js s) depth j = .ok a) ∧
    (∀ ref e, Registers id j ref e → Present ref S) ∧ (∀ p, j = .addPrefix p → PPresent p S)

theorem answer_of_post {j : Job} {S : System} (hS : Here env s js L S) (hd : PrefixDicts s) (hc : ConflictFree s)
    (hm : NoSecondMeaning s js) (hL : Lower s js L) (hj : IsQuery j) (id : Nat) :
    Ok env s js q (Post q (fun a => ∃ depth, answer env (completed js s) depth j = .ok a)
      (∀ a, answer env L (limit j) j ≠ .ok a)) (j.prog env id) S := by
  have err : ∀ {α β} {x : Py α} {g : α → β}, (∀ v, x ≠ .ok v) → ∀ a, x.map g ≠ .ok a := by
    intro α β x g h a ha
    cases x with
    | error e => cases ha
    | ok v => exact h v rfl
  cases j with
  | lookup l n =>
    refine Ok.bind (Post.err err) hS.inv (ok_lookup hd hc hm hL l n S hS) ?_
    rintro v S1 _ _ ⟨F, hF⟩
    exact fun _ _ _ => ⟨F, by simp only [answer, hF]; rfl⟩
  | unit l t =>
    refine Ok.bind (Post.err err) hS.inv (ok_unit hd hc hm hL l t hS) ?_
    rintro v S1 _ _ ⟨F, hF⟩
    exact fun _ _ _ => ⟨F, by simp only [answer, hF]; rfl⟩
  | addUnit _ _ => exact hj.elim
  | define _ _ _ => exact hj.elim
  | addPrefix _ => exact hj.elim

theorem lower_base (hd : PrefixDicts s) : Lower s js s where
  between := Between.refl hd js
  heap := by
    intro id o h
    rw [completed_heap hd, List.getElem?_append_left (List.getElem?_eq_some_iff.1 h).1]; exact h

theorem ok_job (hd : PrefixDicts s) (hc : ConflictFree s) (hm : NoSecondMeaning s js) {done rest : List Job} {j : Job}
    (hjs : js = done ++ j :: rest) {S : System} (hI : Inv env s js S) (hg : Grows False s S) :
    Ok env s js False (Kept env s js j (created done s)) (j.prog env (created done s)) S := by
  have hmem : j ∈ js := by rw [hjs]; simp
  have query : IsQuery j → Ok env s js False (Kept env s js j (created done s)) (j.prog env (created done s)) S := by
    intro hj
    have hS : Here env s js s S := ⟨hI, hg, (Above.refl s).grows hg⟩
    refine Ok.weaken ?_ (answer_of_post hS hd hc hm (lower_base hd) hj _)
    rintro r S' h a rfl
    refine ⟨fun _ => h, ?_, ?_⟩
    · intro ref e hr; cases hr <;> exact hj.elim
    · rintro p rfl; exact hj.elim
  have reg : ∀ ref e replace, Registers (created done s) j ref e →
      j.prog env (created done s) = (registerP ref e replace).bind (fun _ => .done (.ok .nothing)) →
      (∀ ref' e', Registers (created done s) j ref' e' → ref' = ref) → (∀ p, j ≠ .addPrefix p) → ¬ IsQuery j →
      Ok env s js False (Kept env s js j (created done s)) (j.prog env (created done s)) S := by
    intro ref e replace hr hprog hu hnp hnq
    rw [hprog]
    refine Ok.bind (fun e S _ a ha => by cases ha) hI (ok_register (ref := ref) (e := e)
      (fun t k hk => Or.inl (.call done rest j ref hjs hr (mem_keysOf.1 hk))) replace hI) ?_
    rintro x S1 _ _ hx S2 _ g2 a _
    refine ⟨fun h => absurd h hnq, ?_, fun p hp => absurd hp (hnp p)⟩
    intro ref' e' hr'
    cases hu ref' e' hr'
    exact fun t k hk => g2.tab t k (hx x rfl t k hk)
  cases j with
  | lookup l n => exact query trivial
  | unit l t => exact query trivial
  | addPrefix p =>
    refine Ok.bind (fun e S h => by cases h.1) hI (ok_addPrefix p hmem S) ?_
    rintro x S1 _ _ ⟨_, h1, h2⟩ S2 _ g2 a _
    refine ⟨fun h => h.elim, fun ref e h => (nomatch h), ?_⟩
    rintro p' hp'
    cases hp'
    exact ⟨g2.pkey h1, fun y hy => g2.pkey (h2 y hy)⟩
  | define d names replace =>
    exact reg names _ replace (.define d names replace) rfl (fun _ _ h => by cases h; rfl) (fun _ h => nomatch h) id
  | addUnit u replace =>
    cases u with
    | basis b => exact reg b.names _ replace (.basis b replace) rfl (fun _ _ h => by cases h; rfl) (fun _ h => nomatch h) id
    | pre p => exact fun _ _ _ a ha => nomatch ha
    | unit n d refs =>
      cases n with
      | none => exact fun _ _ _ a ha => nomatch ha
      | some n => exact reg n _ replace (.unit n d refs replace) rfl (fun _ _ h => by cases h; rfl) (fun _ h => nomatch h) id

theorem quiet_checkKeys (t : Table) (ks : List Str) : (checkKeysP t ks).Quiet := by
  induction ks with
  | nil => exact trivial
  | cons k ks ih =>
    refine Prog.Quiet.bind (Prog.Quiet.one trivial) fun x => ?_
    cases (x : Option Entry) with
    | some e => exact trivial
    | none => exact ih

theorem quiet_register (ref : UnitReference) (e : Entry) (replace : Bool) : (registerP ref e replace).Quiet := by
  unfold registerP
  cases replace with
  | true => exact quiet_writeUnit _ _
  | false => exact (quiet_checkKeys _ _).bind fun _ => (quiet_checkKeys _ _).bind fun _ => quiet_writeUnit _ _

theorem quiet_job {j : Job} (h : ∀ p, j ≠ .addPrefix p) (env : Env) (id : Nat) : (j.prog env id).Quiet := by
  cases j with
  | lookup l n => exact (quiet_lookup env l n).bind fun _ => trivial
  | unit l t => exact (quiet_unit env l t).bind fun _ => trivial
  | addPrefix p => exact absurd rfl (h p)
  | define d names replace => exact (quiet_register _ _ _).bind fun _ => trivial
  | addUnit u replace =>
    cases u with
    | basis b => exact (quiet_register _ _ _).bind fun _ => trivial
    | pre p => exact trivial
    | unit n d refs =>
      cases n with
      | none => exact trivial
      | some n => exact (quiet_register _ _ _).bind fun _ => trivial

/-! ### Pools -/

/-- the calls made so far -/
def jobs (p : Pool) : List Job := p.threads.map (·.job)

/-- what holds of a pool at any time; `rest` are the calls to come -/
structure PoolInv (env : Env) (s : System) (js : List Job) (p : Pool) (rest : List Job) : Prop where
  calls : js = jobs p ++ rest
  shared : Inv env s js p.shared
  base : Grows False s p.shared
  len : p.shared.heap.length = created (jobs p) s
  threads : ∀ (i : Nat) t, p.threads[i]? = some t → ∀ m, t.rest = some m →
    Ok env s js False (Kept env s js t.job (created ((jobs p).take i) s)) m p.shared
  quiet : ∀ t ∈ p.threads, (∀ pre, t.job ≠ .addPrefix pre) → ∀ m, t.rest = some m → m.Quiet

theorem map_set_same {α β} (f : α → β) {l : List α} {i : Nat} {x y : α} (h : l[i]? = some y) (e : f x = f y) :
    (l.set i x).map f = l.map f := by
  apply List.ext_getElem?
  intro k
  rw [List.getElem?_map, List.getElem?_map, List.getElem?_set]
  by_cases ek : i = k
  · subst ek
    have hi : i < l.length := (List.getElem?_eq_some_iff.1 h).1
    rw [if_pos rfl, if_pos hi, h]; simp [e]
  · rw [if_neg ek]

theorem jobs_kill (env : Env) (p : Pool) (i : Nat) : jobs (p.step env (.kill i)) = jobs p := by
  apply List.ext_getElem?
  intro k
  simp only [jobs, Pool.step, List.getElem?_map, List.getElem?_modify]
  cases p.threads[k]? with
  | none => rfl
  | some t => by_cases e : i = k <;> simp [e]

theorem step_job (t : Thread) (S : System) : (t.step S).1.job = t.job := by
  unfold Thread.step; split <;> rfl

theorem jobs_run (env : Env) (p : Pool) (i : Nat) : jobs (p.step env (.run i)) = jobs p := by
  simp only [jobs, Pool.step]
  cases h : p.threads[i]? with
  | none => rfl
  | some t => exact map_set_same _ h (step_job t _)

theorem jobs_call (env : Env) (p : Pool) (j : Job) : jobs (p.step env (.call j)) = jobs p ++ [j] := by
  simp [jobs, Pool.step]

theorem Inv.create (hd : PrefixDicts s) {S : System} (h : Inv env s js S) {done rest : List Job} {j : Job}
    (hjs : js = done ++ j :: rest) (hlen : S.heap.length = created done s) : Inv env s js (j.create S) where
  tab := by intro t k e h'; rw [create_table] at h'; exact h.tab t k e h'
  ptab := by intro t p pre h'; rw [create_ptable] at h'; exact h.ptab t p pre h'
  heap := by
    intro id o ho
    rw [create_heap] at ho
    by_cases hlt : id < S.heap.length
    · rw [List.getElem?_append_left hlt] at ho; exact h.heap id o ho
    · rw [List.getElem?_append_right (by omega)] at ho
      refine ⟨o, ?_, rfl, rfl, ?_⟩
      · rw [completed_heap hd, hjs]
        have e : s.heap ++ (done ++ j :: rest).flatMap objects =
            (s.heap ++ done.flatMap objects) ++ (objects j ++ rest.flatMap objects) := by simp
        have hl : (s.heap ++ done.flatMap objects).length = S.heap.length := by rw [hlen, created_eq]; simp
        rw [e, List.getElem?_append_right (by omega), hl,
          List.getElem?_append_left (List.getElem?_eq_some_iff.1 ho).1]
        exact ho
      · intro r hr
        have := List.mem_of_getElem? ho
        cases j with
        | define d names replace => simp [objects] at this; subst this; cases hr
        | _ => simp [objects] at this

theorem PoolInv.step (hd : PrefixDicts s) (hc : ConflictFree s) (hm : NoSecondMeaning s js) {p : Pool} {ev : Event} {rest : List Job}
    (h : PoolInv env s js p (called [ev] ++ rest)) : PoolInv env s js (p.step env ev) rest := by
  cases ev with
  | call j =>
    have hjs : js = jobs p ++ j :: rest := h.calls
    have g := Grows.create False j p.shared
    refine ⟨by rw [jobs_call, hjs]; simp, h.shared.create hd hjs h.len, h.base.trans g, ?_, ?_, ?_⟩
    · rw [jobs_call]
      show (j.create p.shared).heap.length = _
      rw [create_heap, List.length_append, h.len, created_eq, created_eq]
      simp [Nat.add_assoc]
    · intro i t ht m hmm
      rw [jobs_call]
      have ht' : (p.threads ++ [⟨j, some (j.prog env p.shared.heap.length)⟩])[i]? = some t := ht
      by_cases hlt : i < p.threads.length
      · rw [List.getElem?_append_left hlt] at ht'
        have := (h.threads i t ht' m hmm).later g
        rw [List.take_append_of_le_length (by simp [jobs]; omega)]
        exact this
      · rw [List.getElem?_append_right (by omega)] at ht'
        have hi : i - p.threads.length = 0 := by
          have := (List.getElem?_eq_some_iff.1 ht').1
          simp at this; omega
        rw [hi] at ht'
        simp at ht'
        subst ht'
        cases hmm
        have hjl : (jobs p).length = p.threads.length := by simp [jobs]
        have : (jobs p ++ [j]).take i = jobs p := by
          rw [List.take_append_of_le_length (by omega), List.take_of_length_le (by omega)]
        rw [this, h.len]
        exact (ok_job hd hc hm hjs h.shared h.base).later g
    · intro t ht hnp m hmm
      rcases List.mem_append.1 ht with ht | ht
      · exact h.quiet t ht hnp m hmm
      · rw [List.mem_singleton] at ht
        subst ht
        cases hmm
        exact quiet_job hnp env _
  | kill i =>
    have old : ∀ (k : Nat) t, (p.step env (.kill i)).threads[k]? = some t → ∀ m, t.rest = some m → p.threads[k]? = some t := by
      intro k t ht m hmm
      simp only [Pool.step, List.getElem?_modify] at ht
      cases h0 : p.threads[k]? with
      | none => rw [h0] at ht; simp at ht
      | some t0 =>
        rw [h0] at ht
        by_cases e : i = k
        · simp [e] at ht; subst ht; cases hmm
        · simp [e] at ht; subst ht; rfl
    refine ⟨by rw [jobs_kill]; exact h.calls, h.shared, h.base, by rw [jobs_kill]; exact h.len, ?_, ?_⟩
    · intro k t ht m hmm
      rw [jobs_kill]
      exact h.threads k t (old k t ht m hmm) m hmm
    · intro t ht hnp m hmm
      obtain ⟨k, hk⟩ := List.getElem?_of_mem ht
      exact h.quiet t (List.mem_of_getElem? (old k t hk m hmm)) hnp m hmm
  | run i =>
    have hcalls : js = jobs (p.step env (.run i)) ++ rest := by rw [jobs_run]; exact h.calls
    have hjr := jobs_run env p i
    cases h0 : p.threads[i]? with
    | none =>
      have : p.step env (.run i) = p := by simp [Pool.step, h0]
      rw [this]
      exact ⟨h.calls, h.shared, h.base, h.len, h.threads, h.quiet⟩
    | some t =>
      have hstep : p.step env (.run i) = ⟨(t.step p.shared).2, p.threads.set i (t.step p.shared).1⟩ := by
        simp [Pool.step, h0]
      have key : Inv env s js (t.step p.shared).2 ∧ Grows False p.shared (t.step p.shared).2 ∧
          (t.step p.shared).2.heap.length = p.shared.heap.length ∧
          (∀ m, (t.step p.shared).1.rest = some m →
            Ok env s js False (Kept env s js t.job (created ((jobs p).take i) s)) m (t.step p.shared).2) ∧
          ((∀ pre, t.job ≠ .addPrefix pre) → ∀ m, (t.step p.shared).1.rest = some m → m.Quiet) := by
        have ht := h.threads i t h0
        have hq := h.quiet t (List.mem_of_getElem? h0)
        obtain ⟨j, rest⟩ := t
        cases rest with
        | none => exact ⟨h.shared, Grows.refl _ _, rfl, ht, hq⟩
        | some m =>
          cases m with
          | done r => exact ⟨h.shared, Grows.refl _ _, rfl, ht, hq⟩
          | act a k =>
            obtain ⟨h1, h2, h3⟩ := ht _ rfl p.shared h.shared (Grows.refl _ _)
            refine ⟨h1, h2, Act.run_heap_length a _, ?_, ?_⟩
            · intro m hmm; cases hmm; exact h3
            · intro hnp m hmm; cases hmm; exact (hq hnp _ rfl).2 _
      obtain ⟨k1, k2, k3, k4, k5⟩ := key
      refine ⟨hcalls, by rw [hstep]; exact k1, by rw [hstep]; exact h.base.trans k2, ?_, ?_, ?_⟩
      · rw [hjr, ← h.len, hstep]; exact k3
      · intro k t2 ht2 m hmm
        rw [hjr]
        rw [hstep] at ht2 ⊢
        simp only [List.getElem?_set] at ht2
        by_cases e : i = k
        · subst e
          rw [if_pos rfl] at ht2
          by_cases hlt : i < p.threads.length
          · rw [if_pos hlt] at ht2
            cases ht2
            rw [step_job]
            exact k4 m hmm
          · rw [if_neg hlt] at ht2; cases ht2
        · rw [if_neg e] at ht2
          exact (h.threads k t2 ht2 m hmm).later k2
      · intro t2 ht2 hnp m hmm
        rw [hstep] at ht2
        rcases List.mem_or_eq_of_mem_set ht2 with h2 | h2
        · exact h.quiet t2 h2 hnp m hmm
        · subst h2
          rw [step_job] at hnp
          exact k5 hnp m hmm

theorem called_cons (e : Event) (evs : List Event) : called (e :: evs) = called [e] ++ called evs := by
  cases e <;> simp [called]

theorem called_append (a b : List Event) : called (a ++ b) = called a ++ called b := by
  induction a with
  | nil => rfl
  | cons e a ih => rw [List.cons_append, called_cons, ih, called_cons e a, List.append_assoc]

theorem PoolInv.run (hd : PrefixDicts s) (hc : ConflictFree s) (hm : NoSecondMeaning s js) {p : Pool} {rest : List Job} (evs : List Event)
    (h : PoolInv env s js p (called evs ++ rest)) : PoolInv env s js (p.run env evs) rest := by
  induction evs generalizing p with
  | nil => exact h
  | cons e evs ih =>
    refine ih (p := p.step env e) (PoolInv.step hd hc hm ?_)
    rw [called_cons, List.append_assoc] at h
    exact h

theorem PoolInv.start (hd : PrefixDicts s) (hp : Pristine s) : PoolInv env s js (.start s) js where
  calls := rfl
  shared := ⟨fun t k e h => Or.inl (.base h), (Between.refl hd js).ptab, by
    intro id o ho
    have ho : s.heap[id]? = some o := ho
    refine ⟨o, ?_, rfl, rfl, ?_⟩
    · rw [completed_heap hd, List.getElem?_append_left (List.getElem?_eq_some_iff.1 ho).1]; exact ho
    · intro r hr
      have : o.resolved = none := hp o (List.mem_of_getElem? ho)
      rw [this] at hr; cases hr⟩
  base := Grows.refl _ _
  len := rfl
  threads := by intro i t h; simp [Pool.start] at h
  quiet := by intro t h; cases h

/-! ### What has returned -/

theorem foldl_set_keys_mem {ys : List Str} {p : Prefix} {d : Dict Str Prefix} {k : Str}
    (h : k ∈ Dict.keys (ys.foldl (fun d y => Dict.set y p d) d)) : k ∈ Dict.keys d ∨ k ∈ ys := by
  obtain ⟨x, hx, rfl⟩ := List.mem_map.1 h
  rcases foldl_set_mem hx with h | ⟨y, hy, h⟩
  · exact Or.inl (List.mem_map_of_mem h)
  · rw [h]; exact Or.inr hy

/-- the keys of a built system come from the base or from a marked registration -/
theorem build_from (l : List (Job × Bool)) (done : List Job) (X : System) (hl : X.heap.length = created done s) :
    (∀ t k, Dict.get k ((build l X).table t) ≠ none → Dict.get k (X.table t) ≠ none ∨
      ∃ a j b ref e, l = a ++ (j, true) :: b ∧ Registers (created (done ++ a.map Prod.fst) s) j ref e ∧ KeyOf ref k t) ∧
    (∀ t, ∀ k ∈ Dict.keys ((build l X).ptable t), k ∈ Dict.keys (X.ptable t) ∨
      ∃ p, (Job.addPrefix p, true) ∈ l ∧ k ∈ pkeysOf p t) := by
  induction l generalizing done X with
  | nil => exact ⟨fun t k h => Or.inl h, fun t k h => Or.inl h⟩
  | cons x l ih =>
    obtain ⟨j, b⟩ := x
    have hc : created (done ++ [j]) s = created done s + (objects j).length := by
      simp [created_eq, Nat.add_assoc]
    have more : ∀ {t k}, (∃ a j' b' ref e, l = a ++ (j', true) :: b' ∧
        Registers (created (done ++ [j] ++ a.map Prod.fst) s) j' ref e ∧ KeyOf ref k t) →
        ∃ a j' b' ref e, (j, b) :: l = a ++ (j', true) :: b' ∧
          Registers (created (done ++ a.map Prod.fst) s) j' ref e ∧ KeyOf ref k t := by
      rintro t k ⟨a, j', b', ref, e, rfl, hr, hk⟩
      exact ⟨(j, b) :: a, j', b', ref, e, rfl, by simpa using hr, hk⟩
    cases b with
    | false =>
      obtain ⟨h1, h2⟩ := ih (done ++ [j]) (j.create X) (by rw [create_heap, List.length_append, hl, hc])
      refine ⟨fun t k h => ?_, fun t k h => ?_⟩
      · rcases h1 t k h with h | h
        · rw [create_table] at h; exact Or.inl h
        · exact Or.inr (more h)
      · rcases h2 t k h with h | ⟨p, h, hk⟩
        · rw [create_ptable] at h; exact Or.inl h
        · exact Or.inr ⟨p, List.mem_cons_of_mem _ h, hk⟩
    | true =>
      obtain ⟨h1, h2⟩ := ih (done ++ [j]) (complete j X) (by rw [complete_heap, List.length_append, hl, hc])
      refine ⟨fun t k h => ?_, fun t k h => ?_⟩
      · rcases h1 t k h with h | h
        · cases hg : Dict.get k ((complete j X).table t) with
          | none => exact absurd hg h
          | some e =>
            rcases complete_table hg with h | ⟨ref, hr, hk⟩
            · left; rw [h]; simp
            · exact Or.inr ⟨[], j, l, ref, e, rfl, by simpa [hl] using hr, hk⟩
        · exact Or.inr (more h)
      · rcases h2 t k h with h | ⟨p, h, hk⟩
        · rcases complete_ptable j X t with ⟨p, rfl, e⟩ | e
          · rw [e] at h
            rcases foldl_set_keys_mem h with h | h
            · exact Or.inl h
            · exact Or.inr ⟨p, by simp, h⟩
          · rw [e] at h; exact Or.inl h
        · exact Or.inr ⟨p, List.mem_cons_of_mem _ h, hk⟩

theorem returnedOnly_lower (hd : PrefixDicts s) {p : Pool} {rest : List Job} (h : PoolInv env s js p rest) :
    Lower s js (returnedOnly p s) := by
  have hmap : (p.threads.map fun t => (t.job, Returned t)).map Prod.fst = jobs p := by simp [jobs, Function.comp_def]
  obtain ⟨h1, h2⟩ := Between.build (s := s) (js := js) (p.threads.map fun t => (t.job, Returned t)) [] rest s
    (by rw [hmap]; exact h.calls) (Between.refl hd js) (by simp [created_eq])
  refine ⟨h1, ?_⟩
  intro id o ho
  unfold returnedOnly at ho
  rw [h2, hmap] at ho
  rw [completed_heap hd, h.calls, List.flatMap_append, ← List.append_assoc,
    List.getElem?_append_left (List.getElem?_eq_some_iff.1 ho).1]
  exact ho

theorem returnedOnly_above (hd : PrefixDicts s) {p : Pool} {rest : List Job} (h : PoolInv env s js p rest) :
    Above (returnedOnly p s) p.shared := by
  have hmap : (p.threads.map fun t => (t.job, Returned t)).map Prod.fst = jobs p := by simp [jobs, Function.comp_def]
  obtain ⟨h1, h2⟩ := build_from (s := s) (p.threads.map fun t => (t.job, Returned t)) [] s (by simp [created_eq])
  have hh := (Between.build (s := s) (js := js) (p.threads.map fun t => (t.job, Returned t)) [] rest s
    (by rw [hmap]; exact h.calls) (Between.refl hd js) (by simp [created_eq])).2
  have kept : ∀ (i : Nat) t, p.threads[i]? = some t → Returned t = true →
      ∃ a, Kept env s js t.job (created ((jobs p).take i) s) (.ok a) p.shared := by
    intro i t ht hr
    obtain ⟨j, r⟩ := t
    unfold Returned at hr
    cases r with
    | none => cases hr
    | some m =>
      cases m with
      | act a k => cases hr
      | done r =>
        cases r with
        | error e => cases hr
        | ok a => exact ⟨a, h.threads i _ ht _ rfl p.shared h.shared (Grows.refl _ _)⟩
  refine ⟨?_, ?_, ?_⟩
  · intro t k hk
    rcases h1 t k hk with h' | ⟨a, j, b, ref, e, hl, hr, hkey⟩
    · exact h.base.tab t k h'
    · obtain ⟨A, r1, ht, ha, hr1⟩ := List.map_eq_append_iff.1 hl
      obtain ⟨th, B, rfl, hth, hB⟩ := List.map_eq_cons_iff.1 hr1
      simp only [Prod.mk.injEq] at hth
      have hget : p.threads[A.length]? = some th := by rw [ht]; simp
      obtain ⟨x, hx⟩ := kept A.length th hget hth.2
      have htake : (jobs p).take A.length = a.map Prod.fst := by
        rw [← ha]
        simp only [jobs, ht, List.map_append, List.map_map, Function.comp_def]
        rw [List.take_append_of_le_length (by simp), List.take_of_length_le (by simp)]
      rw [htake, hth.1] at hx
      exact (hx x rfl).2.1 ref e (by simpa using hr) t k (mem_keysOf.2 hkey)
  · show (build _ s).heap.length ≤ _
    rw [hh, h.len, hmap, created_eq]; simp
  · intro t k hk
    rcases h2 t k hk with h' | ⟨pre, hmem, hkey⟩
    · exact h.base.pkey h'
    · obtain ⟨th, hth, heq⟩ := List.mem_map.1 hmem
      simp only [Prod.mk.injEq] at heq
      obtain ⟨i, hi⟩ := List.getElem?_of_mem hth
      obtain ⟨x, hx⟩ := kept i th hi heq.2
      obtain ⟨p1, p2⟩ := (hx x rfl).2.2 pre heq.1
      cases t with
      | names => simp only [pkeysOf, List.mem_singleton] at hkey; subst hkey; exact p1
      | symbols => exact p2 k hkey

/-- the second phase: thread `i` was called when the lower bound held -/
structure Second (env : Env) (s : System) (js : List Job) (q : Prop) (L : System) (p₁ : Pool) (j : Job) (i : Nat) (p : Pool) :
    Prop where
  idle : ∀ k j' r, Finished p₁ k j' r → ∀ t, p.threads[k]? = some t → ∀ a c, t.rest ≠ some (.act a c)
  job : ∃ r, p.threads[i]? = some ⟨j, r⟩
  ok : ∀ m, p.threads[i]? = some ⟨j, some m⟩ →
    Ok env s js q (Post q (fun a => ∃ depth, answer env (completed js s) depth j = .ok a)
      (∀ a, answer env L (limit j) j ≠ .ok a)) m p.shared

theorem idle_step {p : Pool} {k : Nat} (hk : k < p.threads.length)
    (h : ∀ t, p.threads[k]? = some t → ∀ a c, t.rest ≠ some (.act a c)) (ev : Event) :
    ∀ t, (p.step env ev).threads[k]? = some t → ∀ a c, t.rest ≠ some (.act a c) := by
  intro t ht
  cases ev with
  | call j' =>
    simp only [Pool.step] at ht
    rw [List.getElem?_append_left hk] at ht
    exact h t ht
  | kill i =>
    simp only [Pool.step, List.getElem?_modify] at ht
    cases h0 : p.threads[k]? with
    | none => rw [h0] at ht; simp at ht
    | some t0 =>
      rw [h0] at ht
      by_cases e : i = k
      · simp [e] at ht; subst ht; exact fun a c hx => nomatch hx
      · simp [e] at ht; subst ht; exact h t0 h0
  | run i =>
    simp only [Pool.step] at ht
    cases h0 : p.threads[i]? with
    | none => rw [h0] at ht; exact h t ht
    | some t0 =>
      rw [h0] at ht
      simp only [List.getElem?_set] at ht
      by_cases e : i = k
      · subst e
        rw [if_pos rfl, if_pos hk] at ht
        have hi := h t0 h0
        cases ht
        unfold Thread.step
        split
        · rename_i a c heq; exact absurd heq (hi a c)
        · exact hi
      · rw [if_neg e] at ht; exact h t ht

theorem Second.step {p₁ : Pool} (hp₁ : ∀ k j' r, Finished p₁ k j' r → k < p₁.threads.length) {p : Pool} (hlen : p₁.threads.length ≤ p.threads.length) {ev : Event} {rest : List Job} {j : Job} {i : Nat} (h : PoolInv env s js p rest)
    (h2 : Second env s js q L p₁ j i p) (hq : q → ∀ k, ev = .run k → ∀ pre, js[k]? = some (.addPrefix pre) →
      ∃ j' r, Finished p₁ k j' r) :
    Second env s js q L p₁ j i (p.step env ev) := by
  have hidle : ∀ k j' r, Finished p₁ k j' r → ∀ t, (p.step env ev).threads[k]? = some t → ∀ a c, t.rest ≠ some (.act a c) :=
    fun k j' r hf => idle_step (Nat.lt_of_lt_of_le (hp₁ k j' r hf) hlen) (h2.idle k j' r hf) ev
  obtain ⟨r, hr⟩ := h2.job
  have hi : i < p.threads.length := (List.getElem?_eq_some_iff.1 hr).1
  cases ev with
  | call j' =>
    have e : (p.step env (.call j')).threads[i]? = p.threads[i]? := by
      simp only [Pool.step]; rw [List.getElem?_append_left hi]
    exact ⟨hidle, ⟨r, by rw [e]; exact hr⟩, fun m hm => (h2.ok m (by rw [← e]; exact hm)).later (Grows.create q j' _)⟩
  | kill k =>
    refine ⟨hidle, ?_, ?_⟩ <;> simp only [Pool.step]
    · by_cases e : k = i
      · exact ⟨none, by simp [List.getElem?_modify, hr, e]⟩
      · exact ⟨r, by simp [List.getElem?_modify, hr, e]⟩
    · intro m hm
      by_cases e : k = i
      · simp [List.getElem?_modify, hr, e] at hm
      · simp [List.getElem?_modify, hr, e] at hm
        subst hm
        exact h2.ok m hr
  | run k =>
    cases h0 : p.threads[k]? with
    | none =>
      have : p.step env (.run k) = p := by simp [Pool.step, h0]
      rw [this]; exact h2
    | some t =>
      have hstep : p.step env (.run k) = ⟨(t.step p.shared).2, p.threads.set k (t.step p.shared).1⟩ := by
        simp [Pool.step, h0]
      have hk : k < p.threads.length := (List.getElem?_eq_some_iff.1 h0).1
      rw [hstep] at hidle ⊢
      by_cases e : k = i
      · subst e
        rw [hr] at h0
        cases h0
        have hset : (p.threads.set k (Thread.step ⟨j, r⟩ p.shared).1)[k]? = some (Thread.step ⟨j, r⟩ p.shared).1 := by
          rw [List.getElem?_set, if_pos rfl, if_pos hk]
        cases r with
        | none => exact ⟨hidle, ⟨none, hset⟩, fun m hm => by rw [hset] at hm; cases hm⟩
        | some m =>
          have hm := h2.ok m hr
          cases m with
          | done x => exact ⟨hidle, ⟨_, hset⟩, fun m' hm' => by rw [hset] at hm'; cases hm'; exact hm⟩
          | act a c =>
            obtain ⟨h1, h3, h4⟩ := hm p.shared h.shared (Grows.refl _ _)
            refine ⟨hidle, ⟨_, hset⟩, fun m' hm' => ?_⟩
            rw [hset] at hm'
            cases hm'
            exact h4
      · have hset : (p.threads.set k (t.step p.shared).1)[i]? = some ⟨j, r⟩ := by
          rw [List.getElem?_set, if_neg e]; exact hr
        have hjob : js[k]? = some t.job := by
          rw [h.calls, List.getElem?_append_left (by simp [jobs]; exact hk)]
          simp [jobs, h0]
        have hG : Grows q p.shared (t.step p.shared).2 := by
          obtain ⟨j', rest'⟩ := t
          cases rest' with
          | none => exact Grows.refl _ _
          | some m =>
            cases m with
            | done x => exact Grows.refl _ _
            | act a c =>
              refine Grows.act a p.shared fun hqq => ?_
              refine (h.quiet _ (List.mem_of_getElem? h0) (fun pre hpre => ?_) _ rfl).1
              obtain ⟨j2, r2, hf⟩ := hq hqq k rfl pre (by rw [hjob]; exact congrArg some hpre)
              exact h2.idle k j2 r2 hf _ h0 a c rfl
        refine ⟨hidle, ⟨r, hset⟩, fun m hm => ?_⟩
        rw [hset] at hm
        cases hm
        exact (h2.ok m hr).later hG

theorem Second.run (hd : PrefixDicts s) (hc : ConflictFree s) (hm : NoSecondMeaning s js) {p : Pool} {rest : List Job} (evs : List Event)
    {p₁ : Pool} (hp₁ : ∀ k j' r, Finished p₁ k j' r → k < p₁.threads.length) (hlen : p₁.threads.length ≤ p.threads.length)
    {j : Job} {i : Nat} (h : PoolInv env s js p (called evs ++ rest)) (h2 : Second env s js q L p₁ j i p)
    (hq : q → ∀ k, Event.run k ∈ evs → ∀ pre, js[k]? = some (.addPrefix pre) → ∃ j' r, Finished p₁ k j' r) :
    PoolInv env s js (p.run env evs) rest ∧ Second env s js q L p₁ j i (p.run env evs) := by
  induction evs generalizing p with
  | nil => exact ⟨h, h2⟩
  | cons e evs ih =>
    rw [called_cons, List.append_assoc] at h
    have hle : p.threads.length ≤ (p.step env e).threads.length := by
      have h1 : ∀ p : Pool, (jobs p).length = p.threads.length := fun p => by simp [jobs]
      rw [← h1, ← h1]
      cases e with
      | call j => rw [jobs_call]; simp
      | kill i => rw [jobs_kill]; exact Nat.le_refl _
      | run i => rw [jobs_run]; exact Nat.le_refl _
    exact ih (p := p.step env e) (Nat.le_trans hlen hle) (PoolInv.step hd hc hm h)
      (h2.step hp₁ hlen h fun hqq k hk => hq hqq k (by rw [hk]; simp)) fun hqq k hk => hq hqq k (List.mem_cons_of_mem _ hk)

theorem answer_up (hd : PrefixDicts s) (hm : NoSecondMeaning s js) (hL : Lower s js L) {depth : Nat} {j : Job} {a : Answer}
    (hj : IsQuery j) (h : answer env L depth j = .ok a) : answer env (completed js s) depth j = .ok a := by
  cases j with
  | lookup l n =>
    simp only [answer] at h ⊢
    cases h1 : lookup env L depth n with
    | error e => rw [h1] at h; cases h
    | ok v => rw [lookup_up hd hm hL _ _ _ h1]; rw [h1] at h; exact h
  | unit l t =>
    simp only [answer] at h ⊢
    cases h1 : Spec.unit env L depth t with
    | error e => rw [h1] at h; cases h
    | ok v =>
      have : Spec.unit env (completed js s) depth t = .ok v := by
        unfold Spec.unit at h1 ⊢
        cases hp : env.parse t with
        | error e => rw [hp] at h1; cases h1
        | ok expr =>
          rw [hp] at h1
          cases h2 : ((env.order expr.identifiers).mapM fun n => (do .ok (n, ← lookup env L depth n) : Py (Str × Ref))) with
          | error e =>
            simp only [bind, Except.bind] at h1 h2
            rw [h2] at h1; cases h1
          | ok rs =>
            have h3 := mapM_up (lookup_up hd hm hL depth) _ h2
            simp only [bind, Except.bind] at h1 h2 h3 ⊢
            rw [h2] at h1
            rw [h3]
            exact h1
      rw [this]; rw [h1] at h; exact h
  | addUnit _ _ => exact hj.elim
  | define _ _ _ => exact hj.elim
  | addPrefix _ => exact hj.elim

end
end Verif.Live

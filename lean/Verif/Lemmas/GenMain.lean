import Verif.Lemmas.GenShift
import Verif.Lemmas.LexerCheck
import Verif.Spec.ParserHistory
/-!
# `unit_spec`, `parse` and the histories of the parser's cache
-/

namespace Verif.PSim
open ParserTable
set_option maxRecDepth 100000

/-! ## Histories -/

theorem Calls.typed {r : Int} {stack γ : List Nat} (h : Calls atn r stack γ) :
    TypedStack atn r (γOf stack) ∧ γOf stack = γ := by
  induction h with
  | root => exact ⟨rfl, rfl⟩
  | @call s st sq q r k f stack γ hs ht hq _ ih =>
    have hf : followOf atn s = f := by unfold followOf; rw [hs]; simp only [ht]
    have hg := good.call (f := f) hs (by rw [ht]; exact List.mem_singleton.2 rfl)
    refine ⟨?_, ?_⟩
    · show TypedStack atn _ (followOf atn s :: γOf stack)
      rw [hf]
      rw [ruleOf_eq hq] at hg
      exact ⟨hg.2.2.1, by rw [hg.2.1]; exact ih.1⟩
    · show followOf atn s :: γOf stack = _
      rw [hf, ih.2]

/-- the checked decisions -/
theorem decision_good {x : Nat × Nat} (h : x ∈ predicted) : GoodDecision atn x.2 (stateAt x.2) := by
  simp only [predicted, List.mem_cons, List.not_mem_nil, or_false] at h
  rcases h with rfl | rfl | rfl | rfl | rfl
  · exact decision48
  · exact decision68
  · exact decision70
  · exact decision84
  · exact decision147

theorem predicted_of {dec p : Nat} (h : dec ∈ predictedDecisions) (hp : atn.decisions[dec]? = some p) :
    (dec, p) ∈ predicted := by
  simp only [predictedDecisions, List.mem_cons, List.not_mem_nil, or_false] at h
  rcases h with rfl | rfl | rfl | rfl | rfl <;>
  · obtain rfl := Option.some.inj hp
    decide

theorem stateAt_eq {p : Nat} {st : AState} (h : atn.states[p]? = some st) : stateAt p = st := by
  unfold stateAt; rw [h]; rfl

theorem empty_ok : CachesOk (PCaches.empty atn) := by
  have h : ∀ x ∈ predicted, (PCaches.empty atn)[x.1]? = some ⟨[], []⟩ := by
    intro x hx
    simp only [predicted, List.mem_cons, List.not_mem_nil, or_false] at hx
    rcases hx with rfl | rfl | rfl | rfl | rfl <;> rfl
  intro x hx
  refine ⟨_, h x hx, ⟨?_, ?_⟩⟩
  · intro s hs; cases hs
  · intro cs t r hr; cases hr

theorem ParserHistory.ok {cs : List PDfa} (h : ParserHistory atn cs) : CachesOk cs := by
  induction h with
  | fresh => exact empty_ok
  | @predict cs dec p st d stack γ toks rec _ hdec hp hst hd hcalls ht ih =>
    have hmem := predicted_of hdec hp
    have hgood := decision_good hmem
    obtain ⟨d', h1, h2⟩ := ih _ hmem
    obtain rfl : d = d' := Option.some.inj (hd.symm.trans h1)
    rw [← stateAt_eq hst] at hcalls
    exact caches_set ih hmem hd (adaptivePredict_correct good hgood hcalls.typed.1 ht rec h2).2

/-! ## `unit_spec` -/

theorem v25 {ts : List Token} : V 25 [] ts ↔ ts = [] := by
  have h25 : At 25 false [.atom 26 (-1)] := rfl
  have h26 : V 26 = V 1 := v26
  have hst : ∃ st, atn.states[(1 : Nat)]? = some st ∧ st.isRuleStop = true ∧ st.trans = [] := st1.get
  constructor
  · intro h
    unfold V at h
    rw [acc_iff h25] at h
    rcases h with ⟨tr, h1, q', h2, h3⟩ | ⟨q', r', k', f', h1, h2⟩ | ⟨tr, h1, t, q', w', hw, h2, h3⟩
    · rw [List.mem_singleton] at h1; subst h1; cases h2
    · rw [List.mem_singleton] at h1; cases h1
    · rw [List.mem_singleton] at h1; subst h1
      simp only [ATrans.reachable] at h2
      split at h2
      next e =>
        cases ts with
        | nil => rfl
        | cons x xs =>
          simp only [word, List.map_cons, List.cons_append, List.cons.injEq] at hw
          have := Kind.id_pos x.kind
          omega
      · cases h2
  · rintro rfl
    obtain ⟨st, h1, h2, _⟩ := hst
    unfold V
    rw [acc_iff h25]
    refine Or.inr (Or.inr ⟨_, List.mem_singleton.2 rfl, -1, 26, [], rfl, rfl, ?_⟩)
    have h26' : At 26 false [.epsilon 1] := rfl
    rw [acc_iff h26']
    exact Or.inl ⟨_, List.mem_singleton.2 rfl, 1, rfl, .done h1 h2⟩

theorem v24_iff {ts : List Token} : V 24 [] ts ↔ ts = [] := by rw [v24]; exact v25

/-- the automaton accepts what the grammar's parser does -/
theorem find_of_V {n : Nat} {ts : List Token} (h : ¬ V 22 [] ts) :
    (shiftSpecP n ts).find? (fun q => q.2.isEmpty) = none := by
  rw [List.find?_eq_none]
  intro x hx he
  refine h (sound_callV v22 st3 (sound_shiftSpec n) [] ts x hx ?_)
  rw [v24_iff]
  simpa using he

theorem ResOk.elim {τ α : Type} {k : Nat} {Wp Wq : Cond} {Pm : P α} {Rel : τ → α → Prop} {γ : List Nat} {ts : List Token}
    {res : CProg (GRes τ)} (h : ResOk k Wp Wq Pm Rel γ ts res) : (res = .done .syntaxError ∧ ¬ Wp γ ts) ∨
    ∃ x a ts', res = .done (.ok x (ts'.map Token.raw)) ∧ (a, ts') ∈ Pm ts ∧ Rel x a ∧
      (Wp γ ts → First (Pm ts) (fun y => Wq γ y.2) (a, ts')) := by
  unfold ResOk at h
  obtain ⟨res, rfl, h⟩ := h
  cases res with
  | stuck => exact h.elim
  | syntaxError => exact Or.inl ⟨rfl, h⟩
  | ok x s =>
    obtain ⟨a, ts', rfl, _, _, h5, h6, h7⟩ := h
    exact Or.inr ⟨x, a, ts', rfl, h5, h6, h7⟩

/-- the call of `shift_spec` in `unit_spec` -/
theorem shift_call (rec : Recover) {ts : List Token} (hc : Convertible ts) :
    ResOk 1 (V 22) (V 24) (shiftSpecP (ts.length + 1)) RN [] ts
      (G.call 22 (G.remaining fun n => shiftSpecG (n + 1)) (pureRun rec) ⟨[], 0⟩ (ts.map Token.raw)) := by
  have h := sim_callV v22 st3 (r := 0) (by dk) (by dk) (by dk) (sim_shiftSpec (ts.length + 1)) rec [] ts
    (Nat.lt_succ_self _) hc rfl
  show ResOk _ _ _ _ _ _ _ (shiftSpecG ((ts.map Token.raw).length + 1) _ _ _)
  rw [List.length_map]
  exact h

theorem visit_unit {t : PTree} {n : Node} {c : Str} (h : RN t n) : visit (.rule 0 [t, .term (-1) c]) = .ok (.node n) := by
  simp [visit, visitAll, visitTerm, visitRule, visitUnit, aggregate, Val.unwrap, h]

theorem starts_iff {ts : List Token} (h : V 22 [] ts) : startsSpec (laOf ts) = true := by
  have hf : Fst 0 (V 22) (nextsOf 22) := fst_V (by dk)
  have hm := hf [] ts rfl h
  have : ∀ t ∈ nextsOf 22, startsSpec t = true := by dk
  exact this _ hm

theorem sync23 {ts : List Token} (h : V 22 [] ts ∨ ts = []) : syncOk atn 23 (laOf ts) = true := by
  have hf : Fst 0 (V 23) (nextsOf 23) := fst_V (by dk)
  have hv : V 23 [] ts := by
    rw [v23]
    rcases h with h | rfl
    · exact Or.inl h
    · exact Or.inr (v24_iff.2 rfl)
  have : ∀ t ∈ nextsOf 23, syncOk atn 23 t = true := by dk
  exact this _ (hf [] ts rfl hv)

/-- `unit_spec` with any method in the place of `shift_spec` -/
def unitWith (g : G PTree) : G PTree := mkRule 0 do
  G.sync 23
  let l ← G.la
  let a ← if startsSpec l then do
      let t ← g
      pure [t]
    else pure []
  let e ← G.tok (-1)
  pure (a ++ [e])

section
variable {g : G PTree} {R : Run} {c : GCtx} {ts : List Token}

theorem bind_assoc_done {τ τ' : Type} {g : G τ} {f : τ → G τ'} {s s' : Toks} {a : τ} (h : g R c s = .done (.ok a s')) :
    (g >>= f) R c s = f a R c s' := bind_done h

theorem bind_error {τ τ' : Type} {g : G τ} {f : τ → G τ'} {s : Toks} (h : g R c s = .done .syntaxError) :
    (g >>= f) R c s = .done .syntaxError := bind_done h

theorem unit_sync (h : syncOk R.atn 23 (laOf ts) = false) : unitWith g R c (ts.map Token.raw) = .done .syntaxError := by
  refine bind_error (bind_error ?_)
  rw [sync_eq, h]; rfl

theorem la_eq : G.la R c (ts.map Token.raw) = .done (.ok (laOf ts) (ts.map Token.raw)) := by cases ts <;> rfl

theorem sync_true {s : Nat} (h : syncOk R.atn s (laOf ts) = true) :
    G.sync s R c (ts.map Token.raw) = .done (.ok () (ts.map Token.raw)) := by rw [sync_eq, h]; rfl

/-- the end of `unit_spec` -/
theorem unit_end {l : List PTree} : (G.tok (-1) >>= fun e => (pure (l ++ [e]) : G (List PTree))) R c (ts.map Token.raw) =
    .done (if ts = [] then .ok (l ++ [.term (-1) "<EOF>".toList]) [] else .syntaxError) := by
  cases ts with
  | nil => rfl
  | cons t ts =>
    have := Kind.id_pos t.kind
    rw [if_neg (by simp)]
    refine bind_error ?_
    show CProg.done (if t.kind.id = -1 then _ else _) = _
    rw [if_neg (by omega)]

theorem rule_end {i : Nat} {g : G (List PTree)} {s : Toks} {p : Prop} [Decidable p] {l : List PTree}
    (h : g R c s = .done (if p then .ok l [] else .syntaxError)) :
    mkRule i g R c s = .done (if p then .ok (.rule i l) [] else .syntaxError) := by
  show (g >>= _) R c s = _
  rw [bind_done h]
  split <;> rfl

theorem unit_none (h : syncOk R.atn 23 (laOf ts) = true) (hl : startsSpec (laOf ts) = false) :
    unitWith g R c (ts.map Token.raw) =
      .done (if ts = [] then .ok (.rule 0 [.term (-1) "<EOF>".toList]) [] else .syntaxError) := by
  refine rule_end ?_
  rw [bind_assoc_done (sync_true h), bind_assoc_done la_eq, hl]
  exact (bind_assoc_done rfl).trans (unit_end (l := []))

theorem unit_error (h : syncOk R.atn 23 (laOf ts) = true) (hl : startsSpec (laOf ts) = true)
    (hg : g R c (ts.map Token.raw) = .done .syntaxError) :
    unitWith g R c (ts.map Token.raw) = .done .syntaxError := by
  refine bind_error ?_
  rw [bind_assoc_done (sync_true h), bind_assoc_done la_eq, hl]
  exact bind_error hg

theorem unit_some (h : syncOk R.atn 23 (laOf ts) = true) (hl : startsSpec (laOf ts) = true) {x : PTree}
    {ts' : List Token} (hg : g R c (ts.map Token.raw) = .done (.ok x (ts'.map Token.raw))) :
    unitWith g R c (ts.map Token.raw) =
      .done (if ts' = [] then .ok (.rule 0 [x, .term (-1) "<EOF>".toList]) [] else .syntaxError) := by
  refine rule_end ?_
  rw [bind_assoc_done (sync_true h), bind_assoc_done la_eq, hl]
  refine (bind_assoc_done (a := x) (s' := ts'.map Token.raw) ?_).trans
    ((bind_assoc_done (a := [x]) (s' := ts'.map Token.raw) rfl).trans (unit_end (l := [x])))
  exact hg
end

theorem unitSpec_eq : unitSpecG = unitWith (G.call 22 (G.remaining fun n => shiftSpecG (n + 1))) := by
  unfold unitSpecG unitWith; rfl

theorem parse_none {ts : List Token} (h : ¬ V 22 [] ts) :
    parseTokens ts = if ts = [] then .ok (.unhandled []) else .error .syntaxError := by
  unfold parseTokens
  rw [find_of_V h]
  cases ts <;> rfl

theorem visit_empty {c : Str} : visit (.rule 0 [.term (-1) c]) = .ok (.node (.unhandled [])) := by
  simp [visit, visitAll, visitTerm, visitRule, visitUnit, aggregate, Val.unwrap]

/-- The generated parser, its predictions taken as values, does what the grammar's parser does. -/
theorem unitSpec_ok (rec : Recover) {ts : List Token} (hc : Convertible ts) :
    ∃ res, unitSpecG (pureRun rec) ⟨[], 0⟩ (ts.map Token.raw) = .done res ∧ finish res = some (parseTokens ts) := by
  rw [unitSpec_eq]
  have hcall := shift_call rec hc
  generalize G.call 22 (G.remaining fun n => shiftSpecG (n + 1)) = g at hcall
  cases hsy : syncOk atn 23 (laOf ts) with
  | false =>
    refine ⟨_, unit_sync hsy, ?_⟩
    have hno : ¬ (V 22 [] ts ∨ ts = []) := fun h => by rw [sync23 h] at hsy; cases hsy
    rw [parse_none fun h => hno (Or.inl h), if_neg fun h => hno (Or.inr h)]
    rfl
  | true =>
    cases hst : startsSpec (laOf ts) with
    | false =>
      refine ⟨_, unit_none hsy hst, ?_⟩
      rw [parse_none fun h => by rw [starts_iff h] at hst; cases hst]
      split
      · simp only [finish, visit_empty]; rfl
      · rfl
    | true =>
      have hne : ts ≠ [] := by rintro rfl; exact absurd hst (by decide)
      rcases hcall.elim with ⟨he, hv⟩ | ⟨x, a, ts', he, hmem, hrel, hfirst⟩
      · refine ⟨_, unit_error hsy hst he, ?_⟩
        rw [parse_none hv, if_neg hne]; rfl
      · refine ⟨_, unit_some hsy hst he, ?_⟩
        by_cases hts : ts' = []
        · subst hts
          rw [if_pos rfl]
          simp only [finish, visit_unit hrel]
          have hV : V 22 [] ts := sound_callV v22 st3 (sound_shiftSpec _) [] ts _ hmem (v24_iff.2 rfl)
          have hf := hfirst hV
          have hf' : First (shiftSpecP (ts.length + 1) ts) (fun y => y.2.isEmpty = true) (a, []) := by
            obtain ⟨l1, l2, h1, h2, h3⟩ := hf
            refine ⟨l1, l2, h1, rfl, ?_⟩
            intro y hy hyE
            exact h3 y hy (v24_iff.2 (by simpa using hyE))
          have hfind := hf'.unique
          unfold parseTokens
          rw [show (fun q : Node × List Token => q.2.isEmpty) = fun y => decide (y.2.isEmpty = true) by
            funext y; cases y.2.isEmpty <;> rfl, hfind]
          rfl
        · rw [if_neg hts]
          have hV : ¬ V 22 [] ts := by
            intro hV
            obtain ⟨_, _, _, h2, _⟩ := hfirst hV
            exact hts (v24_iff.1 h2)
          rw [parse_none hV, if_neg hne]; rfl

/-- the automaton accepts a text's tokens iff the grammar's parser does -/
theorem V22_iff {ts : List Token} (hc : Convertible ts) :
    V 22 [] ts ↔ ∃ n, (n, []) ∈ shiftSpecP (ts.length + 1) ts := by
  constructor
  · intro hV
    rcases (shift_call (fun _ => none) hc).elim with ⟨_, hv⟩ | ⟨x, a, ts', _, hmem, _, hfirst⟩
    · exact absurd hV hv
    · obtain ⟨_, _, _, h2, _⟩ := hfirst hV
      have : ts' = [] := v24_iff.1 h2
      subst this
      exact ⟨a, hmem⟩
  · rintro ⟨n, hn⟩
    exact sound_callV v22 st3 (sound_shiftSpec _) [] ts _ hn (v24_iff.2 rfl)

end Verif.PSim

import Verif.Lemmas.ParserBound
import Verif.Lemmas.PrintParse
/-!
# `parse` under a recursion limit
-/

namespace Verif.PSim
open ParserTable
set_option maxRecDepth 100000

theorem parseTokens_cases (ts : List Token) : (∃ n, parseTokens ts = .ok n) ∨ parseTokens ts = .error .syntaxError := by
  unfold parseTokens
  split
  · exact Or.inl ⟨_, rfl⟩
  · split
    · exact Or.inl ⟨_, rfl⟩
    · exact Or.inr rfl

/-- the frames the visitor needs, from its result without limit -/
def visitNeeds (t : PTree) : Py Val → Nat
  | .ok _ => t.frames + 1
  | .error _ => 0

/-- the frames needed, from the outcome of the parser -/
def needed : GRes PTree → Nat
  | .ok t _ => visitNeeds t (visit t)
  | _ => 0

theorem finishLim_eq {res : GRes PTree} {ts : List Token} (h : finish res = some (parseTokens ts)) (limit : Nat) :
    finishLim limit res = some (if needed res ≤ limit then parseTokens ts else .error .recursionError) := by
  cases res with
  | stuck => cases h
  | syntaxError =>
    have h : some (.error .syntaxError) = some (parseTokens ts) := h
    rw [← Option.some.inj h]; rfl
  | ok t s =>
    unfold finish at h
    dsimp only at h
    cases hv : visit t with
    | error e =>
      rw [hv] at h
      have h := Option.some.inj h
      rcases parseTokens_cases ts with ⟨n, hn⟩ | hn
      · rw [hn] at h; cases h
      · rw [hn] at h; cases h; exact absurd hv (visit_syntax t)
    | ok v =>
      rw [hv] at h
      have h : v.toNode = parseTokens ts := Option.some.inj h
      obtain ⟨h1, h2⟩ := visitLim_eq (limit - 1) t v hv
      have hn : needed (.ok t s) = t.frames + 1 := by simp only [needed, hv, visitNeeds]
      rw [hn]
      unfold finishLim
      cases limit with
      | zero => rfl
      | succ limit =>
        simp only [visitorLim]
        simp only [Nat.add_sub_cancel] at h1 h2
        by_cases hf : t.frames ≤ limit
        · rw [h1 hf, if_pos (by omega)]; exact congrArg some h
        · rw [h2 (by omega), if_neg (by omega)]

theorem needed_le {res : GRes PTree} {N : Nat} (h : GRes.Sat (fun t _ => Fine t → t.frames ≤ N) res) : needed res ≤ N + 1 := by
  cases res with
  | stuck => exact Nat.zero_le _
  | syntaxError => exact Nat.zero_le _
  | ok t s =>
    simp only [needed]
    cases hv : visit t with
    | error e => exact Nat.zero_le _
    | ok v => have : t.frames ≤ N := h ⟨v, hv⟩; show t.frames + 1 ≤ _; omega

theorem needed_gt {res : GRes PTree} {n : Node} (h : finish res = some (.ok n)) : 4 * n.depth < needed res := by
  cases res with
  | stuck => cases h
  | syntaxError => cases Option.some.inj h
  | ok t s =>
    unfold finish at h
    simp only [needed]
    dsimp only at h
    cases hv : visit t with
    | error e => rw [hv] at h; cases Option.some.inj h
    | ok v =>
      rw [hv] at h
      have h : v.toNode = .ok n := Option.some.inj h
      have := visit_depth t v hv
      cases v with
      | node m => cases h; simp only [Val.depth] at this; show _ < t.frames + 1; omega
      | none => cases h
      | str s => cases h
      | list vs => cases h

set_option linter.constructorNameAsVariable false in
theorem parserLim_safe (limit : Nat) (rec : Recover) {toks : Toks} {res : GRes PTree} {x : Py Node}
    (hu : Safe (fun r => CProg.done res = .done r) (unitSpecG (generatedRun atn rec) ⟨[], 0⟩ toks))
    (h : finishLim limit res = some x) : Safe (· = some x) (parserLimP limit rec toks) := by
  unfold parserLimP
  rw [parser_atn]
  dsimp only
  generalize unitSpecG (generatedRun atn rec) ⟨[], 0⟩ toks = p at hu
  refine Safe.bind ?_ hu
  intro r hr
  cases hr
  exact h

attribute [local irreducible] Safe parserLimP unitSpecG

theorem parserLim_tokens (rec : Recover) {ts : List Token} (hc : Convertible ts) :
    ∃ need, (∀ limit, Safe (· = some (if need ≤ limit then parseTokens ts else .error .recursionError))
        (parserLimP limit rec (ts.map Token.raw))) ∧
      need ≤ 10 * ts.length + 25 ∧ ∀ n, parseTokens ts = .ok n → 4 * n.depth < need := by
  have h := unitSpec_ok rec hc
  have hu := Uni.out uni_unitSpec rec [] (ts.map Token.raw)
  have hb := ret_unitSpec (pureRun rec) ⟨[], 0⟩ (ts.map Token.raw)
  generalize unitSpecG (pureRun rec) ⟨[], 0⟩ (ts.map Token.raw) = p at h hu hb
  obtain ⟨res, rfl, h2⟩ := h
  refine ⟨needed res, fun limit => parserLim_safe limit rec hu (finishLim_eq h2 limit), ?_, ?_⟩
  · have := needed_le hb
    simpa using this
  · intro n hn
    rw [hn] at h2
    exact needed_gt h2

theorem parseLim_safe (rec : Recover) (s : Str) :
    ∃ need, (∀ limit, Safe (· = some (if need ≤ limit then parse s else .error .recursionError)) (parseLimP limit rec s)) ∧
      need ≤ 10 * (lex (strip s)).length + 25 ∧ ∀ n, parse s = .ok n → 4 * n.depth < need := by
  obtain ⟨need, h1, h2⟩ := parserLim_tokens rec (convertible_lex (strip s))
  refine ⟨need, fun limit => ?_, h2⟩
  unfold parseLimP parse
  refine Safe.bind (Q := (· = some ((lex (strip s)).map Token.raw))) ?_ (lex_safe (strip s))
  intro o ho
  subst ho
  exact h1 limit

theorem flatten_length_ge {α : Type} : ∀ {l : List (List α)}, (∀ x ∈ l, x ≠ []) → l.length ≤ l.flatten.length
  | [], _ => Nat.le_refl _
  | x :: l, h => by
    have h1 := flatten_length_ge (l := l) fun y hy => h y (List.mem_cons_of_mem _ hy)
    have h2 : 0 < x.length := List.length_pos_iff.2 (h x List.mem_cons_self)
    rw [List.flatten_cons, List.length_append, List.length_cons]
    omega

theorem lex_length (s : Str) : (lex s).length ≤ s.length := by
  obtain ⟨h1, h2⟩ := tokenises_lossless ((lex_iff s _).1 rfl)
  have := flatten_length_ge (l := (lex s).map Token.text) (by
    intro x hx
    obtain ⟨t, ht, rfl⟩ := List.mem_map.1 hx
    exact h2 t ht)
  rw [h1, List.length_map] at this
  exact this

theorem strip_length (s : Str) : (strip s).length ≤ s.length := by
  unfold strip lstrip
  have h1 : ∀ (p : Char → Bool) (l : Str), (l.dropWhile p).length ≤ l.length := fun p l => (List.dropWhile_sublist p).length_le
  repeat first | rw [List.length_reverse] | refine Nat.le_trans (h1 _ _) ?_
  exact Nat.le_refl _

theorem parseLim_ok (rec : Recover) (s : Str) :
    ∃ need, need ≤ 10 * s.length + 25 ∧ (∀ n, parse s = .ok n → 4 * n.depth < need) ∧
      ∀ (limit : Nat) {lexer : Caches} {parser : List PDfa}, MemOk ⟨lexer, parser⟩ →
        ∃ lexer' parser', generatedParseLim limit rec s lexer parser =
          some (if need ≤ limit then parse s else .error .recursionError, lexer', parser') ∧ MemOk ⟨lexer', parser'⟩ := by
  obtain ⟨need, h1, h2, h3⟩ := parseLim_safe rec s
  refine ⟨need, ?_, h3, ?_⟩
  · have := lex_length (strip s)
    have := strip_length s
    omega
  · intro limit lexer parser hm
    obtain ⟨a, b⟩ := alone_ok (h1 limit) hm
    refine ⟨_, _, ?_, b⟩
    unfold generatedParseLim
    dsimp only
    rw [a]; rfl

end Verif.PSim

import Verif.Spec.Generated
import Verif.Spec.Automaton
import Verif.Model.GeneratedParser
/-!
# The generated parser: contexts in which it predicts, histories of the shared cache
-/

namespace Verif.PSim

/-- The contexts in which a rule can be running: the states from which rules were invoked, innermost first, and the states they
return to. -/
inductive Calls (A : Atn) : Int → List Nat → List Nat → Prop
  | root : Calls A 0 [] []
  | call {s : Nat} {st sq : AState} {q : Nat} {r k : Int} {f : Nat} {stack γ : List Nat} : A.states[s]? = some st →
      st.trans = [.rule q r k f] → A.states[q]? = some sq → Calls A st.rule stack γ → Calls A sq.rule (s :: stack) (f :: γ)

/-- The decisions for which the generated parser asks for a prediction (`self._interp.adaptivePredict(self._input, n, self._ctx)`,
`_grammar/parser/udunits2Parser.py:1766,1880,1888,1987,2033,2358`). -/
def predictedDecisions : List Nat := [5, 7, 8, 9, 23]

/-- The caches a process can have: empty when the module is imported, then changed by any number of predictions, each at any of
these decisions, in any context and on any remaining tokens (whole texts, texts given up in the middle, and several parsers
taking turns included). -/
inductive ParserHistory (A : Atn) : List PDfa → Prop
  | fresh : ParserHistory A (PCaches.empty A)
  | predict {cs : List PDfa} {dec p : Nat} {st : AState} {d : PDfa} {stack γ : List Nat} {toks : List Int} {rec : Recover} :
      ParserHistory A cs → dec ∈ predictedDecisions → A.decisions[dec]? = some p → A.states[p]? = some st →
      cs[dec]? = some d → Calls A st.rule stack γ → (∀ t ∈ toks, t ≠ -1) →
      ParserHistory A (cs.set dec (adaptivePredict A rec p 0 stack toks d).2)

/-- Alternative `i` (from 0) of a decision leads to a state from which the automaton can consume the remaining tokens and
the end of the input. -/
def ViableAlt (A : Atn) (st : AState) (γ : List Nat) (toks : List Int) (i : Nat) : Prop :=
  ∃ q, st.trans[i]? = some (.epsilon q) ∧ AtnAccepts A q γ (toks ++ [-1])

end Verif.PSim

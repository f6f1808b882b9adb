import Verif.Model.ParserSim
/-!
# What the parser's automaton accepts

Independent of any prediction: the automaton is read as a pushdown automaton.  A call pushes the state to return to,
the end of a rule pops one; a token moves along a matching transition.
-/

namespace Verif

/-- The target of a transition that consumes nothing and calls nothing.  A precedence predicate is satisfied at precedence 0,
the only one the generated parser uses. -/
def ATrans.silent : ATrans → Option Nat
  | .epsilon q => some q
  | .action q _ _ => some q
  | .precedence q k => if 0 ≤ k then some q else none
  | _ => none

/-- From state `p` with the given stack of return states the automaton can consume exactly the given tokens (types; the end of
the input is the token -1) and end. -/
inductive AtnAccepts (A : Atn) : Nat → List Nat → List Int → Prop
  | done {p : Nat} {st : AState} : A.states[p]? = some st → st.isRuleStop = true → AtnAccepts A p [] []
  | ret {p : Nat} {st : AState} {f : Nat} {γ : List Nat} {w : List Int} : A.states[p]? = some st →
      st.isRuleStop = true → AtnAccepts A f γ w → AtnAccepts A p (f :: γ) w
  | silent {p : Nat} {st : AState} {tr : ATrans} {q : Nat} {γ : List Nat} {w : List Int} : A.states[p]? = some st →
      tr ∈ st.trans → tr.silent = some q → AtnAccepts A q γ w → AtnAccepts A p γ w
  | call {p : Nat} {st : AState} {q : Nat} {r k : Int} {f : Nat} {γ : List Nat} {w : List Int} : A.states[p]? = some st →
      ATrans.rule q r k f ∈ st.trans → AtnAccepts A q (f :: γ) w → AtnAccepts A p γ w
  | tok {p : Nat} {st : AState} {tr : ATrans} {t : Int} {q : Nat} {γ : List Nat} {w : List Int} : A.states[p]? = some st →
      tr ∈ st.trans → tr.reachable t = some q → AtnAccepts A q γ w → AtnAccepts A p γ (t :: w)

end Verif

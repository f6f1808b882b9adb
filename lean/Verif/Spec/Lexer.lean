import Verif.Model.Lexer
/-!
# What tokenising means: regular languages, maximal munch
-/

namespace Verif

/-- The language of a regular expression. -/
inductive Matches : Re → Str → Prop
  | eps : Matches .eps []
  | cls {c : Char} {rs : List (Char × Char)} (lo hi : Char) : (lo, hi) ∈ rs → lo.toNat ≤ c.toNat → c.toNat ≤ hi.toNat →
      Matches (.cls rs) [c]
  | seq {a b : Re} {s t : Str} : Matches a s → Matches b t → Matches (.seq a b) (s ++ t)
  | altL {a b : Re} {s : Str} : Matches a s → Matches (.alt a b) s
  | altR {a b : Re} {s : Str} : Matches b s → Matches (.alt a b) s
  | starNil {a : Re} : Matches (.star a) []
  | starCons {a : Re} {s t : Str} : Matches a s → Matches (.star a) t → Matches (.star a) (s ++ t)

/-- In mode `m` the text `s` starts with a token of type `k` and length `n`, after which the mode is `m'`:
rule number `i` of the mode matches that prefix, no rule matches a longer one, and no earlier rule matches one as
long. -/
def NextToken (m : Mode) (s : Str) (k : Kind) (n : Nat) (m' : Mode) : Prop :=
  ∃ (i : Nat) (r : Re) (mo : Option Mode), m.rules[i]? = some (k, r, mo) ∧ m' = mo.getD m ∧
    0 < n ∧ n ≤ s.length ∧ Matches r (s.take n) ∧
    (∀ k' r' mo', (k', r', mo') ∈ m.rules → ∀ j, j ≤ s.length → Matches r' (s.take j) → j ≤ n) ∧
    (∀ i' : Nat, i' < i → ∀ k' r' mo', m.rules[i']? = some (k', r', mo') → ¬ Matches r' (s.take n))

/-- The mode after a token: a shift sign enters shift mode, an identifier the after-identifier mode; the
after-identifier mode ends with the next token (whatever it is); shift mode is never left. -/
def Mode.after : Mode → Kind → Mode
  | .DEFAULT_MODE, .SHIFT_OP => .SHIFT_MODE
  | .DEFAULT_MODE, .ID => .ID_SEEN
  | .DEFAULT_MODE, _ => .DEFAULT_MODE
  | .SHIFT_MODE, _ => .SHIFT_MODE
  | .ID_SEEN, _ => .DEFAULT_MODE

/-- The tokens of a text, token by token. -/
inductive Tokenises : Mode → Str → List Token → Prop
  | nil (m : Mode) : Tokenises m [] []
  | cons {m m' : Mode} {s : Str} {k : Kind} {n : Nat} {ts : List Token} : NextToken m s k n m' →
      Tokenises m' (s.drop n) ts → Tokenises m s (⟨k, s.take n⟩ :: ts)

end Verif

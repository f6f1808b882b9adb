import Verif.Spec.Lexer
import Verif.Model.LexerSim
/-!
# The generated lexer: numbers of token types and modes, histories of the shared cache
-/

namespace Verif

/-- Token type numbers: class attributes of the generated lexer (`_grammar/parser/udunits2Lexer.py:5538-5564`). -/
def Kind.id : Kind → Int
  | .SIGNED_INT => 1 | .PLUS => 2 | .MULTIPLY => 3 | .DIVIDE => 4 | .PERIOD => 5 | .OPEN_PAREN => 6
  | .CLOSE_PAREN => 7 | .SEMICOLON => 8 | .INT => 9 | .E_POWER => 10 | .FLOAT => 11 | .SHIFT_OP => 12
  | .UNICODE_EXPONENT => 13 | .RAISE => 14 | .LOG => 15 | .ID => 16 | .LATIN_SUBSET => 17 | .WS => 18
  | .ERRORCHARACTER => 19 | .TIMEZONE => 20 | .TZ => 21 | .HOUR_MINUTE_SECOND => 22 | .HOUR_MINUTE => 23
  | .M_MINUS => 24 | .DATE => 25 | .T => 26 | .TIMESTAMP => 27

/-- Mode numbers (`modeNames`, `_grammar/parser/udunits2Lexer.py:5535-5536,5568`). -/
def Mode.id : Mode → Nat
  | .DEFAULT_MODE => 0 | .SHIFT_MODE => 1 | .ID_SEEN => 2

/-- What the generated lexer says of a token: its type number and its text. -/
def Token.raw (t : Token) : Int × Str := (t.kind.id, t.text)

/-- The caches a process can have: empty when the module is imported, then changed by any number of searches for a next token,
each in any mode on any text (whole texts, texts given up in the middle, and several lexers taking turns included). -/
inductive CacheHistory : Caches → Prop
  | fresh : CacheHistory Caches.empty
  | token {A : Atn} {cs : Caches} {m : Mode} {d d' : Dfa} {text : Str} {r : MatchResult} : CacheHistory cs →
      deserialize lexerAtnData = some A → cs[m.id]? = some d → simMatch A m.id text d = some (r, d') →
      CacheHistory (cs.set m.id d')

end Verif

import Verif.Py
/-!
# The lexer (`_grammar/udunits2Lexer.g4.jinja`, compiled into `_grammar/parser/udunits2Lexer.py`)

The grammar file is transcribed rule by rule as regular expressions.  The ANTLR runtime
(`_antlr4_runtime/atn/LexerATNSimulator.py`) is modelled by its specification: at each position take
the longest match over the rules of the current mode and, among equally long ones, the rule listed
first.  Regular expressions are run with derivatives.
-/

namespace Verif

/-- Regular expressions over code points; a character class is a list of closed ranges. -/
inductive Re where
  | void
  | eps
  | cls (ranges : List (Char × Char))
  | seq (a b : Re)
  | alt (a b : Re)
  | star (a : Re)
  deriving DecidableEq, Repr

/-- membership in a character class -/
def inRanges (c : Char) (rs : List (Char × Char)) : Bool :=
  rs.any fun (lo, hi) => Nat.ble lo.toNat c.toNat && Nat.ble c.toNat hi.toNat

namespace Re

def nullable : Re → Bool
  | .void => false
  | .eps => true
  | .cls _ => false
  | .seq a b => a.nullable && b.nullable
  | .alt a b => a.nullable || b.nullable
  | .star _ => true

/-- concatenation, dropping the trivial cases -/
def mkSeq : Re → Re → Re
  | .void, _ => .void
  | .eps, b => b
  | a, b => .seq a b

/-- alternation, dropping the trivial cases -/
def mkAlt : Re → Re → Re
  | .void, b => b
  | a, .void => a
  | a, b => .alt a b

def deriv (c : Char) : Re → Re
  | .void => .void
  | .eps => .void
  | .cls rs => if inRanges c rs then .eps else .void
  | .seq a b =>
    if a.nullable then mkAlt (mkSeq (a.deriv c) b) (b.deriv c) else mkSeq (a.deriv c) b
  | .alt a b => mkAlt (a.deriv c) (b.deriv c)
  | .star a => mkSeq (a.deriv c) (.star a)

/-- length of the longest prefix of the input that matches -/
def longest : Re → Str → Option Nat
  | r, [] => if r.nullable then some 0 else none
  | r, c :: s =>
    match r with
    | .void => none
    | r =>
      match longest (r.deriv c) s with
      | some n => some (n + 1)
      | none => if r.nullable then some 0 else none

/-! Notation used by the grammar file. -/
def chr (c : Char) : Re := .cls [(c, c)]
def lit : Str → Re
  | [] => .eps
  | [c] => chr c
  | c :: cs => .seq (chr c) (lit cs)
def oneOf (cs : Str) : Re := .cls (cs.map fun c => (c, c))
def range (a b : Char) : Re := .cls [(a, b)]
def opt (r : Re) : Re := .alt r .eps
def plus (r : Re) : Re := .seq r (.star r)
def alts : List Re → Re
  | [] => .void
  | [r] => r
  | r :: rs => .alt r (alts rs)
def seqs : List Re → Re
  | [] => .eps
  | [r] => r
  | r :: rs => .seq r (seqs rs)
end Re

open Re

/-- Token types (`udunits2Lexer.py`, class attributes 1–27). -/
inductive Kind where
  | SIGNED_INT | PLUS | MULTIPLY | DIVIDE | PERIOD | OPEN_PAREN | CLOSE_PAREN | SEMICOLON | INT
  | E_POWER | FLOAT | SHIFT_OP | UNICODE_EXPONENT | RAISE | LOG | ID | LATIN_SUBSET | WS
  | ERRORCHARACTER | TIMEZONE | TZ | HOUR_MINUTE_SECOND | HOUR_MINUTE | M_MINUS | DATE | T | TIMESTAMP
  deriving DecidableEq, Repr

/-- Lexer modes (`modeNames`). -/
inductive Mode where
  | DEFAULT_MODE | SHIFT_MODE | ID_SEEN
  deriving DecidableEq, Repr

/-! ## Rules and fragments (line numbers of `udunits2Lexer.g4.jinja`) -/
namespace Rule

def WS : Re := chr ' '                                             -- 86
def PLUS : Re := chr '+'                                           -- 11
def MINUS : Re := chr '-'                                          -- 12
def INT : Re := plus (range '0' '9')                               -- 21
def SIGNED_INT : Re := .seq (.alt MINUS PLUS) INT                  -- 9
def MULTIPLY : Re := alts [chr '*', chr '·', MINUS]                -- 13
def DIVIDE : Re :=                                                 -- 14
  seqs [.star WS, alts [chr '/', lit c!" PER ", lit c!" per "], .star WS]
def PERIOD : Re := chr '.'                                         -- 15
def OPEN_PAREN : Re := chr '('                                     -- 17
def CLOSE_PAREN : Re := chr ')'                                    -- 18
def SEMICOLON : Re := chr ':'                                      -- 19
def ANY_INT : Re := .alt INT SIGNED_INT                            -- 24
def E_POWER : Re := .seq (oneOf c!"Ee") ANY_INT                    -- 25
def FLOAT : Re :=                                                  -- 26-35
  .alt (.seq (.alt (seqs [ANY_INT, PERIOD, opt INT]) (seqs [opt ANY_INT, PERIOD, INT])) (opt E_POWER))
       (.seq ANY_INT E_POWER)
def SHIFT_OP : Re :=                                               -- 38-45
  alts [chr '@', lit c!"after", lit c!"from", lit c!"since", lit c!"ref"]
def UNICODE_EXPONENT : Re := plus (oneOf c!"⁻⁺¹²³⁴⁵⁶⁷⁸⁹⁰")         -- 48-51
def RAISE : Re := .alt (chr '^') (lit c!"**")                      -- 53-57
def LOG : Re :=                                                    -- 63
  seqs [alts [lit c!"log", lit c!"lg", lit c!"ln", lit c!"lb"], .star WS, chr '(', .star WS,
        .alt (lit c!"RE") (lit c!"re"), opt (chr ':'), .star WS]
/-- the ranges of `LATIN_SUBSET` (76-84) -/
def latinRanges : List (Char × Char) :=
  [('\u00C0', '\u00D6'), ('\u00D8', '\u00F6'), ('\u00F8', '\u00FF'), ('\u0080', '\u0080'),
   ('\u00AD', '\u00AD'), ('\u00B0', '\u00B0'), ('\u00B5', '\u00B5'), ('π', 'π'), ('\u03A9', '\u03A9')]
def LATIN_SUBSET : Re := .cls latinRanges                          -- 76-84
/-- `[A-Za-z_] | LATIN_SUBSET` -/
def idRanges : List (Char × Char) := ('A', 'Z') :: ('a', 'z') :: ('_', '_') :: latinRanges
def ID : Re := plus (.cls idRanges)                                -- 74
def ERRORCHARACTER : Re := .cls [(Char.ofNat 0, Char.ofNat 0x10FFFF)] -- 89

/-! SHIFT_MODE (92-140) -/
def digit (a b : Char) : Re := range a b
def TIMEZONE : Re := alts [lit c!"UTC", chr 'Z', lit c!"GMT"]      -- 99
def TZ : Re := lit c!"TZ"                                          -- 100
def SIGN : Re := .alt PLUS MINUS                                   -- 102-104
def HOUR : Re :=                                                   -- 106-109
  .alt (seqs [opt SIGN, opt (digit '0' '1'), digit '0' '9']) (.seq (chr '2') (digit '0' '3'))
def MINUTE : Re := .seq (opt (digit '0' '5')) (digit '0' '9')      -- 111-113
def SECOND : Re :=                                                 -- 115-117
  .seq (.alt MINUTE (lit c!"60")) (opt (.seq PERIOD (.star (digit '0' '9'))))
def MONTH : Re :=                                                  -- 119-121
  .alt (.seq (opt (chr '0')) (digit '1' '9')) (.seq (chr '1') (digit '0' '2'))
def DAY : Re :=                                                    -- 123-125
  alts [.seq (opt (chr '0')) (digit '1' '9'), .seq (digit '1' '2') (digit '0' '9'),
        lit c!"30", lit c!"31"]
def YEAR : Re := seqs [ANY_INT, opt INT, opt INT, opt INT]         -- 127-129
def HOUR_MINUTE_SECOND : Re := seqs [HOUR, chr ':', MINUTE, chr ':', SECOND]  -- 131
def HOUR_MINUTE : Re := seqs [HOUR, chr ':', MINUTE]               -- 132
def M_MINUS : Re := chr '-'                                        -- 133
def DATE : Re := seqs [YEAR, MINUS, MONTH, opt (.seq MINUS DAY)]   -- 134
def CLOCK : Re := .seq HOUR (opt (.seq MINUTE (opt SECOND)))       -- 136
def T : Re := chr 'T'                                              -- 138
def TIMESTAMP : Re := seqs [YEAR, opt (.seq MONTH (opt DAY)), T, CLOCK]  -- 140

end Rule

/-- The token rules of DEFAULT_MODE in file order (9-89), with the mode they switch to:
`SHIFT_OP` pushes `SHIFT_MODE` (44), `ID` sets `ID_SEEN` (74). -/
def defaultRules : List (Kind × Re × Option Mode) :=
  [ (.SIGNED_INT, Rule.SIGNED_INT, none), (.PLUS, Rule.PLUS, none), (.MULTIPLY, Rule.MULTIPLY, none),
    (.DIVIDE, Rule.DIVIDE, none), (.PERIOD, Rule.PERIOD, none), (.OPEN_PAREN, Rule.OPEN_PAREN, none),
    (.CLOSE_PAREN, Rule.CLOSE_PAREN, none), (.SEMICOLON, Rule.SEMICOLON, none), (.INT, Rule.INT, none),
    (.E_POWER, Rule.E_POWER, none), (.FLOAT, Rule.FLOAT, none),
    (.SHIFT_OP, Rule.SHIFT_OP, some .SHIFT_MODE),
    (.UNICODE_EXPONENT, Rule.UNICODE_EXPONENT, none), (.RAISE, Rule.RAISE, none), (.LOG, Rule.LOG, none),
    (.ID, Rule.ID, some .ID_SEEN), (.LATIN_SUBSET, Rule.LATIN_SUBSET, none), (.WS, Rule.WS, none),
    (.ERRORCHARACTER, Rule.ERRORCHARACTER, none) ]

/-- SHIFT_MODE (99-144): its own tokens, then every default token retyped.  The actions of the
*referenced* rules are not executed (`LexerATNSimulator.py`, only the outermost rule's actions apply),
so no rule leaves this mode. -/
def shiftRules : List (Kind × Re × Option Mode) :=
  [ (.TIMEZONE, Rule.TIMEZONE, none), (.TZ, Rule.TZ, none),
    (.HOUR_MINUTE_SECOND, Rule.HOUR_MINUTE_SECOND, none), (.HOUR_MINUTE, Rule.HOUR_MINUTE, none),
    (.M_MINUS, Rule.M_MINUS, none), (.DATE, Rule.DATE, none), (.T, Rule.T, none),
    (.TIMESTAMP, Rule.TIMESTAMP, none) ] ++
  defaultRules.map fun (k, r, _) => (k, r, none)

/-- ID_SEEN (147-158): signed integer, extra multiplication signs, then every default token except
FLOAT; each goes (back) to DEFAULT_MODE. -/
def idSeenRules : List (Kind × Re × Option Mode) :=
  [ (.SIGNED_INT, Rule.SIGNED_INT, some .DEFAULT_MODE),
    (.MULTIPLY, .alt (chr '.') (chr '-'), some .DEFAULT_MODE) ] ++
  (defaultRules.filter fun (k, _, _) => k ≠ .FLOAT).map fun (k, r, _) => (k, r, some .DEFAULT_MODE)

/-- rules of a mode, in priority order -/
def Mode.rules : Mode → List (Kind × Re × Option Mode)
  | .DEFAULT_MODE => defaultRules
  | .SHIFT_MODE => shiftRules
  | .ID_SEEN => idSeenRules

/-- A token: type and text. -/
structure Token where
  kind : Kind
  text : Str
  deriving DecidableEq, Repr

/-- Best match over a rule list: longest, ties to the earlier rule. -/
def bestMatch (s : Str) : List (Kind × Re × Option Mode) → Option (Kind × Nat × Option Mode)
  | [] => none
  | (k, r, m) :: rs =>
    match r.longest s, bestMatch s rs with
    | none, b => b
    | some n, none => some (k, n, m)
    | some n, some (k', n', m') => if n' ≤ n then some (k, n, m) else some (k', n', m')

/-- `Lexer.nextToken` until EOF (`_antlr4_runtime/Lexer.py`); `fuel` bounds the number of tokens. -/
def lexFrom : Nat → Mode → Str → List Token
  | 0, _, _ => []
  | _, _, [] => []
  | fuel + 1, mode, s =>
    match bestMatch s mode.rules with
    | none => []
    | some (k, n, m) => ⟨k, s.take n⟩ :: lexFrom fuel (m.getD mode) (s.drop n)

/-- All the tokens of a text. -/
def lex (s : Str) : List Token := lexFrom s.length .DEFAULT_MODE s

/-- Python `str.isspace` for one code point: the characters removed by `str.strip()`. -/
def isPySpace (c : Char) : Bool :=
  inRanges c [('\u0009', '\u000D'), ('\u001C', '\u0020'), ('\u0085', '\u0085'), ('\u00A0', '\u00A0'),
    ('\u1680', '\u1680'), ('\u2000', '\u200A'), ('\u2028', '\u2029'), ('\u202F', '\u202F'),
    ('\u205F', '\u205F'), ('\u3000', '\u3000')]

/-- `s.lstrip()` -/
def lstrip (s : Str) : Str := s.dropWhile isPySpace

/-- `s.strip()` -/
def strip (s : Str) : Str := (lstrip (lstrip s).reverse).reverse

end Verif

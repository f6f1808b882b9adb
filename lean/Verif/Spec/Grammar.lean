import Verif.Model.Parser
/-!
# The grammar (`_grammar/udunits2Parser.g4`) and its disambiguation

`Derives` transcribes the grammar file: which token sequences each rule derives, with the expression graph the
visitor builds.  It is ambiguous (`m2` is a product or a power).  `Reads` is the same grammar with the two rules that
resolve the ambiguity:

* an integer directly after a factor without exponent is its exponent — unless a raise sign or superscript
  follows that integer;
* after `@` a lone number is a number, not a timestamp.
-/

namespace Verif

/-- rules whose value is an expression graph -/
inductive NT where
  | shift | product | power | logarithm | basic | number | integer
  deriving DecidableEq, Repr

/-- `integer: INT | SIGNED_INT` -/
def Token.isInt (t : Token) : Prop := t.kind = .INT ∨ t.kind = .SIGNED_INT

/-- `WS?` -/
def OptWs (ws : List Token) : Prop := ws = [] ∨ ∃ t, ws = [t] ∧ t.kind = .WS

/-- the text of some tokens -/
def textOf (ts : List Token) : Str := (ts.map Token.text).flatten

/-- zero or one token satisfying `p` -/
def OptTok (p : Token → Prop) (ts : List Token) : Prop := ts = [] ∨ ∃ t, ts = [t] ∧ p t

/-- `DATE | integer` -/
def isDateOrInt (t : Token) : Prop := t.kind = .DATE ∨ t.isInt
/-- `signed_clock` -/
def isClock (t : Token) : Prop := t.kind = .HOUR_MINUTE_SECOND ∨ t.kind = .HOUR_MINUTE ∨ t.isInt
/-- `timezone_offset | TIMEZONE` -/
def isTz (t : Token) : Prop := t.kind = .HOUR_MINUTE ∨ t.isInt ∨ t.kind = .TIMEZONE

/-- `timestamp` (`udunits2Parser.g4:57-65`) -/
inductive Timestamp : List Token → Prop
  | date {t} : isDateOrInt t → Timestamp [t]
  | clock {t c} {s w z : List Token} : isDateOrInt t → OptTok (fun t => t.kind = .WS ∨ t.kind = .T) s → isClock c →
      OptTok (fun t => t.kind = .WS) w → OptTok isTz z → Timestamp ([t] ++ s ++ [c] ++ w ++ z)
  | packed {t} {z : List Token} : t.isInt → OptTok isTz z → Timestamp ([t] ++ z)
  | stamp {t} {w z : List Token} : t.kind = .TIMESTAMP → OptTok (fun t => t.kind = .WS) w → OptTok isTz z →
      Timestamp ([t] ++ w ++ z)
  | zone {t z} {w : List Token} : isDateOrInt t → OptTok (fun t => t.kind = .WS) w → z.kind = .TIMEZONE ∨ z.kind = .TZ →
      Timestamp ([t] ++ w ++ [z])

/-- The grammar file as it stands (only token kinds matter): `Accepts rule tokens`. -/
inductive Accepts : NT → List Token → Prop
  | int {t} : t.isInt → Accepts .integer [t]                                        -- 48-50
  | numInt {ts} : Accepts .integer ts → Accepts .number ts                          -- 53
  | numFloat {t} : t.kind = .FLOAT → Accepts .number [t]                            -- 53
  | basicId {t} : t.kind = .ID → Accepts .basic [t]                                 -- 43
  | basicParen {o c ts} : o.kind = .OPEN_PAREN → c.kind = .CLOSE_PAREN → Accepts .shift ts →
      Accepts .basic ([o] ++ ts ++ [c])                                             -- 44
  | basicNum {ts} : Accepts .number ts → Accepts .basic ts                          -- 45
  | logBasic {ts} : Accepts .basic ts → Accepts .logarithm ts                       -- 37
  | logLog {o c ts} : o.kind = .LOG → c.kind = .CLOSE_PAREN → Accepts .shift ts →
      Accepts .logarithm ([o] ++ ts ++ [c])                                         -- 38
  | powInt {a b} : Accepts .logarithm a → Accepts .integer b → Accepts .power (a ++ b)       -- 28
  | powPlain {a} : Accepts .logarithm a → Accepts .power a                                   -- 31
  | powRaise {a b o} : Accepts .logarithm a → o.kind = .RAISE → Accepts .integer b →
      Accepts .power (a ++ [o] ++ b)                                                         -- 32
  | powUni {a o} : Accepts .logarithm a → o.kind = .UNICODE_EXPONENT → Accepts .power (a ++ [o])  -- 33
  | prodPower {a} : Accepts .power a → Accepts .product a                                    -- 20
  | prodJuxt {a b} : Accepts .product a → Accepts .power b → Accepts .product (a ++ b)       -- 21
  | prodMul {a b o} : Accepts .product a → o.kind = .MULTIPLY → Accepts .power b →
      Accepts .product (a ++ [o] ++ b)                                                       -- 22
  | prodDiv {a b o} : Accepts .product a → o.kind = .DIVIDE → Accepts .power b →
      Accepts .product (a ++ [o] ++ b)                                                       -- 23
  | prodWs {a ws b} : Accepts .product a → ws ≠ [] → (∀ t ∈ ws, t.kind = .WS) → Accepts .power b →
      Accepts .product (a ++ ws ++ b)                                                        -- 24
  | shiftProd {a} : Accepts .product a → Accepts .shift a                                    -- 14
  | shiftNum {a w1 o w2 b} : Accepts .product a → OptWs w1 → o.kind = .SHIFT_OP → OptWs w2 → Accepts .number b →
      Accepts .shift (a ++ w1 ++ [o] ++ w2 ++ b)                                             -- 15
  | shiftTime {a w1 o w2 b} : Accepts .product a → OptWs w1 → o.kind = .SHIFT_OP → OptWs w2 → Timestamp b →
      Accepts .shift (a ++ w1 ++ [o] ++ w2 ++ b)                                             -- 16

/-- The grammar with the graph the visitor builds: `Derives rule tokens graph`. -/
inductive Derives : NT → List Token → Node → Prop
  | int {t n} : t.isInt → intNode t.text = some n → Derives .integer [t] n
  | numInt {ts n} : Derives .integer ts n → Derives .number ts n
  | numFloat {t n} : t.kind = .FLOAT → floatNode t.text = some n → Derives .number [t] n
  | basicId {t} : t.kind = .ID → Derives .basic [t] (.ident t.text)
  | basicParen {o c ts n} : o.kind = .OPEN_PAREN → c.kind = .CLOSE_PAREN → Derives .shift ts n →
      Derives .basic ([o] ++ ts ++ [c]) n
  | basicNum {ts n} : Derives .number ts n → Derives .basic ts n
  | logBasic {ts n} : Derives .basic ts n → Derives .logarithm ts n
  | logLog {o c ts n} : o.kind = .LOG → c.kind = .CLOSE_PAREN → Derives .shift ts n →
      Derives .logarithm ([o] ++ ts ++ [c]) (.log (logName o.text) n)
  | powInt {a b l r} : Derives .logarithm a l → Derives .integer b r → Derives .power (a ++ b) (.raise l r)
  | powPlain {a l} : Derives .logarithm a l → Derives .power a l
  | powRaise {a b o l r} : Derives .logarithm a l → o.kind = .RAISE → Derives .integer b r →
      Derives .power (a ++ [o] ++ b) (.raise l r)
  | powUni {a o l} : Derives .logarithm a l → o.kind = .UNICODE_EXPONENT →
      Derives .power (a ++ [o]) (.raise l (unicodeExponent o.text))
  | prodPower {a l} : Derives .power a l → Derives .product a l
  | prodJuxt {a b l r} : Derives .product a l → Derives .power b r → Derives .product (a ++ b) (.mul l r)
  | prodMul {a b o l r} : Derives .product a l → o.kind = .MULTIPLY → Derives .power b r →
      Derives .product (a ++ [o] ++ b) (.mul l r)
  | prodDiv {a b o l r} : Derives .product a l → o.kind = .DIVIDE → Derives .power b r →
      Derives .product (a ++ [o] ++ b) (.div l r)
  | prodWs {a ws b l r} : Derives .product a l → ws ≠ [] → (∀ t ∈ ws, t.kind = .WS) → Derives .power b r →
      Derives .product (a ++ ws ++ b) (.mul l r)
  | shiftProd {a l} : Derives .product a l → Derives .shift a l
  | shiftNum {a w1 o w2 b l r} : Derives .product a l → OptWs w1 → o.kind = .SHIFT_OP → OptWs w2 → Derives .number b r →
      Derives .shift (a ++ w1 ++ [o] ++ w2 ++ b) (.shift l r)
  | shiftTime {a w1 o w2 b l} : Derives .product a l → OptWs w1 → o.kind = .SHIFT_OP → OptWs w2 → Timestamp b →
      Derives .shift (a ++ w1 ++ [o] ++ w2 ++ b) (.shift l (.unhandled (textOf b)))

/-- the tokens start with an integer that is not itself raised to a power by `^` or a superscript -/
def BareInt : List Token → Prop
  | [] => False
  | [t] => t.isInt
  | t :: u :: _ => t.isInt ∧ u.kind ≠ .RAISE ∧ u.kind ≠ .UNICODE_EXPONENT

/-- a lone number (the conversion of its text always succeeds for the tokens of a text: `Lemmas/Numbers`) -/
def LoneNumber (b : List Token) : Prop := ∃ t n, b = [t] ∧ t.isInt ∧ intNode t.text = some n

/-- rules of the disambiguated grammar; for products and powers: does it end in a factor without exponent? -/
inductive NT' where
  | shift | product (bare : Bool) | power (bare : Bool) | logarithm | basic | number | integer
  deriving DecidableEq, Repr

/-- The disambiguated grammar: as `Derives`, with the side conditions in `prodJuxt` and `shiftTime`. -/
inductive Reads : NT' → List Token → Node → Prop
  | int {t n} : t.isInt → intNode t.text = some n → Reads .integer [t] n
  | numInt {ts n} : Reads .integer ts n → Reads .number ts n
  | numFloat {t n} : t.kind = .FLOAT → floatNode t.text = some n → Reads .number [t] n
  | basicId {t} : t.kind = .ID → Reads .basic [t] (.ident t.text)
  | basicParen {o c ts n} : o.kind = .OPEN_PAREN → c.kind = .CLOSE_PAREN → Reads .shift ts n →
      Reads .basic ([o] ++ ts ++ [c]) n
  | basicNum {ts n} : Reads .number ts n → Reads .basic ts n
  | logBasic {ts n} : Reads .basic ts n → Reads .logarithm ts n
  | logLog {o c ts n} : o.kind = .LOG → c.kind = .CLOSE_PAREN → Reads .shift ts n →
      Reads .logarithm ([o] ++ ts ++ [c]) (.log (logName o.text) n)
  | powInt {a b l r} : Reads .logarithm a l → Reads .integer b r → Reads (.power false) (a ++ b) (.raise l r)
  | powPlain {a l} : Reads .logarithm a l → Reads (.power true) a l
  | powRaise {a b o l r} : Reads .logarithm a l → o.kind = .RAISE → Reads .integer b r →
      Reads (.power false) (a ++ [o] ++ b) (.raise l r)
  | powUni {a o l} : Reads .logarithm a l → o.kind = .UNICODE_EXPONENT →
      Reads (.power false) (a ++ [o]) (.raise l (unicodeExponent o.text))
  | prodPower {a l p} : Reads (.power p) a l → Reads (.product p) a l
  | prodJuxt {a b l r p q} : Reads (.product p) a l → Reads (.power q) b r → (p = true → ¬ BareInt b) →
      Reads (.product q) (a ++ b) (.mul l r)
  | prodMul {a b o l r p q} : Reads (.product p) a l → o.kind = .MULTIPLY → Reads (.power q) b r →
      Reads (.product q) (a ++ [o] ++ b) (.mul l r)
  | prodDiv {a b o l r p q} : Reads (.product p) a l → o.kind = .DIVIDE → Reads (.power q) b r →
      Reads (.product q) (a ++ [o] ++ b) (.div l r)
  | prodWs {a ws b l r p q} : Reads (.product p) a l → ws ≠ [] → (∀ t ∈ ws, t.kind = .WS) → Reads (.power q) b r →
      Reads (.product q) (a ++ ws ++ b) (.mul l r)
  | shiftProd {a l p} : Reads (.product p) a l → Reads .shift a l
  | shiftNum {a w1 o w2 b l r p} : Reads (.product p) a l → OptWs w1 → o.kind = .SHIFT_OP → OptWs w2 →
      Reads .number b r → Reads .shift (a ++ w1 ++ [o] ++ w2 ++ b) (.shift l r)
  | shiftTime {a w1 o w2 b l p} : Reads (.product p) a l → OptWs w1 → o.kind = .SHIFT_OP → OptWs w2 → Timestamp b →
      ¬ LoneNumber b → Reads .shift (a ++ w1 ++ [o] ++ w2 ++ b) (.shift l (.unhandled (textOf b)))

end Verif

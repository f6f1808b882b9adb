import Verif.Model.Graph
/-!
# Superscripts and logarithm functions
-/

namespace Verif.Spec

/-- the superscript characters and what they stand for -/
def superTable : List (Char × Char) :=
  [('⁰', '0'), ('¹', '1'), ('²', '2'), ('³', '3'), ('⁴', '4'), ('⁵', '5'), ('⁶', '6'), ('⁷', '7'), ('⁸', '8'), ('⁹', '9'),
   ('⁻', '-'), ('⁺', '+')]

/-- a superscript text and the ASCII text it spells, character by character -/
inductive Superscript : Str → Str → Prop
  | nil : Superscript [] []
  | cons {a b : Char} {s t : Str} : (a, b) ∈ superTable → Superscript s t → Superscript (a :: s) (b :: t)

/-- the four logarithms of the grammar -/
def logFunctions : List Str := [c!"log", c!"lg", c!"ln", c!"lb"]

/-- zero or more spaces -/
def Blanks (s : Str) : Prop := ∀ c ∈ s, c = ' '

/-- `fn (re:`, with blanks allowed between the parts, `RE` for `re`, and the colon optional -/
def LogOpening (fn s : Str) : Prop :=
  ∃ b1 b2 re colon b3, s = fn ++ b1 ++ c!"(" ++ b2 ++ re ++ colon ++ b3 ∧ Blanks b1 ∧ Blanks b2 ∧ Blanks b3 ∧
    (re = c!"re" ∨ re = c!"RE") ∧ (colon = [] ∨ colon = c!":")

end Verif.Spec

import Verif.Lemmas.ParserClosure
/-!
# The automaton of the generated parser as a literal, with a rank that decreases along every silent step

Generated by `tools/MkParserTable.lean.txt`; checked by the kernel in `Lemmas/ParserGood.lean`.
-/

namespace Verif.ParserTable

def states : List AState :=
  [⟨2, 0, 0, false, false, [.epsilon 23]⟩,
   ⟨7, 0, 0, false, false, []⟩,
   ⟨2, 1, 0, false, false, [.epsilon 48]⟩,
   ⟨7, 1, 0, false, false, []⟩,
   ⟨2, 2, 0, false, true, [.epsilon 50]⟩,
   ⟨7, 2, 0, false, false, []⟩,
   ⟨2, 3, 0, false, false, [.epsilon 84]⟩,
   ⟨7, 3, 0, false, false, []⟩,
   ⟨2, 4, 0, false, false, [.epsilon 91]⟩,
   ⟨7, 4, 0, false, false, []⟩,
   ⟨2, 5, 0, false, false, [.epsilon 99]⟩,
   ⟨7, 5, 0, false, false, []⟩,
   ⟨2, 6, 0, false, false, [.epsilon 101]⟩,
   ⟨7, 6, 0, false, false, []⟩,
   ⟨2, 7, 0, false, false, [.epsilon 105]⟩,
   ⟨7, 7, 0, false, false, []⟩,
   ⟨2, 8, 0, false, false, [.epsilon 147]⟩,
   ⟨7, 8, 0, false, false, []⟩,
   ⟨2, 9, 0, false, false, [.epsilon 152]⟩,
   ⟨7, 9, 0, false, false, []⟩,
   ⟨2, 10, 0, false, false, [.epsilon 156]⟩,
   ⟨7, 10, 0, false, false, []⟩,
   ⟨1, 0, 0, false, false, [.rule 2 1 0 24]⟩,
   ⟨3, 0, 24, false, false, [.epsilon 22, .epsilon 24]⟩,
   ⟨8, 0, 0, false, false, [.epsilon 25]⟩,
   ⟨1, 0, 0, false, false, [.atom 26 (-1)]⟩,
   ⟨1, 0, 0, false, false, [.epsilon 1]⟩,
   ⟨1, 1, 0, false, false, [.rule 4 2 0 49]⟩,
   ⟨1, 1, 0, false, false, [.rule 4 2 0 30]⟩,
   ⟨1, 1, 0, false, false, [.atom 31 18]⟩,
   ⟨3, 1, 31, false, false, [.epsilon 29, .epsilon 31]⟩,
   ⟨8, 1, 0, false, false, [.epsilon 32]⟩,
   ⟨1, 1, 0, false, false, [.atom 34 12]⟩,
   ⟨1, 1, 0, false, false, [.atom 35 18]⟩,
   ⟨3, 1, 35, false, false, [.epsilon 33, .epsilon 35]⟩,
   ⟨8, 1, 0, false, false, [.epsilon 36]⟩,
   ⟨1, 1, 0, false, false, [.rule 14 7 0 37]⟩,
   ⟨1, 1, 0, false, false, [.epsilon 49]⟩,
   ⟨1, 1, 0, false, false, [.rule 4 2 0 40]⟩,
   ⟨1, 1, 0, false, false, [.atom 41 18]⟩,
   ⟨3, 1, 41, false, false, [.epsilon 39, .epsilon 41]⟩,
   ⟨8, 1, 0, false, false, [.epsilon 42]⟩,
   ⟨1, 1, 0, false, false, [.atom 44 12]⟩,
   ⟨1, 1, 0, false, false, [.atom 45 18]⟩,
   ⟨3, 1, 45, false, false, [.epsilon 43, .epsilon 45]⟩,
   ⟨8, 1, 0, false, false, [.epsilon 46]⟩,
   ⟨1, 1, 0, false, false, [.rule 16 8 0 47]⟩,
   ⟨1, 1, 0, false, false, [.epsilon 49]⟩,
   ⟨3, 1, 49, false, false, [.epsilon 27, .epsilon 28, .epsilon 38]⟩,
   ⟨8, 1, 0, false, false, [.epsilon 3]⟩,
   ⟨1, 2, 0, false, false, [.action 51 2 (-1)]⟩,
   ⟨1, 2, 0, false, false, [.rule 6 3 0 52]⟩,
   ⟨1, 2, 0, false, false, [.epsilon 70]⟩,
   ⟨1, 2, 0, false, false, [.precedence 54 4]⟩,
   ⟨1, 2, 0, false, false, [.rule 6 3 0 69]⟩,
   ⟨1, 2, 0, false, false, [.precedence 56 3]⟩,
   ⟨1, 2, 0, false, false, [.atom 57 3]⟩,
   ⟨1, 2, 0, false, false, [.rule 6 3 0 69]⟩,
   ⟨1, 2, 0, false, false, [.precedence 59 2]⟩,
   ⟨1, 2, 0, false, false, [.atom 60 4]⟩,
   ⟨1, 2, 0, false, false, [.rule 6 3 0 69]⟩,
   ⟨1, 2, 0, false, false, [.precedence 63 1]⟩,
   ⟨1, 2, 0, false, false, [.atom 64 18]⟩,
   ⟨4, 2, 64, false, false, [.epsilon 62]⟩,
   ⟨8, 2, 0, false, false, [.epsilon 65]⟩,
   ⟨11, 2, 0, false, false, [.epsilon 63, .epsilon 66]⟩,
   ⟨12, 2, 65, false, false, [.epsilon 67]⟩,
   ⟨1, 2, 0, false, false, [.rule 6 3 0 69]⟩,
   ⟨5, 2, 69, false, false, [.epsilon 53, .epsilon 55, .epsilon 58, .epsilon 61]⟩,
   ⟨8, 2, 0, false, false, [.epsilon 72]⟩,
   ⟨10, 2, 0, false, false, [.epsilon 68, .epsilon 71]⟩,
   ⟨12, 2, 72, false, false, [.epsilon 5]⟩,
   ⟨9, 2, 0, false, false, [.epsilon 70]⟩,
   ⟨1, 3, 0, false, false, [.rule 8 4 0 74]⟩,
   ⟨1, 3, 0, false, false, [.rule 12 6 0 75]⟩,
   ⟨1, 3, 0, false, false, [.epsilon 85]⟩,
   ⟨1, 3, 0, false, false, [.rule 8 4 0 85]⟩,
   ⟨1, 3, 0, false, false, [.rule 8 4 0 78]⟩,
   ⟨1, 3, 0, false, false, [.atom 79 14]⟩,
   ⟨1, 3, 0, false, false, [.rule 12 6 0 80]⟩,
   ⟨1, 3, 0, false, false, [.epsilon 85]⟩,
   ⟨1, 3, 0, false, false, [.rule 8 4 0 82]⟩,
   ⟨1, 3, 0, false, false, [.atom 83 13]⟩,
   ⟨1, 3, 0, false, false, [.epsilon 85]⟩,
   ⟨3, 3, 85, false, false, [.epsilon 73, .epsilon 76, .epsilon 77, .epsilon 81]⟩,
   ⟨8, 3, 0, false, false, [.epsilon 7]⟩,
   ⟨1, 4, 0, false, false, [.rule 10 5 0 92]⟩,
   ⟨1, 4, 0, false, false, [.atom 88 15]⟩,
   ⟨1, 4, 0, false, false, [.rule 2 1 0 89]⟩,
   ⟨1, 4, 0, false, false, [.atom 90 7]⟩,
   ⟨1, 4, 0, false, false, [.epsilon 92]⟩,
   ⟨3, 4, 92, false, false, [.epsilon 86, .epsilon 87]⟩,
   ⟨8, 4, 0, false, false, [.epsilon 9]⟩,
   ⟨1, 5, 0, false, false, [.atom 100 16]⟩,
   ⟨1, 5, 0, false, false, [.atom 95 6]⟩,
   ⟨1, 5, 0, false, false, [.rule 2 1 0 96]⟩,
   ⟨1, 5, 0, false, false, [.atom 97 7]⟩,
   ⟨1, 5, 0, false, false, [.epsilon 100]⟩,
   ⟨1, 5, 0, false, false, [.rule 14 7 0 100]⟩,
   ⟨3, 5, 100, false, false, [.epsilon 93, .epsilon 94, .epsilon 98]⟩,
   ⟨8, 5, 0, false, false, [.epsilon 11]⟩,
   ⟨1, 6, 0, false, false, [.set 102 [(1, 1), (9, 9)]]⟩,
   ⟨1, 6, 0, false, false, [.epsilon 13]⟩,
   ⟨1, 7, 0, false, false, [.rule 12 6 0 106]⟩,
   ⟨1, 7, 0, false, false, [.atom 106 11]⟩,
   ⟨3, 7, 106, false, false, [.epsilon 103, .epsilon 104]⟩,
   ⟨8, 7, 0, false, false, [.epsilon 15]⟩,
   ⟨1, 8, 0, false, false, [.atom 110 25]⟩,
   ⟨1, 8, 0, false, false, [.rule 12 6 0 110]⟩,
   ⟨3, 8, 110, false, false, [.epsilon 107, .epsilon 108]⟩,
   ⟨8, 8, 0, false, false, [.epsilon 148]⟩,
   ⟨1, 8, 0, false, false, [.atom 114 25]⟩,
   ⟨1, 8, 0, false, false, [.rule 12 6 0 114]⟩,
   ⟨3, 8, 114, false, false, [.epsilon 111, .epsilon 112]⟩,
   ⟨8, 8, 0, false, false, [.epsilon 116]⟩,
   ⟨1, 8, 0, false, false, [.set 117 [(18, 18), (26, 26)]]⟩,
   ⟨3, 8, 117, false, false, [.epsilon 115, .epsilon 117]⟩,
   ⟨8, 8, 0, false, false, [.epsilon 118]⟩,
   ⟨1, 8, 0, false, false, [.rule 18 9 0 120]⟩,
   ⟨1, 8, 0, false, false, [.atom 121 18]⟩,
   ⟨3, 8, 121, false, false, [.epsilon 119, .epsilon 121]⟩,
   ⟨8, 8, 0, false, false, [.epsilon 124]⟩,
   ⟨1, 8, 0, false, false, [.rule 20 10 0 125]⟩,
   ⟨1, 8, 0, false, false, [.atom 125 20]⟩,
   ⟨3, 8, 125, false, false, [.epsilon 122, .epsilon 123, .epsilon 125]⟩,
   ⟨8, 8, 0, false, false, [.epsilon 148]⟩,
   ⟨1, 8, 0, false, false, [.rule 12 6 0 129]⟩,
   ⟨1, 8, 0, false, false, [.rule 20 10 0 130]⟩,
   ⟨1, 8, 0, false, false, [.atom 130 20]⟩,
   ⟨3, 8, 130, false, false, [.epsilon 127, .epsilon 128, .epsilon 130]⟩,
   ⟨8, 8, 0, false, false, [.epsilon 148]⟩,
   ⟨1, 8, 0, false, false, [.atom 133 27]⟩,
   ⟨1, 8, 0, false, false, [.atom 134 18]⟩,
   ⟨3, 8, 134, false, false, [.epsilon 132, .epsilon 134]⟩,
   ⟨8, 8, 0, false, false, [.epsilon 137]⟩,
   ⟨1, 8, 0, false, false, [.rule 20 10 0 138]⟩,
   ⟨1, 8, 0, false, false, [.atom 138 20]⟩,
   ⟨3, 8, 138, false, false, [.epsilon 135, .epsilon 136, .epsilon 138]⟩,
   ⟨8, 8, 0, false, false, [.epsilon 148]⟩,
   ⟨1, 8, 0, false, false, [.atom 142 25]⟩,
   ⟨1, 8, 0, false, false, [.rule 12 6 0 142]⟩,
   ⟨3, 8, 142, false, false, [.epsilon 139, .epsilon 140]⟩,
   ⟨8, 8, 0, false, false, [.epsilon 144]⟩,
   ⟨1, 8, 0, false, false, [.atom 145 18]⟩,
   ⟨3, 8, 145, false, false, [.epsilon 143, .epsilon 145]⟩,
   ⟨8, 8, 0, false, false, [.epsilon 146]⟩,
   ⟨1, 8, 0, false, false, [.set 148 [(20, 21)]]⟩,
   ⟨3, 8, 148, false, false, [.epsilon 109, .epsilon 113, .epsilon 126, .epsilon 131, .epsilon 141]⟩,
   ⟨8, 8, 0, false, false, [.epsilon 17]⟩,
   ⟨1, 9, 0, false, false, [.atom 153 22]⟩,
   ⟨1, 9, 0, false, false, [.atom 153 23]⟩,
   ⟨1, 9, 0, false, false, [.rule 12 6 0 153]⟩,
   ⟨3, 9, 153, false, false, [.epsilon 149, .epsilon 150, .epsilon 151]⟩,
   ⟨8, 9, 0, false, false, [.epsilon 19]⟩,
   ⟨1, 10, 0, false, false, [.atom 157 23]⟩,
   ⟨1, 10, 0, false, false, [.rule 12 6 0 157]⟩,
   ⟨3, 10, 157, false, false, [.epsilon 154, .epsilon 155]⟩,
   ⟨8, 10, 0, false, false, [.epsilon 21]⟩,
   ⟨1, 10, 0, false, false, []⟩]

def atn : Atn :=
  ⟨1, 27, states,
   [(0, 0), (2, 0), (4, 0), (6, 0), (8, 0), (10, 0), (12, 0), (14, 0), (16, 0), (18, 0), (20, 0)],
   [], [23, 30, 34, 40, 44, 48, 65, 68, 70, 84, 91, 99, 105, 109, 113, 116, 120, 124, 129, 133, 137, 141, 144, 147, 152, 156], []⟩

def ranks : List Nat :=
  [22, 0, 19, 2, 16, 4, 13, 20, 10, 22, 7, 24, 1, 28, 4, 26, 5, 5, 4, 11, 4, 8, 20, 21, 1, 0, 1, 17, 17, 0, 2, 1, 0, 0, 7, 6, 5, 4, 17, 0, 2, 1, 0, 0, 8, 7, 6, 4, 18, 3, 15, 14, 18, 15, 14, 1, 0, 14, 1, 0, 14, 2, 0, 1, 17, 16, 15, 14, 16, 19, 17, 5, 18, 11, 2, 22, 11, 11, 0, 2, 22, 11, 0, 22, 12, 21, 8, 0, 20, 0, 24, 9, 23, 0, 0, 20, 0, 26, 5, 6, 25, 0, 29, 2, 0, 3, 27, 0, 2, 3, 7, 0, 2, 3, 8, 0, 7, 6, 5, 0, 10, 9, 5, 0, 8, 7, 2, 5, 0, 8, 7, 0, 0, 10, 9, 5, 0, 8, 7, 0, 2, 3, 3, 0, 2, 1, 0, 4, 6, 0, 0, 2, 3, 12, 0, 2, 3, 9, 0]

/-- the types of the tokens that can come next -/
def nexts : List (List Int) :=
  [[-1, 1, 6, 9, 11, 15, 16],
   [],
   [1, 6, 9, 11, 15, 16],
   [-1, 7],
   [1, 6, 9, 11, 15, 16],
   [-1, 7, 12, 18],
   [1, 6, 9, 11, 15, 16],
   [-1, 1, 3, 4, 6, 7, 9, 11, 12, 15, 16, 18],
   [1, 6, 9, 11, 15, 16],
   [-1, 1, 3, 4, 6, 7, 9, 11, 12, 13, 14, 15, 16, 18],
   [1, 6, 9, 11, 16],
   [-1, 1, 3, 4, 6, 7, 9, 11, 12, 13, 14, 15, 16, 18],
   [1, 9],
   [-1, 1, 3, 4, 6, 7, 9, 11, 12, 13, 14, 15, 16, 18, 20, 21, 22, 23, 26],
   [1, 9, 11],
   [-1, 1, 3, 4, 6, 7, 9, 11, 12, 13, 14, 15, 16, 18],
   [1, 9, 25, 27],
   [-1, 7],
   [1, 9, 22, 23],
   [-1, 1, 7, 9, 18, 20, 23],
   [1, 9, 23],
   [-1, 7],
   [1, 6, 9, 11, 15, 16],
   [-1, 1, 6, 9, 11, 15, 16],
   [-1],
   [-1],
   [],
   [1, 6, 9, 11, 15, 16],
   [1, 6, 9, 11, 15, 16],
   [18],
   [12, 18],
   [12],
   [12],
   [18],
   [1, 9, 11, 18],
   [1, 9, 11],
   [1, 9, 11],
   [-1, 7],
   [1, 6, 9, 11, 15, 16],
   [18],
   [12, 18],
   [12],
   [12],
   [18],
   [1, 9, 18, 25, 27],
   [1, 9, 25, 27],
   [1, 9, 25, 27],
   [-1, 7],
   [1, 6, 9, 11, 15, 16],
   [-1, 7],
   [1, 6, 9, 11, 15, 16],
   [1, 6, 9, 11, 15, 16],
   [-1, 1, 3, 4, 6, 7, 9, 11, 12, 15, 16, 18],
   [1, 6, 9, 11, 15, 16],
   [1, 6, 9, 11, 15, 16],
   [3],
   [3],
   [1, 6, 9, 11, 15, 16],
   [4],
   [4],
   [1, 6, 9, 11, 15, 16],
   [18],
   [18],
   [18],
   [1, 6, 9, 11, 15, 16, 18],
   [1, 6, 9, 11, 15, 16, 18],
   [1, 6, 9, 11, 15, 16],
   [1, 6, 9, 11, 15, 16],
   [1, 3, 4, 6, 9, 11, 15, 16, 18],
   [-1, 1, 3, 4, 6, 7, 9, 11, 12, 15, 16, 18],
   [-1, 1, 3, 4, 6, 7, 9, 11, 12, 15, 16, 18],
   [-1, 7, 12, 18],
   [-1, 1, 3, 4, 6, 7, 9, 11, 12, 15, 16, 18],
   [1, 6, 9, 11, 15, 16],
   [1, 9],
   [-1, 1, 3, 4, 6, 7, 9, 11, 12, 15, 16, 18],
   [1, 6, 9, 11, 15, 16],
   [1, 6, 9, 11, 15, 16],
   [14],
   [1, 9],
   [-1, 1, 3, 4, 6, 7, 9, 11, 12, 15, 16, 18],
   [1, 6, 9, 11, 15, 16],
   [13],
   [-1, 1, 3, 4, 6, 7, 9, 11, 12, 15, 16, 18],
   [1, 6, 9, 11, 15, 16],
   [-1, 1, 3, 4, 6, 7, 9, 11, 12, 15, 16, 18],
   [1, 6, 9, 11, 16],
   [15],
   [1, 6, 9, 11, 15, 16],
   [7],
   [-1, 1, 3, 4, 6, 7, 9, 11, 12, 13, 14, 15, 16, 18],
   [1, 6, 9, 11, 15, 16],
   [-1, 1, 3, 4, 6, 7, 9, 11, 12, 13, 14, 15, 16, 18],
   [16],
   [6],
   [1, 6, 9, 11, 15, 16],
   [7],
   [-1, 1, 3, 4, 6, 7, 9, 11, 12, 13, 14, 15, 16, 18],
   [1, 9, 11],
   [1, 6, 9, 11, 16],
   [-1, 1, 3, 4, 6, 7, 9, 11, 12, 13, 14, 15, 16, 18],
   [1, 9],
   [-1, 1, 3, 4, 6, 7, 9, 11, 12, 13, 14, 15, 16, 18, 20, 21, 22, 23, 26],
   [1, 9],
   [11],
   [1, 9, 11],
   [-1, 1, 3, 4, 6, 7, 9, 11, 12, 13, 14, 15, 16, 18],
   [25],
   [1, 9],
   [1, 9, 25],
   [-1, 7],
   [25],
   [1, 9],
   [1, 9, 25],
   [1, 9, 18, 22, 23, 26],
   [18, 26],
   [1, 9, 18, 22, 23, 26],
   [1, 9, 22, 23],
   [1, 9, 22, 23],
   [18],
   [-1, 1, 7, 9, 18, 20, 23],
   [-1, 1, 7, 9, 20, 23],
   [1, 9, 23],
   [20],
   [-1, 1, 7, 9, 20, 23],
   [-1, 7],
   [1, 9],
   [1, 9, 23],
   [20],
   [-1, 1, 7, 9, 20, 23],
   [-1, 7],
   [27],
   [18],
   [-1, 1, 7, 9, 18, 20, 23],
   [-1, 1, 7, 9, 20, 23],
   [1, 9, 23],
   [20],
   [-1, 1, 7, 9, 20, 23],
   [-1, 7],
   [25],
   [1, 9],
   [1, 9, 25],
   [18, 20, 21],
   [18],
   [18, 20, 21],
   [20, 21],
   [20, 21],
   [1, 9, 25, 27],
   [-1, 7],
   [22],
   [23],
   [1, 9],
   [1, 9, 22, 23],
   [-1, 1, 7, 9, 18, 20, 23],
   [23],
   [1, 9],
   [1, 9, 23],
   [-1, 7],
   []]

end Verif.ParserTable

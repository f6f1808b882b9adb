import Verif.Lemmas.LexerSim
/-!
# The table relating the generated lexer's automaton to the grammar's rules

Generated by `tools/MkLexTable.lean.txt`; checked by the kernel in `Lemmas/LexerCheck.lean`.
-/

namespace Verif.LexTable
set_option maxRecDepth 100000

def bds : List Nat :=
  [0, 32, 33, 40, 41, 42, 43, 44, 45, 46, 47, 48, 49, 50, 51, 52, 54, 55, 58, 59, 64, 65, 67, 68, 69, 70, 71, 72, 77, 78, 80, 81, 82, 83, 84, 85, 86, 90, 91, 94, 95, 96, 97, 98, 99, 100, 101, 102, 103, 104, 105, 106, 108, 109, 110, 111, 112, 113, 114, 115, 116, 117, 123, 128, 129, 173, 174, 176, 177, 178, 179, 180, 181, 182, 183, 184, 185, 186, 192, 215, 216, 247, 248, 256, 937, 938, 960, 961, 8304, 8305, 8308, 8309, 8310, 8311, 8312, 8313, 8314, 8315, 8316, 1114112]

def reps : List Char :=
  [Char.ofNat 0, Char.ofNat 32, Char.ofNat 33, Char.ofNat 40, Char.ofNat 41, Char.ofNat 42, Char.ofNat 43, Char.ofNat 44, Char.ofNat 45, Char.ofNat 46, Char.ofNat 47, Char.ofNat 48, Char.ofNat 49, Char.ofNat 50, Char.ofNat 51, Char.ofNat 52, Char.ofNat 54, Char.ofNat 55, Char.ofNat 58, Char.ofNat 59, Char.ofNat 64, Char.ofNat 65, Char.ofNat 67, Char.ofNat 68, Char.ofNat 69, Char.ofNat 70, Char.ofNat 71, Char.ofNat 72, Char.ofNat 77, Char.ofNat 78, Char.ofNat 80, Char.ofNat 81, Char.ofNat 82, Char.ofNat 83, Char.ofNat 84, Char.ofNat 85, Char.ofNat 86, Char.ofNat 90, Char.ofNat 91, Char.ofNat 94, Char.ofNat 95, Char.ofNat 96, Char.ofNat 97, Char.ofNat 98, Char.ofNat 99, Char.ofNat 100, Char.ofNat 101, Char.ofNat 102, Char.ofNat 103, Char.ofNat 104, Char.ofNat 105, Char.ofNat 106, Char.ofNat 108, Char.ofNat 109, Char.ofNat 110, Char.ofNat 111, Char.ofNat 112, Char.ofNat 113, Char.ofNat 114, Char.ofNat 115, Char.ofNat 116, Char.ofNat 117, Char.ofNat 123, Char.ofNat 128, Char.ofNat 129, Char.ofNat 173, Char.ofNat 174, Char.ofNat 176, Char.ofNat 177, Char.ofNat 178, Char.ofNat 179, Char.ofNat 180, Char.ofNat 181, Char.ofNat 182, Char.ofNat 183, Char.ofNat 184, Char.ofNat 185, Char.ofNat 186, Char.ofNat 192, Char.ofNat 215, Char.ofNat 216, Char.ofNat 247, Char.ofNat 248, Char.ofNat 256, Char.ofNat 937, Char.ofNat 938, Char.ofNat 960, Char.ofNat 961, Char.ofNat 8304, Char.ofNat 8305, Char.ofNat 8308, Char.ofNat 8309, Char.ofNat 8310, Char.ofNat 8311, Char.ofNat 8312, Char.ofNat 8313, Char.ofNat 8314, Char.ofNat 8315, Char.ofNat 8316]

def states : List AState :=
  [⟨6, (-1), 0, false, false, [.epsilon 3, .epsilon 5, .epsilon 9, .epsilon 11, .epsilon 13, .epsilon 15, .epsilon 17, .epsilon 19, .epsilon 21, .epsilon 25, .epsilon 27, .epsilon 29, .epsilon 31, .epsilon 33, .epsilon 35, .epsilon 37, .epsilon 39, .epsilon 41, .epsilon 43]⟩,
   ⟨6, (-1), 0, false, false, [.epsilon 45, .epsilon 47, .epsilon 63, .epsilon 65, .epsilon 67, .epsilon 69, .epsilon 73, .epsilon 75, .epsilon 77, .epsilon 79, .epsilon 81, .epsilon 83, .epsilon 85, .epsilon 87, .epsilon 89, .epsilon 91, .epsilon 93, .epsilon 95, .epsilon 97, .epsilon 99, .epsilon 101, .epsilon 103, .epsilon 105, .epsilon 107, .epsilon 109, .epsilon 111, .epsilon 113]⟩,
   ⟨6, (-1), 0, false, false, [.epsilon 115, .epsilon 117, .epsilon 119, .epsilon 121, .epsilon 123, .epsilon 125, .epsilon 127, .epsilon 129, .epsilon 131, .epsilon 133, .epsilon 135, .epsilon 137, .epsilon 139, .epsilon 141, .epsilon 143, .epsilon 145, .epsilon 147, .epsilon 149, .epsilon 151, .epsilon 153]⟩,
   ⟨2, 0, 0, false, false, [.epsilon 157]⟩,
   ⟨7, 0, 0, false, false, []⟩,
   ⟨2, 1, 0, false, false, [.epsilon 161]⟩,
   ⟨7, 1, 0, false, false, []⟩,
   ⟨2, 2, 0, false, false, [.epsilon 163]⟩,
   ⟨7, 2, 0, false, false, []⟩,
   ⟨2, 3, 0, false, false, [.epsilon 167]⟩,
   ⟨7, 3, 0, false, false, []⟩,
   ⟨2, 4, 0, false, false, [.epsilon 172]⟩,
   ⟨7, 4, 0, false, false, []⟩,
   ⟨2, 5, 0, false, false, [.epsilon 194]⟩,
   ⟨7, 5, 0, false, false, []⟩,
   ⟨2, 6, 0, false, false, [.epsilon 196]⟩,
   ⟨7, 6, 0, false, false, []⟩,
   ⟨2, 7, 0, false, false, [.epsilon 198]⟩,
   ⟨7, 7, 0, false, false, []⟩,
   ⟨2, 8, 0, false, false, [.epsilon 200]⟩,
   ⟨7, 8, 0, false, false, []⟩,
   ⟨2, 9, 0, false, false, [.epsilon 203]⟩,
   ⟨7, 9, 0, false, false, []⟩,
   ⟨2, 10, 0, false, false, [.epsilon 209]⟩,
   ⟨7, 10, 0, false, false, []⟩,
   ⟨2, 11, 0, false, false, [.epsilon 211]⟩,
   ⟨7, 11, 0, false, false, []⟩,
   ⟨2, 12, 0, false, false, [.epsilon 233]⟩,
   ⟨7, 12, 0, false, false, []⟩,
   ⟨2, 13, 0, false, false, [.epsilon 253]⟩,
   ⟨7, 13, 0, false, false, []⟩,
   ⟨2, 14, 0, false, false, [.epsilon 258]⟩,
   ⟨7, 14, 0, false, false, []⟩,
   ⟨2, 15, 0, false, false, [.epsilon 265]⟩,
   ⟨7, 15, 0, false, false, []⟩,
   ⟨2, 16, 0, false, false, [.epsilon 276]⟩,
   ⟨7, 16, 0, false, false, []⟩,
   ⟨2, 17, 0, false, false, [.epsilon 308]⟩,
   ⟨7, 17, 0, false, false, []⟩,
   ⟨2, 18, 0, false, false, [.epsilon 314]⟩,
   ⟨7, 18, 0, false, false, []⟩,
   ⟨2, 19, 0, false, false, [.epsilon 316]⟩,
   ⟨7, 19, 0, false, false, []⟩,
   ⟨2, 20, 0, false, false, [.epsilon 318]⟩,
   ⟨7, 20, 0, false, false, []⟩,
   ⟨2, 21, 0, false, false, [.epsilon 327]⟩,
   ⟨7, 21, 0, false, false, []⟩,
   ⟨2, 22, 0, false, false, [.epsilon 329]⟩,
   ⟨7, 22, 0, false, false, []⟩,
   ⟨2, 23, 0, false, false, [.epsilon 334]⟩,
   ⟨7, 23, 0, false, false, []⟩,
   ⟨2, 24, 0, false, false, [.epsilon 345]⟩,
   ⟨7, 24, 0, false, false, []⟩,
   ⟨2, 25, 0, false, false, [.epsilon 348]⟩,
   ⟨7, 25, 0, false, false, []⟩,
   ⟨2, 26, 0, false, false, [.epsilon 355]⟩,
   ⟨7, 26, 0, false, false, []⟩,
   ⟨2, 27, 0, false, false, [.epsilon 372]⟩,
   ⟨7, 27, 0, false, false, []⟩,
   ⟨2, 28, 0, false, false, [.epsilon 384]⟩,
   ⟨7, 28, 0, false, false, []⟩,
   ⟨2, 29, 0, false, false, [.epsilon 386]⟩,
   ⟨7, 29, 0, false, false, []⟩,
   ⟨2, 30, 0, false, false, [.epsilon 396]⟩,
   ⟨7, 30, 0, false, false, []⟩,
   ⟨2, 31, 0, false, false, [.epsilon 402]⟩,
   ⟨7, 31, 0, false, false, []⟩,
   ⟨2, 32, 0, false, false, [.epsilon 406]⟩,
   ⟨7, 32, 0, false, false, []⟩,
   ⟨2, 33, 0, false, false, [.epsilon 408]⟩,
   ⟨7, 33, 0, false, false, []⟩,
   ⟨2, 34, 0, false, false, [.epsilon 416]⟩,
   ⟨7, 34, 0, false, false, []⟩,
   ⟨2, 35, 0, false, false, [.epsilon 423]⟩,
   ⟨7, 35, 0, false, false, []⟩,
   ⟨2, 36, 0, false, false, [.epsilon 425]⟩,
   ⟨7, 36, 0, false, false, []⟩,
   ⟨2, 37, 0, false, false, [.epsilon 435]⟩,
   ⟨7, 37, 0, false, false, []⟩,
   ⟨2, 38, 0, false, false, [.epsilon 439]⟩,
   ⟨7, 38, 0, false, false, []⟩,
   ⟨2, 39, 0, false, false, [.epsilon 443]⟩,
   ⟨7, 39, 0, false, false, []⟩,
   ⟨2, 40, 0, false, false, [.epsilon 447]⟩,
   ⟨7, 40, 0, false, false, []⟩,
   ⟨2, 41, 0, false, false, [.epsilon 451]⟩,
   ⟨7, 41, 0, false, false, []⟩,
   ⟨2, 42, 0, false, false, [.epsilon 455]⟩,
   ⟨7, 42, 0, false, false, []⟩,
   ⟨2, 43, 0, false, false, [.epsilon 459]⟩,
   ⟨7, 43, 0, false, false, []⟩,
   ⟨2, 44, 0, false, false, [.epsilon 463]⟩,
   ⟨7, 44, 0, false, false, []⟩,
   ⟨2, 45, 0, false, false, [.epsilon 467]⟩,
   ⟨7, 45, 0, false, false, []⟩,
   ⟨2, 46, 0, false, false, [.epsilon 471]⟩,
   ⟨7, 46, 0, false, false, []⟩,
   ⟨2, 47, 0, false, false, [.epsilon 475]⟩,
   ⟨7, 47, 0, false, false, []⟩,
   ⟨2, 48, 0, false, false, [.epsilon 479]⟩,
   ⟨7, 48, 0, false, false, []⟩,
   ⟨2, 49, 0, false, false, [.epsilon 483]⟩,
   ⟨7, 49, 0, false, false, []⟩,
   ⟨2, 50, 0, false, false, [.epsilon 487]⟩,
   ⟨7, 50, 0, false, false, []⟩,
   ⟨2, 51, 0, false, false, [.epsilon 491]⟩,
   ⟨7, 51, 0, false, false, []⟩,
   ⟨2, 52, 0, false, false, [.epsilon 495]⟩,
   ⟨7, 52, 0, false, false, []⟩,
   ⟨2, 53, 0, false, false, [.epsilon 499]⟩,
   ⟨7, 53, 0, false, false, []⟩,
   ⟨2, 54, 0, false, false, [.epsilon 503]⟩,
   ⟨7, 54, 0, false, false, []⟩,
   ⟨2, 55, 0, false, false, [.epsilon 507]⟩,
   ⟨7, 55, 0, false, false, []⟩,
   ⟨2, 56, 0, false, false, [.epsilon 511]⟩,
   ⟨7, 56, 0, false, false, []⟩,
   ⟨2, 57, 0, false, false, [.epsilon 516]⟩,
   ⟨7, 57, 0, false, false, []⟩,
   ⟨2, 58, 0, false, false, [.epsilon 521]⟩,
   ⟨7, 58, 0, false, false, []⟩,
   ⟨2, 59, 0, false, false, [.epsilon 526]⟩,
   ⟨7, 59, 0, false, false, []⟩,
   ⟨2, 60, 0, false, false, [.epsilon 531]⟩,
   ⟨7, 60, 0, false, false, []⟩,
   ⟨2, 61, 0, false, false, [.epsilon 536]⟩,
   ⟨7, 61, 0, false, false, []⟩,
   ⟨2, 62, 0, false, false, [.epsilon 541]⟩,
   ⟨7, 62, 0, false, false, []⟩,
   ⟨2, 63, 0, false, false, [.epsilon 546]⟩,
   ⟨7, 63, 0, false, false, []⟩,
   ⟨2, 64, 0, false, false, [.epsilon 551]⟩,
   ⟨7, 64, 0, false, false, []⟩,
   ⟨2, 65, 0, false, false, [.epsilon 556]⟩,
   ⟨7, 65, 0, false, false, []⟩,
   ⟨2, 66, 0, false, false, [.epsilon 561]⟩,
   ⟨7, 66, 0, false, false, []⟩,
   ⟨2, 67, 0, false, false, [.epsilon 566]⟩,
   ⟨7, 67, 0, false, false, []⟩,
   ⟨2, 68, 0, false, false, [.epsilon 571]⟩,
   ⟨7, 68, 0, false, false, []⟩,
   ⟨2, 69, 0, false, false, [.epsilon 576]⟩,
   ⟨7, 69, 0, false, false, []⟩,
   ⟨2, 70, 0, false, false, [.epsilon 581]⟩,
   ⟨7, 70, 0, false, false, []⟩,
   ⟨2, 71, 0, false, false, [.epsilon 586]⟩,
   ⟨7, 71, 0, false, false, []⟩,
   ⟨2, 72, 0, false, false, [.epsilon 591]⟩,
   ⟨7, 72, 0, false, false, []⟩,
   ⟨2, 73, 0, false, false, [.epsilon 596]⟩,
   ⟨7, 73, 0, false, false, []⟩,
   ⟨2, 74, 0, false, false, [.epsilon 601]⟩,
   ⟨7, 74, 0, false, false, []⟩,
   ⟨2, 75, 0, false, false, [.epsilon 606]⟩,
   ⟨7, 75, 0, false, false, []⟩,
   ⟨1, 0, 0, false, false, [.rule 7 2 0 158]⟩,
   ⟨1, 0, 0, false, false, [.rule 5 1 0 158]⟩,
   ⟨3, 0, 158, false, false, [.epsilon 155, .epsilon 156]⟩,
   ⟨8, 0, 0, false, false, [.epsilon 159]⟩,
   ⟨1, 0, 0, false, false, [.rule 21 9 0 160]⟩,
   ⟨1, 0, 0, false, false, [.epsilon 4]⟩,
   ⟨1, 1, 0, false, false, [.atom 162 43]⟩,
   ⟨1, 1, 0, false, false, [.epsilon 6]⟩,
   ⟨1, 2, 0, false, false, [.atom 164 45]⟩,
   ⟨1, 2, 0, false, false, [.epsilon 8]⟩,
   ⟨1, 3, 0, false, false, [.set 168 [(42, 42), (183, 183)]]⟩,
   ⟨1, 3, 0, false, false, [.rule 7 2 0 168]⟩,
   ⟨3, 3, 168, false, false, [.epsilon 165, .epsilon 166]⟩,
   ⟨8, 3, 0, false, false, [.epsilon 10]⟩,
   ⟨1, 4, 0, false, false, [.rule 41 19 0 171]⟩,
   ⟨5, 4, 171, false, false, [.epsilon 169]⟩,
   ⟨8, 4, 0, false, false, [.epsilon 174]⟩,
   ⟨10, 4, 0, false, false, [.epsilon 170, .epsilon 173]⟩,
   ⟨12, 4, 174, false, false, [.epsilon 186]⟩,
   ⟨9, 4, 0, false, false, [.epsilon 172]⟩,
   ⟨1, 4, 0, false, false, [.atom 187 47]⟩,
   ⟨1, 4, 0, false, false, [.atom 177 32]⟩,
   ⟨1, 4, 0, false, false, [.atom 178 80]⟩,
   ⟨1, 4, 0, false, false, [.atom 179 69]⟩,
   ⟨1, 4, 0, false, false, [.atom 180 82]⟩,
   ⟨1, 4, 0, false, false, [.atom 187 32]⟩,
   ⟨1, 4, 0, false, false, [.atom 182 32]⟩,
   ⟨1, 4, 0, false, false, [.atom 183 112]⟩,
   ⟨1, 4, 0, false, false, [.atom 184 101]⟩,
   ⟨1, 4, 0, false, false, [.atom 185 114]⟩,
   ⟨1, 4, 0, false, false, [.atom 187 32]⟩,
   ⟨3, 4, 187, false, false, [.epsilon 175, .epsilon 176, .epsilon 181]⟩,
   ⟨8, 4, 0, false, false, [.epsilon 191]⟩,
   ⟨1, 4, 0, false, false, [.rule 41 19 0 190]⟩,
   ⟨5, 4, 190, false, false, [.epsilon 188]⟩,
   ⟨8, 4, 0, false, false, [.epsilon 193]⟩,
   ⟨10, 4, 0, false, false, [.epsilon 189, .epsilon 192]⟩,
   ⟨12, 4, 193, false, false, [.epsilon 12]⟩,
   ⟨9, 4, 0, false, false, [.epsilon 191]⟩,
   ⟨1, 5, 0, false, false, [.atom 195 46]⟩,
   ⟨1, 5, 0, false, false, [.epsilon 14]⟩,
   ⟨1, 6, 0, false, false, [.atom 197 40]⟩,
   ⟨1, 6, 0, false, false, [.epsilon 16]⟩,
   ⟨1, 7, 0, false, false, [.atom 199 41]⟩,
   ⟨1, 7, 0, false, false, [.epsilon 18]⟩,
   ⟨1, 8, 0, false, false, [.atom 201 58]⟩,
   ⟨1, 8, 0, false, false, [.epsilon 20]⟩,
   ⟨1, 9, 0, false, false, [.range 204 48 57]⟩,
   ⟨4, 9, 204, false, false, [.epsilon 202]⟩,
   ⟨8, 9, 0, false, false, [.epsilon 205]⟩,
   ⟨11, 9, 0, false, false, [.epsilon 203, .epsilon 206]⟩,
   ⟨12, 9, 205, false, false, [.epsilon 22]⟩,
   ⟨1, 10, 0, false, false, [.rule 21 9 0 210]⟩,
   ⟨1, 10, 0, false, false, [.rule 3 0 0 210]⟩,
   ⟨3, 10, 210, false, false, [.epsilon 207, .epsilon 208]⟩,
   ⟨8, 10, 0, false, false, [.epsilon 24]⟩,
   ⟨1, 11, 0, false, false, [.set 212 [(69, 69), (101, 101)]]⟩,
   ⟨1, 11, 0, false, false, [.rule 23 10 0 213]⟩,
   ⟨1, 11, 0, false, false, [.epsilon 26]⟩,
   ⟨1, 12, 0, false, false, [.rule 23 10 0 215]⟩,
   ⟨1, 12, 0, false, false, [.rule 13 5 0 217]⟩,
   ⟨1, 12, 0, false, false, [.rule 21 9 0 218]⟩,
   ⟨3, 12, 218, false, false, [.epsilon 216, .epsilon 218]⟩,
   ⟨8, 12, 0, false, false, [.epsilon 226]⟩,
   ⟨1, 12, 0, false, false, [.rule 23 10 0 221]⟩,
   ⟨3, 12, 221, false, false, [.epsilon 219, .epsilon 221]⟩,
   ⟨8, 12, 0, false, false, [.epsilon 222]⟩,
   ⟨1, 12, 0, false, false, [.rule 13 5 0 223]⟩,
   ⟨1, 12, 0, false, false, [.rule 21 9 0 224]⟩,
   ⟨1, 12, 0, false, false, [.epsilon 226]⟩,
   ⟨3, 12, 226, false, false, [.epsilon 214, .epsilon 220]⟩,
   ⟨8, 12, 0, false, false, [.epsilon 228]⟩,
   ⟨1, 12, 0, false, false, [.rule 25 11 0 229]⟩,
   ⟨3, 12, 229, false, false, [.epsilon 227, .epsilon 229]⟩,
   ⟨8, 12, 0, false, false, [.epsilon 234]⟩,
   ⟨1, 12, 0, false, false, [.rule 23 10 0 231]⟩,
   ⟨1, 12, 0, false, false, [.rule 25 11 0 232]⟩,
   ⟨1, 12, 0, false, false, [.epsilon 234]⟩,
   ⟨3, 12, 234, false, false, [.epsilon 225, .epsilon 230]⟩,
   ⟨8, 12, 0, false, false, [.epsilon 28]⟩,
   ⟨1, 13, 0, false, false, [.atom 254 64]⟩,
   ⟨1, 13, 0, false, false, [.atom 237 97]⟩,
   ⟨1, 13, 0, false, false, [.atom 238 102]⟩,
   ⟨1, 13, 0, false, false, [.atom 239 116]⟩,
   ⟨1, 13, 0, false, false, [.atom 240 101]⟩,
   ⟨1, 13, 0, false, false, [.atom 254 114]⟩,
   ⟨1, 13, 0, false, false, [.atom 242 102]⟩,
   ⟨1, 13, 0, false, false, [.atom 243 114]⟩,
   ⟨1, 13, 0, false, false, [.atom 244 111]⟩,
   ⟨1, 13, 0, false, false, [.atom 254 109]⟩,
   ⟨1, 13, 0, false, false, [.atom 246 115]⟩,
   ⟨1, 13, 0, false, false, [.atom 247 105]⟩,
   ⟨1, 13, 0, false, false, [.atom 248 110]⟩,
   ⟨1, 13, 0, false, false, [.atom 249 99]⟩,
   ⟨1, 13, 0, false, false, [.atom 254 101]⟩,
   ⟨1, 13, 0, false, false, [.atom 251 114]⟩,
   ⟨1, 13, 0, false, false, [.atom 252 101]⟩,
   ⟨1, 13, 0, false, false, [.atom 254 102]⟩,
   ⟨3, 13, 254, false, false, [.epsilon 235, .epsilon 236, .epsilon 241, .epsilon 245, .epsilon 250]⟩,
   ⟨8, 13, 0, false, false, [.epsilon 255]⟩,
   ⟨1, 13, 0, false, false, [.action 256 13 0]⟩,
   ⟨1, 13, 0, false, false, [.epsilon 30]⟩,
   ⟨1, 14, 0, false, false, [.set 259 [(178, 179), (185, 185), (8304, 8304), (8308, 8315)]]⟩,
   ⟨4, 14, 259, false, false, [.epsilon 257]⟩,
   ⟨8, 14, 0, false, false, [.epsilon 260]⟩,
   ⟨11, 14, 0, false, false, [.epsilon 258, .epsilon 261]⟩,
   ⟨12, 14, 260, false, false, [.epsilon 32]⟩,
   ⟨1, 15, 0, false, false, [.atom 266 94]⟩,
   ⟨1, 15, 0, false, false, [.atom 264 42]⟩,
   ⟨1, 15, 0, false, false, [.atom 266 42]⟩,
   ⟨3, 15, 266, false, false, [.epsilon 262, .epsilon 263]⟩,
   ⟨8, 15, 0, false, false, [.epsilon 34]⟩,
   ⟨1, 16, 0, false, false, [.atom 268 108]⟩,
   ⟨1, 16, 0, false, false, [.atom 269 111]⟩,
   ⟨1, 16, 0, false, false, [.atom 277 103]⟩,
   ⟨1, 16, 0, false, false, [.atom 271 108]⟩,
   ⟨1, 16, 0, false, false, [.atom 277 103]⟩,
   ⟨1, 16, 0, false, false, [.atom 273 108]⟩,
   ⟨1, 16, 0, false, false, [.atom 277 110]⟩,
   ⟨1, 16, 0, false, false, [.atom 275 108]⟩,
   ⟨1, 16, 0, false, false, [.atom 277 98]⟩,
   ⟨3, 16, 277, false, false, [.epsilon 267, .epsilon 270, .epsilon 272, .epsilon 274]⟩,
   ⟨8, 16, 0, false, false, [.epsilon 281]⟩,
   ⟨1, 16, 0, false, false, [.rule 41 19 0 280]⟩,
   ⟨5, 16, 280, false, false, [.epsilon 278]⟩,
   ⟨8, 16, 0, false, false, [.epsilon 283]⟩,
   ⟨10, 16, 0, false, false, [.epsilon 279, .epsilon 282]⟩,
   ⟨12, 16, 283, false, false, [.epsilon 284]⟩,
   ⟨9, 16, 0, false, false, [.epsilon 281]⟩,
   ⟨1, 16, 0, false, false, [.atom 288 40]⟩,
   ⟨1, 16, 0, false, false, [.rule 41 19 0 287]⟩,
   ⟨5, 16, 287, false, false, [.epsilon 285]⟩,
   ⟨8, 16, 0, false, false, [.epsilon 290]⟩,
   ⟨10, 16, 0, false, false, [.epsilon 286, .epsilon 289]⟩,
   ⟨12, 16, 290, false, false, [.epsilon 295]⟩,
   ⟨9, 16, 0, false, false, [.epsilon 288]⟩,
   ⟨1, 16, 0, false, false, [.atom 292 82]⟩,
   ⟨1, 16, 0, false, false, [.atom 296 69]⟩,
   ⟨1, 16, 0, false, false, [.atom 294 114]⟩,
   ⟨1, 16, 0, false, false, [.atom 296 101]⟩,
   ⟨3, 16, 296, false, false, [.epsilon 291, .epsilon 293]⟩,
   ⟨8, 16, 0, false, false, [.epsilon 298]⟩,
   ⟨1, 16, 0, false, false, [.atom 299 58]⟩,
   ⟨3, 16, 299, false, false, [.epsilon 297, .epsilon 299]⟩,
   ⟨8, 16, 0, false, false, [.epsilon 303]⟩,
   ⟨1, 16, 0, false, false, [.rule 41 19 0 302]⟩,
   ⟨5, 16, 302, false, false, [.epsilon 300]⟩,
   ⟨8, 16, 0, false, false, [.epsilon 305]⟩,
   ⟨10, 16, 0, false, false, [.epsilon 301, .epsilon 304]⟩,
   ⟨12, 16, 305, false, false, [.epsilon 36]⟩,
   ⟨9, 16, 0, false, false, [.epsilon 303]⟩,
   ⟨1, 17, 0, false, false, [.set 309 [(65, 90), (95, 95), (97, 122)]]⟩,
   ⟨1, 17, 0, false, false, [.rule 39 18 0 309]⟩,
   ⟨4, 17, 309, false, false, [.epsilon 306, .epsilon 307]⟩,
   ⟨8, 17, 0, false, false, [.epsilon 310]⟩,
   ⟨11, 17, 0, false, false, [.epsilon 308, .epsilon 311]⟩,
   ⟨12, 17, 310, false, false, [.epsilon 312]⟩,
   ⟨1, 17, 0, false, false, [.action 313 17 1]⟩,
   ⟨1, 17, 0, false, false, [.epsilon 38]⟩,
   ⟨1, 18, 0, false, false, [.set 315 [(128, 128), (173, 173), (176, 176), (181, 181), (192, 214), (216, 246), (248, 255), (937, 937), (960, 960)]]⟩,
   ⟨1, 18, 0, false, false, [.epsilon 40]⟩,
   ⟨1, 19, 0, false, false, [.set 317 [(32, 32)]]⟩,
   ⟨1, 19, 0, false, false, [.epsilon 42]⟩,
   ⟨1, 20, 0, false, false, [.wildcard 319]⟩,
   ⟨1, 20, 0, false, false, [.epsilon 44]⟩,
   ⟨1, 21, 0, false, false, [.atom 321 85]⟩,
   ⟨1, 21, 0, false, false, [.atom 322 84]⟩,
   ⟨1, 21, 0, false, false, [.atom 328 67]⟩,
   ⟨1, 21, 0, false, false, [.atom 328 90]⟩,
   ⟨1, 21, 0, false, false, [.atom 325 71]⟩,
   ⟨1, 21, 0, false, false, [.atom 326 77]⟩,
   ⟨1, 21, 0, false, false, [.atom 328 84]⟩,
   ⟨3, 21, 328, false, false, [.epsilon 320, .epsilon 323, .epsilon 324]⟩,
   ⟨8, 21, 0, false, false, [.epsilon 46]⟩,
   ⟨1, 22, 0, false, false, [.atom 330 84]⟩,
   ⟨1, 22, 0, false, false, [.atom 331 90]⟩,
   ⟨1, 22, 0, false, false, [.epsilon 48]⟩,
   ⟨1, 23, 0, false, false, [.rule 5 1 0 335]⟩,
   ⟨1, 23, 0, false, false, [.rule 7 2 0 335]⟩,
   ⟨3, 23, 335, false, false, [.epsilon 332, .epsilon 333]⟩,
   ⟨8, 23, 0, false, false, [.epsilon 50]⟩,
   ⟨1, 24, 0, false, false, [.rule 49 23 0 338]⟩,
   ⟨3, 24, 338, false, false, [.epsilon 336, .epsilon 338]⟩,
   ⟨8, 24, 0, false, false, [.epsilon 340]⟩,
   ⟨1, 24, 0, false, false, [.range 341 48 49]⟩,
   ⟨3, 24, 341, false, false, [.epsilon 339, .epsilon 341]⟩,
   ⟨8, 24, 0, false, false, [.epsilon 342]⟩,
   ⟨1, 24, 0, false, false, [.range 346 48 57]⟩,
   ⟨1, 24, 0, false, false, [.atom 344 50]⟩,
   ⟨1, 24, 0, false, false, [.range 346 48 51]⟩,
   ⟨3, 24, 346, false, false, [.epsilon 337, .epsilon 343]⟩,
   ⟨8, 24, 0, false, false, [.epsilon 52]⟩,
   ⟨1, 25, 0, false, false, [.range 349 48 53]⟩,
   ⟨3, 25, 349, false, false, [.epsilon 347, .epsilon 349]⟩,
   ⟨8, 25, 0, false, false, [.epsilon 350]⟩,
   ⟨1, 25, 0, false, false, [.range 351 48 57]⟩,
   ⟨1, 25, 0, false, false, [.epsilon 54]⟩,
   ⟨1, 26, 0, false, false, [.rule 53 25 0 356]⟩,
   ⟨1, 26, 0, false, false, [.atom 354 54]⟩,
   ⟨1, 26, 0, false, false, [.atom 356 48]⟩,
   ⟨3, 26, 356, false, false, [.epsilon 352, .epsilon 353]⟩,
   ⟨8, 26, 0, false, false, [.epsilon 364]⟩,
   ⟨1, 26, 0, false, false, [.rule 13 5 0 361]⟩,
   ⟨1, 26, 0, false, false, [.range 360 48 57]⟩,
   ⟨5, 26, 360, false, false, [.epsilon 358]⟩,
   ⟨8, 26, 0, false, false, [.epsilon 363]⟩,
   ⟨10, 26, 0, false, false, [.epsilon 359, .epsilon 362]⟩,
   ⟨12, 26, 363, false, false, [.epsilon 365]⟩,
   ⟨9, 26, 0, false, false, [.epsilon 361]⟩,
   ⟨3, 26, 365, false, false, [.epsilon 357, .epsilon 365]⟩,
   ⟨8, 26, 0, false, false, [.epsilon 56]⟩,
   ⟨1, 27, 0, false, false, [.atom 368 48]⟩,
   ⟨3, 27, 368, false, false, [.epsilon 366, .epsilon 368]⟩,
   ⟨8, 27, 0, false, false, [.epsilon 369]⟩,
   ⟨1, 27, 0, false, false, [.range 373 49 57]⟩,
   ⟨1, 27, 0, false, false, [.atom 371 49]⟩,
   ⟨1, 27, 0, false, false, [.range 373 48 50]⟩,
   ⟨3, 27, 373, false, false, [.epsilon 367, .epsilon 370]⟩,
   ⟨8, 27, 0, false, false, [.epsilon 58]⟩,
   ⟨1, 28, 0, false, false, [.atom 376 48]⟩,
   ⟨3, 28, 376, false, false, [.epsilon 374, .epsilon 376]⟩,
   ⟨8, 28, 0, false, false, [.epsilon 377]⟩,
   ⟨1, 28, 0, false, false, [.range 385 49 57]⟩,
   ⟨1, 28, 0, false, false, [.range 379 49 50]⟩,
   ⟨1, 28, 0, false, false, [.range 385 48 57]⟩,
   ⟨1, 28, 0, false, false, [.atom 381 51]⟩,
   ⟨1, 28, 0, false, false, [.atom 385 48]⟩,
   ⟨1, 28, 0, false, false, [.atom 383 51]⟩,
   ⟨1, 28, 0, false, false, [.atom 385 49]⟩,
   ⟨3, 28, 385, false, false, [.epsilon 375, .epsilon 378, .epsilon 380, .epsilon 382]⟩,
   ⟨8, 28, 0, false, false, [.epsilon 60]⟩,
   ⟨1, 29, 0, false, false, [.rule 23 10 0 388]⟩,
   ⟨1, 29, 0, false, false, [.rule 21 9 0 389]⟩,
   ⟨3, 29, 389, false, false, [.epsilon 387, .epsilon 389]⟩,
   ⟨8, 29, 0, false, false, [.epsilon 391]⟩,
   ⟨1, 29, 0, false, false, [.rule 21 9 0 392]⟩,
   ⟨3, 29, 392, false, false, [.epsilon 390, .epsilon 392]⟩,
   ⟨8, 29, 0, false, false, [.epsilon 394]⟩,
   ⟨1, 29, 0, false, false, [.rule 21 9 0 395]⟩,
   ⟨3, 29, 395, false, false, [.epsilon 393, .epsilon 395]⟩,
   ⟨8, 29, 0, false, false, [.epsilon 62]⟩,
   ⟨1, 30, 0, false, false, [.rule 51 24 0 397]⟩,
   ⟨1, 30, 0, false, false, [.atom 398 58]⟩,
   ⟨1, 30, 0, false, false, [.rule 53 25 0 399]⟩,
   ⟨1, 30, 0, false, false, [.atom 400 58]⟩,
   ⟨1, 30, 0, false, false, [.rule 55 26 0 401]⟩,
   ⟨1, 30, 0, false, false, [.epsilon 64]⟩,
   ⟨1, 31, 0, false, false, [.rule 51 24 0 403]⟩,
   ⟨1, 31, 0, false, false, [.atom 404 58]⟩,
   ⟨1, 31, 0, false, false, [.rule 53 25 0 405]⟩,
   ⟨1, 31, 0, false, false, [.epsilon 66]⟩,
   ⟨1, 32, 0, false, false, [.atom 407 45]⟩,
   ⟨1, 32, 0, false, false, [.epsilon 68]⟩,
   ⟨1, 33, 0, false, false, [.rule 61 29 0 409]⟩,
   ⟨1, 33, 0, false, false, [.rule 7 2 0 410]⟩,
   ⟨1, 33, 0, false, false, [.rule 57 27 0 414]⟩,
   ⟨1, 33, 0, false, false, [.rule 7 2 0 412]⟩,
   ⟨1, 33, 0, false, false, [.rule 59 28 0 413]⟩,
   ⟨1, 33, 0, false, false, [.epsilon 415]⟩,
   ⟨3, 33, 415, false, false, [.epsilon 411, .epsilon 415]⟩,
   ⟨8, 33, 0, false, false, [.epsilon 70]⟩,
   ⟨1, 34, 0, false, false, [.rule 51 24 0 421]⟩,
   ⟨1, 34, 0, false, false, [.rule 53 25 0 419]⟩,
   ⟨1, 34, 0, false, false, [.rule 55 26 0 420]⟩,
   ⟨3, 34, 420, false, false, [.epsilon 418, .epsilon 420]⟩,
   ⟨8, 34, 0, false, false, [.epsilon 422]⟩,
   ⟨3, 34, 422, false, false, [.epsilon 417, .epsilon 422]⟩,
   ⟨8, 34, 0, false, false, [.epsilon 72]⟩,
   ⟨1, 35, 0, false, false, [.atom 424 84]⟩,
   ⟨1, 35, 0, false, false, [.epsilon 74]⟩,
   ⟨1, 36, 0, false, false, [.rule 61 29 0 430]⟩,
   ⟨1, 36, 0, false, false, [.rule 57 27 0 428]⟩,
   ⟨1, 36, 0, false, false, [.rule 59 28 0 429]⟩,
   ⟨3, 36, 429, false, false, [.epsilon 427, .epsilon 429]⟩,
   ⟨8, 36, 0, false, false, [.epsilon 431]⟩,
   ⟨3, 36, 431, false, false, [.epsilon 426, .epsilon 431]⟩,
   ⟨8, 36, 0, false, false, [.epsilon 432]⟩,
   ⟨1, 36, 0, false, false, [.rule 73 35 0 433]⟩,
   ⟨1, 36, 0, false, false, [.rule 71 34 0 434]⟩,
   ⟨1, 36, 0, false, false, [.epsilon 76]⟩,
   ⟨1, 37, 0, false, false, [.rule 3 0 0 436]⟩,
   ⟨1, 37, 0, false, false, [.epsilon 437]⟩,
   ⟨1, 37, 0, false, false, [.action 438 37 2]⟩,
   ⟨1, 37, 0, false, false, [.epsilon 78]⟩,
   ⟨1, 38, 0, false, false, [.rule 5 1 0 440]⟩,
   ⟨1, 38, 0, false, false, [.epsilon 441]⟩,
   ⟨1, 38, 0, false, false, [.action 442 38 3]⟩,
   ⟨1, 38, 0, false, false, [.epsilon 80]⟩,
   ⟨1, 39, 0, false, false, [.rule 9 3 0 444]⟩,
   ⟨1, 39, 0, false, false, [.epsilon 445]⟩,
   ⟨1, 39, 0, false, false, [.action 446 39 4]⟩,
   ⟨1, 39, 0, false, false, [.epsilon 82]⟩,
   ⟨1, 40, 0, false, false, [.rule 11 4 0 448]⟩,
   ⟨1, 40, 0, false, false, [.epsilon 449]⟩,
   ⟨1, 40, 0, false, false, [.action 450 40 5]⟩,
   ⟨1, 40, 0, false, false, [.epsilon 84]⟩,
   ⟨1, 41, 0, false, false, [.rule 13 5 0 452]⟩,
   ⟨1, 41, 0, false, false, [.epsilon 453]⟩,
   ⟨1, 41, 0, false, false, [.action 454 41 6]⟩,
   ⟨1, 41, 0, false, false, [.epsilon 86]⟩,
   ⟨1, 42, 0, false, false, [.rule 15 6 0 456]⟩,
   ⟨1, 42, 0, false, false, [.epsilon 457]⟩,
   ⟨1, 42, 0, false, false, [.action 458 42 7]⟩,
   ⟨1, 42, 0, false, false, [.epsilon 88]⟩,
   ⟨1, 43, 0, false, false, [.rule 17 7 0 460]⟩,
   ⟨1, 43, 0, false, false, [.epsilon 461]⟩,
   ⟨1, 43, 0, false, false, [.action 462 43 8]⟩,
   ⟨1, 43, 0, false, false, [.epsilon 90]⟩,
   ⟨1, 44, 0, false, false, [.rule 19 8 0 464]⟩,
   ⟨1, 44, 0, false, false, [.epsilon 465]⟩,
   ⟨1, 44, 0, false, false, [.action 466 44 9]⟩,
   ⟨1, 44, 0, false, false, [.epsilon 92]⟩,
   ⟨1, 45, 0, false, false, [.rule 21 9 0 468]⟩,
   ⟨1, 45, 0, false, false, [.epsilon 469]⟩,
   ⟨1, 45, 0, false, false, [.action 470 45 10]⟩,
   ⟨1, 45, 0, false, false, [.epsilon 94]⟩,
   ⟨1, 46, 0, false, false, [.rule 25 11 0 472]⟩,
   ⟨1, 46, 0, false, false, [.epsilon 473]⟩,
   ⟨1, 46, 0, false, false, [.action 474 46 11]⟩,
   ⟨1, 46, 0, false, false, [.epsilon 96]⟩,
   ⟨1, 47, 0, false, false, [.rule 27 12 0 476]⟩,
   ⟨1, 47, 0, false, false, [.epsilon 477]⟩,
   ⟨1, 47, 0, false, false, [.action 478 47 12]⟩,
   ⟨1, 47, 0, false, false, [.epsilon 98]⟩,
   ⟨1, 48, 0, false, false, [.rule 29 13 0 480]⟩,
   ⟨1, 48, 0, false, false, [.epsilon 481]⟩,
   ⟨1, 48, 0, false, false, [.action 482 48 13]⟩,
   ⟨1, 48, 0, false, false, [.epsilon 100]⟩,
   ⟨1, 49, 0, false, false, [.rule 31 14 0 484]⟩,
   ⟨1, 49, 0, false, false, [.epsilon 485]⟩,
   ⟨1, 49, 0, false, false, [.action 486 49 14]⟩,
   ⟨1, 49, 0, false, false, [.epsilon 102]⟩,
   ⟨1, 50, 0, false, false, [.rule 33 15 0 488]⟩,
   ⟨1, 50, 0, false, false, [.epsilon 489]⟩,
   ⟨1, 50, 0, false, false, [.action 490 50 15]⟩,
   ⟨1, 50, 0, false, false, [.epsilon 104]⟩,
   ⟨1, 51, 0, false, false, [.rule 35 16 0 492]⟩,
   ⟨1, 51, 0, false, false, [.epsilon 493]⟩,
   ⟨1, 51, 0, false, false, [.action 494 51 16]⟩,
   ⟨1, 51, 0, false, false, [.epsilon 106]⟩,
   ⟨1, 52, 0, false, false, [.rule 37 17 0 496]⟩,
   ⟨1, 52, 0, false, false, [.epsilon 497]⟩,
   ⟨1, 52, 0, false, false, [.action 498 52 17]⟩,
   ⟨1, 52, 0, false, false, [.epsilon 108]⟩,
   ⟨1, 53, 0, false, false, [.rule 39 18 0 500]⟩,
   ⟨1, 53, 0, false, false, [.epsilon 501]⟩,
   ⟨1, 53, 0, false, false, [.action 502 53 18]⟩,
   ⟨1, 53, 0, false, false, [.epsilon 110]⟩,
   ⟨1, 54, 0, false, false, [.rule 41 19 0 504]⟩,
   ⟨1, 54, 0, false, false, [.epsilon 505]⟩,
   ⟨1, 54, 0, false, false, [.action 506 54 19]⟩,
   ⟨1, 54, 0, false, false, [.epsilon 112]⟩,
   ⟨1, 55, 0, false, false, [.rule 43 20 0 508]⟩,
   ⟨1, 55, 0, false, false, [.epsilon 509]⟩,
   ⟨1, 55, 0, false, false, [.action 510 55 20]⟩,
   ⟨1, 55, 0, false, false, [.epsilon 114]⟩,
   ⟨1, 56, 0, false, false, [.rule 3 0 0 512]⟩,
   ⟨1, 56, 0, false, false, [.epsilon 513]⟩,
   ⟨1, 56, 0, false, false, [.action 514 56 2]⟩,
   ⟨1, 56, 0, false, false, [.action 515 56 21]⟩,
   ⟨1, 56, 0, false, false, [.epsilon 116]⟩,
   ⟨1, 57, 0, false, false, [.range 517 45 46]⟩,
   ⟨1, 57, 0, false, false, [.epsilon 518]⟩,
   ⟨1, 57, 0, false, false, [.action 519 57 4]⟩,
   ⟨1, 57, 0, false, false, [.action 520 57 21]⟩,
   ⟨1, 57, 0, false, false, [.epsilon 118]⟩,
   ⟨1, 58, 0, false, false, [.rule 3 0 0 522]⟩,
   ⟨1, 58, 0, false, false, [.epsilon 523]⟩,
   ⟨1, 58, 0, false, false, [.action 524 58 2]⟩,
   ⟨1, 58, 0, false, false, [.action 525 58 21]⟩,
   ⟨1, 58, 0, false, false, [.epsilon 120]⟩,
   ⟨1, 59, 0, false, false, [.rule 5 1 0 527]⟩,
   ⟨1, 59, 0, false, false, [.epsilon 528]⟩,
   ⟨1, 59, 0, false, false, [.action 529 59 3]⟩,
   ⟨1, 59, 0, false, false, [.action 530 59 21]⟩,
   ⟨1, 59, 0, false, false, [.epsilon 122]⟩,
   ⟨1, 60, 0, false, false, [.rule 9 3 0 532]⟩,
   ⟨1, 60, 0, false, false, [.epsilon 533]⟩,
   ⟨1, 60, 0, false, false, [.action 534 60 4]⟩,
   ⟨1, 60, 0, false, false, [.action 535 60 21]⟩,
   ⟨1, 60, 0, false, false, [.epsilon 124]⟩,
   ⟨1, 61, 0, false, false, [.rule 11 4 0 537]⟩,
   ⟨1, 61, 0, false, false, [.epsilon 538]⟩,
   ⟨1, 61, 0, false, false, [.action 539 61 5]⟩,
   ⟨1, 61, 0, false, false, [.action 540 61 21]⟩,
   ⟨1, 61, 0, false, false, [.epsilon 126]⟩,
   ⟨1, 62, 0, false, false, [.rule 13 5 0 542]⟩,
   ⟨1, 62, 0, false, false, [.epsilon 543]⟩,
   ⟨1, 62, 0, false, false, [.action 544 62 6]⟩,
   ⟨1, 62, 0, false, false, [.action 545 62 21]⟩,
   ⟨1, 62, 0, false, false, [.epsilon 128]⟩,
   ⟨1, 63, 0, false, false, [.rule 15 6 0 547]⟩,
   ⟨1, 63, 0, false, false, [.epsilon 548]⟩,
   ⟨1, 63, 0, false, false, [.action 549 63 7]⟩,
   ⟨1, 63, 0, false, false, [.action 550 63 21]⟩,
   ⟨1, 63, 0, false, false, [.epsilon 130]⟩,
   ⟨1, 64, 0, false, false, [.rule 17 7 0 552]⟩,
   ⟨1, 64, 0, false, false, [.epsilon 553]⟩,
   ⟨1, 64, 0, false, false, [.action 554 64 8]⟩,
   ⟨1, 64, 0, false, false, [.action 555 64 21]⟩,
   ⟨1, 64, 0, false, false, [.epsilon 132]⟩,
   ⟨1, 65, 0, false, false, [.rule 19 8 0 557]⟩,
   ⟨1, 65, 0, false, false, [.epsilon 558]⟩,
   ⟨1, 65, 0, false, false, [.action 559 65 9]⟩,
   ⟨1, 65, 0, false, false, [.action 560 65 21]⟩,
   ⟨1, 65, 0, false, false, [.epsilon 134]⟩,
   ⟨1, 66, 0, false, false, [.rule 21 9 0 562]⟩,
   ⟨1, 66, 0, false, false, [.epsilon 563]⟩,
   ⟨1, 66, 0, false, false, [.action 564 66 10]⟩,
   ⟨1, 66, 0, false, false, [.action 565 66 21]⟩,
   ⟨1, 66, 0, false, false, [.epsilon 136]⟩,
   ⟨1, 67, 0, false, false, [.rule 25 11 0 567]⟩,
   ⟨1, 67, 0, false, false, [.epsilon 568]⟩,
   ⟨1, 67, 0, false, false, [.action 569 67 11]⟩,
   ⟨1, 67, 0, false, false, [.action 570 67 21]⟩,
   ⟨1, 67, 0, false, false, [.epsilon 138]⟩,
   ⟨1, 68, 0, false, false, [.rule 29 13 0 572]⟩,
   ⟨1, 68, 0, false, false, [.epsilon 573]⟩,
   ⟨1, 68, 0, false, false, [.action 574 68 13]⟩,
   ⟨1, 68, 0, false, false, [.action 575 68 21]⟩,
   ⟨1, 68, 0, false, false, [.epsilon 140]⟩,
   ⟨1, 69, 0, false, false, [.rule 31 14 0 577]⟩,
   ⟨1, 69, 0, false, false, [.epsilon 578]⟩,
   ⟨1, 69, 0, false, false, [.action 579 69 14]⟩,
   ⟨1, 69, 0, false, false, [.action 580 69 21]⟩,
   ⟨1, 69, 0, false, false, [.epsilon 142]⟩,
   ⟨1, 70, 0, false, false, [.rule 33 15 0 582]⟩,
   ⟨1, 70, 0, false, false, [.epsilon 583]⟩,
   ⟨1, 70, 0, false, false, [.action 584 70 15]⟩,
   ⟨1, 70, 0, false, false, [.action 585 70 21]⟩,
   ⟨1, 70, 0, false, false, [.epsilon 144]⟩,
   ⟨1, 71, 0, false, false, [.rule 35 16 0 587]⟩,
   ⟨1, 71, 0, false, false, [.epsilon 588]⟩,
   ⟨1, 71, 0, false, false, [.action 589 71 16]⟩,
   ⟨1, 71, 0, false, false, [.action 590 71 21]⟩,
   ⟨1, 71, 0, false, false, [.epsilon 146]⟩,
   ⟨1, 72, 0, false, false, [.rule 37 17 0 592]⟩,
   ⟨1, 72, 0, false, false, [.epsilon 593]⟩,
   ⟨1, 72, 0, false, false, [.action 594 72 17]⟩,
   ⟨1, 72, 0, false, false, [.action 595 72 21]⟩,
   ⟨1, 72, 0, false, false, [.epsilon 148]⟩,
   ⟨1, 73, 0, false, false, [.rule 39 18 0 597]⟩,
   ⟨1, 73, 0, false, false, [.epsilon 598]⟩,
   ⟨1, 73, 0, false, false, [.action 599 73 18]⟩,
   ⟨1, 73, 0, false, false, [.action 600 73 21]⟩,
   ⟨1, 73, 0, false, false, [.epsilon 150]⟩,
   ⟨1, 74, 0, false, false, [.rule 41 19 0 602]⟩,
   ⟨1, 74, 0, false, false, [.epsilon 603]⟩,
   ⟨1, 74, 0, false, false, [.action 604 74 19]⟩,
   ⟨1, 74, 0, false, false, [.action 605 74 21]⟩,
   ⟨1, 74, 0, false, false, [.epsilon 152]⟩,
   ⟨1, 75, 0, false, false, [.rule 43 20 0 607]⟩,
   ⟨1, 75, 0, false, false, [.epsilon 608]⟩,
   ⟨1, 75, 0, false, false, [.action 609 75 20]⟩,
   ⟨1, 75, 0, false, false, [.action 610 75 21]⟩,
   ⟨1, 75, 0, false, false, [.epsilon 154]⟩]

def atn : Atn :=
  ⟨0, 27, states,
   [(3, 1), (5, 2), (7, 0), (9, 3), (11, 4), (13, 5), (15, 6), (17, 7), (19, 8), (21, 9), (23, 0), (25, 10), (27, 11), (29, 12), (31, 13), (33, 14), (35, 15), (37, 16), (39, 17), (41, 18), (43, 19), (45, 20), (47, 21), (49, 0), (51, 0), (53, 0), (55, 0), (57, 0), (59, 0), (61, 0), (63, 22), (65, 23), (67, 24), (69, 25), (71, 0), (73, 26), (75, 27), (77, 0), (79, 0), (81, 0), (83, 0), (85, 0), (87, 0), (89, 0), (91, 0), (93, 0), (95, 0), (97, 0), (99, 0), (101, 0), (103, 0), (105, 0), (107, 0), (109, 0), (111, 0), (113, 0), (115, 0), (117, 0), (119, 0), (121, 0), (123, 0), (125, 0), (127, 0), (129, 0), (131, 0), (133, 0), (135, 0), (137, 0), (139, 0), (141, 0), (143, 0), (145, 0), (147, 0), (149, 0), (151, 0), (153, 0)],
   [0, 1, 2], [0, 1, 2, 157, 167, 172, 186, 191, 205, 209, 217, 220, 225, 228, 233, 253, 260, 265, 276, 281, 288, 295, 298, 303, 308, 310, 327, 334, 337, 340, 345, 348, 355, 361, 364, 367, 372, 375, 384, 388, 391, 394, 414, 419, 421, 428, 430],
   [⟨5, 1, 0⟩, ⟨2, 2, 0⟩, ⟨7, 1, 0⟩, ⟨7, 2, 0⟩, ⟨7, 3, 0⟩, ⟨7, 4, 0⟩, ⟨7, 5, 0⟩, ⟨7, 6, 0⟩, ⟨7, 7, 0⟩, ⟨7, 8, 0⟩, ⟨7, 9, 0⟩, ⟨7, 10, 0⟩, ⟨7, 11, 0⟩, ⟨7, 12, 0⟩, ⟨7, 13, 0⟩, ⟨7, 14, 0⟩, ⟨7, 15, 0⟩, ⟨7, 16, 0⟩, ⟨7, 17, 0⟩, ⟨7, 18, 0⟩, ⟨7, 19, 0⟩, ⟨2, 0, 0⟩]⟩

def q0 : Re := .cls [(Char.ofNat 45, Char.ofNat 45)]
def q1 : Re := .cls [(Char.ofNat 43, Char.ofNat 43)]
def q2 : Re := .alt q0 q1
def q3 : Re := .cls [(Char.ofNat 48, Char.ofNat 57)]
def q4 : Re := .star q3
def q5 : Re := .seq q3 q4
def q6 : Re := .seq q2 q5
def q7 : Re := .cls [(Char.ofNat 42, Char.ofNat 42)]
def q8 : Re := .cls [(Char.ofNat 183, Char.ofNat 183)]
def q9 : Re := .alt q8 q0
def q10 : Re := .alt q7 q9
def q11 : Re := .cls [(Char.ofNat 32, Char.ofNat 32)]
def q12 : Re := .star q11
def q13 : Re := .cls [(Char.ofNat 47, Char.ofNat 47)]
def q14 : Re := .cls [(Char.ofNat 80, Char.ofNat 80)]
def q15 : Re := .cls [(Char.ofNat 69, Char.ofNat 69)]
def q16 : Re := .cls [(Char.ofNat 82, Char.ofNat 82)]
def q17 : Re := .seq q16 q11
def q18 : Re := .seq q15 q17
def q19 : Re := .seq q14 q18
def q20 : Re := .seq q11 q19
def q21 : Re := .cls [(Char.ofNat 112, Char.ofNat 112)]
def q22 : Re := .cls [(Char.ofNat 101, Char.ofNat 101)]
def q23 : Re := .cls [(Char.ofNat 114, Char.ofNat 114)]
def q24 : Re := .seq q23 q11
def q25 : Re := .seq q22 q24
def q26 : Re := .seq q21 q25
def q27 : Re := .seq q11 q26
def q28 : Re := .alt q20 q27
def q29 : Re := .alt q13 q28
def q30 : Re := .seq q29 q12
def q31 : Re := .seq q12 q30
def q32 : Re := .cls [(Char.ofNat 46, Char.ofNat 46)]
def q33 : Re := .cls [(Char.ofNat 40, Char.ofNat 40)]
def q34 : Re := .cls [(Char.ofNat 41, Char.ofNat 41)]
def q35 : Re := .cls [(Char.ofNat 58, Char.ofNat 58)]
def q36 : Re := .cls [(Char.ofNat 69, Char.ofNat 69), (Char.ofNat 101, Char.ofNat 101)]
def q37 : Re := .alt q5 q6
def q38 : Re := .seq q36 q37
def q39 : Re := .eps
def q40 : Re := .alt q5 q39
def q41 : Re := .seq q32 q40
def q42 : Re := .seq q37 q41
def q43 : Re := .alt q37 q39
def q44 : Re := .seq q32 q5
def q45 : Re := .seq q43 q44
def q46 : Re := .alt q42 q45
def q47 : Re := .alt q38 q39
def q48 : Re := .seq q46 q47
def q49 : Re := .seq q37 q38
def q50 : Re := .alt q48 q49
def q51 : Re := .cls [(Char.ofNat 64, Char.ofNat 64)]
def q52 : Re := .cls [(Char.ofNat 97, Char.ofNat 97)]
def q53 : Re := .cls [(Char.ofNat 102, Char.ofNat 102)]
def q54 : Re := .cls [(Char.ofNat 116, Char.ofNat 116)]
def q55 : Re := .seq q22 q23
def q56 : Re := .seq q54 q55
def q57 : Re := .seq q53 q56
def q58 : Re := .seq q52 q57
def q59 : Re := .cls [(Char.ofNat 111, Char.ofNat 111)]
def q60 : Re := .cls [(Char.ofNat 109, Char.ofNat 109)]
def q61 : Re := .seq q59 q60
def q62 : Re := .seq q23 q61
def q63 : Re := .seq q53 q62
def q64 : Re := .cls [(Char.ofNat 115, Char.ofNat 115)]
def q65 : Re := .cls [(Char.ofNat 105, Char.ofNat 105)]
def q66 : Re := .cls [(Char.ofNat 110, Char.ofNat 110)]
def q67 : Re := .cls [(Char.ofNat 99, Char.ofNat 99)]
def q68 : Re := .seq q67 q22
def q69 : Re := .seq q66 q68
def q70 : Re := .seq q65 q69
def q71 : Re := .seq q64 q70
def q72 : Re := .seq q22 q53
def q73 : Re := .seq q23 q72
def q74 : Re := .alt q71 q73
def q75 : Re := .alt q63 q74
def q76 : Re := .alt q58 q75
def q77 : Re := .alt q51 q76
def q78 : Re := .cls [(Char.ofNat 8315, Char.ofNat 8315), (Char.ofNat 8314, Char.ofNat 8314), (Char.ofNat 185, Char.ofNat 185), (Char.ofNat 178, Char.ofNat 178), (Char.ofNat 179, Char.ofNat 179), (Char.ofNat 8308, Char.ofNat 8308), (Char.ofNat 8309, Char.ofNat 8309), (Char.ofNat 8310, Char.ofNat 8310), (Char.ofNat 8311, Char.ofNat 8311), (Char.ofNat 8312, Char.ofNat 8312), (Char.ofNat 8313, Char.ofNat 8313), (Char.ofNat 8304, Char.ofNat 8304)]
def q79 : Re := .star q78
def q80 : Re := .seq q78 q79
def q81 : Re := .cls [(Char.ofNat 94, Char.ofNat 94)]
def q82 : Re := .seq q7 q7
def q83 : Re := .alt q81 q82
def q84 : Re := .cls [(Char.ofNat 108, Char.ofNat 108)]
def q85 : Re := .cls [(Char.ofNat 103, Char.ofNat 103)]
def q86 : Re := .seq q59 q85
def q87 : Re := .seq q84 q86
def q88 : Re := .seq q84 q85
def q89 : Re := .seq q84 q66
def q90 : Re := .cls [(Char.ofNat 98, Char.ofNat 98)]
def q91 : Re := .seq q84 q90
def q92 : Re := .alt q89 q91
def q93 : Re := .alt q88 q92
def q94 : Re := .alt q87 q93
def q95 : Re := .seq q16 q15
def q96 : Re := .seq q23 q22
def q97 : Re := .alt q95 q96
def q98 : Re := .alt q35 q39
def q99 : Re := .seq q98 q12
def q100 : Re := .seq q97 q99
def q101 : Re := .seq q12 q100
def q102 : Re := .seq q33 q101
def q103 : Re := .seq q12 q102
def q104 : Re := .seq q94 q103
def q105 : Re := .cls [(Char.ofNat 65, Char.ofNat 90), (Char.ofNat 97, Char.ofNat 122), (Char.ofNat 95, Char.ofNat 95), (Char.ofNat 192, Char.ofNat 214), (Char.ofNat 216, Char.ofNat 246), (Char.ofNat 248, Char.ofNat 255), (Char.ofNat 128, Char.ofNat 128), (Char.ofNat 173, Char.ofNat 173), (Char.ofNat 176, Char.ofNat 176), (Char.ofNat 181, Char.ofNat 181), (Char.ofNat 960, Char.ofNat 960), (Char.ofNat 937, Char.ofNat 937)]
def q106 : Re := .star q105
def q107 : Re := .seq q105 q106
def q108 : Re := .cls [(Char.ofNat 192, Char.ofNat 214), (Char.ofNat 216, Char.ofNat 246), (Char.ofNat 248, Char.ofNat 255), (Char.ofNat 128, Char.ofNat 128), (Char.ofNat 173, Char.ofNat 173), (Char.ofNat 176, Char.ofNat 176), (Char.ofNat 181, Char.ofNat 181), (Char.ofNat 960, Char.ofNat 960), (Char.ofNat 937, Char.ofNat 937)]
def q109 : Re := .cls [(Char.ofNat 0, Char.ofNat 1114111)]
def q110 : Re := .seq q19 q12
def q111 : Re := .seq q26 q12
def q112 : Re := .seq q5 q41
def q113 : Re := .seq q112 q47
def q114 : Re := .seq q5 q44
def q115 : Re := .seq q114 q47
def q116 : Re := .seq q5 q38
def q117 : Re := .seq q5 q47
def q118 : Re := .seq q4 q41
def q119 : Re := .seq q118 q47
def q120 : Re := .seq q4 q44
def q121 : Re := .seq q120 q47
def q122 : Re := .seq q4 q38
def q123 : Re := .seq q86 q103
def q124 : Re := .seq q85 q103
def q125 : Re := .seq q66 q103
def q126 : Re := .seq q90 q103
def q127 : Re := .seq q15 q99
def q128 : Re := .seq q22 q99
def q129 : Re := .seq q40 q47
def q130 : Re := .seq q4 q47
def q131 : Re := .seq q18 q12
def q132 : Re := .seq q25 q12
def q133 : Re := .seq q24 q12
def q134 : Re := .seq q11 q12
def q135 : Re := .seq q17 q12
def q136 : Re := .cls [(Char.ofNat 85, Char.ofNat 85)]
def q137 : Re := .cls [(Char.ofNat 84, Char.ofNat 84)]
def q138 : Re := .cls [(Char.ofNat 67, Char.ofNat 67)]
def q139 : Re := .seq q137 q138
def q140 : Re := .seq q136 q139
def q141 : Re := .cls [(Char.ofNat 90, Char.ofNat 90)]
def q142 : Re := .cls [(Char.ofNat 71, Char.ofNat 71)]
def q143 : Re := .cls [(Char.ofNat 77, Char.ofNat 77)]
def q144 : Re := .seq q143 q137
def q145 : Re := .seq q142 q144
def q146 : Re := .alt q141 q145
def q147 : Re := .alt q140 q146
def q148 : Re := .seq q137 q141
def q149 : Re := .alt q1 q0
def q150 : Re := .alt q149 q39
def q151 : Re := .cls [(Char.ofNat 48, Char.ofNat 49)]
def q152 : Re := .alt q151 q39
def q153 : Re := .seq q152 q3
def q154 : Re := .seq q150 q153
def q155 : Re := .cls [(Char.ofNat 50, Char.ofNat 50)]
def q156 : Re := .cls [(Char.ofNat 48, Char.ofNat 51)]
def q157 : Re := .seq q155 q156
def q158 : Re := .alt q154 q157
def q159 : Re := .cls [(Char.ofNat 48, Char.ofNat 53)]
def q160 : Re := .alt q159 q39
def q161 : Re := .seq q160 q3
def q162 : Re := .cls [(Char.ofNat 54, Char.ofNat 54)]
def q163 : Re := .cls [(Char.ofNat 48, Char.ofNat 48)]
def q164 : Re := .seq q162 q163
def q165 : Re := .alt q161 q164
def q166 : Re := .seq q32 q4
def q167 : Re := .alt q166 q39
def q168 : Re := .seq q165 q167
def q169 : Re := .seq q35 q168
def q170 : Re := .seq q161 q169
def q171 : Re := .seq q35 q170
def q172 : Re := .seq q158 q171
def q173 : Re := .seq q35 q161
def q174 : Re := .seq q158 q173
def q175 : Re := .seq q40 q40
def q176 : Re := .seq q40 q175
def q177 : Re := .seq q37 q176
def q178 : Re := .alt q163 q39
def q179 : Re := .cls [(Char.ofNat 49, Char.ofNat 57)]
def q180 : Re := .seq q178 q179
def q181 : Re := .cls [(Char.ofNat 49, Char.ofNat 49)]
def q182 : Re := .cls [(Char.ofNat 48, Char.ofNat 50)]
def q183 : Re := .seq q181 q182
def q184 : Re := .alt q180 q183
def q185 : Re := .cls [(Char.ofNat 49, Char.ofNat 50)]
def q186 : Re := .seq q185 q3
def q187 : Re := .cls [(Char.ofNat 51, Char.ofNat 51)]
def q188 : Re := .seq q187 q163
def q189 : Re := .seq q187 q181
def q190 : Re := .alt q188 q189
def q191 : Re := .alt q186 q190
def q192 : Re := .alt q180 q191
def q193 : Re := .seq q0 q192
def q194 : Re := .alt q193 q39
def q195 : Re := .seq q184 q194
def q196 : Re := .seq q0 q195
def q197 : Re := .seq q177 q196
def q198 : Re := .alt q192 q39
def q199 : Re := .seq q184 q198
def q200 : Re := .alt q199 q39
def q201 : Re := .alt q168 q39
def q202 : Re := .seq q161 q201
def q203 : Re := .alt q202 q39
def q204 : Re := .seq q158 q203
def q205 : Re := .seq q137 q204
def q206 : Re := .seq q200 q205
def q207 : Re := .seq q177 q206
def q208 : Re := .seq q153 q171
def q209 : Re := .seq q153 q173
def q210 : Re := .seq q5 q176
def q211 : Re := .seq q210 q196
def q212 : Re := .seq q210 q206
def q213 : Re := .seq q3 q171
def q214 : Re := .seq q3 q173
def q215 : Re := .seq q4 q176
def q216 : Re := .seq q215 q196
def q217 : Re := .seq q215 q206
def q218 : Re := .seq q156 q171
def q219 : Re := .seq q156 q173
def q220 : Re := .seq q4 q175
def q221 : Re := .seq q220 q196
def q222 : Re := .seq q4 q40
def q223 : Re := .seq q222 q196
def q224 : Re := .seq q4 q196
def q225 : Re := .seq q220 q206
def q226 : Re := .seq q222 q206
def q227 : Re := .seq q4 q206
def q228 : Re := .seq q179 q198
def q229 : Re := .seq q228 q205
def q230 : Re := .seq q198 q205
def q231 : Re := .seq q182 q198
def q232 : Re := .seq q231 q205
def q233 : Re := .seq q153 q203
def q234 : Re := .seq q3 q203
def q235 : Re := .seq q156 q203
def q236 : Re := .seq q3 q201
def q237 : Re := .seq q3 q167
def q238 : Re := .seq q163 q167
def q239 : Re := .seq q3 q169
def q240 : Re := .seq q179 q205
def q241 : Re := .seq q3 q205
def q242 : Re := .seq q163 q205
def q243 : Re := .seq q181 q205
def q244 : Re := .seq q179 q194
def q245 : Re := .seq q182 q194
def q246 : Re := .alt q32 q0

def r0_0 : List LConfig × List (List Re) :=
  ([⟨163, 1, [158], [], false⟩,
   ⟨161, 1, [158], [], false⟩,
   ⟨161, 2, [], [], false⟩,
   ⟨165, 3, [], [], false⟩,
   ⟨163, 3, [168], [], false⟩,
   ⟨316, 4, [171], [], false⟩,
   ⟨175, 4, [], [], false⟩,
   ⟨176, 4, [], [], false⟩,
   ⟨181, 4, [], [], false⟩,
   ⟨194, 5, [], [], false⟩,
   ⟨196, 6, [], [], false⟩,
   ⟨198, 7, [], [], false⟩,
   ⟨200, 8, [], [], false⟩,
   ⟨202, 9, [], [], false⟩,
   ⟨211, 10, [], [], false⟩,
   ⟨202, 11, [210, 215], [], false⟩,
   ⟨163, 11, [158, 210, 215], [], false⟩,
   ⟨161, 11, [158, 210, 215], [], false⟩,
   ⟨202, 11, [210, 221], [], false⟩,
   ⟨163, 11, [158, 210, 221], [], false⟩,
   ⟨161, 11, [158, 210, 221], [], false⟩,
   ⟨194, 11, [223], [], false⟩,
   ⟨202, 11, [210, 231], [], false⟩,
   ⟨163, 11, [158, 210, 231], [], false⟩,
   ⟨161, 11, [158, 210, 231], [], false⟩,
   ⟨235, 12, [], [], false⟩,
   ⟨236, 12, [], [], false⟩,
   ⟨241, 12, [], [], false⟩,
   ⟨245, 12, [], [], false⟩,
   ⟨250, 12, [], [], false⟩,
   ⟨257, 13, [], [], false⟩,
   ⟨262, 14, [], [], false⟩,
   ⟨263, 14, [], [], false⟩,
   ⟨267, 15, [], [], false⟩,
   ⟨270, 15, [], [], false⟩,
   ⟨272, 15, [], [], false⟩,
   ⟨274, 15, [], [], false⟩,
   ⟨306, 16, [], [], false⟩,
   ⟨314, 16, [309], [], false⟩,
   ⟨314, 17, [], [], false⟩,
   ⟨316, 18, [], [], false⟩,
   ⟨318, 19, [], [], false⟩],
   [[q6], [q1], [q10], [q31], [q32], [q33], [q34], [q35], [q5], [q38], [q50], [q77], [q80], [q83], [q104], [q107], [q108], [q11], [q109]])
def t0_0 : List Nat := [2, 3, 2, 4, 5, 6, 7, 2, 8, 9, 10, 11, 11, 11, 11, 11, 11, 11, 12, 2, 13, 14, 14, 14, 15, 14, 14, 14, 14, 14, 14, 14, 14, 14, 14, 14, 14, 14, 2, 16, 14, 2, 17, 14, 14, 14, 15, 18, 14, 14, 14, 14, 19, 14, 14, 14, 14, 14, 20, 21, 14, 14, 2, 22, 2, 22, 2, 22, 2, 23, 23, 2, 22, 2, 24, 2, 23, 2, 22, 2, 22, 2, 22, 2, 22, 2, 22, 2, 23, 2, 23, 23, 23, 23, 23, 23, 23, 23, 2]
def r0_1 : List LConfig × List (List Re) :=
  ([⟨44, 19, [], [], false⟩],
   [[], [], [], [], [], [], [], [], [], [], [], [], [], [], [], [], [], [], [q39]])
def t0_1 : List Nat := [0, 0, 0, 0, 0, 0, 0, 0, 0, 0, 0, 0, 0, 0, 0, 0, 0, 0, 0, 0, 0, 0, 0, 0, 0, 0, 0, 0, 0, 0, 0, 0, 0, 0, 0, 0, 0, 0, 0, 0, 0, 0, 0, 0, 0, 0, 0, 0, 0, 0, 0, 0, 0, 0, 0, 0, 0, 0, 0, 0, 0, 0, 0, 0, 0, 0, 0, 0, 0, 0, 0, 0, 0, 0, 0, 0, 0, 0, 0, 0, 0, 0, 0, 0, 0, 0, 0, 0, 0, 0, 0, 0, 0, 0, 0, 0, 0, 0, 0]
def r0_2 : List LConfig × List (List Re) :=
  ([⟨316, 4, [171], [], false⟩,
   ⟨175, 4, [], [], false⟩,
   ⟨176, 4, [], [], false⟩,
   ⟨181, 4, [], [], false⟩,
   ⟨177, 4, [], [], false⟩,
   ⟨182, 4, [], [], false⟩,
   ⟨42, 18, [], [], false⟩,
   ⟨44, 19, [], [], false⟩],
   [[], [], [], [q31, q110, q111], [], [], [], [], [], [], [], [], [], [], [], [], [], [q39], [q39]])
def t0_2 : List Nat := [0, 63, 0, 0, 0, 0, 0, 0, 0, 0, 59, 0, 0, 0, 0, 0, 0, 0, 0, 0, 0, 0, 0, 0, 0, 0, 0, 0, 0, 0, 64, 0, 0, 0, 0, 0, 0, 0, 0, 0, 0, 0, 0, 0, 0, 0, 0, 0, 0, 0, 0, 0, 0, 0, 0, 0, 65, 0, 0, 0, 0, 0, 0, 0, 0, 0, 0, 0, 0, 0, 0, 0, 0, 0, 0, 0, 0, 0, 0, 0, 0, 0, 0, 0, 0, 0, 0, 0, 0, 0, 0, 0, 0, 0, 0, 0, 0, 0, 0]
def r0_3 : List LConfig × List (List Re) :=
  ([⟨16, 6, [], [], false⟩,
   ⟨44, 19, [], [], false⟩],
   [[], [], [], [], [], [q39], [], [], [], [], [], [], [], [], [], [], [], [], [q39]])
def t0_3 : List Nat := [0, 0, 0, 0, 0, 0, 0, 0, 0, 0, 0, 0, 0, 0, 0, 0, 0, 0, 0, 0, 0, 0, 0, 0, 0, 0, 0, 0, 0, 0, 0, 0, 0, 0, 0, 0, 0, 0, 0, 0, 0, 0, 0, 0, 0, 0, 0, 0, 0, 0, 0, 0, 0, 0, 0, 0, 0, 0, 0, 0, 0, 0, 0, 0, 0, 0, 0, 0, 0, 0, 0, 0, 0, 0, 0, 0, 0, 0, 0, 0, 0, 0, 0, 0, 0, 0, 0, 0, 0, 0, 0, 0, 0, 0, 0, 0, 0, 0, 0]
def r0_4 : List LConfig × List (List Re) :=
  ([⟨18, 7, [], [], false⟩,
   ⟨44, 19, [], [], false⟩],
   [[], [], [], [], [], [], [q39], [], [], [], [], [], [], [], [], [], [], [], [q39]])
def t0_4 : List Nat := [0, 0, 0, 0, 0, 0, 0, 0, 0, 0, 0, 0, 0, 0, 0, 0, 0, 0, 0, 0, 0, 0, 0, 0, 0, 0, 0, 0, 0, 0, 0, 0, 0, 0, 0, 0, 0, 0, 0, 0, 0, 0, 0, 0, 0, 0, 0, 0, 0, 0, 0, 0, 0, 0, 0, 0, 0, 0, 0, 0, 0, 0, 0, 0, 0, 0, 0, 0, 0, 0, 0, 0, 0, 0, 0, 0, 0, 0, 0, 0, 0, 0, 0, 0, 0, 0, 0, 0, 0, 0, 0, 0, 0, 0, 0, 0, 0, 0, 0]
def r0_5 : List LConfig × List (List Re) :=
  ([⟨10, 3, [], [], false⟩,
   ⟨264, 14, [], [], false⟩,
   ⟨44, 19, [], [], false⟩],
   [[], [], [q39], [], [], [], [], [], [], [], [], [], [], [q7], [], [], [], [], [q39]])
def t0_5 : List Nat := [0, 0, 0, 0, 0, 62, 0, 0, 0, 0, 0, 0, 0, 0, 0, 0, 0, 0, 0, 0, 0, 0, 0, 0, 0, 0, 0, 0, 0, 0, 0, 0, 0, 0, 0, 0, 0, 0, 0, 0, 0, 0, 0, 0, 0, 0, 0, 0, 0, 0, 0, 0, 0, 0, 0, 0, 0, 0, 0, 0, 0, 0, 0, 0, 0, 0, 0, 0, 0, 0, 0, 0, 0, 0, 0, 0, 0, 0, 0, 0, 0, 0, 0, 0, 0, 0, 0, 0, 0, 0, 0, 0, 0, 0, 0, 0, 0, 0, 0]
def r0_6 : List LConfig × List (List Re) :=
  ([⟨202, 1, [160], [], false⟩,
   ⟨6, 2, [], [], false⟩,
   ⟨202, 11, [160, 210, 215], [], false⟩,
   ⟨202, 11, [160, 210, 221], [], false⟩,
   ⟨202, 11, [160, 210, 231], [], false⟩,
   ⟨44, 19, [], [], false⟩],
   [[q5], [q39], [], [], [], [], [], [], [], [], [q113, q115, q116], [], [], [], [], [], [], [], [q39]])
def t0_6 : List Nat := [0, 0, 0, 0, 0, 0, 0, 0, 0, 0, 0, 61, 61, 61, 61, 61, 61, 61, 0, 0, 0, 0, 0, 0, 0, 0, 0, 0, 0, 0, 0, 0, 0, 0, 0, 0, 0, 0, 0, 0, 0, 0, 0, 0, 0, 0, 0, 0, 0, 0, 0, 0, 0, 0, 0, 0, 0, 0, 0, 0, 0, 0, 0, 0, 0, 0, 0, 0, 0, 0, 0, 0, 0, 0, 0, 0, 0, 0, 0, 0, 0, 0, 0, 0, 0, 0, 0, 0, 0, 0, 0, 0, 0, 0, 0, 0, 0, 0, 0]
def r0_7 : List LConfig × List (List Re) :=
  ([⟨202, 1, [160], [], false⟩,
   ⟨10, 3, [], [], false⟩,
   ⟨202, 11, [160, 210, 215], [], false⟩,
   ⟨202, 11, [160, 210, 221], [], false⟩,
   ⟨202, 11, [160, 210, 231], [], false⟩,
   ⟨44, 19, [], [], false⟩],
   [[q5], [], [q39], [], [], [], [], [], [], [], [q113, q115, q116], [], [], [], [], [], [], [], [q39]])
def t0_7 : List Nat := [0, 0, 0, 0, 0, 0, 0, 0, 0, 0, 0, 61, 61, 61, 61, 61, 61, 61, 0, 0, 0, 0, 0, 0, 0, 0, 0, 0, 0, 0, 0, 0, 0, 0, 0, 0, 0, 0, 0, 0, 0, 0, 0, 0, 0, 0, 0, 0, 0, 0, 0, 0, 0, 0, 0, 0, 0, 0, 0, 0, 0, 0, 0, 0, 0, 0, 0, 0, 0, 0, 0, 0, 0, 0, 0, 0, 0, 0, 0, 0, 0, 0, 0, 0, 0, 0, 0, 0, 0, 0, 0, 0, 0, 0, 0, 0, 0, 0, 0]
def r0_8 : List LConfig × List (List Re) :=
  ([⟨14, 5, [], [], false⟩,
   ⟨202, 11, [224], [], false⟩,
   ⟨44, 19, [], [], false⟩],
   [[], [], [], [], [q39], [], [], [], [], [], [q117], [], [], [], [], [], [], [], [q39]])
def t0_8 : List Nat := [0, 0, 0, 0, 0, 0, 0, 0, 0, 0, 0, 60, 60, 60, 60, 60, 60, 60, 0, 0, 0, 0, 0, 0, 0, 0, 0, 0, 0, 0, 0, 0, 0, 0, 0, 0, 0, 0, 0, 0, 0, 0, 0, 0, 0, 0, 0, 0, 0, 0, 0, 0, 0, 0, 0, 0, 0, 0, 0, 0, 0, 0, 0, 0, 0, 0, 0, 0, 0, 0, 0, 0, 0, 0, 0, 0, 0, 0, 0, 0, 0, 0, 0, 0, 0, 0, 0, 0, 0, 0, 0, 0, 0, 0, 0, 0, 0, 0, 0]
def r0_9 : List LConfig × List (List Re) :=
  ([⟨316, 4, [190], [], false⟩,
   ⟨12, 4, [], [], false⟩,
   ⟨44, 19, [], [], false⟩],
   [[], [], [], [q12], [], [], [], [], [], [], [], [], [], [], [], [], [], [], [q39]])
def t0_9 : List Nat := [0, 59, 0, 0, 0, 0, 0, 0, 0, 0, 0, 0, 0, 0, 0, 0, 0, 0, 0, 0, 0, 0, 0, 0, 0, 0, 0, 0, 0, 0, 0, 0, 0, 0, 0, 0, 0, 0, 0, 0, 0, 0, 0, 0, 0, 0, 0, 0, 0, 0, 0, 0, 0, 0, 0, 0, 0, 0, 0, 0, 0, 0, 0, 0, 0, 0, 0, 0, 0, 0, 0, 0, 0, 0, 0, 0, 0, 0, 0, 0, 0, 0, 0, 0, 0, 0, 0, 0, 0, 0, 0, 0, 0, 0, 0, 0, 0, 0, 0]
def r0_10 : List LConfig × List (List Re) :=
  ([⟨202, 9, [], [], false⟩,
   ⟨22, 9, [], [], false⟩,
   ⟨202, 11, [210, 215], [], false⟩,
   ⟨194, 11, [217], [], false⟩,
   ⟨202, 11, [210, 221], [], false⟩,
   ⟨194, 11, [223], [], false⟩,
   ⟨202, 11, [210, 231], [], false⟩,
   ⟨211, 11, [232], [], false⟩,
   ⟨44, 19, [], [], false⟩],
   [[], [], [], [], [], [], [], [], [q4], [], [q119, q121, q122], [], [], [], [], [], [], [], [q39]])
def t0_10 : List Nat := [0, 0, 0, 0, 0, 0, 0, 0, 0, 48, 0, 49, 49, 49, 49, 49, 49, 49, 0, 0, 0, 0, 0, 0, 50, 0, 0, 0, 0, 0, 0, 0, 0, 0, 0, 0, 0, 0, 0, 0, 0, 0, 0, 0, 0, 0, 50, 0, 0, 0, 0, 0, 0, 0, 0, 0, 0, 0, 0, 0, 0, 0, 0, 0, 0, 0, 0, 0, 0, 0, 0, 0, 0, 0, 0, 0, 0, 0, 0, 0, 0, 0, 0, 0, 0, 0, 0, 0, 0, 0, 0, 0, 0, 0, 0, 0, 0, 0, 0]
def r0_11 : List LConfig × List (List Re) :=
  ([⟨20, 8, [], [], false⟩,
   ⟨44, 19, [], [], false⟩],
   [[], [], [], [], [], [], [], [q39], [], [], [], [], [], [], [], [], [], [], [q39]])
def t0_11 : List Nat := [0, 0, 0, 0, 0, 0, 0, 0, 0, 0, 0, 0, 0, 0, 0, 0, 0, 0, 0, 0, 0, 0, 0, 0, 0, 0, 0, 0, 0, 0, 0, 0, 0, 0, 0, 0, 0, 0, 0, 0, 0, 0, 0, 0, 0, 0, 0, 0, 0, 0, 0, 0, 0, 0, 0, 0, 0, 0, 0, 0, 0, 0, 0, 0, 0, 0, 0, 0, 0, 0, 0, 0, 0, 0, 0, 0, 0, 0, 0, 0, 0, 0, 0, 0, 0, 0, 0, 0, 0, 0, 0, 0, 0, 0, 0, 0, 0, 0, 0]
def r0_12 : List LConfig × List (List Re) :=
  ([⟨30, 12, [], [⟨5, 1, 0⟩], false⟩,
   ⟨44, 19, [], [], false⟩],
   [[], [], [], [], [], [], [], [], [], [], [], [q39], [], [], [], [], [], [], [q39]])
def t0_12 : List Nat := [0, 0, 0, 0, 0, 0, 0, 0, 0, 0, 0, 0, 0, 0, 0, 0, 0, 0, 0, 0, 0, 0, 0, 0, 0, 0, 0, 0, 0, 0, 0, 0, 0, 0, 0, 0, 0, 0, 0, 0, 0, 0, 0, 0, 0, 0, 0, 0, 0, 0, 0, 0, 0, 0, 0, 0, 0, 0, 0, 0, 0, 0, 0, 0, 0, 0, 0, 0, 0, 0, 0, 0, 0, 0, 0, 0, 0, 0, 0, 0, 0, 0, 0, 0, 0, 0, 0, 0, 0, 0, 0, 0, 0, 0, 0, 0, 0, 0, 0]
def r0_13 : List LConfig × List (List Re) :=
  ([⟨306, 16, [], [], false⟩,
   ⟨314, 16, [309], [], false⟩,
   ⟨38, 16, [], [⟨2, 2, 0⟩], false⟩,
   ⟨44, 19, [], [], false⟩],
   [[], [], [], [], [], [], [], [], [], [], [], [], [], [], [], [q106], [], [], [q39]])
def t0_13 : List Nat := [0, 0, 0, 0, 0, 0, 0, 0, 0, 0, 0, 0, 0, 0, 0, 0, 0, 0, 0, 0, 0, 26, 26, 26, 26, 26, 26, 26, 26, 26, 26, 26, 26, 26, 26, 26, 26, 26, 0, 0, 26, 0, 26, 26, 26, 26, 26, 26, 26, 26, 26, 26, 26, 26, 26, 26, 26, 26, 26, 26, 26, 26, 0, 26, 0, 26, 0, 26, 0, 0, 0, 0, 26, 0, 0, 0, 0, 0, 26, 0, 26, 0, 26, 0, 26, 0, 26, 0, 0, 0, 0, 0, 0, 0, 0, 0, 0, 0, 0]
def r0_14 : List LConfig × List (List Re) :=
  ([⟨202, 10, [210, 213], [], false⟩,
   ⟨163, 10, [158, 210, 213], [], false⟩,
   ⟨161, 10, [158, 210, 213], [], false⟩,
   ⟨306, 16, [], [], false⟩,
   ⟨314, 16, [309], [], false⟩,
   ⟨38, 16, [], [⟨2, 2, 0⟩], false⟩,
   ⟨44, 19, [], [], false⟩],
   [[], [], [], [], [], [], [], [], [], [q37], [], [], [], [], [], [q106], [], [], [q39]])
def t0_14 : List Nat := [0, 0, 0, 0, 0, 0, 45, 0, 45, 0, 0, 46, 46, 46, 46, 46, 46, 46, 0, 0, 0, 26, 26, 26, 26, 26, 26, 26, 26, 26, 26, 26, 26, 26, 26, 26, 26, 26, 0, 0, 26, 0, 26, 26, 26, 26, 26, 26, 26, 26, 26, 26, 26, 26, 26, 26, 26, 26, 26, 26, 26, 26, 0, 26, 0, 26, 0, 26, 0, 0, 0, 0, 26, 0, 0, 0, 0, 0, 26, 0, 26, 0, 26, 0, 26, 0, 26, 0, 0, 0, 0, 0, 0, 0, 0, 0, 0, 0, 0]
def r0_15 : List LConfig × List (List Re) :=
  ([⟨34, 14, [], [], false⟩,
   ⟨44, 19, [], [], false⟩],
   [[], [], [], [], [], [], [], [], [], [], [], [], [], [q39], [], [], [], [], [q39]])
def t0_15 : List Nat := [0, 0, 0, 0, 0, 0, 0, 0, 0, 0, 0, 0, 0, 0, 0, 0, 0, 0, 0, 0, 0, 0, 0, 0, 0, 0, 0, 0, 0, 0, 0, 0, 0, 0, 0, 0, 0, 0, 0, 0, 0, 0, 0, 0, 0, 0, 0, 0, 0, 0, 0, 0, 0, 0, 0, 0, 0, 0, 0, 0, 0, 0, 0, 0, 0, 0, 0, 0, 0, 0, 0, 0, 0, 0, 0, 0, 0, 0, 0, 0, 0, 0, 0, 0, 0, 0, 0, 0, 0, 0, 0, 0, 0, 0, 0, 0, 0, 0, 0]
def r0_16 : List LConfig × List (List Re) :=
  ([⟨237, 12, [], [], false⟩,
   ⟨306, 16, [], [], false⟩,
   ⟨314, 16, [309], [], false⟩,
   ⟨38, 16, [], [⟨2, 2, 0⟩], false⟩,
   ⟨44, 19, [], [], false⟩],
   [[], [], [], [], [], [], [], [], [], [], [], [q57], [], [], [], [q106], [], [], [q39]])
def t0_16 : List Nat := [0, 0, 0, 0, 0, 0, 0, 0, 0, 0, 0, 0, 0, 0, 0, 0, 0, 0, 0, 0, 0, 26, 26, 26, 26, 26, 26, 26, 26, 26, 26, 26, 26, 26, 26, 26, 26, 26, 0, 0, 26, 0, 26, 26, 26, 26, 26, 42, 26, 26, 26, 26, 26, 26, 26, 26, 26, 26, 26, 26, 26, 26, 0, 26, 0, 26, 0, 26, 0, 0, 0, 0, 26, 0, 0, 0, 0, 0, 26, 0, 26, 0, 26, 0, 26, 0, 26, 0, 0, 0, 0, 0, 0, 0, 0, 0, 0, 0, 0]
def r0_17 : List LConfig × List (List Re) :=
  ([⟨242, 12, [], [], false⟩,
   ⟨306, 16, [], [], false⟩,
   ⟨314, 16, [309], [], false⟩,
   ⟨38, 16, [], [⟨2, 2, 0⟩], false⟩,
   ⟨44, 19, [], [], false⟩],
   [[], [], [], [], [], [], [], [], [], [], [], [q62], [], [], [], [q106], [], [], [q39]])
def t0_17 : List Nat := [0, 0, 0, 0, 0, 0, 0, 0, 0, 0, 0, 0, 0, 0, 0, 0, 0, 0, 0, 0, 0, 26, 26, 26, 26, 26, 26, 26, 26, 26, 26, 26, 26, 26, 26, 26, 26, 26, 0, 0, 26, 0, 26, 26, 26, 26, 26, 26, 26, 26, 26, 26, 26, 26, 26, 26, 26, 26, 40, 26, 26, 26, 0, 26, 0, 26, 0, 26, 0, 0, 0, 0, 26, 0, 0, 0, 0, 0, 26, 0, 26, 0, 26, 0, 26, 0, 26, 0, 0, 0, 0, 0, 0, 0, 0, 0, 0, 0, 0]
def r0_18 : List LConfig × List (List Re) :=
  ([⟨268, 15, [], [], false⟩,
   ⟨271, 15, [], [], false⟩,
   ⟨273, 15, [], [], false⟩,
   ⟨275, 15, [], [], false⟩,
   ⟨306, 16, [], [], false⟩,
   ⟨314, 16, [309], [], false⟩,
   ⟨38, 16, [], [⟨2, 2, 0⟩], false⟩,
   ⟨44, 19, [], [], false⟩],
   [[], [], [], [], [], [], [], [], [], [], [], [], [], [], [q123, q124, q125, q126], [q106], [], [], [q39]])
def t0_18 : List Nat := [0, 0, 0, 0, 0, 0, 0, 0, 0, 0, 0, 0, 0, 0, 0, 0, 0, 0, 0, 0, 0, 26, 26, 26, 26, 26, 26, 26, 26, 26, 26, 26, 26, 26, 26, 26, 26, 26, 0, 0, 26, 0, 26, 32, 26, 26, 26, 26, 32, 26, 26, 26, 26, 26, 32, 33, 26, 26, 26, 26, 26, 26, 0, 26, 0, 26, 0, 26, 0, 0, 0, 0, 26, 0, 0, 0, 0, 0, 26, 0, 26, 0, 26, 0, 26, 0, 26, 0, 0, 0, 0, 0, 0, 0, 0, 0, 0, 0, 0]
def r0_19 : List LConfig × List (List Re) :=
  ([⟨251, 12, [], [], false⟩,
   ⟨306, 16, [], [], false⟩,
   ⟨314, 16, [309], [], false⟩,
   ⟨38, 16, [], [⟨2, 2, 0⟩], false⟩,
   ⟨44, 19, [], [], false⟩],
   [[], [], [], [], [], [], [], [], [], [], [], [q72], [], [], [], [q106], [], [], [q39]])
def t0_19 : List Nat := [0, 0, 0, 0, 0, 0, 0, 0, 0, 0, 0, 0, 0, 0, 0, 0, 0, 0, 0, 0, 0, 26, 26, 26, 26, 26, 26, 26, 26, 26, 26, 26, 26, 26, 26, 26, 26, 26, 0, 0, 26, 0, 26, 26, 26, 26, 31, 26, 26, 26, 26, 26, 26, 26, 26, 26, 26, 26, 26, 26, 26, 26, 0, 26, 0, 26, 0, 26, 0, 0, 0, 0, 26, 0, 0, 0, 0, 0, 26, 0, 26, 0, 26, 0, 26, 0, 26, 0, 0, 0, 0, 0, 0, 0, 0, 0, 0, 0, 0]
def r0_20 : List LConfig × List (List Re) :=
  ([⟨246, 12, [], [], false⟩,
   ⟨306, 16, [], [], false⟩,
   ⟨314, 16, [309], [], false⟩,
   ⟨38, 16, [], [⟨2, 2, 0⟩], false⟩,
   ⟨44, 19, [], [], false⟩],
   [[], [], [], [], [], [], [], [], [], [], [], [q70], [], [], [], [q106], [], [], [q39]])
def t0_20 : List Nat := [0, 0, 0, 0, 0, 0, 0, 0, 0, 0, 0, 0, 0, 0, 0, 0, 0, 0, 0, 0, 0, 26, 26, 26, 26, 26, 26, 26, 26, 26, 26, 26, 26, 26, 26, 26, 26, 26, 0, 0, 26, 0, 26, 26, 26, 26, 26, 26, 26, 26, 27, 26, 26, 26, 26, 26, 26, 26, 26, 26, 26, 26, 0, 26, 0, 26, 0, 26, 0, 0, 0, 0, 26, 0, 0, 0, 0, 0, 26, 0, 26, 0, 26, 0, 26, 0, 26, 0, 0, 0, 0, 0, 0, 0, 0, 0, 0, 0, 0]
def r0_21 : List LConfig × List (List Re) :=
  ([⟨306, 16, [], [], false⟩,
   ⟨314, 16, [309], [], false⟩,
   ⟨38, 16, [], [⟨2, 2, 0⟩], false⟩,
   ⟨40, 17, [], [], false⟩,
   ⟨44, 19, [], [], false⟩],
   [[], [], [], [], [], [], [], [], [], [], [], [], [], [], [], [q106], [q39], [], [q39]])
def t0_21 : List Nat := [0, 0, 0, 0, 0, 0, 0, 0, 0, 0, 0, 0, 0, 0, 0, 0, 0, 0, 0, 0, 0, 26, 26, 26, 26, 26, 26, 26, 26, 26, 26, 26, 26, 26, 26, 26, 26, 26, 0, 0, 26, 0, 26, 26, 26, 26, 26, 26, 26, 26, 26, 26, 26, 26, 26, 26, 26, 26, 26, 26, 26, 26, 0, 26, 0, 26, 0, 26, 0, 0, 0, 0, 26, 0, 0, 0, 0, 0, 26, 0, 26, 0, 26, 0, 26, 0, 26, 0, 0, 0, 0, 0, 0, 0, 0, 0, 0, 0, 0]
def r0_22 : List LConfig × List (List Re) :=
  ([⟨257, 13, [], [], false⟩,
   ⟨32, 13, [], [], false⟩,
   ⟨44, 19, [], [], false⟩],
   [[], [], [], [], [], [], [], [], [], [], [], [], [q79], [], [], [], [], [], [q39]])
def t0_22 : List Nat := [0, 0, 0, 0, 0, 0, 0, 0, 0, 0, 0, 0, 0, 0, 0, 0, 0, 0, 0, 0, 0, 0, 0, 0, 0, 0, 0, 0, 0, 0, 0, 0, 0, 0, 0, 0, 0, 0, 0, 0, 0, 0, 0, 0, 0, 0, 0, 0, 0, 0, 0, 0, 0, 0, 0, 0, 0, 0, 0, 0, 0, 0, 0, 0, 0, 0, 0, 0, 0, 25, 25, 0, 0, 0, 0, 0, 25, 0, 0, 0, 0, 0, 0, 0, 0, 0, 0, 0, 25, 0, 25, 25, 25, 25, 25, 25, 25, 25, 0]
def r0_23 : List LConfig × List (List Re) :=
  ([⟨10, 3, [], [], false⟩,
   ⟨44, 19, [], [], false⟩],
   [[], [], [q39], [], [], [], [], [], [], [], [], [], [], [], [], [], [], [], [q39]])
def t0_23 : List Nat := [0, 0, 0, 0, 0, 0, 0, 0, 0, 0, 0, 0, 0, 0, 0, 0, 0, 0, 0, 0, 0, 0, 0, 0, 0, 0, 0, 0, 0, 0, 0, 0, 0, 0, 0, 0, 0, 0, 0, 0, 0, 0, 0, 0, 0, 0, 0, 0, 0, 0, 0, 0, 0, 0, 0, 0, 0, 0, 0, 0, 0, 0, 0, 0, 0, 0, 0, 0, 0, 0, 0, 0, 0, 0, 0, 0, 0, 0, 0, 0, 0, 0, 0, 0, 0, 0, 0, 0, 0, 0, 0, 0, 0, 0, 0, 0, 0, 0, 0]
def r0_24 : List LConfig × List (List Re) :=
  ([⟨257, 13, [], [], false⟩,
   ⟨32, 13, [], [], false⟩],
   [[], [], [], [], [], [], [], [], [], [], [], [], [q79], [], [], [], [], [], []])
def t0_24 : List Nat := [0, 0, 0, 0, 0, 0, 0, 0, 0, 0, 0, 0, 0, 0, 0, 0, 0, 0, 0, 0, 0, 0, 0, 0, 0, 0, 0, 0, 0, 0, 0, 0, 0, 0, 0, 0, 0, 0, 0, 0, 0, 0, 0, 0, 0, 0, 0, 0, 0, 0, 0, 0, 0, 0, 0, 0, 0, 0, 0, 0, 0, 0, 0, 0, 0, 0, 0, 0, 0, 25, 25, 0, 0, 0, 0, 0, 25, 0, 0, 0, 0, 0, 0, 0, 0, 0, 0, 0, 25, 0, 25, 25, 25, 25, 25, 25, 25, 25, 0]
def r0_25 : List LConfig × List (List Re) :=
  ([⟨306, 16, [], [], false⟩,
   ⟨314, 16, [309], [], false⟩,
   ⟨38, 16, [], [⟨2, 2, 0⟩], false⟩],
   [[], [], [], [], [], [], [], [], [], [], [], [], [], [], [], [q106], [], [], []])
def t0_25 : List Nat := [0, 0, 0, 0, 0, 0, 0, 0, 0, 0, 0, 0, 0, 0, 0, 0, 0, 0, 0, 0, 0, 26, 26, 26, 26, 26, 26, 26, 26, 26, 26, 26, 26, 26, 26, 26, 26, 26, 0, 0, 26, 0, 26, 26, 26, 26, 26, 26, 26, 26, 26, 26, 26, 26, 26, 26, 26, 26, 26, 26, 26, 26, 0, 26, 0, 26, 0, 26, 0, 0, 0, 0, 26, 0, 0, 0, 0, 0, 26, 0, 26, 0, 26, 0, 26, 0, 26, 0, 0, 0, 0, 0, 0, 0, 0, 0, 0, 0, 0]
def r0_26 : List LConfig × List (List Re) :=
  ([⟨247, 12, [], [], false⟩,
   ⟨306, 16, [], [], false⟩,
   ⟨314, 16, [309], [], false⟩,
   ⟨38, 16, [], [⟨2, 2, 0⟩], false⟩],
   [[], [], [], [], [], [], [], [], [], [], [], [q69], [], [], [], [q106], [], [], []])
def t0_26 : List Nat := [0, 0, 0, 0, 0, 0, 0, 0, 0, 0, 0, 0, 0, 0, 0, 0, 0, 0, 0, 0, 0, 26, 26, 26, 26, 26, 26, 26, 26, 26, 26, 26, 26, 26, 26, 26, 26, 26, 0, 0, 26, 0, 26, 26, 26, 26, 26, 26, 26, 26, 26, 26, 26, 26, 28, 26, 26, 26, 26, 26, 26, 26, 0, 26, 0, 26, 0, 26, 0, 0, 0, 0, 26, 0, 0, 0, 0, 0, 26, 0, 26, 0, 26, 0, 26, 0, 26, 0, 0, 0, 0, 0, 0, 0, 0, 0, 0, 0, 0]
def r0_27 : List LConfig × List (List Re) :=
  ([⟨248, 12, [], [], false⟩,
   ⟨306, 16, [], [], false⟩,
   ⟨314, 16, [309], [], false⟩,
   ⟨38, 16, [], [⟨2, 2, 0⟩], false⟩],
   [[], [], [], [], [], [], [], [], [], [], [], [q68], [], [], [], [q106], [], [], []])
def t0_27 : List Nat := [0, 0, 0, 0, 0, 0, 0, 0, 0, 0, 0, 0, 0, 0, 0, 0, 0, 0, 0, 0, 0, 26, 26, 26, 26, 26, 26, 26, 26, 26, 26, 26, 26, 26, 26, 26, 26, 26, 0, 0, 26, 0, 26, 26, 29, 26, 26, 26, 26, 26, 26, 26, 26, 26, 26, 26, 26, 26, 26, 26, 26, 26, 0, 26, 0, 26, 0, 26, 0, 0, 0, 0, 26, 0, 0, 0, 0, 0, 26, 0, 26, 0, 26, 0, 26, 0, 26, 0, 0, 0, 0, 0, 0, 0, 0, 0, 0, 0, 0]
def r0_28 : List LConfig × List (List Re) :=
  ([⟨249, 12, [], [], false⟩,
   ⟨306, 16, [], [], false⟩,
   ⟨314, 16, [309], [], false⟩,
   ⟨38, 16, [], [⟨2, 2, 0⟩], false⟩],
   [[], [], [], [], [], [], [], [], [], [], [], [q22], [], [], [], [q106], [], [], []])
def t0_28 : List Nat := [0, 0, 0, 0, 0, 0, 0, 0, 0, 0, 0, 0, 0, 0, 0, 0, 0, 0, 0, 0, 0, 26, 26, 26, 26, 26, 26, 26, 26, 26, 26, 26, 26, 26, 26, 26, 26, 26, 0, 0, 26, 0, 26, 26, 26, 26, 30, 26, 26, 26, 26, 26, 26, 26, 26, 26, 26, 26, 26, 26, 26, 26, 0, 26, 0, 26, 0, 26, 0, 0, 0, 0, 26, 0, 0, 0, 0, 0, 26, 0, 26, 0, 26, 0, 26, 0, 26, 0, 0, 0, 0, 0, 0, 0, 0, 0, 0, 0, 0]
def r0_29 : List LConfig × List (List Re) :=
  ([⟨30, 12, [], [⟨5, 1, 0⟩], false⟩,
   ⟨306, 16, [], [], false⟩,
   ⟨314, 16, [309], [], false⟩,
   ⟨38, 16, [], [⟨2, 2, 0⟩], false⟩],
   [[], [], [], [], [], [], [], [], [], [], [], [q39], [], [], [], [q106], [], [], []])
def t0_29 : List Nat := [0, 0, 0, 0, 0, 0, 0, 0, 0, 0, 0, 0, 0, 0, 0, 0, 0, 0, 0, 0, 0, 26, 26, 26, 26, 26, 26, 26, 26, 26, 26, 26, 26, 26, 26, 26, 26, 26, 0, 0, 26, 0, 26, 26, 26, 26, 26, 26, 26, 26, 26, 26, 26, 26, 26, 26, 26, 26, 26, 26, 26, 26, 0, 26, 0, 26, 0, 26, 0, 0, 0, 0, 26, 0, 0, 0, 0, 0, 26, 0, 26, 0, 26, 0, 26, 0, 26, 0, 0, 0, 0, 0, 0, 0, 0, 0, 0, 0, 0]
def r0_30 : List LConfig × List (List Re) :=
  ([⟨252, 12, [], [], false⟩,
   ⟨306, 16, [], [], false⟩,
   ⟨314, 16, [309], [], false⟩,
   ⟨38, 16, [], [⟨2, 2, 0⟩], false⟩],
   [[], [], [], [], [], [], [], [], [], [], [], [q53], [], [], [], [q106], [], [], []])
def t0_30 : List Nat := [0, 0, 0, 0, 0, 0, 0, 0, 0, 0, 0, 0, 0, 0, 0, 0, 0, 0, 0, 0, 0, 26, 26, 26, 26, 26, 26, 26, 26, 26, 26, 26, 26, 26, 26, 26, 26, 26, 0, 0, 26, 0, 26, 26, 26, 26, 26, 30, 26, 26, 26, 26, 26, 26, 26, 26, 26, 26, 26, 26, 26, 26, 0, 26, 0, 26, 0, 26, 0, 0, 0, 0, 26, 0, 0, 0, 0, 0, 26, 0, 26, 0, 26, 0, 26, 0, 26, 0, 0, 0, 0, 0, 0, 0, 0, 0, 0, 0, 0]
def r0_31 : List LConfig × List (List Re) :=
  ([⟨316, 15, [280], [], false⟩,
   ⟨284, 15, [], [], false⟩,
   ⟨306, 16, [], [], false⟩,
   ⟨314, 16, [309], [], false⟩,
   ⟨38, 16, [], [⟨2, 2, 0⟩], false⟩],
   [[], [], [], [], [], [], [], [], [], [], [], [], [], [], [q103], [q106], [], [], []])
def t0_31 : List Nat := [0, 34, 0, 35, 0, 0, 0, 0, 0, 0, 0, 0, 0, 0, 0, 0, 0, 0, 0, 0, 0, 26, 26, 26, 26, 26, 26, 26, 26, 26, 26, 26, 26, 26, 26, 26, 26, 26, 0, 0, 26, 0, 26, 26, 26, 26, 26, 26, 26, 26, 26, 26, 26, 26, 26, 26, 26, 26, 26, 26, 26, 26, 0, 26, 0, 26, 0, 26, 0, 0, 0, 0, 26, 0, 0, 0, 0, 0, 26, 0, 26, 0, 26, 0, 26, 0, 26, 0, 0, 0, 0, 0, 0, 0, 0, 0, 0, 0, 0]
def r0_32 : List LConfig × List (List Re) :=
  ([⟨269, 15, [], [], false⟩,
   ⟨306, 16, [], [], false⟩,
   ⟨314, 16, [309], [], false⟩,
   ⟨38, 16, [], [⟨2, 2, 0⟩], false⟩],
   [[], [], [], [], [], [], [], [], [], [], [], [], [], [], [q124], [q106], [], [], []])
def t0_32 : List Nat := [0, 0, 0, 0, 0, 0, 0, 0, 0, 0, 0, 0, 0, 0, 0, 0, 0, 0, 0, 0, 0, 26, 26, 26, 26, 26, 26, 26, 26, 26, 26, 26, 26, 26, 26, 26, 26, 26, 0, 0, 26, 0, 26, 26, 26, 26, 26, 26, 32, 26, 26, 26, 26, 26, 26, 26, 26, 26, 26, 26, 26, 26, 0, 26, 0, 26, 0, 26, 0, 0, 0, 0, 26, 0, 0, 0, 0, 0, 26, 0, 26, 0, 26, 0, 26, 0, 26, 0, 0, 0, 0, 0, 0, 0, 0, 0, 0, 0, 0]
def r0_33 : List LConfig × List (List Re) :=
  ([⟨316, 15, [280], [], false⟩,
   ⟨284, 15, [], [], false⟩],
   [[], [], [], [], [], [], [], [], [], [], [], [], [], [], [q103], [], [], [], []])
def t0_33 : List Nat := [0, 34, 0, 35, 0, 0, 0, 0, 0, 0, 0, 0, 0, 0, 0, 0, 0, 0, 0, 0, 0, 0, 0, 0, 0, 0, 0, 0, 0, 0, 0, 0, 0, 0, 0, 0, 0, 0, 0, 0, 0, 0, 0, 0, 0, 0, 0, 0, 0, 0, 0, 0, 0, 0, 0, 0, 0, 0, 0, 0, 0, 0, 0, 0, 0, 0, 0, 0, 0, 0, 0, 0, 0, 0, 0, 0, 0, 0, 0, 0, 0, 0, 0, 0, 0, 0, 0, 0, 0, 0, 0, 0, 0, 0, 0, 0, 0, 0, 0]
def r0_34 : List LConfig × List (List Re) :=
  ([⟨316, 15, [287], [], false⟩,
   ⟨291, 15, [], [], false⟩,
   ⟨293, 15, [], [], false⟩],
   [[], [], [], [], [], [], [], [], [], [], [], [], [], [], [q101], [], [], [], []])
def t0_34 : List Nat := [0, 35, 0, 0, 0, 0, 0, 0, 0, 0, 0, 0, 0, 0, 0, 0, 0, 0, 0, 0, 0, 0, 0, 0, 0, 0, 0, 0, 0, 0, 0, 0, 36, 0, 0, 0, 0, 0, 0, 0, 0, 0, 0, 0, 0, 0, 0, 0, 0, 0, 0, 0, 0, 0, 0, 0, 0, 0, 37, 0, 0, 0, 0, 0, 0, 0, 0, 0, 0, 0, 0, 0, 0, 0, 0, 0, 0, 0, 0, 0, 0, 0, 0, 0, 0, 0, 0, 0, 0, 0, 0, 0, 0, 0, 0, 0, 0, 0, 0]
def r0_35 : List LConfig × List (List Re) :=
  ([⟨292, 15, [], [], false⟩],
   [[], [], [], [], [], [], [], [], [], [], [], [], [], [], [q127], [], [], [], []])
def t0_35 : List Nat := [0, 0, 0, 0, 0, 0, 0, 0, 0, 0, 0, 0, 0, 0, 0, 0, 0, 0, 0, 0, 0, 0, 0, 0, 38, 0, 0, 0, 0, 0, 0, 0, 0, 0, 0, 0, 0, 0, 0, 0, 0, 0, 0, 0, 0, 0, 0, 0, 0, 0, 0, 0, 0, 0, 0, 0, 0, 0, 0, 0, 0, 0, 0, 0, 0, 0, 0, 0, 0, 0, 0, 0, 0, 0, 0, 0, 0, 0, 0, 0, 0, 0, 0, 0, 0, 0, 0, 0, 0, 0, 0, 0, 0, 0, 0, 0, 0, 0, 0]
def r0_36 : List LConfig × List (List Re) :=
  ([⟨294, 15, [], [], false⟩],
   [[], [], [], [], [], [], [], [], [], [], [], [], [], [], [q128], [], [], [], []])
def t0_36 : List Nat := [0, 0, 0, 0, 0, 0, 0, 0, 0, 0, 0, 0, 0, 0, 0, 0, 0, 0, 0, 0, 0, 0, 0, 0, 0, 0, 0, 0, 0, 0, 0, 0, 0, 0, 0, 0, 0, 0, 0, 0, 0, 0, 0, 0, 0, 0, 38, 0, 0, 0, 0, 0, 0, 0, 0, 0, 0, 0, 0, 0, 0, 0, 0, 0, 0, 0, 0, 0, 0, 0, 0, 0, 0, 0, 0, 0, 0, 0, 0, 0, 0, 0, 0, 0, 0, 0, 0, 0, 0, 0, 0, 0, 0, 0, 0, 0, 0, 0, 0]
def r0_37 : List LConfig × List (List Re) :=
  ([⟨297, 15, [], [], false⟩,
   ⟨316, 15, [302], [], false⟩,
   ⟨36, 15, [], [], false⟩],
   [[], [], [], [], [], [], [], [], [], [], [], [], [], [], [q99], [], [], [], []])
def t0_37 : List Nat := [0, 39, 0, 0, 0, 0, 0, 0, 0, 0, 0, 0, 0, 0, 0, 0, 0, 0, 39, 0, 0, 0, 0, 0, 0, 0, 0, 0, 0, 0, 0, 0, 0, 0, 0, 0, 0, 0, 0, 0, 0, 0, 0, 0, 0, 0, 0, 0, 0, 0, 0, 0, 0, 0, 0, 0, 0, 0, 0, 0, 0, 0, 0, 0, 0, 0, 0, 0, 0, 0, 0, 0, 0, 0, 0, 0, 0, 0, 0, 0, 0, 0, 0, 0, 0, 0, 0, 0, 0, 0, 0, 0, 0, 0, 0, 0, 0, 0, 0]
def r0_38 : List LConfig × List (List Re) :=
  ([⟨316, 15, [302], [], false⟩,
   ⟨36, 15, [], [], false⟩],
   [[], [], [], [], [], [], [], [], [], [], [], [], [], [], [q12], [], [], [], []])
def t0_38 : List Nat := [0, 39, 0, 0, 0, 0, 0, 0, 0, 0, 0, 0, 0, 0, 0, 0, 0, 0, 0, 0, 0, 0, 0, 0, 0, 0, 0, 0, 0, 0, 0, 0, 0, 0, 0, 0, 0, 0, 0, 0, 0, 0, 0, 0, 0, 0, 0, 0, 0, 0, 0, 0, 0, 0, 0, 0, 0, 0, 0, 0, 0, 0, 0, 0, 0, 0, 0, 0, 0, 0, 0, 0, 0, 0, 0, 0, 0, 0, 0, 0, 0, 0, 0, 0, 0, 0, 0, 0, 0, 0, 0, 0, 0, 0, 0, 0, 0, 0, 0]
def r0_39 : List LConfig × List (List Re) :=
  ([⟨243, 12, [], [], false⟩,
   ⟨306, 16, [], [], false⟩,
   ⟨314, 16, [309], [], false⟩,
   ⟨38, 16, [], [⟨2, 2, 0⟩], false⟩],
   [[], [], [], [], [], [], [], [], [], [], [], [q61], [], [], [], [q106], [], [], []])
def t0_39 : List Nat := [0, 0, 0, 0, 0, 0, 0, 0, 0, 0, 0, 0, 0, 0, 0, 0, 0, 0, 0, 0, 0, 26, 26, 26, 26, 26, 26, 26, 26, 26, 26, 26, 26, 26, 26, 26, 26, 26, 0, 0, 26, 0, 26, 26, 26, 26, 26, 26, 26, 26, 26, 26, 26, 26, 26, 41, 26, 26, 26, 26, 26, 26, 0, 26, 0, 26, 0, 26, 0, 0, 0, 0, 26, 0, 0, 0, 0, 0, 26, 0, 26, 0, 26, 0, 26, 0, 26, 0, 0, 0, 0, 0, 0, 0, 0, 0, 0, 0, 0]
def r0_40 : List LConfig × List (List Re) :=
  ([⟨244, 12, [], [], false⟩,
   ⟨306, 16, [], [], false⟩,
   ⟨314, 16, [309], [], false⟩,
   ⟨38, 16, [], [⟨2, 2, 0⟩], false⟩],
   [[], [], [], [], [], [], [], [], [], [], [], [q60], [], [], [], [q106], [], [], []])
def t0_40 : List Nat := [0, 0, 0, 0, 0, 0, 0, 0, 0, 0, 0, 0, 0, 0, 0, 0, 0, 0, 0, 0, 0, 26, 26, 26, 26, 26, 26, 26, 26, 26, 26, 26, 26, 26, 26, 26, 26, 26, 0, 0, 26, 0, 26, 26, 26, 26, 26, 26, 26, 26, 26, 26, 26, 30, 26, 26, 26, 26, 26, 26, 26, 26, 0, 26, 0, 26, 0, 26, 0, 0, 0, 0, 26, 0, 0, 0, 0, 0, 26, 0, 26, 0, 26, 0, 26, 0, 26, 0, 0, 0, 0, 0, 0, 0, 0, 0, 0, 0, 0]
def r0_41 : List LConfig × List (List Re) :=
  ([⟨238, 12, [], [], false⟩,
   ⟨306, 16, [], [], false⟩,
   ⟨314, 16, [309], [], false⟩,
   ⟨38, 16, [], [⟨2, 2, 0⟩], false⟩],
   [[], [], [], [], [], [], [], [], [], [], [], [q56], [], [], [], [q106], [], [], []])
def t0_41 : List Nat := [0, 0, 0, 0, 0, 0, 0, 0, 0, 0, 0, 0, 0, 0, 0, 0, 0, 0, 0, 0, 0, 26, 26, 26, 26, 26, 26, 26, 26, 26, 26, 26, 26, 26, 26, 26, 26, 26, 0, 0, 26, 0, 26, 26, 26, 26, 26, 26, 26, 26, 26, 26, 26, 26, 26, 26, 26, 26, 26, 26, 43, 26, 0, 26, 0, 26, 0, 26, 0, 0, 0, 0, 26, 0, 0, 0, 0, 0, 26, 0, 26, 0, 26, 0, 26, 0, 26, 0, 0, 0, 0, 0, 0, 0, 0, 0, 0, 0, 0]
def r0_42 : List LConfig × List (List Re) :=
  ([⟨239, 12, [], [], false⟩,
   ⟨306, 16, [], [], false⟩,
   ⟨314, 16, [309], [], false⟩,
   ⟨38, 16, [], [⟨2, 2, 0⟩], false⟩],
   [[], [], [], [], [], [], [], [], [], [], [], [q55], [], [], [], [q106], [], [], []])
def t0_42 : List Nat := [0, 0, 0, 0, 0, 0, 0, 0, 0, 0, 0, 0, 0, 0, 0, 0, 0, 0, 0, 0, 0, 26, 26, 26, 26, 26, 26, 26, 26, 26, 26, 26, 26, 26, 26, 26, 26, 26, 0, 0, 26, 0, 26, 26, 26, 26, 44, 26, 26, 26, 26, 26, 26, 26, 26, 26, 26, 26, 26, 26, 26, 26, 0, 26, 0, 26, 0, 26, 0, 0, 0, 0, 26, 0, 0, 0, 0, 0, 26, 0, 26, 0, 26, 0, 26, 0, 26, 0, 0, 0, 0, 0, 0, 0, 0, 0, 0, 0, 0]
def r0_43 : List LConfig × List (List Re) :=
  ([⟨240, 12, [], [], false⟩,
   ⟨306, 16, [], [], false⟩,
   ⟨314, 16, [309], [], false⟩,
   ⟨38, 16, [], [⟨2, 2, 0⟩], false⟩],
   [[], [], [], [], [], [], [], [], [], [], [], [q23], [], [], [], [q106], [], [], []])
def t0_43 : List Nat := [0, 0, 0, 0, 0, 0, 0, 0, 0, 0, 0, 0, 0, 0, 0, 0, 0, 0, 0, 0, 0, 26, 26, 26, 26, 26, 26, 26, 26, 26, 26, 26, 26, 26, 26, 26, 26, 26, 0, 0, 26, 0, 26, 26, 26, 26, 26, 26, 26, 26, 26, 26, 26, 26, 26, 26, 26, 26, 30, 26, 26, 26, 0, 26, 0, 26, 0, 26, 0, 0, 0, 0, 26, 0, 0, 0, 0, 0, 26, 0, 26, 0, 26, 0, 26, 0, 26, 0, 0, 0, 0, 0, 0, 0, 0, 0, 0, 0, 0]
def r0_44 : List LConfig × List (List Re) :=
  ([⟨202, 10, [160, 210, 213], [], false⟩],
   [[], [], [], [], [], [], [], [], [], [q5], [], [], [], [], [], [], [], [], []])
def t0_44 : List Nat := [0, 0, 0, 0, 0, 0, 0, 0, 0, 0, 0, 47, 47, 47, 47, 47, 47, 47, 0, 0, 0, 0, 0, 0, 0, 0, 0, 0, 0, 0, 0, 0, 0, 0, 0, 0, 0, 0, 0, 0, 0, 0, 0, 0, 0, 0, 0, 0, 0, 0, 0, 0, 0, 0, 0, 0, 0, 0, 0, 0, 0, 0, 0, 0, 0, 0, 0, 0, 0, 0, 0, 0, 0, 0, 0, 0, 0, 0, 0, 0, 0, 0, 0, 0, 0, 0, 0, 0, 0, 0, 0, 0, 0, 0, 0, 0, 0, 0, 0]
def r0_45 : List LConfig × List (List Re) :=
  ([⟨202, 10, [210, 213], [], false⟩,
   ⟨26, 10, [], [], false⟩],
   [[], [], [], [], [], [], [], [], [], [q4], [], [], [], [], [], [], [], [], []])
def t0_45 : List Nat := [0, 0, 0, 0, 0, 0, 0, 0, 0, 0, 0, 46, 46, 46, 46, 46, 46, 46, 0, 0, 0, 0, 0, 0, 0, 0, 0, 0, 0, 0, 0, 0, 0, 0, 0, 0, 0, 0, 0, 0, 0, 0, 0, 0, 0, 0, 0, 0, 0, 0, 0, 0, 0, 0, 0, 0, 0, 0, 0, 0, 0, 0, 0, 0, 0, 0, 0, 0, 0, 0, 0, 0, 0, 0, 0, 0, 0, 0, 0, 0, 0, 0, 0, 0, 0, 0, 0, 0, 0, 0, 0, 0, 0, 0, 0, 0, 0, 0, 0]
def r0_46 : List LConfig × List (List Re) :=
  ([⟨202, 10, [160, 210, 213], [], false⟩,
   ⟨26, 10, [], [], false⟩],
   [[], [], [], [], [], [], [], [], [], [q4], [], [], [], [], [], [], [], [], []])
def t0_46 : List Nat := [0, 0, 0, 0, 0, 0, 0, 0, 0, 0, 0, 47, 47, 47, 47, 47, 47, 47, 0, 0, 0, 0, 0, 0, 0, 0, 0, 0, 0, 0, 0, 0, 0, 0, 0, 0, 0, 0, 0, 0, 0, 0, 0, 0, 0, 0, 0, 0, 0, 0, 0, 0, 0, 0, 0, 0, 0, 0, 0, 0, 0, 0, 0, 0, 0, 0, 0, 0, 0, 0, 0, 0, 0, 0, 0, 0, 0, 0, 0, 0, 0, 0, 0, 0, 0, 0, 0, 0, 0, 0, 0, 0, 0, 0, 0, 0, 0, 0, 0]
def r0_47 : List LConfig × List (List Re) :=
  ([⟨202, 11, [218], [], false⟩,
   ⟨211, 11, [229], [], false⟩,
   ⟨28, 11, [], [], false⟩,
   ⟨202, 11, [224], [], false⟩],
   [[], [], [], [], [], [], [], [], [], [], [q129, q117], [], [], [], [], [], [], [], []])
def t0_47 : List Nat := [0, 0, 0, 0, 0, 0, 0, 0, 0, 0, 0, 54, 54, 54, 54, 54, 54, 54, 0, 0, 0, 0, 0, 0, 55, 0, 0, 0, 0, 0, 0, 0, 0, 0, 0, 0, 0, 0, 0, 0, 0, 0, 0, 0, 0, 0, 55, 0, 0, 0, 0, 0, 0, 0, 0, 0, 0, 0, 0, 0, 0, 0, 0, 0, 0, 0, 0, 0, 0, 0, 0, 0, 0, 0, 0, 0, 0, 0, 0, 0, 0, 0, 0, 0, 0, 0, 0, 0, 0, 0, 0, 0, 0, 0, 0, 0, 0, 0, 0]
def r0_48 : List LConfig × List (List Re) :=
  ([⟨202, 9, [], [], false⟩,
   ⟨22, 9, [], [], false⟩,
   ⟨202, 11, [210, 215], [], false⟩,
   ⟨194, 11, [217], [], false⟩,
   ⟨202, 11, [210, 221], [], false⟩,
   ⟨194, 11, [223], [], false⟩,
   ⟨202, 11, [210, 231], [], false⟩,
   ⟨211, 11, [232], [], false⟩],
   [[], [], [], [], [], [], [], [], [q4], [], [q119, q121, q122], [], [], [], [], [], [], [], []])
def t0_48 : List Nat := [0, 0, 0, 0, 0, 0, 0, 0, 0, 48, 0, 49, 49, 49, 49, 49, 49, 49, 0, 0, 0, 0, 0, 0, 50, 0, 0, 0, 0, 0, 0, 0, 0, 0, 0, 0, 0, 0, 0, 0, 0, 0, 0, 0, 0, 0, 50, 0, 0, 0, 0, 0, 0, 0, 0, 0, 0, 0, 0, 0, 0, 0, 0, 0, 0, 0, 0, 0, 0, 0, 0, 0, 0, 0, 0, 0, 0, 0, 0, 0, 0, 0, 0, 0, 0, 0, 0, 0, 0, 0, 0, 0, 0, 0, 0, 0, 0, 0, 0]
def r0_49 : List LConfig × List (List Re) :=
  ([⟨202, 11, [210, 213, 232], [], false⟩,
   ⟨163, 11, [158, 210, 213, 232], [], false⟩,
   ⟨161, 11, [158, 210, 213, 232], [], false⟩],
   [[], [], [], [], [], [], [], [], [], [], [q37], [], [], [], [], [], [], [], []])
def t0_49 : List Nat := [0, 0, 0, 0, 0, 0, 51, 0, 51, 0, 0, 52, 52, 52, 52, 52, 52, 52, 0, 0, 0, 0, 0, 0, 0, 0, 0, 0, 0, 0, 0, 0, 0, 0, 0, 0, 0, 0, 0, 0, 0, 0, 0, 0, 0, 0, 0, 0, 0, 0, 0, 0, 0, 0, 0, 0, 0, 0, 0, 0, 0, 0, 0, 0, 0, 0, 0, 0, 0, 0, 0, 0, 0, 0, 0, 0, 0, 0, 0, 0, 0, 0, 0, 0, 0, 0, 0, 0, 0, 0, 0, 0, 0, 0, 0, 0, 0, 0, 0]
def r0_50 : List LConfig × List (List Re) :=
  ([⟨202, 11, [160, 210, 213, 232], [], false⟩],
   [[], [], [], [], [], [], [], [], [], [], [q5], [], [], [], [], [], [], [], []])
def t0_50 : List Nat := [0, 0, 0, 0, 0, 0, 0, 0, 0, 0, 0, 53, 53, 53, 53, 53, 53, 53, 0, 0, 0, 0, 0, 0, 0, 0, 0, 0, 0, 0, 0, 0, 0, 0, 0, 0, 0, 0, 0, 0, 0, 0, 0, 0, 0, 0, 0, 0, 0, 0, 0, 0, 0, 0, 0, 0, 0, 0, 0, 0, 0, 0, 0, 0, 0, 0, 0, 0, 0, 0, 0, 0, 0, 0, 0, 0, 0, 0, 0, 0, 0, 0, 0, 0, 0, 0, 0, 0, 0, 0, 0, 0, 0, 0, 0, 0, 0, 0, 0]
def r0_51 : List LConfig × List (List Re) :=
  ([⟨202, 11, [210, 213, 232], [], false⟩,
   ⟨28, 11, [], [], false⟩],
   [[], [], [], [], [], [], [], [], [], [], [q4], [], [], [], [], [], [], [], []])
def t0_51 : List Nat := [0, 0, 0, 0, 0, 0, 0, 0, 0, 0, 0, 52, 52, 52, 52, 52, 52, 52, 0, 0, 0, 0, 0, 0, 0, 0, 0, 0, 0, 0, 0, 0, 0, 0, 0, 0, 0, 0, 0, 0, 0, 0, 0, 0, 0, 0, 0, 0, 0, 0, 0, 0, 0, 0, 0, 0, 0, 0, 0, 0, 0, 0, 0, 0, 0, 0, 0, 0, 0, 0, 0, 0, 0, 0, 0, 0, 0, 0, 0, 0, 0, 0, 0, 0, 0, 0, 0, 0, 0, 0, 0, 0, 0, 0, 0, 0, 0, 0, 0]
def r0_52 : List LConfig × List (List Re) :=
  ([⟨202, 11, [160, 210, 213, 232], [], false⟩,
   ⟨28, 11, [], [], false⟩],
   [[], [], [], [], [], [], [], [], [], [], [q4], [], [], [], [], [], [], [], []])
def t0_52 : List Nat := [0, 0, 0, 0, 0, 0, 0, 0, 0, 0, 0, 53, 53, 53, 53, 53, 53, 53, 0, 0, 0, 0, 0, 0, 0, 0, 0, 0, 0, 0, 0, 0, 0, 0, 0, 0, 0, 0, 0, 0, 0, 0, 0, 0, 0, 0, 0, 0, 0, 0, 0, 0, 0, 0, 0, 0, 0, 0, 0, 0, 0, 0, 0, 0, 0, 0, 0, 0, 0, 0, 0, 0, 0, 0, 0, 0, 0, 0, 0, 0, 0, 0, 0, 0, 0, 0, 0, 0, 0, 0, 0, 0, 0, 0, 0, 0, 0, 0, 0]
def r0_53 : List LConfig × List (List Re) :=
  ([⟨202, 11, [218], [], false⟩,
   ⟨211, 11, [229], [], false⟩,
   ⟨28, 11, [], [], false⟩,
   ⟨202, 11, [224], [], false⟩],
   [[], [], [], [], [], [], [], [], [], [], [q130], [], [], [], [], [], [], [], []])
def t0_53 : List Nat := [0, 0, 0, 0, 0, 0, 0, 0, 0, 0, 0, 54, 54, 54, 54, 54, 54, 54, 0, 0, 0, 0, 0, 0, 55, 0, 0, 0, 0, 0, 0, 0, 0, 0, 0, 0, 0, 0, 0, 0, 0, 0, 0, 0, 0, 0, 55, 0, 0, 0, 0, 0, 0, 0, 0, 0, 0, 0, 0, 0, 0, 0, 0, 0, 0, 0, 0, 0, 0, 0, 0, 0, 0, 0, 0, 0, 0, 0, 0, 0, 0, 0, 0, 0, 0, 0, 0, 0, 0, 0, 0, 0, 0, 0, 0, 0, 0, 0, 0]
def r0_54 : List LConfig × List (List Re) :=
  ([⟨202, 11, [210, 213, 229], [], false⟩,
   ⟨163, 11, [158, 210, 213, 229], [], false⟩,
   ⟨161, 11, [158, 210, 213, 229], [], false⟩],
   [[], [], [], [], [], [], [], [], [], [], [q37], [], [], [], [], [], [], [], []])
def t0_54 : List Nat := [0, 0, 0, 0, 0, 0, 56, 0, 56, 0, 0, 57, 57, 57, 57, 57, 57, 57, 0, 0, 0, 0, 0, 0, 0, 0, 0, 0, 0, 0, 0, 0, 0, 0, 0, 0, 0, 0, 0, 0, 0, 0, 0, 0, 0, 0, 0, 0, 0, 0, 0, 0, 0, 0, 0, 0, 0, 0, 0, 0, 0, 0, 0, 0, 0, 0, 0, 0, 0, 0, 0, 0, 0, 0, 0, 0, 0, 0, 0, 0, 0, 0, 0, 0, 0, 0, 0, 0, 0, 0, 0, 0, 0, 0, 0, 0, 0, 0, 0]
def r0_55 : List LConfig × List (List Re) :=
  ([⟨202, 11, [160, 210, 213, 229], [], false⟩],
   [[], [], [], [], [], [], [], [], [], [], [q5], [], [], [], [], [], [], [], []])
def t0_55 : List Nat := [0, 0, 0, 0, 0, 0, 0, 0, 0, 0, 0, 58, 58, 58, 58, 58, 58, 58, 0, 0, 0, 0, 0, 0, 0, 0, 0, 0, 0, 0, 0, 0, 0, 0, 0, 0, 0, 0, 0, 0, 0, 0, 0, 0, 0, 0, 0, 0, 0, 0, 0, 0, 0, 0, 0, 0, 0, 0, 0, 0, 0, 0, 0, 0, 0, 0, 0, 0, 0, 0, 0, 0, 0, 0, 0, 0, 0, 0, 0, 0, 0, 0, 0, 0, 0, 0, 0, 0, 0, 0, 0, 0, 0, 0, 0, 0, 0, 0, 0]
def r0_56 : List LConfig × List (List Re) :=
  ([⟨202, 11, [210, 213, 229], [], false⟩,
   ⟨28, 11, [], [], false⟩],
   [[], [], [], [], [], [], [], [], [], [], [q4], [], [], [], [], [], [], [], []])
def t0_56 : List Nat := [0, 0, 0, 0, 0, 0, 0, 0, 0, 0, 0, 57, 57, 57, 57, 57, 57, 57, 0, 0, 0, 0, 0, 0, 0, 0, 0, 0, 0, 0, 0, 0, 0, 0, 0, 0, 0, 0, 0, 0, 0, 0, 0, 0, 0, 0, 0, 0, 0, 0, 0, 0, 0, 0, 0, 0, 0, 0, 0, 0, 0, 0, 0, 0, 0, 0, 0, 0, 0, 0, 0, 0, 0, 0, 0, 0, 0, 0, 0, 0, 0, 0, 0, 0, 0, 0, 0, 0, 0, 0, 0, 0, 0, 0, 0, 0, 0, 0, 0]
def r0_57 : List LConfig × List (List Re) :=
  ([⟨202, 11, [160, 210, 213, 229], [], false⟩,
   ⟨28, 11, [], [], false⟩],
   [[], [], [], [], [], [], [], [], [], [], [q4], [], [], [], [], [], [], [], []])
def t0_57 : List Nat := [0, 0, 0, 0, 0, 0, 0, 0, 0, 0, 0, 58, 58, 58, 58, 58, 58, 58, 0, 0, 0, 0, 0, 0, 0, 0, 0, 0, 0, 0, 0, 0, 0, 0, 0, 0, 0, 0, 0, 0, 0, 0, 0, 0, 0, 0, 0, 0, 0, 0, 0, 0, 0, 0, 0, 0, 0, 0, 0, 0, 0, 0, 0, 0, 0, 0, 0, 0, 0, 0, 0, 0, 0, 0, 0, 0, 0, 0, 0, 0, 0, 0, 0, 0, 0, 0, 0, 0, 0, 0, 0, 0, 0, 0, 0, 0, 0, 0, 0]
def r0_58 : List LConfig × List (List Re) :=
  ([⟨316, 4, [190], [], false⟩,
   ⟨12, 4, [], [], false⟩],
   [[], [], [], [q12], [], [], [], [], [], [], [], [], [], [], [], [], [], [], []])
def t0_58 : List Nat := [0, 59, 0, 0, 0, 0, 0, 0, 0, 0, 0, 0, 0, 0, 0, 0, 0, 0, 0, 0, 0, 0, 0, 0, 0, 0, 0, 0, 0, 0, 0, 0, 0, 0, 0, 0, 0, 0, 0, 0, 0, 0, 0, 0, 0, 0, 0, 0, 0, 0, 0, 0, 0, 0, 0, 0, 0, 0, 0, 0, 0, 0, 0, 0, 0, 0, 0, 0, 0, 0, 0, 0, 0, 0, 0, 0, 0, 0, 0, 0, 0, 0, 0, 0, 0, 0, 0, 0, 0, 0, 0, 0, 0, 0, 0, 0, 0, 0, 0]
def r0_59 : List LConfig × List (List Re) :=
  ([⟨202, 11, [224], [], false⟩,
   ⟨211, 11, [229], [], false⟩,
   ⟨28, 11, [], [], false⟩],
   [[], [], [], [], [], [], [], [], [], [], [q130], [], [], [], [], [], [], [], []])
def t0_59 : List Nat := [0, 0, 0, 0, 0, 0, 0, 0, 0, 0, 0, 60, 60, 60, 60, 60, 60, 60, 0, 0, 0, 0, 0, 0, 55, 0, 0, 0, 0, 0, 0, 0, 0, 0, 0, 0, 0, 0, 0, 0, 0, 0, 0, 0, 0, 0, 55, 0, 0, 0, 0, 0, 0, 0, 0, 0, 0, 0, 0, 0, 0, 0, 0, 0, 0, 0, 0, 0, 0, 0, 0, 0, 0, 0, 0, 0, 0, 0, 0, 0, 0, 0, 0, 0, 0, 0, 0, 0, 0, 0, 0, 0, 0, 0, 0, 0, 0, 0, 0]
def r0_60 : List LConfig × List (List Re) :=
  ([⟨202, 1, [160], [], false⟩,
   ⟨4, 1, [], [], false⟩,
   ⟨202, 11, [160, 210, 215], [], false⟩,
   ⟨194, 11, [217], [], false⟩,
   ⟨202, 11, [160, 210, 221], [], false⟩,
   ⟨194, 11, [223], [], false⟩,
   ⟨202, 11, [160, 210, 231], [], false⟩,
   ⟨211, 11, [232], [], false⟩],
   [[q4], [], [], [], [], [], [], [], [], [], [q119, q121, q122], [], [], [], [], [], [], [], []])
def t0_60 : List Nat := [0, 0, 0, 0, 0, 0, 0, 0, 0, 48, 0, 61, 61, 61, 61, 61, 61, 61, 0, 0, 0, 0, 0, 0, 50, 0, 0, 0, 0, 0, 0, 0, 0, 0, 0, 0, 0, 0, 0, 0, 0, 0, 0, 0, 0, 0, 50, 0, 0, 0, 0, 0, 0, 0, 0, 0, 0, 0, 0, 0, 0, 0, 0, 0, 0, 0, 0, 0, 0, 0, 0, 0, 0, 0, 0, 0, 0, 0, 0, 0, 0, 0, 0, 0, 0, 0, 0, 0, 0, 0, 0, 0, 0, 0, 0, 0, 0, 0, 0]
def r0_61 : List LConfig × List (List Re) :=
  ([⟨34, 14, [], [], false⟩],
   [[], [], [], [], [], [], [], [], [], [], [], [], [], [q39], [], [], [], [], []])
def t0_61 : List Nat := [0, 0, 0, 0, 0, 0, 0, 0, 0, 0, 0, 0, 0, 0, 0, 0, 0, 0, 0, 0, 0, 0, 0, 0, 0, 0, 0, 0, 0, 0, 0, 0, 0, 0, 0, 0, 0, 0, 0, 0, 0, 0, 0, 0, 0, 0, 0, 0, 0, 0, 0, 0, 0, 0, 0, 0, 0, 0, 0, 0, 0, 0, 0, 0, 0, 0, 0, 0, 0, 0, 0, 0, 0, 0, 0, 0, 0, 0, 0, 0, 0, 0, 0, 0, 0, 0, 0, 0, 0, 0, 0, 0, 0, 0, 0, 0, 0, 0, 0]
def r0_62 : List LConfig × List (List Re) :=
  ([⟨316, 4, [171], [], false⟩,
   ⟨175, 4, [], [], false⟩,
   ⟨176, 4, [], [], false⟩,
   ⟨181, 4, [], [], false⟩,
   ⟨177, 4, [], [], false⟩,
   ⟨182, 4, [], [], false⟩],
   [[], [], [], [q31, q110, q111], [], [], [], [], [], [], [], [], [], [], [], [], [], [], []])
def t0_62 : List Nat := [0, 63, 0, 0, 0, 0, 0, 0, 0, 0, 59, 0, 0, 0, 0, 0, 0, 0, 0, 0, 0, 0, 0, 0, 0, 0, 0, 0, 0, 0, 64, 0, 0, 0, 0, 0, 0, 0, 0, 0, 0, 0, 0, 0, 0, 0, 0, 0, 0, 0, 0, 0, 0, 0, 0, 0, 65, 0, 0, 0, 0, 0, 0, 0, 0, 0, 0, 0, 0, 0, 0, 0, 0, 0, 0, 0, 0, 0, 0, 0, 0, 0, 0, 0, 0, 0, 0, 0, 0, 0, 0, 0, 0, 0, 0, 0, 0, 0, 0]
def r0_63 : List LConfig × List (List Re) :=
  ([⟨178, 4, [], [], false⟩],
   [[], [], [], [q131], [], [], [], [], [], [], [], [], [], [], [], [], [], [], []])
def t0_63 : List Nat := [0, 0, 0, 0, 0, 0, 0, 0, 0, 0, 0, 0, 0, 0, 0, 0, 0, 0, 0, 0, 0, 0, 0, 0, 68, 0, 0, 0, 0, 0, 0, 0, 0, 0, 0, 0, 0, 0, 0, 0, 0, 0, 0, 0, 0, 0, 0, 0, 0, 0, 0, 0, 0, 0, 0, 0, 0, 0, 0, 0, 0, 0, 0, 0, 0, 0, 0, 0, 0, 0, 0, 0, 0, 0, 0, 0, 0, 0, 0, 0, 0, 0, 0, 0, 0, 0, 0, 0, 0, 0, 0, 0, 0, 0, 0, 0, 0, 0, 0]
def r0_64 : List LConfig × List (List Re) :=
  ([⟨183, 4, [], [], false⟩],
   [[], [], [], [q132], [], [], [], [], [], [], [], [], [], [], [], [], [], [], []])
def t0_64 : List Nat := [0, 0, 0, 0, 0, 0, 0, 0, 0, 0, 0, 0, 0, 0, 0, 0, 0, 0, 0, 0, 0, 0, 0, 0, 0, 0, 0, 0, 0, 0, 0, 0, 0, 0, 0, 0, 0, 0, 0, 0, 0, 0, 0, 0, 0, 0, 66, 0, 0, 0, 0, 0, 0, 0, 0, 0, 0, 0, 0, 0, 0, 0, 0, 0, 0, 0, 0, 0, 0, 0, 0, 0, 0, 0, 0, 0, 0, 0, 0, 0, 0, 0, 0, 0, 0, 0, 0, 0, 0, 0, 0, 0, 0, 0, 0, 0, 0, 0, 0]
def r0_65 : List LConfig × List (List Re) :=
  ([⟨184, 4, [], [], false⟩],
   [[], [], [], [q133], [], [], [], [], [], [], [], [], [], [], [], [], [], [], []])
def t0_65 : List Nat := [0, 0, 0, 0, 0, 0, 0, 0, 0, 0, 0, 0, 0, 0, 0, 0, 0, 0, 0, 0, 0, 0, 0, 0, 0, 0, 0, 0, 0, 0, 0, 0, 0, 0, 0, 0, 0, 0, 0, 0, 0, 0, 0, 0, 0, 0, 0, 0, 0, 0, 0, 0, 0, 0, 0, 0, 0, 0, 67, 0, 0, 0, 0, 0, 0, 0, 0, 0, 0, 0, 0, 0, 0, 0, 0, 0, 0, 0, 0, 0, 0, 0, 0, 0, 0, 0, 0, 0, 0, 0, 0, 0, 0, 0, 0, 0, 0, 0, 0]
def r0_66 : List LConfig × List (List Re) :=
  ([⟨185, 4, [], [], false⟩],
   [[], [], [], [q134], [], [], [], [], [], [], [], [], [], [], [], [], [], [], []])
def t0_66 : List Nat := [0, 59, 0, 0, 0, 0, 0, 0, 0, 0, 0, 0, 0, 0, 0, 0, 0, 0, 0, 0, 0, 0, 0, 0, 0, 0, 0, 0, 0, 0, 0, 0, 0, 0, 0, 0, 0, 0, 0, 0, 0, 0, 0, 0, 0, 0, 0, 0, 0, 0, 0, 0, 0, 0, 0, 0, 0, 0, 0, 0, 0, 0, 0, 0, 0, 0, 0, 0, 0, 0, 0, 0, 0, 0, 0, 0, 0, 0, 0, 0, 0, 0, 0, 0, 0, 0, 0, 0, 0, 0, 0, 0, 0, 0, 0, 0, 0, 0, 0]
def r0_67 : List LConfig × List (List Re) :=
  ([⟨179, 4, [], [], false⟩],
   [[], [], [], [q135], [], [], [], [], [], [], [], [], [], [], [], [], [], [], []])
def t0_67 : List Nat := [0, 0, 0, 0, 0, 0, 0, 0, 0, 0, 0, 0, 0, 0, 0, 0, 0, 0, 0, 0, 0, 0, 0, 0, 0, 0, 0, 0, 0, 0, 0, 0, 69, 0, 0, 0, 0, 0, 0, 0, 0, 0, 0, 0, 0, 0, 0, 0, 0, 0, 0, 0, 0, 0, 0, 0, 0, 0, 0, 0, 0, 0, 0, 0, 0, 0, 0, 0, 0, 0, 0, 0, 0, 0, 0, 0, 0, 0, 0, 0, 0, 0, 0, 0, 0, 0, 0, 0, 0, 0, 0, 0, 0, 0, 0, 0, 0, 0, 0]
def r0_68 : List LConfig × List (List Re) :=
  ([⟨180, 4, [], [], false⟩],
   [[], [], [], [q134], [], [], [], [], [], [], [], [], [], [], [], [], [], [], []])
def t0_68 : List Nat := [0, 59, 0, 0, 0, 0, 0, 0, 0, 0, 0, 0, 0, 0, 0, 0, 0, 0, 0, 0, 0, 0, 0, 0, 0, 0, 0, 0, 0, 0, 0, 0, 0, 0, 0, 0, 0, 0, 0, 0, 0, 0, 0, 0, 0, 0, 0, 0, 0, 0, 0, 0, 0, 0, 0, 0, 0, 0, 0, 0, 0, 0, 0, 0, 0, 0, 0, 0, 0, 0, 0, 0, 0, 0, 0, 0, 0, 0, 0, 0, 0, 0, 0, 0, 0, 0, 0, 0, 0, 0, 0, 0, 0, 0, 0, 0, 0, 0, 0]
def tab0 : List (List LConfig × List (List Re)) :=
  [r0_0, r0_1, r0_2, r0_3, r0_4, r0_5, r0_6, r0_7, r0_8, r0_9, r0_10, r0_11, r0_12, r0_13, r0_14, r0_15, r0_16, r0_17, r0_18, r0_19, r0_20, r0_21, r0_22, r0_23, r0_24, r0_25, r0_26, r0_27, r0_28, r0_29, r0_30, r0_31, r0_32, r0_33, r0_34, r0_35, r0_36, r0_37, r0_38, r0_39, r0_40, r0_41, r0_42, r0_43, r0_44, r0_45, r0_46, r0_47, r0_48, r0_49, r0_50, r0_51, r0_52, r0_53, r0_54, r0_55, r0_56, r0_57, r0_58, r0_59, r0_60, r0_61, r0_62, r0_63, r0_64, r0_65, r0_66, r0_67, r0_68]
def tr0 : List (List Nat) :=
  [t0_0, t0_1, t0_2, t0_3, t0_4, t0_5, t0_6, t0_7, t0_8, t0_9, t0_10, t0_11, t0_12, t0_13, t0_14, t0_15, t0_16, t0_17, t0_18, t0_19, t0_20, t0_21, t0_22, t0_23, t0_24, t0_25, t0_26, t0_27, t0_28, t0_29, t0_30, t0_31, t0_32, t0_33, t0_34, t0_35, t0_36, t0_37, t0_38, t0_39, t0_40, t0_41, t0_42, t0_43, t0_44, t0_45, t0_46, t0_47, t0_48, t0_49, t0_50, t0_51, t0_52, t0_53, t0_54, t0_55, t0_56, t0_57, t0_58, t0_59, t0_60, t0_61, t0_62, t0_63, t0_64, t0_65, t0_66, t0_67, t0_68]

def r1_0 : List LConfig × List (List Re) :=
  ([⟨320, 1, [], [], false⟩,
   ⟨323, 1, [], [], false⟩,
   ⟨324, 1, [], [], false⟩,
   ⟨329, 2, [], [], false⟩,
   ⟨161, 3, [335, 338, 397], [], false⟩,
   ⟨163, 3, [335, 338, 397], [], false⟩,
   ⟨339, 3, [397], [], false⟩,
   ⟨342, 3, [397], [], false⟩,
   ⟨343, 3, [397], [], false⟩,
   ⟨161, 4, [335, 338, 403], [], false⟩,
   ⟨163, 4, [335, 338, 403], [], false⟩,
   ⟨339, 4, [403], [], false⟩,
   ⟨342, 4, [403], [], false⟩,
   ⟨343, 4, [403], [], false⟩,
   ⟨406, 5, [], [], false⟩,
   ⟨202, 6, [210, 388, 409], [], false⟩,
   ⟨163, 6, [158, 210, 388, 409], [], false⟩,
   ⟨161, 6, [158, 210, 388, 409], [], false⟩,
   ⟨423, 7, [], [], false⟩,
   ⟨202, 8, [210, 388, 430], [], false⟩,
   ⟨163, 8, [158, 210, 388, 430], [], false⟩,
   ⟨161, 8, [158, 210, 388, 430], [], false⟩,
   ⟨163, 9, [158, 436], [], false⟩,
   ⟨161, 9, [158, 436], [], false⟩,
   ⟨161, 10, [440], [], false⟩,
   ⟨165, 11, [444], [], false⟩,
   ⟨163, 11, [168, 444], [], false⟩,
   ⟨316, 12, [171, 448], [], false⟩,
   ⟨175, 12, [448], [], false⟩,
   ⟨176, 12, [448], [], false⟩,
   ⟨181, 12, [448], [], false⟩,
   ⟨194, 13, [452], [], false⟩,
   ⟨196, 14, [456], [], false⟩,
   ⟨198, 15, [460], [], false⟩,
   ⟨200, 16, [464], [], false⟩,
   ⟨202, 17, [468], [], false⟩,
   ⟨211, 18, [472], [], false⟩,
   ⟨202, 19, [210, 215, 476], [], false⟩,
   ⟨163, 19, [158, 210, 215, 476], [], false⟩,
   ⟨161, 19, [158, 210, 215, 476], [], false⟩,
   ⟨202, 19, [210, 221, 476], [], false⟩,
   ⟨163, 19, [158, 210, 221, 476], [], false⟩,
   ⟨161, 19, [158, 210, 221, 476], [], false⟩,
   ⟨194, 19, [223, 476], [], false⟩,
   ⟨202, 19, [210, 231, 476], [], false⟩,
   ⟨163, 19, [158, 210, 231, 476], [], false⟩,
   ⟨161, 19, [158, 210, 231, 476], [], false⟩,
   ⟨235, 20, [480], [], false⟩,
   ⟨236, 20, [480], [], false⟩,
   ⟨241, 20, [480], [], false⟩,
   ⟨245, 20, [480], [], false⟩,
   ⟨250, 20, [480], [], false⟩,
   ⟨257, 21, [484], [], false⟩,
   ⟨262, 22, [488], [], false⟩,
   ⟨263, 22, [488], [], false⟩,
   ⟨267, 23, [492], [], false⟩,
   ⟨270, 23, [492], [], false⟩,
   ⟨272, 23, [492], [], false⟩,
   ⟨274, 23, [492], [], false⟩,
   ⟨306, 24, [496], [], false⟩,
   ⟨314, 24, [309, 496], [], false⟩,
   ⟨314, 25, [500], [], false⟩,
   ⟨316, 26, [504], [], false⟩,
   ⟨318, 27, [508], [], false⟩],
   [[q147], [q148], [q172], [q174], [q0], [q197], [q137], [q207], [q6], [q1], [q10], [q31], [q32], [q33], [q34], [q35], [q5], [q38], [q50], [q77], [q80], [q83], [q104], [q107], [q108], [q11], [q109]])
def t1_0 : List Nat := [2, 3, 2, 4, 5, 6, 7, 2, 8, 9, 10, 11, 11, 12, 13, 13, 13, 13, 14, 2, 15, 16, 16, 16, 17, 16, 18, 16, 16, 16, 16, 16, 16, 16, 19, 20, 16, 21, 2, 22, 16, 2, 23, 16, 16, 16, 17, 24, 16, 16, 16, 16, 25, 16, 16, 16, 16, 16, 26, 27, 16, 16, 2, 28, 2, 28, 2, 28, 2, 29, 29, 2, 28, 2, 30, 2, 29, 2, 28, 2, 28, 2, 28, 2, 28, 2, 28, 2, 29, 2, 29, 29, 29, 29, 29, 29, 29, 29, 2]
def r1_1 : List LConfig × List (List Re) :=
  ([⟨114, 27, [], [⟨7, 19, 0⟩], false⟩],
   [[], [], [], [], [], [], [], [], [], [], [], [], [], [], [], [], [], [], [], [], [], [], [], [], [], [], [q39]])
def t1_1 : List Nat := [0, 0, 0, 0, 0, 0, 0, 0, 0, 0, 0, 0, 0, 0, 0, 0, 0, 0, 0, 0, 0, 0, 0, 0, 0, 0, 0, 0, 0, 0, 0, 0, 0, 0, 0, 0, 0, 0, 0, 0, 0, 0, 0, 0, 0, 0, 0, 0, 0, 0, 0, 0, 0, 0, 0, 0, 0, 0, 0, 0, 0, 0, 0, 0, 0, 0, 0, 0, 0, 0, 0, 0, 0, 0, 0, 0, 0, 0, 0, 0, 0, 0, 0, 0, 0, 0, 0, 0, 0, 0, 0, 0, 0, 0, 0, 0, 0, 0, 0]
def r1_2 : List LConfig × List (List Re) :=
  ([⟨316, 12, [171, 448], [], false⟩,
   ⟨175, 12, [448], [], false⟩,
   ⟨176, 12, [448], [], false⟩,
   ⟨181, 12, [448], [], false⟩,
   ⟨177, 12, [448], [], false⟩,
   ⟨182, 12, [448], [], false⟩,
   ⟨112, 26, [], [⟨7, 18, 0⟩], false⟩,
   ⟨114, 27, [], [⟨7, 19, 0⟩], false⟩],
   [[], [], [], [], [], [], [], [], [], [], [], [q31, q110, q111], [], [], [], [], [], [], [], [], [], [], [], [], [], [q39], [q39]])
def t1_2 : List Nat := [0, 143, 0, 0, 0, 0, 0, 0, 0, 0, 123, 0, 0, 0, 0, 0, 0, 0, 0, 0, 0, 0, 0, 0, 0, 0, 0, 0, 0, 0, 144, 0, 0, 0, 0, 0, 0, 0, 0, 0, 0, 0, 0, 0, 0, 0, 0, 0, 0, 0, 0, 0, 0, 0, 0, 0, 145, 0, 0, 0, 0, 0, 0, 0, 0, 0, 0, 0, 0, 0, 0, 0, 0, 0, 0, 0, 0, 0, 0, 0, 0, 0, 0, 0, 0, 0, 0, 0, 0, 0, 0, 0, 0, 0, 0, 0, 0, 0, 0]
def r1_3 : List LConfig × List (List Re) :=
  ([⟨88, 14, [], [⟨7, 6, 0⟩], false⟩,
   ⟨114, 27, [], [⟨7, 19, 0⟩], false⟩],
   [[], [], [], [], [], [], [], [], [], [], [], [], [], [q39], [], [], [], [], [], [], [], [], [], [], [], [], [q39]])
def t1_3 : List Nat := [0, 0, 0, 0, 0, 0, 0, 0, 0, 0, 0, 0, 0, 0, 0, 0, 0, 0, 0, 0, 0, 0, 0, 0, 0, 0, 0, 0, 0, 0, 0, 0, 0, 0, 0, 0, 0, 0, 0, 0, 0, 0, 0, 0, 0, 0, 0, 0, 0, 0, 0, 0, 0, 0, 0, 0, 0, 0, 0, 0, 0, 0, 0, 0, 0, 0, 0, 0, 0, 0, 0, 0, 0, 0, 0, 0, 0, 0, 0, 0, 0, 0, 0, 0, 0, 0, 0, 0, 0, 0, 0, 0, 0, 0, 0, 0, 0, 0, 0]
def r1_4 : List LConfig × List (List Re) :=
  ([⟨90, 15, [], [⟨7, 7, 0⟩], false⟩,
   ⟨114, 27, [], [⟨7, 19, 0⟩], false⟩],
   [[], [], [], [], [], [], [], [], [], [], [], [], [], [], [q39], [], [], [], [], [], [], [], [], [], [], [], [q39]])
def t1_4 : List Nat := [0, 0, 0, 0, 0, 0, 0, 0, 0, 0, 0, 0, 0, 0, 0, 0, 0, 0, 0, 0, 0, 0, 0, 0, 0, 0, 0, 0, 0, 0, 0, 0, 0, 0, 0, 0, 0, 0, 0, 0, 0, 0, 0, 0, 0, 0, 0, 0, 0, 0, 0, 0, 0, 0, 0, 0, 0, 0, 0, 0, 0, 0, 0, 0, 0, 0, 0, 0, 0, 0, 0, 0, 0, 0, 0, 0, 0, 0, 0, 0, 0, 0, 0, 0, 0, 0, 0, 0, 0, 0, 0, 0, 0, 0, 0, 0, 0, 0, 0]
def r1_5 : List LConfig × List (List Re) :=
  ([⟨82, 11, [], [⟨7, 3, 0⟩], false⟩,
   ⟨264, 22, [488], [], false⟩,
   ⟨114, 27, [], [⟨7, 19, 0⟩], false⟩],
   [[], [], [], [], [], [], [], [], [], [], [q39], [], [], [], [], [], [], [], [], [], [], [q7], [], [], [], [], [q39]])
def t1_5 : List Nat := [0, 0, 0, 0, 0, 142, 0, 0, 0, 0, 0, 0, 0, 0, 0, 0, 0, 0, 0, 0, 0, 0, 0, 0, 0, 0, 0, 0, 0, 0, 0, 0, 0, 0, 0, 0, 0, 0, 0, 0, 0, 0, 0, 0, 0, 0, 0, 0, 0, 0, 0, 0, 0, 0, 0, 0, 0, 0, 0, 0, 0, 0, 0, 0, 0, 0, 0, 0, 0, 0, 0, 0, 0, 0, 0, 0, 0, 0, 0, 0, 0, 0, 0, 0, 0, 0, 0, 0, 0, 0, 0, 0, 0, 0, 0, 0, 0, 0, 0]
def r1_6 : List LConfig × List (List Re) :=
  ([⟨339, 3, [397], [], false⟩,
   ⟨342, 3, [397], [], false⟩,
   ⟨339, 4, [403], [], false⟩,
   ⟨342, 4, [403], [], false⟩,
   ⟨202, 6, [160, 210, 388, 409], [], false⟩,
   ⟨202, 8, [160, 210, 388, 430], [], false⟩,
   ⟨202, 9, [160, 436], [], false⟩,
   ⟨80, 10, [], [⟨7, 2, 0⟩], false⟩,
   ⟨202, 19, [160, 210, 215, 476], [], false⟩,
   ⟨202, 19, [160, 210, 221, 476], [], false⟩,
   ⟨202, 19, [160, 210, 231, 476], [], false⟩,
   ⟨114, 27, [], [⟨7, 19, 0⟩], false⟩],
   [[], [], [q208], [q209], [], [q211], [], [q212], [q5], [q39], [], [], [], [], [], [], [], [], [q113, q115, q116], [], [], [], [], [], [], [], [q39]])
def t1_6 : List Nat := [0, 0, 0, 0, 0, 0, 0, 0, 0, 0, 0, 125, 125, 126, 126, 126, 126, 126, 0, 0, 0, 0, 0, 0, 0, 0, 0, 0, 0, 0, 0, 0, 0, 0, 0, 0, 0, 0, 0, 0, 0, 0, 0, 0, 0, 0, 0, 0, 0, 0, 0, 0, 0, 0, 0, 0, 0, 0, 0, 0, 0, 0, 0, 0, 0, 0, 0, 0, 0, 0, 0, 0, 0, 0, 0, 0, 0, 0, 0, 0, 0, 0, 0, 0, 0, 0, 0, 0, 0, 0, 0, 0, 0, 0, 0, 0, 0, 0, 0]
def r1_7 : List LConfig × List (List Re) :=
  ([⟨339, 3, [397], [], false⟩,
   ⟨342, 3, [397], [], false⟩,
   ⟨339, 4, [403], [], false⟩,
   ⟨342, 4, [403], [], false⟩,
   ⟨68, 5, [], [], false⟩,
   ⟨202, 6, [160, 210, 388, 409], [], false⟩,
   ⟨202, 8, [160, 210, 388, 430], [], false⟩,
   ⟨202, 9, [160, 436], [], false⟩,
   ⟨82, 11, [], [⟨7, 3, 0⟩], false⟩,
   ⟨202, 19, [160, 210, 215, 476], [], false⟩,
   ⟨202, 19, [160, 210, 221, 476], [], false⟩,
   ⟨202, 19, [160, 210, 231, 476], [], false⟩,
   ⟨114, 27, [], [⟨7, 19, 0⟩], false⟩],
   [[], [], [q208], [q209], [q39], [q211], [], [q212], [q5], [], [q39], [], [], [], [], [], [], [], [q113, q115, q116], [], [], [], [], [], [], [], [q39]])
def t1_7 : List Nat := [0, 0, 0, 0, 0, 0, 0, 0, 0, 0, 0, 125, 125, 126, 126, 126, 126, 126, 0, 0, 0, 0, 0, 0, 0, 0, 0, 0, 0, 0, 0, 0, 0, 0, 0, 0, 0, 0, 0, 0, 0, 0, 0, 0, 0, 0, 0, 0, 0, 0, 0, 0, 0, 0, 0, 0, 0, 0, 0, 0, 0, 0, 0, 0, 0, 0, 0, 0, 0, 0, 0, 0, 0, 0, 0, 0, 0, 0, 0, 0, 0, 0, 0, 0, 0, 0, 0, 0, 0, 0, 0, 0, 0, 0, 0, 0, 0, 0, 0]
def r1_8 : List LConfig × List (List Re) :=
  ([⟨86, 13, [], [⟨7, 5, 0⟩], false⟩,
   ⟨202, 19, [224, 476], [], false⟩,
   ⟨114, 27, [], [⟨7, 19, 0⟩], false⟩],
   [[], [], [], [], [], [], [], [], [], [], [], [], [q39], [], [], [], [], [], [q117], [], [], [], [], [], [], [], [q39]])
def t1_8 : List Nat := [0, 0, 0, 0, 0, 0, 0, 0, 0, 0, 0, 124, 124, 124, 124, 124, 124, 124, 0, 0, 0, 0, 0, 0, 0, 0, 0, 0, 0, 0, 0, 0, 0, 0, 0, 0, 0, 0, 0, 0, 0, 0, 0, 0, 0, 0, 0, 0, 0, 0, 0, 0, 0, 0, 0, 0, 0, 0, 0, 0, 0, 0, 0, 0, 0, 0, 0, 0, 0, 0, 0, 0, 0, 0, 0, 0, 0, 0, 0, 0, 0, 0, 0, 0, 0, 0, 0, 0, 0, 0, 0, 0, 0, 0, 0, 0, 0, 0, 0]
def r1_9 : List LConfig × List (List Re) :=
  ([⟨316, 12, [190, 448], [], false⟩,
   ⟨84, 12, [], [⟨7, 4, 0⟩], false⟩,
   ⟨114, 27, [], [⟨7, 19, 0⟩], false⟩],
   [[], [], [], [], [], [], [], [], [], [], [], [q12], [], [], [], [], [], [], [], [], [], [], [], [], [], [], [q39]])
def t1_9 : List Nat := [0, 123, 0, 0, 0, 0, 0, 0, 0, 0, 0, 0, 0, 0, 0, 0, 0, 0, 0, 0, 0, 0, 0, 0, 0, 0, 0, 0, 0, 0, 0, 0, 0, 0, 0, 0, 0, 0, 0, 0, 0, 0, 0, 0, 0, 0, 0, 0, 0, 0, 0, 0, 0, 0, 0, 0, 0, 0, 0, 0, 0, 0, 0, 0, 0, 0, 0, 0, 0, 0, 0, 0, 0, 0, 0, 0, 0, 0, 0, 0, 0, 0, 0, 0, 0, 0, 0, 0, 0, 0, 0, 0, 0, 0, 0, 0, 0, 0, 0]
def r1_10 : List LConfig × List (List Re) :=
  ([⟨342, 3, [397], [], false⟩,
   ⟨397, 3, [], [], false⟩,
   ⟨342, 4, [403], [], false⟩,
   ⟨403, 4, [], [], false⟩,
   ⟨202, 6, [210, 388, 409], [], false⟩,
   ⟨202, 6, [389, 409], [], false⟩,
   ⟨202, 6, [392, 409], [], false⟩,
   ⟨202, 6, [395, 409], [], false⟩,
   ⟨163, 6, [410], [], false⟩,
   ⟨202, 8, [210, 388, 430], [], false⟩,
   ⟨202, 8, [389, 430], [], false⟩,
   ⟨202, 8, [392, 430], [], false⟩,
   ⟨202, 8, [395, 430], [], false⟩,
   ⟨366, 8, [428], [], false⟩,
   ⟨369, 8, [428], [], false⟩,
   ⟨370, 8, [428], [], false⟩,
   ⟨423, 8, [433], [], false⟩,
   ⟨202, 17, [468], [], false⟩,
   ⟨94, 17, [], [⟨7, 9, 0⟩], false⟩,
   ⟨202, 19, [210, 215, 476], [], false⟩,
   ⟨194, 19, [217, 476], [], false⟩,
   ⟨202, 19, [210, 221, 476], [], false⟩,
   ⟨194, 19, [223, 476], [], false⟩,
   ⟨202, 19, [210, 231, 476], [], false⟩,
   ⟨211, 19, [232, 476], [], false⟩,
   ⟨114, 27, [], [⟨7, 19, 0⟩], false⟩],
   [[], [], [q213, q171], [q214, q173], [], [q216], [], [q217], [], [], [], [], [], [], [], [], [q4], [], [q119, q121, q122], [], [], [], [], [], [], [], [q39]])
def t1_10 : List Nat := [0, 0, 0, 0, 0, 0, 0, 0, 58, 59, 0, 120, 121, 122, 122, 122, 122, 122, 63, 0, 0, 0, 0, 0, 64, 0, 0, 0, 0, 0, 0, 0, 0, 0, 65, 0, 0, 0, 0, 0, 0, 0, 0, 0, 0, 0, 64, 0, 0, 0, 0, 0, 0, 0, 0, 0, 0, 0, 0, 0, 0, 0, 0, 0, 0, 0, 0, 0, 0, 0, 0, 0, 0, 0, 0, 0, 0, 0, 0, 0, 0, 0, 0, 0, 0, 0, 0, 0, 0, 0, 0, 0, 0, 0, 0, 0, 0, 0, 0]
def r1_11 : List LConfig × List (List Re) :=
  ([⟨397, 3, [], [], false⟩,
   ⟨344, 3, [397], [], false⟩,
   ⟨403, 4, [], [], false⟩,
   ⟨344, 4, [403], [], false⟩,
   ⟨202, 6, [210, 388, 409], [], false⟩,
   ⟨202, 6, [389, 409], [], false⟩,
   ⟨202, 6, [392, 409], [], false⟩,
   ⟨202, 6, [395, 409], [], false⟩,
   ⟨163, 6, [410], [], false⟩,
   ⟨202, 8, [210, 388, 430], [], false⟩,
   ⟨202, 8, [389, 430], [], false⟩,
   ⟨202, 8, [392, 430], [], false⟩,
   ⟨202, 8, [395, 430], [], false⟩,
   ⟨366, 8, [428], [], false⟩,
   ⟨369, 8, [428], [], false⟩,
   ⟨370, 8, [428], [], false⟩,
   ⟨423, 8, [433], [], false⟩,
   ⟨202, 17, [468], [], false⟩,
   ⟨94, 17, [], [⟨7, 9, 0⟩], false⟩,
   ⟨202, 19, [210, 215, 476], [], false⟩,
   ⟨194, 19, [217, 476], [], false⟩,
   ⟨202, 19, [210, 221, 476], [], false⟩,
   ⟨194, 19, [223, 476], [], false⟩,
   ⟨202, 19, [210, 231, 476], [], false⟩,
   ⟨211, 19, [232, 476], [], false⟩,
   ⟨114, 27, [], [⟨7, 19, 0⟩], false⟩],
   [[], [], [q171, q218], [q173, q219], [], [q216], [], [q217], [], [], [], [], [], [], [], [], [q4], [], [q119, q121, q122], [], [], [], [], [], [], [], [q39]])
def t1_11 : List Nat := [0, 0, 0, 0, 0, 0, 0, 0, 58, 59, 0, 120, 121, 122, 122, 62, 62, 62, 63, 0, 0, 0, 0, 0, 64, 0, 0, 0, 0, 0, 0, 0, 0, 0, 65, 0, 0, 0, 0, 0, 0, 0, 0, 0, 0, 0, 64, 0, 0, 0, 0, 0, 0, 0, 0, 0, 0, 0, 0, 0, 0, 0, 0, 0, 0, 0, 0, 0, 0, 0, 0, 0, 0, 0, 0, 0, 0, 0, 0, 0, 0, 0, 0, 0, 0, 0, 0, 0, 0, 0, 0, 0, 0, 0, 0, 0, 0, 0, 0]
def r1_12 : List LConfig × List (List Re) :=
  ([⟨397, 3, [], [], false⟩,
   ⟨403, 4, [], [], false⟩,
   ⟨202, 6, [210, 388, 409], [], false⟩,
   ⟨202, 6, [389, 409], [], false⟩,
   ⟨202, 6, [392, 409], [], false⟩,
   ⟨202, 6, [395, 409], [], false⟩,
   ⟨163, 6, [410], [], false⟩,
   ⟨202, 8, [210, 388, 430], [], false⟩,
   ⟨202, 8, [389, 430], [], false⟩,
   ⟨202, 8, [392, 430], [], false⟩,
   ⟨202, 8, [395, 430], [], false⟩,
   ⟨366, 8, [428], [], false⟩,
   ⟨369, 8, [428], [], false⟩,
   ⟨370, 8, [428], [], false⟩,
   ⟨423, 8, [433], [], false⟩,
   ⟨202, 17, [468], [], false⟩,
   ⟨94, 17, [], [⟨7, 9, 0⟩], false⟩,
   ⟨202, 19, [210, 215, 476], [], false⟩,
   ⟨194, 19, [217, 476], [], false⟩,
   ⟨202, 19, [210, 221, 476], [], false⟩,
   ⟨194, 19, [223, 476], [], false⟩,
   ⟨202, 19, [210, 231, 476], [], false⟩,
   ⟨211, 19, [232, 476], [], false⟩,
   ⟨114, 27, [], [⟨7, 19, 0⟩], false⟩],
   [[], [], [q171], [q173], [], [q216], [], [q217], [], [], [], [], [], [], [], [], [q4], [], [q119, q121, q122], [], [], [], [], [], [], [], [q39]])
def t1_12 : List Nat := [0, 0, 0, 0, 0, 0, 0, 0, 58, 59, 0, 60, 61, 62, 62, 62, 62, 62, 63, 0, 0, 0, 0, 0, 64, 0, 0, 0, 0, 0, 0, 0, 0, 0, 65, 0, 0, 0, 0, 0, 0, 0, 0, 0, 0, 0, 64, 0, 0, 0, 0, 0, 0, 0, 0, 0, 0, 0, 0, 0, 0, 0, 0, 0, 0, 0, 0, 0, 0, 0, 0, 0, 0, 0, 0, 0, 0, 0, 0, 0, 0, 0, 0, 0, 0, 0, 0, 0, 0, 0, 0, 0, 0, 0, 0, 0, 0, 0, 0]
def r1_13 : List LConfig × List (List Re) :=
  ([⟨92, 16, [], [⟨7, 8, 0⟩], false⟩,
   ⟨114, 27, [], [⟨7, 19, 0⟩], false⟩],
   [[], [], [], [], [], [], [], [], [], [], [], [], [], [], [], [q39], [], [], [], [], [], [], [], [], [], [], [q39]])
def t1_13 : List Nat := [0, 0, 0, 0, 0, 0, 0, 0, 0, 0, 0, 0, 0, 0, 0, 0, 0, 0, 0, 0, 0, 0, 0, 0, 0, 0, 0, 0, 0, 0, 0, 0, 0, 0, 0, 0, 0, 0, 0, 0, 0, 0, 0, 0, 0, 0, 0, 0, 0, 0, 0, 0, 0, 0, 0, 0, 0, 0, 0, 0, 0, 0, 0, 0, 0, 0, 0, 0, 0, 0, 0, 0, 0, 0, 0, 0, 0, 0, 0, 0, 0, 0, 0, 0, 0, 0, 0, 0, 0, 0, 0, 0, 0, 0, 0, 0, 0, 0, 0]
def r1_14 : List LConfig × List (List Re) :=
  ([⟨100, 20, [], [⟨7, 12, 0⟩], false⟩,
   ⟨114, 27, [], [⟨7, 19, 0⟩], false⟩],
   [[], [], [], [], [], [], [], [], [], [], [], [], [], [], [], [], [], [], [], [q39], [], [], [], [], [], [], [q39]])
def t1_14 : List Nat := [0, 0, 0, 0, 0, 0, 0, 0, 0, 0, 0, 0, 0, 0, 0, 0, 0, 0, 0, 0, 0, 0, 0, 0, 0, 0, 0, 0, 0, 0, 0, 0, 0, 0, 0, 0, 0, 0, 0, 0, 0, 0, 0, 0, 0, 0, 0, 0, 0, 0, 0, 0, 0, 0, 0, 0, 0, 0, 0, 0, 0, 0, 0, 0, 0, 0, 0, 0, 0, 0, 0, 0, 0, 0, 0, 0, 0, 0, 0, 0, 0, 0, 0, 0, 0, 0, 0, 0, 0, 0, 0, 0, 0, 0, 0, 0, 0, 0, 0]
def r1_15 : List LConfig × List (List Re) :=
  ([⟨306, 24, [496], [], false⟩,
   ⟨314, 24, [309, 496], [], false⟩,
   ⟨108, 24, [], [⟨7, 16, 0⟩], false⟩,
   ⟨114, 27, [], [⟨7, 19, 0⟩], false⟩],
   [[], [], [], [], [], [], [], [], [], [], [], [], [], [], [], [], [], [], [], [], [], [], [], [q106], [], [], [q39]])
def t1_15 : List Nat := [0, 0, 0, 0, 0, 0, 0, 0, 0, 0, 0, 0, 0, 0, 0, 0, 0, 0, 0, 0, 0, 32, 32, 32, 32, 32, 32, 32, 32, 32, 32, 32, 32, 32, 32, 32, 32, 32, 0, 0, 32, 0, 32, 32, 32, 32, 32, 32, 32, 32, 32, 32, 32, 32, 32, 32, 32, 32, 32, 32, 32, 32, 0, 32, 0, 32, 0, 32, 0, 0, 0, 0, 32, 0, 0, 0, 0, 0, 32, 0, 32, 0, 32, 0, 32, 0, 32, 0, 0, 0, 0, 0, 0, 0, 0, 0, 0, 0, 0]
def r1_16 : List LConfig × List (List Re) :=
  ([⟨202, 18, [210, 213, 472], [], false⟩,
   ⟨163, 18, [158, 210, 213, 472], [], false⟩,
   ⟨161, 18, [158, 210, 213, 472], [], false⟩,
   ⟨306, 24, [496], [], false⟩,
   ⟨314, 24, [309, 496], [], false⟩,
   ⟨108, 24, [], [⟨7, 16, 0⟩], false⟩,
   ⟨114, 27, [], [⟨7, 19, 0⟩], false⟩],
   [[], [], [], [], [], [], [], [], [], [], [], [], [], [], [], [], [], [q37], [], [], [], [], [], [q106], [], [], [q39]])
def t1_16 : List Nat := [0, 0, 0, 0, 0, 0, 55, 0, 55, 0, 0, 56, 56, 56, 56, 56, 56, 56, 0, 0, 0, 32, 32, 32, 32, 32, 32, 32, 32, 32, 32, 32, 32, 32, 32, 32, 32, 32, 0, 0, 32, 0, 32, 32, 32, 32, 32, 32, 32, 32, 32, 32, 32, 32, 32, 32, 32, 32, 32, 32, 32, 32, 0, 32, 0, 32, 0, 32, 0, 0, 0, 0, 32, 0, 0, 0, 0, 0, 32, 0, 32, 0, 32, 0, 32, 0, 32, 0, 0, 0, 0, 0, 0, 0, 0, 0, 0, 0, 0]
def r1_17 : List LConfig × List (List Re) :=
  ([⟨325, 1, [], [], false⟩,
   ⟨306, 24, [496], [], false⟩,
   ⟨314, 24, [309, 496], [], false⟩,
   ⟨108, 24, [], [⟨7, 16, 0⟩], false⟩,
   ⟨114, 27, [], [⟨7, 19, 0⟩], false⟩],
   [[q144], [], [], [], [], [], [], [], [], [], [], [], [], [], [], [], [], [], [], [], [], [], [], [q106], [], [], [q39]])
def t1_17 : List Nat := [0, 0, 0, 0, 0, 0, 0, 0, 0, 0, 0, 0, 0, 0, 0, 0, 0, 0, 0, 0, 0, 32, 32, 32, 32, 32, 32, 32, 54, 32, 32, 32, 32, 32, 32, 32, 32, 32, 0, 0, 32, 0, 32, 32, 32, 32, 32, 32, 32, 32, 32, 32, 32, 32, 32, 32, 32, 32, 32, 32, 32, 32, 0, 32, 0, 32, 0, 32, 0, 0, 0, 0, 32, 0, 0, 0, 0, 0, 32, 0, 32, 0, 32, 0, 32, 0, 32, 0, 0, 0, 0, 0, 0, 0, 0, 0, 0, 0, 0]
def r1_18 : List LConfig × List (List Re) :=
  ([⟨330, 2, [], [], false⟩,
   ⟨74, 7, [], [], false⟩,
   ⟨306, 24, [496], [], false⟩,
   ⟨314, 24, [309, 496], [], false⟩,
   ⟨108, 24, [], [⟨7, 16, 0⟩], false⟩,
   ⟨114, 27, [], [⟨7, 19, 0⟩], false⟩],
   [[], [q141], [], [], [], [], [q39], [], [], [], [], [], [], [], [], [], [], [], [], [], [], [], [], [q106], [], [], [q39]])
def t1_18 : List Nat := [0, 0, 0, 0, 0, 0, 0, 0, 0, 0, 0, 0, 0, 0, 0, 0, 0, 0, 0, 0, 0, 32, 32, 32, 32, 32, 32, 32, 32, 32, 32, 32, 32, 32, 32, 32, 32, 53, 0, 0, 32, 0, 32, 32, 32, 32, 32, 32, 32, 32, 32, 32, 32, 32, 32, 32, 32, 32, 32, 32, 32, 32, 0, 32, 0, 32, 0, 32, 0, 0, 0, 0, 32, 0, 0, 0, 0, 0, 32, 0, 32, 0, 32, 0, 32, 0, 32, 0, 0, 0, 0, 0, 0, 0, 0, 0, 0, 0, 0]
def r1_19 : List LConfig × List (List Re) :=
  ([⟨321, 1, [], [], false⟩,
   ⟨306, 24, [496], [], false⟩,
   ⟨314, 24, [309, 496], [], false⟩,
   ⟨108, 24, [], [⟨7, 16, 0⟩], false⟩,
   ⟨114, 27, [], [⟨7, 19, 0⟩], false⟩],
   [[q139], [], [], [], [], [], [], [], [], [], [], [], [], [], [], [], [], [], [], [], [], [], [], [q106], [], [], [q39]])
def t1_19 : List Nat := [0, 0, 0, 0, 0, 0, 0, 0, 0, 0, 0, 0, 0, 0, 0, 0, 0, 0, 0, 0, 0, 32, 32, 32, 32, 32, 32, 32, 32, 32, 32, 32, 32, 32, 51, 32, 32, 32, 0, 0, 32, 0, 32, 32, 32, 32, 32, 32, 32, 32, 32, 32, 32, 32, 32, 32, 32, 32, 32, 32, 32, 32, 0, 32, 0, 32, 0, 32, 0, 0, 0, 0, 32, 0, 0, 0, 0, 0, 32, 0, 32, 0, 32, 0, 32, 0, 32, 0, 0, 0, 0, 0, 0, 0, 0, 0, 0, 0, 0]
def r1_20 : List LConfig × List (List Re) :=
  ([⟨46, 1, [], [], false⟩,
   ⟨306, 24, [496], [], false⟩,
   ⟨314, 24, [309, 496], [], false⟩,
   ⟨108, 24, [], [⟨7, 16, 0⟩], false⟩,
   ⟨114, 27, [], [⟨7, 19, 0⟩], false⟩],
   [[q39], [], [], [], [], [], [], [], [], [], [], [], [], [], [], [], [], [], [], [], [], [], [], [q106], [], [], [q39]])
def t1_20 : List Nat := [0, 0, 0, 0, 0, 0, 0, 0, 0, 0, 0, 0, 0, 0, 0, 0, 0, 0, 0, 0, 0, 32, 32, 32, 32, 32, 32, 32, 32, 32, 32, 32, 32, 32, 32, 32, 32, 32, 0, 0, 32, 0, 32, 32, 32, 32, 32, 32, 32, 32, 32, 32, 32, 32, 32, 32, 32, 32, 32, 32, 32, 32, 0, 32, 0, 32, 0, 32, 0, 0, 0, 0, 32, 0, 0, 0, 0, 0, 32, 0, 32, 0, 32, 0, 32, 0, 32, 0, 0, 0, 0, 0, 0, 0, 0, 0, 0, 0, 0]
def r1_21 : List LConfig × List (List Re) :=
  ([⟨104, 22, [], [⟨7, 14, 0⟩], false⟩,
   ⟨114, 27, [], [⟨7, 19, 0⟩], false⟩],
   [[], [], [], [], [], [], [], [], [], [], [], [], [], [], [], [], [], [], [], [], [], [q39], [], [], [], [], [q39]])
def t1_21 : List Nat := [0, 0, 0, 0, 0, 0, 0, 0, 0, 0, 0, 0, 0, 0, 0, 0, 0, 0, 0, 0, 0, 0, 0, 0, 0, 0, 0, 0, 0, 0, 0, 0, 0, 0, 0, 0, 0, 0, 0, 0, 0, 0, 0, 0, 0, 0, 0, 0, 0, 0, 0, 0, 0, 0, 0, 0, 0, 0, 0, 0, 0, 0, 0, 0, 0, 0, 0, 0, 0, 0, 0, 0, 0, 0, 0, 0, 0, 0, 0, 0, 0, 0, 0, 0, 0, 0, 0, 0, 0, 0, 0, 0, 0, 0, 0, 0, 0, 0, 0]
def r1_22 : List LConfig × List (List Re) :=
  ([⟨237, 20, [480], [], false⟩,
   ⟨306, 24, [496], [], false⟩,
   ⟨314, 24, [309, 496], [], false⟩,
   ⟨108, 24, [], [⟨7, 16, 0⟩], false⟩,
   ⟨114, 27, [], [⟨7, 19, 0⟩], false⟩],
   [[], [], [], [], [], [], [], [], [], [], [], [], [], [], [], [], [], [], [], [q57], [], [], [], [q106], [], [], [q39]])
def t1_22 : List Nat := [0, 0, 0, 0, 0, 0, 0, 0, 0, 0, 0, 0, 0, 0, 0, 0, 0, 0, 0, 0, 0, 32, 32, 32, 32, 32, 32, 32, 32, 32, 32, 32, 32, 32, 32, 32, 32, 32, 0, 0, 32, 0, 32, 32, 32, 32, 32, 48, 32, 32, 32, 32, 32, 32, 32, 32, 32, 32, 32, 32, 32, 32, 0, 32, 0, 32, 0, 32, 0, 0, 0, 0, 32, 0, 0, 0, 0, 0, 32, 0, 32, 0, 32, 0, 32, 0, 32, 0, 0, 0, 0, 0, 0, 0, 0, 0, 0, 0, 0]
def r1_23 : List LConfig × List (List Re) :=
  ([⟨242, 20, [480], [], false⟩,
   ⟨306, 24, [496], [], false⟩,
   ⟨314, 24, [309, 496], [], false⟩,
   ⟨108, 24, [], [⟨7, 16, 0⟩], false⟩,
   ⟨114, 27, [], [⟨7, 19, 0⟩], false⟩],
   [[], [], [], [], [], [], [], [], [], [], [], [], [], [], [], [], [], [], [], [q62], [], [], [], [q106], [], [], [q39]])
def t1_23 : List Nat := [0, 0, 0, 0, 0, 0, 0, 0, 0, 0, 0, 0, 0, 0, 0, 0, 0, 0, 0, 0, 0, 32, 32, 32, 32, 32, 32, 32, 32, 32, 32, 32, 32, 32, 32, 32, 32, 32, 0, 0, 32, 0, 32, 32, 32, 32, 32, 32, 32, 32, 32, 32, 32, 32, 32, 32, 32, 32, 46, 32, 32, 32, 0, 32, 0, 32, 0, 32, 0, 0, 0, 0, 32, 0, 0, 0, 0, 0, 32, 0, 32, 0, 32, 0, 32, 0, 32, 0, 0, 0, 0, 0, 0, 0, 0, 0, 0, 0, 0]
def r1_24 : List LConfig × List (List Re) :=
  ([⟨268, 23, [492], [], false⟩,
   ⟨271, 23, [492], [], false⟩,
   ⟨273, 23, [492], [], false⟩,
   ⟨275, 23, [492], [], false⟩,
   ⟨306, 24, [496], [], false⟩,
   ⟨314, 24, [309, 496], [], false⟩,
   ⟨108, 24, [], [⟨7, 16, 0⟩], false⟩,
   ⟨114, 27, [], [⟨7, 19, 0⟩], false⟩],
   [[], [], [], [], [], [], [], [], [], [], [], [], [], [], [], [], [], [], [], [], [], [], [q123, q124, q125, q126], [q106], [], [], [q39]])
def t1_24 : List Nat := [0, 0, 0, 0, 0, 0, 0, 0, 0, 0, 0, 0, 0, 0, 0, 0, 0, 0, 0, 0, 0, 32, 32, 32, 32, 32, 32, 32, 32, 32, 32, 32, 32, 32, 32, 32, 32, 32, 0, 0, 32, 0, 32, 38, 32, 32, 32, 32, 38, 32, 32, 32, 32, 32, 38, 39, 32, 32, 32, 32, 32, 32, 0, 32, 0, 32, 0, 32, 0, 0, 0, 0, 32, 0, 0, 0, 0, 0, 32, 0, 32, 0, 32, 0, 32, 0, 32, 0, 0, 0, 0, 0, 0, 0, 0, 0, 0, 0, 0]
def r1_25 : List LConfig × List (List Re) :=
  ([⟨251, 20, [480], [], false⟩,
   ⟨306, 24, [496], [], false⟩,
   ⟨314, 24, [309, 496], [], false⟩,
   ⟨108, 24, [], [⟨7, 16, 0⟩], false⟩,
   ⟨114, 27, [], [⟨7, 19, 0⟩], false⟩],
   [[], [], [], [], [], [], [], [], [], [], [], [], [], [], [], [], [], [], [], [q72], [], [], [], [q106], [], [], [q39]])
def t1_25 : List Nat := [0, 0, 0, 0, 0, 0, 0, 0, 0, 0, 0, 0, 0, 0, 0, 0, 0, 0, 0, 0, 0, 32, 32, 32, 32, 32, 32, 32, 32, 32, 32, 32, 32, 32, 32, 32, 32, 32, 0, 0, 32, 0, 32, 32, 32, 32, 37, 32, 32, 32, 32, 32, 32, 32, 32, 32, 32, 32, 32, 32, 32, 32, 0, 32, 0, 32, 0, 32, 0, 0, 0, 0, 32, 0, 0, 0, 0, 0, 32, 0, 32, 0, 32, 0, 32, 0, 32, 0, 0, 0, 0, 0, 0, 0, 0, 0, 0, 0, 0]
def r1_26 : List LConfig × List (List Re) :=
  ([⟨246, 20, [480], [], false⟩,
   ⟨306, 24, [496], [], false⟩,
   ⟨314, 24, [309, 496], [], false⟩,
   ⟨108, 24, [], [⟨7, 16, 0⟩], false⟩,
   ⟨114, 27, [], [⟨7, 19, 0⟩], false⟩],
   [[], [], [], [], [], [], [], [], [], [], [], [], [], [], [], [], [], [], [], [q70], [], [], [], [q106], [], [], [q39]])
def t1_26 : List Nat := [0, 0, 0, 0, 0, 0, 0, 0, 0, 0, 0, 0, 0, 0, 0, 0, 0, 0, 0, 0, 0, 32, 32, 32, 32, 32, 32, 32, 32, 32, 32, 32, 32, 32, 32, 32, 32, 32, 0, 0, 32, 0, 32, 32, 32, 32, 32, 32, 32, 32, 33, 32, 32, 32, 32, 32, 32, 32, 32, 32, 32, 32, 0, 32, 0, 32, 0, 32, 0, 0, 0, 0, 32, 0, 0, 0, 0, 0, 32, 0, 32, 0, 32, 0, 32, 0, 32, 0, 0, 0, 0, 0, 0, 0, 0, 0, 0, 0, 0]
def r1_27 : List LConfig × List (List Re) :=
  ([⟨306, 24, [496], [], false⟩,
   ⟨314, 24, [309, 496], [], false⟩,
   ⟨108, 24, [], [⟨7, 16, 0⟩], false⟩,
   ⟨110, 25, [], [⟨7, 17, 0⟩], false⟩,
   ⟨114, 27, [], [⟨7, 19, 0⟩], false⟩],
   [[], [], [], [], [], [], [], [], [], [], [], [], [], [], [], [], [], [], [], [], [], [], [], [q106], [q39], [], [q39]])
def t1_27 : List Nat := [0, 0, 0, 0, 0, 0, 0, 0, 0, 0, 0, 0, 0, 0, 0, 0, 0, 0, 0, 0, 0, 32, 32, 32, 32, 32, 32, 32, 32, 32, 32, 32, 32, 32, 32, 32, 32, 32, 0, 0, 32, 0, 32, 32, 32, 32, 32, 32, 32, 32, 32, 32, 32, 32, 32, 32, 32, 32, 32, 32, 32, 32, 0, 32, 0, 32, 0, 32, 0, 0, 0, 0, 32, 0, 0, 0, 0, 0, 32, 0, 32, 0, 32, 0, 32, 0, 32, 0, 0, 0, 0, 0, 0, 0, 0, 0, 0, 0, 0]
def r1_28 : List LConfig × List (List Re) :=
  ([⟨257, 21, [484], [], false⟩,
   ⟨102, 21, [], [⟨7, 13, 0⟩], false⟩,
   ⟨114, 27, [], [⟨7, 19, 0⟩], false⟩],
   [[], [], [], [], [], [], [], [], [], [], [], [], [], [], [], [], [], [], [], [], [q79], [], [], [], [], [], [q39]])
def t1_28 : List Nat := [0, 0, 0, 0, 0, 0, 0, 0, 0, 0, 0, 0, 0, 0, 0, 0, 0, 0, 0, 0, 0, 0, 0, 0, 0, 0, 0, 0, 0, 0, 0, 0, 0, 0, 0, 0, 0, 0, 0, 0, 0, 0, 0, 0, 0, 0, 0, 0, 0, 0, 0, 0, 0, 0, 0, 0, 0, 0, 0, 0, 0, 0, 0, 0, 0, 0, 0, 0, 0, 31, 31, 0, 0, 0, 0, 0, 31, 0, 0, 0, 0, 0, 0, 0, 0, 0, 0, 0, 31, 0, 31, 31, 31, 31, 31, 31, 31, 31, 0]
def r1_29 : List LConfig × List (List Re) :=
  ([⟨82, 11, [], [⟨7, 3, 0⟩], false⟩,
   ⟨114, 27, [], [⟨7, 19, 0⟩], false⟩],
   [[], [], [], [], [], [], [], [], [], [], [q39], [], [], [], [], [], [], [], [], [], [], [], [], [], [], [], [q39]])
def t1_29 : List Nat := [0, 0, 0, 0, 0, 0, 0, 0, 0, 0, 0, 0, 0, 0, 0, 0, 0, 0, 0, 0, 0, 0, 0, 0, 0, 0, 0, 0, 0, 0, 0, 0, 0, 0, 0, 0, 0, 0, 0, 0, 0, 0, 0, 0, 0, 0, 0, 0, 0, 0, 0, 0, 0, 0, 0, 0, 0, 0, 0, 0, 0, 0, 0, 0, 0, 0, 0, 0, 0, 0, 0, 0, 0, 0, 0, 0, 0, 0, 0, 0, 0, 0, 0, 0, 0, 0, 0, 0, 0, 0, 0, 0, 0, 0, 0, 0, 0, 0, 0]
def r1_30 : List LConfig × List (List Re) :=
  ([⟨257, 21, [484], [], false⟩,
   ⟨102, 21, [], [⟨7, 13, 0⟩], false⟩],
   [[], [], [], [], [], [], [], [], [], [], [], [], [], [], [], [], [], [], [], [], [q79], [], [], [], [], [], []])
def t1_30 : List Nat := [0, 0, 0, 0, 0, 0, 0, 0, 0, 0, 0, 0, 0, 0, 0, 0, 0, 0, 0, 0, 0, 0, 0, 0, 0, 0, 0, 0, 0, 0, 0, 0, 0, 0, 0, 0, 0, 0, 0, 0, 0, 0, 0, 0, 0, 0, 0, 0, 0, 0, 0, 0, 0, 0, 0, 0, 0, 0, 0, 0, 0, 0, 0, 0, 0, 0, 0, 0, 0, 31, 31, 0, 0, 0, 0, 0, 31, 0, 0, 0, 0, 0, 0, 0, 0, 0, 0, 0, 31, 0, 31, 31, 31, 31, 31, 31, 31, 31, 0]
def r1_31 : List LConfig × List (List Re) :=
  ([⟨306, 24, [496], [], false⟩,
   ⟨314, 24, [309, 496], [], false⟩,
   ⟨108, 24, [], [⟨7, 16, 0⟩], false⟩],
   [[], [], [], [], [], [], [], [], [], [], [], [], [], [], [], [], [], [], [], [], [], [], [], [q106], [], [], []])
def t1_31 : List Nat := [0, 0, 0, 0, 0, 0, 0, 0, 0, 0, 0, 0, 0, 0, 0, 0, 0, 0, 0, 0, 0, 32, 32, 32, 32, 32, 32, 32, 32, 32, 32, 32, 32, 32, 32, 32, 32, 32, 0, 0, 32, 0, 32, 32, 32, 32, 32, 32, 32, 32, 32, 32, 32, 32, 32, 32, 32, 32, 32, 32, 32, 32, 0, 32, 0, 32, 0, 32, 0, 0, 0, 0, 32, 0, 0, 0, 0, 0, 32, 0, 32, 0, 32, 0, 32, 0, 32, 0, 0, 0, 0, 0, 0, 0, 0, 0, 0, 0, 0]
def r1_32 : List LConfig × List (List Re) :=
  ([⟨247, 20, [480], [], false⟩,
   ⟨306, 24, [496], [], false⟩,
   ⟨314, 24, [309, 496], [], false⟩,
   ⟨108, 24, [], [⟨7, 16, 0⟩], false⟩],
   [[], [], [], [], [], [], [], [], [], [], [], [], [], [], [], [], [], [], [], [q69], [], [], [], [q106], [], [], []])
def t1_32 : List Nat := [0, 0, 0, 0, 0, 0, 0, 0, 0, 0, 0, 0, 0, 0, 0, 0, 0, 0, 0, 0, 0, 32, 32, 32, 32, 32, 32, 32, 32, 32, 32, 32, 32, 32, 32, 32, 32, 32, 0, 0, 32, 0, 32, 32, 32, 32, 32, 32, 32, 32, 32, 32, 32, 32, 34, 32, 32, 32, 32, 32, 32, 32, 0, 32, 0, 32, 0, 32, 0, 0, 0, 0, 32, 0, 0, 0, 0, 0, 32, 0, 32, 0, 32, 0, 32, 0, 32, 0, 0, 0, 0, 0, 0, 0, 0, 0, 0, 0, 0]
def r1_33 : List LConfig × List (List Re) :=
  ([⟨248, 20, [480], [], false⟩,
   ⟨306, 24, [496], [], false⟩,
   ⟨314, 24, [309, 496], [], false⟩,
   ⟨108, 24, [], [⟨7, 16, 0⟩], false⟩],
   [[], [], [], [], [], [], [], [], [], [], [], [], [], [], [], [], [], [], [], [q68], [], [], [], [q106], [], [], []])
def t1_33 : List Nat := [0, 0, 0, 0, 0, 0, 0, 0, 0, 0, 0, 0, 0, 0, 0, 0, 0, 0, 0, 0, 0, 32, 32, 32, 32, 32, 32, 32, 32, 32, 32, 32, 32, 32, 32, 32, 32, 32, 0, 0, 32, 0, 32, 32, 35, 32, 32, 32, 32, 32, 32, 32, 32, 32, 32, 32, 32, 32, 32, 32, 32, 32, 0, 32, 0, 32, 0, 32, 0, 0, 0, 0, 32, 0, 0, 0, 0, 0, 32, 0, 32, 0, 32, 0, 32, 0, 32, 0, 0, 0, 0, 0, 0, 0, 0, 0, 0, 0, 0]
def r1_34 : List LConfig × List (List Re) :=
  ([⟨249, 20, [480], [], false⟩,
   ⟨306, 24, [496], [], false⟩,
   ⟨314, 24, [309, 496], [], false⟩,
   ⟨108, 24, [], [⟨7, 16, 0⟩], false⟩],
   [[], [], [], [], [], [], [], [], [], [], [], [], [], [], [], [], [], [], [], [q22], [], [], [], [q106], [], [], []])
def t1_34 : List Nat := [0, 0, 0, 0, 0, 0, 0, 0, 0, 0, 0, 0, 0, 0, 0, 0, 0, 0, 0, 0, 0, 32, 32, 32, 32, 32, 32, 32, 32, 32, 32, 32, 32, 32, 32, 32, 32, 32, 0, 0, 32, 0, 32, 32, 32, 32, 36, 32, 32, 32, 32, 32, 32, 32, 32, 32, 32, 32, 32, 32, 32, 32, 0, 32, 0, 32, 0, 32, 0, 0, 0, 0, 32, 0, 0, 0, 0, 0, 32, 0, 32, 0, 32, 0, 32, 0, 32, 0, 0, 0, 0, 0, 0, 0, 0, 0, 0, 0, 0]
def r1_35 : List LConfig × List (List Re) :=
  ([⟨100, 20, [], [⟨7, 12, 0⟩], false⟩,
   ⟨306, 24, [496], [], false⟩,
   ⟨314, 24, [309, 496], [], false⟩,
   ⟨108, 24, [], [⟨7, 16, 0⟩], false⟩],
   [[], [], [], [], [], [], [], [], [], [], [], [], [], [], [], [], [], [], [], [q39], [], [], [], [q106], [], [], []])
def t1_35 : List Nat := [0, 0, 0, 0, 0, 0, 0, 0, 0, 0, 0, 0, 0, 0, 0, 0, 0, 0, 0, 0, 0, 32, 32, 32, 32, 32, 32, 32, 32, 32, 32, 32, 32, 32, 32, 32, 32, 32, 0, 0, 32, 0, 32, 32, 32, 32, 32, 32, 32, 32, 32, 32, 32, 32, 32, 32, 32, 32, 32, 32, 32, 32, 0, 32, 0, 32, 0, 32, 0, 0, 0, 0, 32, 0, 0, 0, 0, 0, 32, 0, 32, 0, 32, 0, 32, 0, 32, 0, 0, 0, 0, 0, 0, 0, 0, 0, 0, 0, 0]
def r1_36 : List LConfig × List (List Re) :=
  ([⟨252, 20, [480], [], false⟩,
   ⟨306, 24, [496], [], false⟩,
   ⟨314, 24, [309, 496], [], false⟩,
   ⟨108, 24, [], [⟨7, 16, 0⟩], false⟩],
   [[], [], [], [], [], [], [], [], [], [], [], [], [], [], [], [], [], [], [], [q53], [], [], [], [q106], [], [], []])
def t1_36 : List Nat := [0, 0, 0, 0, 0, 0, 0, 0, 0, 0, 0, 0, 0, 0, 0, 0, 0, 0, 0, 0, 0, 32, 32, 32, 32, 32, 32, 32, 32, 32, 32, 32, 32, 32, 32, 32, 32, 32, 0, 0, 32, 0, 32, 32, 32, 32, 32, 36, 32, 32, 32, 32, 32, 32, 32, 32, 32, 32, 32, 32, 32, 32, 0, 32, 0, 32, 0, 32, 0, 0, 0, 0, 32, 0, 0, 0, 0, 0, 32, 0, 32, 0, 32, 0, 32, 0, 32, 0, 0, 0, 0, 0, 0, 0, 0, 0, 0, 0, 0]
def r1_37 : List LConfig × List (List Re) :=
  ([⟨316, 23, [280, 492], [], false⟩,
   ⟨284, 23, [492], [], false⟩,
   ⟨306, 24, [496], [], false⟩,
   ⟨314, 24, [309, 496], [], false⟩,
   ⟨108, 24, [], [⟨7, 16, 0⟩], false⟩],
   [[], [], [], [], [], [], [], [], [], [], [], [], [], [], [], [], [], [], [], [], [], [], [q103], [q106], [], [], []])
def t1_37 : List Nat := [0, 40, 0, 41, 0, 0, 0, 0, 0, 0, 0, 0, 0, 0, 0, 0, 0, 0, 0, 0, 0, 32, 32, 32, 32, 32, 32, 32, 32, 32, 32, 32, 32, 32, 32, 32, 32, 32, 0, 0, 32, 0, 32, 32, 32, 32, 32, 32, 32, 32, 32, 32, 32, 32, 32, 32, 32, 32, 32, 32, 32, 32, 0, 32, 0, 32, 0, 32, 0, 0, 0, 0, 32, 0, 0, 0, 0, 0, 32, 0, 32, 0, 32, 0, 32, 0, 32, 0, 0, 0, 0, 0, 0, 0, 0, 0, 0, 0, 0]
def r1_38 : List LConfig × List (List Re) :=
  ([⟨269, 23, [492], [], false⟩,
   ⟨306, 24, [496], [], false⟩,
   ⟨314, 24, [309, 496], [], false⟩,
   ⟨108, 24, [], [⟨7, 16, 0⟩], false⟩],
   [[], [], [], [], [], [], [], [], [], [], [], [], [], [], [], [], [], [], [], [], [], [], [q124], [q106], [], [], []])
def t1_38 : List Nat := [0, 0, 0, 0, 0, 0, 0, 0, 0, 0, 0, 0, 0, 0, 0, 0, 0, 0, 0, 0, 0, 32, 32, 32, 32, 32, 32, 32, 32, 32, 32, 32, 32, 32, 32, 32, 32, 32, 0, 0, 32, 0, 32, 32, 32, 32, 32, 32, 38, 32, 32, 32, 32, 32, 32, 32, 32, 32, 32, 32, 32, 32, 0, 32, 0, 32, 0, 32, 0, 0, 0, 0, 32, 0, 0, 0, 0, 0, 32, 0, 32, 0, 32, 0, 32, 0, 32, 0, 0, 0, 0, 0, 0, 0, 0, 0, 0, 0, 0]
def r1_39 : List LConfig × List (List Re) :=
  ([⟨316, 23, [280, 492], [], false⟩,
   ⟨284, 23, [492], [], false⟩],
   [[], [], [], [], [], [], [], [], [], [], [], [], [], [], [], [], [], [], [], [], [], [], [q103], [], [], [], []])
def t1_39 : List Nat := [0, 40, 0, 41, 0, 0, 0, 0, 0, 0, 0, 0, 0, 0, 0, 0, 0, 0, 0, 0, 0, 0, 0, 0, 0, 0, 0, 0, 0, 0, 0, 0, 0, 0, 0, 0, 0, 0, 0, 0, 0, 0, 0, 0, 0, 0, 0, 0, 0, 0, 0, 0, 0, 0, 0, 0, 0, 0, 0, 0, 0, 0, 0, 0, 0, 0, 0, 0, 0, 0, 0, 0, 0, 0, 0, 0, 0, 0, 0, 0, 0, 0, 0, 0, 0, 0, 0, 0, 0, 0, 0, 0, 0, 0, 0, 0, 0, 0, 0]
def r1_40 : List LConfig × List (List Re) :=
  ([⟨316, 23, [287, 492], [], false⟩,
   ⟨291, 23, [492], [], false⟩,
   ⟨293, 23, [492], [], false⟩],
   [[], [], [], [], [], [], [], [], [], [], [], [], [], [], [], [], [], [], [], [], [], [], [q101], [], [], [], []])
def t1_40 : List Nat := [0, 41, 0, 0, 0, 0, 0, 0, 0, 0, 0, 0, 0, 0, 0, 0, 0, 0, 0, 0, 0, 0, 0, 0, 0, 0, 0, 0, 0, 0, 0, 0, 42, 0, 0, 0, 0, 0, 0, 0, 0, 0, 0, 0, 0, 0, 0, 0, 0, 0, 0, 0, 0, 0, 0, 0, 0, 0, 43, 0, 0, 0, 0, 0, 0, 0, 0, 0, 0, 0, 0, 0, 0, 0, 0, 0, 0, 0, 0, 0, 0, 0, 0, 0, 0, 0, 0, 0, 0, 0, 0, 0, 0, 0, 0, 0, 0, 0, 0]
def r1_41 : List LConfig × List (List Re) :=
  ([⟨292, 23, [492], [], false⟩],
   [[], [], [], [], [], [], [], [], [], [], [], [], [], [], [], [], [], [], [], [], [], [], [q127], [], [], [], []])
def t1_41 : List Nat := [0, 0, 0, 0, 0, 0, 0, 0, 0, 0, 0, 0, 0, 0, 0, 0, 0, 0, 0, 0, 0, 0, 0, 0, 44, 0, 0, 0, 0, 0, 0, 0, 0, 0, 0, 0, 0, 0, 0, 0, 0, 0, 0, 0, 0, 0, 0, 0, 0, 0, 0, 0, 0, 0, 0, 0, 0, 0, 0, 0, 0, 0, 0, 0, 0, 0, 0, 0, 0, 0, 0, 0, 0, 0, 0, 0, 0, 0, 0, 0, 0, 0, 0, 0, 0, 0, 0, 0, 0, 0, 0, 0, 0, 0, 0, 0, 0, 0, 0]
def r1_42 : List LConfig × List (List Re) :=
  ([⟨294, 23, [492], [], false⟩],
   [[], [], [], [], [], [], [], [], [], [], [], [], [], [], [], [], [], [], [], [], [], [], [q128], [], [], [], []])
def t1_42 : List Nat := [0, 0, 0, 0, 0, 0, 0, 0, 0, 0, 0, 0, 0, 0, 0, 0, 0, 0, 0, 0, 0, 0, 0, 0, 0, 0, 0, 0, 0, 0, 0, 0, 0, 0, 0, 0, 0, 0, 0, 0, 0, 0, 0, 0, 0, 0, 44, 0, 0, 0, 0, 0, 0, 0, 0, 0, 0, 0, 0, 0, 0, 0, 0, 0, 0, 0, 0, 0, 0, 0, 0, 0, 0, 0, 0, 0, 0, 0, 0, 0, 0, 0, 0, 0, 0, 0, 0, 0, 0, 0, 0, 0, 0, 0, 0, 0, 0, 0, 0]
def r1_43 : List LConfig × List (List Re) :=
  ([⟨297, 23, [492], [], false⟩,
   ⟨316, 23, [302, 492], [], false⟩,
   ⟨106, 23, [], [⟨7, 15, 0⟩], false⟩],
   [[], [], [], [], [], [], [], [], [], [], [], [], [], [], [], [], [], [], [], [], [], [], [q99], [], [], [], []])
def t1_43 : List Nat := [0, 45, 0, 0, 0, 0, 0, 0, 0, 0, 0, 0, 0, 0, 0, 0, 0, 0, 45, 0, 0, 0, 0, 0, 0, 0, 0, 0, 0, 0, 0, 0, 0, 0, 0, 0, 0, 0, 0, 0, 0, 0, 0, 0, 0, 0, 0, 0, 0, 0, 0, 0, 0, 0, 0, 0, 0, 0, 0, 0, 0, 0, 0, 0, 0, 0, 0, 0, 0, 0, 0, 0, 0, 0, 0, 0, 0, 0, 0, 0, 0, 0, 0, 0, 0, 0, 0, 0, 0, 0, 0, 0, 0, 0, 0, 0, 0, 0, 0]
def r1_44 : List LConfig × List (List Re) :=
  ([⟨316, 23, [302, 492], [], false⟩,
   ⟨106, 23, [], [⟨7, 15, 0⟩], false⟩],
   [[], [], [], [], [], [], [], [], [], [], [], [], [], [], [], [], [], [], [], [], [], [], [q12], [], [], [], []])
def t1_44 : List Nat := [0, 45, 0, 0, 0, 0, 0, 0, 0, 0, 0, 0, 0, 0, 0, 0, 0, 0, 0, 0, 0, 0, 0, 0, 0, 0, 0, 0, 0, 0, 0, 0, 0, 0, 0, 0, 0, 0, 0, 0, 0, 0, 0, 0, 0, 0, 0, 0, 0, 0, 0, 0, 0, 0, 0, 0, 0, 0, 0, 0, 0, 0, 0, 0, 0, 0, 0, 0, 0, 0, 0, 0, 0, 0, 0, 0, 0, 0, 0, 0, 0, 0, 0, 0, 0, 0, 0, 0, 0, 0, 0, 0, 0, 0, 0, 0, 0, 0, 0]
def r1_45 : List LConfig × List (List Re) :=
  ([⟨243, 20, [480], [], false⟩,
   ⟨306, 24, [496], [], false⟩,
   ⟨314, 24, [309, 496], [], false⟩,
   ⟨108, 24, [], [⟨7, 16, 0⟩], false⟩],
   [[], [], [], [], [], [], [], [], [], [], [], [], [], [], [], [], [], [], [], [q61], [], [], [], [q106], [], [], []])
def t1_45 : List Nat := [0, 0, 0, 0, 0, 0, 0, 0, 0, 0, 0, 0, 0, 0, 0, 0, 0, 0, 0, 0, 0, 32, 32, 32, 32, 32, 32, 32, 32, 32, 32, 32, 32, 32, 32, 32, 32, 32, 0, 0, 32, 0, 32, 32, 32, 32, 32, 32, 32, 32, 32, 32, 32, 32, 32, 47, 32, 32, 32, 32, 32, 32, 0, 32, 0, 32, 0, 32, 0, 0, 0, 0, 32, 0, 0, 0, 0, 0, 32, 0, 32, 0, 32, 0, 32, 0, 32, 0, 0, 0, 0, 0, 0, 0, 0, 0, 0, 0, 0]
def r1_46 : List LConfig × List (List Re) :=
  ([⟨244, 20, [480], [], false⟩,
   ⟨306, 24, [496], [], false⟩,
   ⟨314, 24, [309, 496], [], false⟩,
   ⟨108, 24, [], [⟨7, 16, 0⟩], false⟩],
   [[], [], [], [], [], [], [], [], [], [], [], [], [], [], [], [], [], [], [], [q60], [], [], [], [q106], [], [], []])
def t1_46 : List Nat := [0, 0, 0, 0, 0, 0, 0, 0, 0, 0, 0, 0, 0, 0, 0, 0, 0, 0, 0, 0, 0, 32, 32, 32, 32, 32, 32, 32, 32, 32, 32, 32, 32, 32, 32, 32, 32, 32, 0, 0, 32, 0, 32, 32, 32, 32, 32, 32, 32, 32, 32, 32, 32, 36, 32, 32, 32, 32, 32, 32, 32, 32, 0, 32, 0, 32, 0, 32, 0, 0, 0, 0, 32, 0, 0, 0, 0, 0, 32, 0, 32, 0, 32, 0, 32, 0, 32, 0, 0, 0, 0, 0, 0, 0, 0, 0, 0, 0, 0]
def r1_47 : List LConfig × List (List Re) :=
  ([⟨238, 20, [480], [], false⟩,
   ⟨306, 24, [496], [], false⟩,
   ⟨314, 24, [309, 496], [], false⟩,
   ⟨108, 24, [], [⟨7, 16, 0⟩], false⟩],
   [[], [], [], [], [], [], [], [], [], [], [], [], [], [], [], [], [], [], [], [q56], [], [], [], [q106], [], [], []])
def t1_47 : List Nat := [0, 0, 0, 0, 0, 0, 0, 0, 0, 0, 0, 0, 0, 0, 0, 0, 0, 0, 0, 0, 0, 32, 32, 32, 32, 32, 32, 32, 32, 32, 32, 32, 32, 32, 32, 32, 32, 32, 0, 0, 32, 0, 32, 32, 32, 32, 32, 32, 32, 32, 32, 32, 32, 32, 32, 32, 32, 32, 32, 32, 49, 32, 0, 32, 0, 32, 0, 32, 0, 0, 0, 0, 32, 0, 0, 0, 0, 0, 32, 0, 32, 0, 32, 0, 32, 0, 32, 0, 0, 0, 0, 0, 0, 0, 0, 0, 0, 0, 0]
def r1_48 : List LConfig × List (List Re) :=
  ([⟨239, 20, [480], [], false⟩,
   ⟨306, 24, [496], [], false⟩,
   ⟨314, 24, [309, 496], [], false⟩,
   ⟨108, 24, [], [⟨7, 16, 0⟩], false⟩],
   [[], [], [], [], [], [], [], [], [], [], [], [], [], [], [], [], [], [], [], [q55], [], [], [], [q106], [], [], []])
def t1_48 : List Nat := [0, 0, 0, 0, 0, 0, 0, 0, 0, 0, 0, 0, 0, 0, 0, 0, 0, 0, 0, 0, 0, 32, 32, 32, 32, 32, 32, 32, 32, 32, 32, 32, 32, 32, 32, 32, 32, 32, 0, 0, 32, 0, 32, 32, 32, 32, 50, 32, 32, 32, 32, 32, 32, 32, 32, 32, 32, 32, 32, 32, 32, 32, 0, 32, 0, 32, 0, 32, 0, 0, 0, 0, 32, 0, 0, 0, 0, 0, 32, 0, 32, 0, 32, 0, 32, 0, 32, 0, 0, 0, 0, 0, 0, 0, 0, 0, 0, 0, 0]
def r1_49 : List LConfig × List (List Re) :=
  ([⟨240, 20, [480], [], false⟩,
   ⟨306, 24, [496], [], false⟩,
   ⟨314, 24, [309, 496], [], false⟩,
   ⟨108, 24, [], [⟨7, 16, 0⟩], false⟩],
   [[], [], [], [], [], [], [], [], [], [], [], [], [], [], [], [], [], [], [], [q23], [], [], [], [q106], [], [], []])
def t1_49 : List Nat := [0, 0, 0, 0, 0, 0, 0, 0, 0, 0, 0, 0, 0, 0, 0, 0, 0, 0, 0, 0, 0, 32, 32, 32, 32, 32, 32, 32, 32, 32, 32, 32, 32, 32, 32, 32, 32, 32, 0, 0, 32, 0, 32, 32, 32, 32, 32, 32, 32, 32, 32, 32, 32, 32, 32, 32, 32, 32, 36, 32, 32, 32, 0, 32, 0, 32, 0, 32, 0, 0, 0, 0, 32, 0, 0, 0, 0, 0, 32, 0, 32, 0, 32, 0, 32, 0, 32, 0, 0, 0, 0, 0, 0, 0, 0, 0, 0, 0, 0]
def r1_50 : List LConfig × List (List Re) :=
  ([⟨322, 1, [], [], false⟩,
   ⟨306, 24, [496], [], false⟩,
   ⟨314, 24, [309, 496], [], false⟩,
   ⟨108, 24, [], [⟨7, 16, 0⟩], false⟩],
   [[q138], [], [], [], [], [], [], [], [], [], [], [], [], [], [], [], [], [], [], [], [], [], [], [q106], [], [], []])
def t1_50 : List Nat := [0, 0, 0, 0, 0, 0, 0, 0, 0, 0, 0, 0, 0, 0, 0, 0, 0, 0, 0, 0, 0, 32, 52, 32, 32, 32, 32, 32, 32, 32, 32, 32, 32, 32, 32, 32, 32, 32, 0, 0, 32, 0, 32, 32, 32, 32, 32, 32, 32, 32, 32, 32, 32, 32, 32, 32, 32, 32, 32, 32, 32, 32, 0, 32, 0, 32, 0, 32, 0, 0, 0, 0, 32, 0, 0, 0, 0, 0, 32, 0, 32, 0, 32, 0, 32, 0, 32, 0, 0, 0, 0, 0, 0, 0, 0, 0, 0, 0, 0]
def r1_51 : List LConfig × List (List Re) :=
  ([⟨46, 1, [], [], false⟩,
   ⟨306, 24, [496], [], false⟩,
   ⟨314, 24, [309, 496], [], false⟩,
   ⟨108, 24, [], [⟨7, 16, 0⟩], false⟩],
   [[q39], [], [], [], [], [], [], [], [], [], [], [], [], [], [], [], [], [], [], [], [], [], [], [q106], [], [], []])
def t1_51 : List Nat := [0, 0, 0, 0, 0, 0, 0, 0, 0, 0, 0, 0, 0, 0, 0, 0, 0, 0, 0, 0, 0, 32, 32, 32, 32, 32, 32, 32, 32, 32, 32, 32, 32, 32, 32, 32, 32, 32, 0, 0, 32, 0, 32, 32, 32, 32, 32, 32, 32, 32, 32, 32, 32, 32, 32, 32, 32, 32, 32, 32, 32, 32, 0, 32, 0, 32, 0, 32, 0, 0, 0, 0, 32, 0, 0, 0, 0, 0, 32, 0, 32, 0, 32, 0, 32, 0, 32, 0, 0, 0, 0, 0, 0, 0, 0, 0, 0, 0, 0]
def r1_52 : List LConfig × List (List Re) :=
  ([⟨48, 2, [], [], false⟩,
   ⟨306, 24, [496], [], false⟩,
   ⟨314, 24, [309, 496], [], false⟩,
   ⟨108, 24, [], [⟨7, 16, 0⟩], false⟩],
   [[], [q39], [], [], [], [], [], [], [], [], [], [], [], [], [], [], [], [], [], [], [], [], [], [q106], [], [], []])
def t1_52 : List Nat := [0, 0, 0, 0, 0, 0, 0, 0, 0, 0, 0, 0, 0, 0, 0, 0, 0, 0, 0, 0, 0, 32, 32, 32, 32, 32, 32, 32, 32, 32, 32, 32, 32, 32, 32, 32, 32, 32, 0, 0, 32, 0, 32, 32, 32, 32, 32, 32, 32, 32, 32, 32, 32, 32, 32, 32, 32, 32, 32, 32, 32, 32, 0, 32, 0, 32, 0, 32, 0, 0, 0, 0, 32, 0, 0, 0, 0, 0, 32, 0, 32, 0, 32, 0, 32, 0, 32, 0, 0, 0, 0, 0, 0, 0, 0, 0, 0, 0, 0]
def r1_53 : List LConfig × List (List Re) :=
  ([⟨326, 1, [], [], false⟩,
   ⟨306, 24, [496], [], false⟩,
   ⟨314, 24, [309, 496], [], false⟩,
   ⟨108, 24, [], [⟨7, 16, 0⟩], false⟩],
   [[q137], [], [], [], [], [], [], [], [], [], [], [], [], [], [], [], [], [], [], [], [], [], [], [q106], [], [], []])
def t1_53 : List Nat := [0, 0, 0, 0, 0, 0, 0, 0, 0, 0, 0, 0, 0, 0, 0, 0, 0, 0, 0, 0, 0, 32, 32, 32, 32, 32, 32, 32, 32, 32, 32, 32, 32, 32, 52, 32, 32, 32, 0, 0, 32, 0, 32, 32, 32, 32, 32, 32, 32, 32, 32, 32, 32, 32, 32, 32, 32, 32, 32, 32, 32, 32, 0, 32, 0, 32, 0, 32, 0, 0, 0, 0, 32, 0, 0, 0, 0, 0, 32, 0, 32, 0, 32, 0, 32, 0, 32, 0, 0, 0, 0, 0, 0, 0, 0, 0, 0, 0, 0]
def r1_54 : List LConfig × List (List Re) :=
  ([⟨202, 18, [160, 210, 213, 472], [], false⟩],
   [[], [], [], [], [], [], [], [], [], [], [], [], [], [], [], [], [], [q5], [], [], [], [], [], [], [], [], []])
def t1_54 : List Nat := [0, 0, 0, 0, 0, 0, 0, 0, 0, 0, 0, 57, 57, 57, 57, 57, 57, 57, 0, 0, 0, 0, 0, 0, 0, 0, 0, 0, 0, 0, 0, 0, 0, 0, 0, 0, 0, 0, 0, 0, 0, 0, 0, 0, 0, 0, 0, 0, 0, 0, 0, 0, 0, 0, 0, 0, 0, 0, 0, 0, 0, 0, 0, 0, 0, 0, 0, 0, 0, 0, 0, 0, 0, 0, 0, 0, 0, 0, 0, 0, 0, 0, 0, 0, 0, 0, 0, 0, 0, 0, 0, 0, 0, 0, 0, 0, 0, 0, 0]
def r1_55 : List LConfig × List (List Re) :=
  ([⟨202, 18, [210, 213, 472], [], false⟩,
   ⟨96, 18, [], [⟨7, 10, 0⟩], false⟩],
   [[], [], [], [], [], [], [], [], [], [], [], [], [], [], [], [], [], [q4], [], [], [], [], [], [], [], [], []])
def t1_55 : List Nat := [0, 0, 0, 0, 0, 0, 0, 0, 0, 0, 0, 56, 56, 56, 56, 56, 56, 56, 0, 0, 0, 0, 0, 0, 0, 0, 0, 0, 0, 0, 0, 0, 0, 0, 0, 0, 0, 0, 0, 0, 0, 0, 0, 0, 0, 0, 0, 0, 0, 0, 0, 0, 0, 0, 0, 0, 0, 0, 0, 0, 0, 0, 0, 0, 0, 0, 0, 0, 0, 0, 0, 0, 0, 0, 0, 0, 0, 0, 0, 0, 0, 0, 0, 0, 0, 0, 0, 0, 0, 0, 0, 0, 0, 0, 0, 0, 0, 0, 0]
def r1_56 : List LConfig × List (List Re) :=
  ([⟨202, 18, [160, 210, 213, 472], [], false⟩,
   ⟨96, 18, [], [⟨7, 10, 0⟩], false⟩],
   [[], [], [], [], [], [], [], [], [], [], [], [], [], [], [], [], [], [q4], [], [], [], [], [], [], [], [], []])
def t1_56 : List Nat := [0, 0, 0, 0, 0, 0, 0, 0, 0, 0, 0, 57, 57, 57, 57, 57, 57, 57, 0, 0, 0, 0, 0, 0, 0, 0, 0, 0, 0, 0, 0, 0, 0, 0, 0, 0, 0, 0, 0, 0, 0, 0, 0, 0, 0, 0, 0, 0, 0, 0, 0, 0, 0, 0, 0, 0, 0, 0, 0, 0, 0, 0, 0, 0, 0, 0, 0, 0, 0, 0, 0, 0, 0, 0, 0, 0, 0, 0, 0, 0, 0, 0, 0, 0, 0, 0, 0, 0, 0, 0, 0, 0, 0, 0, 0, 0, 0, 0, 0]
def r1_57 : List LConfig × List (List Re) :=
  ([⟨366, 6, [414], [], false⟩,
   ⟨369, 6, [414], [], false⟩,
   ⟨370, 6, [414], [], false⟩],
   [[], [], [], [], [], [q195], [], [], [], [], [], [], [], [], [], [], [], [], [], [], [], [], [], [], [], [], []])
def t1_57 : List Nat := [0, 0, 0, 0, 0, 0, 0, 0, 0, 0, 0, 112, 113, 114, 114, 114, 114, 114, 0, 0, 0, 0, 0, 0, 0, 0, 0, 0, 0, 0, 0, 0, 0, 0, 0, 0, 0, 0, 0, 0, 0, 0, 0, 0, 0, 0, 0, 0, 0, 0, 0, 0, 0, 0, 0, 0, 0, 0, 0, 0, 0, 0, 0, 0, 0, 0, 0, 0, 0, 0, 0, 0, 0, 0, 0, 0, 0, 0, 0, 0, 0, 0, 0, 0, 0, 0, 0, 0, 0, 0, 0, 0, 0, 0, 0, 0, 0, 0, 0]
def r1_58 : List LConfig × List (List Re) :=
  ([⟨202, 19, [218, 476], [], false⟩,
   ⟨211, 19, [229, 476], [], false⟩,
   ⟨98, 19, [], [⟨7, 11, 0⟩], false⟩,
   ⟨202, 19, [224, 476], [], false⟩],
   [[], [], [], [], [], [], [], [], [], [], [], [], [], [], [], [], [], [], [q129, q117], [], [], [], [], [], [], [], []])
def t1_58 : List Nat := [0, 0, 0, 0, 0, 0, 0, 0, 0, 0, 0, 107, 107, 107, 107, 107, 107, 107, 0, 0, 0, 0, 0, 0, 108, 0, 0, 0, 0, 0, 0, 0, 0, 0, 0, 0, 0, 0, 0, 0, 0, 0, 0, 0, 0, 0, 108, 0, 0, 0, 0, 0, 0, 0, 0, 0, 0, 0, 0, 0, 0, 0, 0, 0, 0, 0, 0, 0, 0, 0, 0, 0, 0, 0, 0, 0, 0, 0, 0, 0, 0, 0, 0, 0, 0, 0, 0, 0, 0, 0, 0, 0, 0, 0, 0, 0, 0, 0, 0]
def r1_59 : List LConfig × List (List Re) :=
  ([⟨202, 6, [210, 388, 409], [], false⟩,
   ⟨202, 6, [389, 409], [], false⟩,
   ⟨202, 6, [392, 409], [], false⟩,
   ⟨202, 6, [395, 409], [], false⟩,
   ⟨163, 6, [410], [], false⟩,
   ⟨202, 8, [210, 388, 430], [], false⟩,
   ⟨202, 8, [389, 430], [], false⟩,
   ⟨202, 8, [392, 430], [], false⟩,
   ⟨202, 8, [395, 430], [], false⟩,
   ⟨366, 8, [428], [], false⟩,
   ⟨369, 8, [428], [], false⟩,
   ⟨370, 8, [428], [], false⟩,
   ⟨423, 8, [433], [], false⟩,
   ⟨202, 17, [468], [], false⟩,
   ⟨94, 17, [], [⟨7, 9, 0⟩], false⟩,
   ⟨202, 19, [210, 215, 476], [], false⟩,
   ⟨194, 19, [217, 476], [], false⟩,
   ⟨202, 19, [210, 221, 476], [], false⟩,
   ⟨194, 19, [223, 476], [], false⟩,
   ⟨202, 19, [210, 231, 476], [], false⟩,
   ⟨211, 19, [232, 476], [], false⟩],
   [[], [], [], [], [], [q216, q221, q223, q224], [], [q217, q225, q226, q227, q229], [], [], [], [], [], [], [], [], [q4], [], [q119, q121, q122], [], [], [], [], [], [], [], []])
def t1_59 : List Nat := [0, 0, 0, 0, 0, 0, 0, 0, 58, 59, 0, 60, 61, 62, 62, 62, 62, 62, 0, 0, 0, 0, 0, 0, 64, 0, 0, 0, 0, 0, 0, 0, 0, 0, 65, 0, 0, 0, 0, 0, 0, 0, 0, 0, 0, 0, 64, 0, 0, 0, 0, 0, 0, 0, 0, 0, 0, 0, 0, 0, 0, 0, 0, 0, 0, 0, 0, 0, 0, 0, 0, 0, 0, 0, 0, 0, 0, 0, 0, 0, 0, 0, 0, 0, 0, 0, 0, 0, 0, 0, 0, 0, 0, 0, 0, 0, 0, 0, 0]
def r1_60 : List LConfig × List (List Re) :=
  ([⟨202, 6, [210, 388, 409], [], false⟩,
   ⟨202, 6, [389, 409], [], false⟩,
   ⟨202, 6, [392, 409], [], false⟩,
   ⟨202, 6, [395, 409], [], false⟩,
   ⟨163, 6, [410], [], false⟩,
   ⟨202, 8, [210, 388, 430], [], false⟩,
   ⟨202, 8, [389, 430], [], false⟩,
   ⟨202, 8, [392, 430], [], false⟩,
   ⟨202, 8, [395, 430], [], false⟩,
   ⟨366, 8, [428], [], false⟩,
   ⟨369, 8, [428], [], false⟩,
   ⟨370, 8, [428], [], false⟩,
   ⟨423, 8, [433], [], false⟩,
   ⟨374, 8, [429], [], false⟩,
   ⟨377, 8, [429], [], false⟩,
   ⟨378, 8, [429], [], false⟩,
   ⟨380, 8, [429], [], false⟩,
   ⟨382, 8, [429], [], false⟩,
   ⟨371, 8, [428], [], false⟩,
   ⟨202, 17, [468], [], false⟩,
   ⟨94, 17, [], [⟨7, 9, 0⟩], false⟩,
   ⟨202, 19, [210, 215, 476], [], false⟩,
   ⟨194, 19, [217, 476], [], false⟩,
   ⟨202, 19, [210, 221, 476], [], false⟩,
   ⟨194, 19, [223, 476], [], false⟩,
   ⟨202, 19, [210, 231, 476], [], false⟩,
   ⟨211, 19, [232, 476], [], false⟩],
   [[], [], [], [], [], [q216, q221, q223, q224], [], [q217, q225, q226, q227, q230, q232], [], [], [], [], [], [], [], [], [q4], [], [q119, q121, q122], [], [], [], [], [], [], [], []])
def t1_60 : List Nat := [0, 0, 0, 0, 0, 0, 0, 0, 58, 59, 0, 105, 99, 100, 101, 102, 102, 102, 0, 0, 0, 0, 0, 0, 64, 0, 0, 0, 0, 0, 0, 0, 0, 0, 65, 0, 0, 0, 0, 0, 0, 0, 0, 0, 0, 0, 64, 0, 0, 0, 0, 0, 0, 0, 0, 0, 0, 0, 0, 0, 0, 0, 0, 0, 0, 0, 0, 0, 0, 0, 0, 0, 0, 0, 0, 0, 0, 0, 0, 0, 0, 0, 0, 0, 0, 0, 0, 0, 0, 0, 0, 0, 0, 0, 0, 0, 0, 0, 0]
def r1_61 : List LConfig × List (List Re) :=
  ([⟨202, 6, [210, 388, 409], [], false⟩,
   ⟨202, 6, [389, 409], [], false⟩,
   ⟨202, 6, [392, 409], [], false⟩,
   ⟨202, 6, [395, 409], [], false⟩,
   ⟨163, 6, [410], [], false⟩,
   ⟨202, 8, [210, 388, 430], [], false⟩,
   ⟨202, 8, [389, 430], [], false⟩,
   ⟨202, 8, [392, 430], [], false⟩,
   ⟨202, 8, [395, 430], [], false⟩,
   ⟨366, 8, [428], [], false⟩,
   ⟨369, 8, [428], [], false⟩,
   ⟨370, 8, [428], [], false⟩,
   ⟨423, 8, [433], [], false⟩,
   ⟨374, 8, [429], [], false⟩,
   ⟨377, 8, [429], [], false⟩,
   ⟨378, 8, [429], [], false⟩,
   ⟨380, 8, [429], [], false⟩,
   ⟨382, 8, [429], [], false⟩,
   ⟨202, 17, [468], [], false⟩,
   ⟨94, 17, [], [⟨7, 9, 0⟩], false⟩,
   ⟨202, 19, [210, 215, 476], [], false⟩,
   ⟨194, 19, [217, 476], [], false⟩,
   ⟨202, 19, [210, 221, 476], [], false⟩,
   ⟨194, 19, [223, 476], [], false⟩,
   ⟨202, 19, [210, 231, 476], [], false⟩,
   ⟨211, 19, [232, 476], [], false⟩],
   [[], [], [], [], [], [q216, q221, q223, q224], [], [q217, q225, q226, q227, q230], [], [], [], [], [], [], [], [], [q4], [], [q119, q121, q122], [], [], [], [], [], [], [], []])
def t1_61 : List Nat := [0, 0, 0, 0, 0, 0, 0, 0, 58, 59, 0, 98, 99, 100, 101, 102, 102, 102, 0, 0, 0, 0, 0, 0, 64, 0, 0, 0, 0, 0, 0, 0, 0, 0, 65, 0, 0, 0, 0, 0, 0, 0, 0, 0, 0, 0, 64, 0, 0, 0, 0, 0, 0, 0, 0, 0, 0, 0, 0, 0, 0, 0, 0, 0, 0, 0, 0, 0, 0, 0, 0, 0, 0, 0, 0, 0, 0, 0, 0, 0, 0, 0, 0, 0, 0, 0, 0, 0, 0, 0, 0, 0, 0, 0, 0, 0, 0, 0, 0]
def r1_62 : List LConfig × List (List Re) :=
  ([⟨347, 3, [399], [], false⟩,
   ⟨350, 3, [399], [], false⟩,
   ⟨347, 4, [405], [], false⟩,
   ⟨350, 4, [405], [], false⟩],
   [[], [], [q170], [q161], [], [], [], [], [], [], [], [], [], [], [], [], [], [], [], [], [], [], [], [], [], [], []])
def t1_62 : List Nat := [0, 0, 0, 0, 0, 0, 0, 0, 0, 0, 0, 91, 91, 91, 91, 91, 92, 92, 0, 0, 0, 0, 0, 0, 0, 0, 0, 0, 0, 0, 0, 0, 0, 0, 0, 0, 0, 0, 0, 0, 0, 0, 0, 0, 0, 0, 0, 0, 0, 0, 0, 0, 0, 0, 0, 0, 0, 0, 0, 0, 0, 0, 0, 0, 0, 0, 0, 0, 0, 0, 0, 0, 0, 0, 0, 0, 0, 0, 0, 0, 0, 0, 0, 0, 0, 0, 0, 0, 0, 0, 0, 0, 0, 0, 0, 0, 0, 0, 0]
def r1_63 : List LConfig × List (List Re) :=
  ([⟨202, 19, [210, 213, 232, 476], [], false⟩,
   ⟨163, 19, [158, 210, 213, 232, 476], [], false⟩,
   ⟨161, 19, [158, 210, 213, 232, 476], [], false⟩],
   [[], [], [], [], [], [], [], [], [], [], [], [], [], [], [], [], [], [], [q37], [], [], [], [], [], [], [], []])
def t1_63 : List Nat := [0, 0, 0, 0, 0, 0, 88, 0, 88, 0, 0, 89, 89, 89, 89, 89, 89, 89, 0, 0, 0, 0, 0, 0, 0, 0, 0, 0, 0, 0, 0, 0, 0, 0, 0, 0, 0, 0, 0, 0, 0, 0, 0, 0, 0, 0, 0, 0, 0, 0, 0, 0, 0, 0, 0, 0, 0, 0, 0, 0, 0, 0, 0, 0, 0, 0, 0, 0, 0, 0, 0, 0, 0, 0, 0, 0, 0, 0, 0, 0, 0, 0, 0, 0, 0, 0, 0, 0, 0, 0, 0, 0, 0, 0, 0, 0, 0, 0, 0]
def r1_64 : List LConfig × List (List Re) :=
  ([⟨161, 8, [335, 338, 421, 434], [], false⟩,
   ⟨163, 8, [335, 338, 421, 434], [], false⟩,
   ⟨339, 8, [421, 434], [], false⟩,
   ⟨342, 8, [421, 434], [], false⟩,
   ⟨343, 8, [421, 434], [], false⟩],
   [[], [], [], [], [], [], [], [q204], [], [], [], [], [], [], [], [], [], [], [], [], [], [], [], [], [], [], []])
def t1_64 : List Nat := [0, 0, 0, 0, 0, 0, 66, 0, 66, 0, 0, 67, 67, 68, 69, 69, 69, 69, 0, 0, 0, 0, 0, 0, 0, 0, 0, 0, 0, 0, 0, 0, 0, 0, 0, 0, 0, 0, 0, 0, 0, 0, 0, 0, 0, 0, 0, 0, 0, 0, 0, 0, 0, 0, 0, 0, 0, 0, 0, 0, 0, 0, 0, 0, 0, 0, 0, 0, 0, 0, 0, 0, 0, 0, 0, 0, 0, 0, 0, 0, 0, 0, 0, 0, 0, 0, 0, 0, 0, 0, 0, 0, 0, 0, 0, 0, 0, 0, 0]
def r1_65 : List LConfig × List (List Re) :=
  ([⟨339, 8, [421, 434], [], false⟩,
   ⟨342, 8, [421, 434], [], false⟩],
   [[], [], [], [], [], [], [], [q233], [], [], [], [], [], [], [], [], [], [], [], [], [], [], [], [], [], [], []])
def t1_65 : List Nat := [0, 0, 0, 0, 0, 0, 0, 0, 0, 0, 0, 67, 67, 69, 69, 69, 69, 69, 0, 0, 0, 0, 0, 0, 0, 0, 0, 0, 0, 0, 0, 0, 0, 0, 0, 0, 0, 0, 0, 0, 0, 0, 0, 0, 0, 0, 0, 0, 0, 0, 0, 0, 0, 0, 0, 0, 0, 0, 0, 0, 0, 0, 0, 0, 0, 0, 0, 0, 0, 0, 0, 0, 0, 0, 0, 0, 0, 0, 0, 0, 0, 0, 0, 0, 0, 0, 0, 0, 0, 0, 0, 0, 0, 0, 0, 0, 0, 0, 0]
def r1_66 : List LConfig × List (List Re) :=
  ([⟨342, 8, [421, 434], [], false⟩,
   ⟨347, 8, [419, 434], [], false⟩,
   ⟨350, 8, [419, 434], [], false⟩,
   ⟨76, 8, [], [], false⟩],
   [[], [], [], [], [], [], [], [q234, q203], [], [], [], [], [], [], [], [], [], [], [], [], [], [], [], [], [], [], []])
def t1_66 : List Nat := [0, 0, 0, 0, 0, 0, 0, 0, 0, 0, 0, 85, 85, 85, 85, 85, 86, 86, 0, 0, 0, 0, 0, 0, 0, 0, 0, 0, 0, 0, 0, 0, 0, 0, 0, 0, 0, 0, 0, 0, 0, 0, 0, 0, 0, 0, 0, 0, 0, 0, 0, 0, 0, 0, 0, 0, 0, 0, 0, 0, 0, 0, 0, 0, 0, 0, 0, 0, 0, 0, 0, 0, 0, 0, 0, 0, 0, 0, 0, 0, 0, 0, 0, 0, 0, 0, 0, 0, 0, 0, 0, 0, 0, 0, 0, 0, 0, 0, 0]
def r1_67 : List LConfig × List (List Re) :=
  ([⟨347, 8, [419, 434], [], false⟩,
   ⟨350, 8, [419, 434], [], false⟩,
   ⟨76, 8, [], [], false⟩,
   ⟨344, 8, [421, 434], [], false⟩],
   [[], [], [], [], [], [], [], [q203, q235], [], [], [], [], [], [], [], [], [], [], [], [], [], [], [], [], [], [], []])
def t1_67 : List Nat := [0, 0, 0, 0, 0, 0, 0, 0, 0, 0, 0, 79, 79, 79, 79, 70, 71, 71, 0, 0, 0, 0, 0, 0, 0, 0, 0, 0, 0, 0, 0, 0, 0, 0, 0, 0, 0, 0, 0, 0, 0, 0, 0, 0, 0, 0, 0, 0, 0, 0, 0, 0, 0, 0, 0, 0, 0, 0, 0, 0, 0, 0, 0, 0, 0, 0, 0, 0, 0, 0, 0, 0, 0, 0, 0, 0, 0, 0, 0, 0, 0, 0, 0, 0, 0, 0, 0, 0, 0, 0, 0, 0, 0, 0, 0, 0, 0, 0, 0]
def r1_68 : List LConfig × List (List Re) :=
  ([⟨347, 8, [419, 434], [], false⟩,
   ⟨350, 8, [419, 434], [], false⟩,
   ⟨76, 8, [], [], false⟩],
   [[], [], [], [], [], [], [], [q203], [], [], [], [], [], [], [], [], [], [], [], [], [], [], [], [], [], [], []])
def t1_68 : List Nat := [0, 0, 0, 0, 0, 0, 0, 0, 0, 0, 0, 70, 70, 70, 70, 70, 71, 71, 0, 0, 0, 0, 0, 0, 0, 0, 0, 0, 0, 0, 0, 0, 0, 0, 0, 0, 0, 0, 0, 0, 0, 0, 0, 0, 0, 0, 0, 0, 0, 0, 0, 0, 0, 0, 0, 0, 0, 0, 0, 0, 0, 0, 0, 0, 0, 0, 0, 0, 0, 0, 0, 0, 0, 0, 0, 0, 0, 0, 0, 0, 0, 0, 0, 0, 0, 0, 0, 0, 0, 0, 0, 0, 0, 0, 0, 0, 0, 0, 0]
def r1_69 : List LConfig × List (List Re) :=
  ([⟨350, 8, [419, 434], [], false⟩,
   ⟨347, 8, [356, 420, 434], [], false⟩,
   ⟨350, 8, [356, 420, 434], [], false⟩,
   ⟨353, 8, [420, 434], [], false⟩,
   ⟨76, 8, [], [], false⟩],
   [[], [], [], [], [], [], [], [q236, q201], [], [], [], [], [], [], [], [], [], [], [], [], [], [], [], [], [], [], []])
def t1_69 : List Nat := [0, 0, 0, 0, 0, 0, 0, 0, 0, 0, 0, 76, 76, 76, 76, 76, 77, 78, 0, 0, 0, 0, 0, 0, 0, 0, 0, 0, 0, 0, 0, 0, 0, 0, 0, 0, 0, 0, 0, 0, 0, 0, 0, 0, 0, 0, 0, 0, 0, 0, 0, 0, 0, 0, 0, 0, 0, 0, 0, 0, 0, 0, 0, 0, 0, 0, 0, 0, 0, 0, 0, 0, 0, 0, 0, 0, 0, 0, 0, 0, 0, 0, 0, 0, 0, 0, 0, 0, 0, 0, 0, 0, 0, 0, 0, 0, 0, 0, 0]
def r1_70 : List LConfig × List (List Re) :=
  ([⟨347, 8, [356, 420, 434], [], false⟩,
   ⟨350, 8, [356, 420, 434], [], false⟩,
   ⟨353, 8, [420, 434], [], false⟩,
   ⟨76, 8, [], [], false⟩],
   [[], [], [], [], [], [], [], [q201], [], [], [], [], [], [], [], [], [], [], [], [], [], [], [], [], [], [], []])
def t1_70 : List Nat := [0, 0, 0, 0, 0, 0, 0, 0, 0, 0, 0, 72, 72, 72, 72, 72, 73, 74, 0, 0, 0, 0, 0, 0, 0, 0, 0, 0, 0, 0, 0, 0, 0, 0, 0, 0, 0, 0, 0, 0, 0, 0, 0, 0, 0, 0, 0, 0, 0, 0, 0, 0, 0, 0, 0, 0, 0, 0, 0, 0, 0, 0, 0, 0, 0, 0, 0, 0, 0, 0, 0, 0, 0, 0, 0, 0, 0, 0, 0, 0, 0, 0, 0, 0, 0, 0, 0, 0, 0, 0, 0, 0, 0, 0, 0, 0, 0, 0, 0]
def r1_71 : List LConfig × List (List Re) :=
  ([⟨350, 8, [356, 420, 434], [], false⟩,
   ⟨194, 8, [361, 420, 434], [], false⟩,
   ⟨76, 8, [], [], false⟩],
   [[], [], [], [], [], [], [], [q237, q167], [], [], [], [], [], [], [], [], [], [], [], [], [], [], [], [], [], [], []])
def t1_71 : List Nat := [0, 0, 0, 0, 0, 0, 0, 0, 0, 75, 0, 74, 74, 74, 74, 74, 74, 74, 0, 0, 0, 0, 0, 0, 0, 0, 0, 0, 0, 0, 0, 0, 0, 0, 0, 0, 0, 0, 0, 0, 0, 0, 0, 0, 0, 0, 0, 0, 0, 0, 0, 0, 0, 0, 0, 0, 0, 0, 0, 0, 0, 0, 0, 0, 0, 0, 0, 0, 0, 0, 0, 0, 0, 0, 0, 0, 0, 0, 0, 0, 0, 0, 0, 0, 0, 0, 0, 0, 0, 0, 0, 0, 0, 0, 0, 0, 0, 0, 0]
def r1_72 : List LConfig × List (List Re) :=
  ([⟨194, 8, [361, 420, 434], [], false⟩,
   ⟨76, 8, [], [], false⟩,
   ⟨354, 8, [420, 434], [], false⟩],
   [[], [], [], [], [], [], [], [q167, q238], [], [], [], [], [], [], [], [], [], [], [], [], [], [], [], [], [], [], []])
def t1_72 : List Nat := [0, 0, 0, 0, 0, 0, 0, 0, 0, 75, 0, 74, 0, 0, 0, 0, 0, 0, 0, 0, 0, 0, 0, 0, 0, 0, 0, 0, 0, 0, 0, 0, 0, 0, 0, 0, 0, 0, 0, 0, 0, 0, 0, 0, 0, 0, 0, 0, 0, 0, 0, 0, 0, 0, 0, 0, 0, 0, 0, 0, 0, 0, 0, 0, 0, 0, 0, 0, 0, 0, 0, 0, 0, 0, 0, 0, 0, 0, 0, 0, 0, 0, 0, 0, 0, 0, 0, 0, 0, 0, 0, 0, 0, 0, 0, 0, 0, 0, 0]
def r1_73 : List LConfig × List (List Re) :=
  ([⟨194, 8, [361, 420, 434], [], false⟩,
   ⟨76, 8, [], [], false⟩],
   [[], [], [], [], [], [], [], [q167], [], [], [], [], [], [], [], [], [], [], [], [], [], [], [], [], [], [], []])
def t1_73 : List Nat := [0, 0, 0, 0, 0, 0, 0, 0, 0, 75, 0, 0, 0, 0, 0, 0, 0, 0, 0, 0, 0, 0, 0, 0, 0, 0, 0, 0, 0, 0, 0, 0, 0, 0, 0, 0, 0, 0, 0, 0, 0, 0, 0, 0, 0, 0, 0, 0, 0, 0, 0, 0, 0, 0, 0, 0, 0, 0, 0, 0, 0, 0, 0, 0, 0, 0, 0, 0, 0, 0, 0, 0, 0, 0, 0, 0, 0, 0, 0, 0, 0, 0, 0, 0, 0, 0, 0, 0, 0, 0, 0, 0, 0, 0, 0, 0, 0, 0, 0]
def r1_74 : List LConfig × List (List Re) :=
  ([⟨358, 8, [420, 434], [], false⟩,
   ⟨76, 8, [], [], false⟩],
   [[], [], [], [], [], [], [], [q4], [], [], [], [], [], [], [], [], [], [], [], [], [], [], [], [], [], [], []])
def t1_74 : List Nat := [0, 0, 0, 0, 0, 0, 0, 0, 0, 0, 0, 75, 75, 75, 75, 75, 75, 75, 0, 0, 0, 0, 0, 0, 0, 0, 0, 0, 0, 0, 0, 0, 0, 0, 0, 0, 0, 0, 0, 0, 0, 0, 0, 0, 0, 0, 0, 0, 0, 0, 0, 0, 0, 0, 0, 0, 0, 0, 0, 0, 0, 0, 0, 0, 0, 0, 0, 0, 0, 0, 0, 0, 0, 0, 0, 0, 0, 0, 0, 0, 0, 0, 0, 0, 0, 0, 0, 0, 0, 0, 0, 0, 0, 0, 0, 0, 0, 0, 0]
def r1_75 : List LConfig × List (List Re) :=
  ([⟨347, 8, [356, 420, 434], [], false⟩,
   ⟨350, 8, [356, 420, 434], [], false⟩,
   ⟨353, 8, [420, 434], [], false⟩,
   ⟨76, 8, [], [], false⟩,
   ⟨194, 8, [361, 420, 434], [], false⟩],
   [[], [], [], [], [], [], [], [q201, q237, q167], [], [], [], [], [], [], [], [], [], [], [], [], [], [], [], [], [], [], []])
def t1_75 : List Nat := [0, 0, 0, 0, 0, 0, 0, 0, 0, 75, 0, 72, 72, 72, 72, 72, 73, 74, 0, 0, 0, 0, 0, 0, 0, 0, 0, 0, 0, 0, 0, 0, 0, 0, 0, 0, 0, 0, 0, 0, 0, 0, 0, 0, 0, 0, 0, 0, 0, 0, 0, 0, 0, 0, 0, 0, 0, 0, 0, 0, 0, 0, 0, 0, 0, 0, 0, 0, 0, 0, 0, 0, 0, 0, 0, 0, 0, 0, 0, 0, 0, 0, 0, 0, 0, 0, 0, 0, 0, 0, 0, 0, 0, 0, 0, 0, 0, 0, 0]
def r1_76 : List LConfig × List (List Re) :=
  ([⟨347, 8, [356, 420, 434], [], false⟩,
   ⟨350, 8, [356, 420, 434], [], false⟩,
   ⟨353, 8, [420, 434], [], false⟩,
   ⟨76, 8, [], [], false⟩,
   ⟨194, 8, [361, 420, 434], [], false⟩,
   ⟨354, 8, [420, 434], [], false⟩],
   [[], [], [], [], [], [], [], [q201, q167, q238], [], [], [], [], [], [], [], [], [], [], [], [], [], [], [], [], [], [], []])
def t1_76 : List Nat := [0, 0, 0, 0, 0, 0, 0, 0, 0, 75, 0, 72, 72, 72, 72, 72, 73, 74, 0, 0, 0, 0, 0, 0, 0, 0, 0, 0, 0, 0, 0, 0, 0, 0, 0, 0, 0, 0, 0, 0, 0, 0, 0, 0, 0, 0, 0, 0, 0, 0, 0, 0, 0, 0, 0, 0, 0, 0, 0, 0, 0, 0, 0, 0, 0, 0, 0, 0, 0, 0, 0, 0, 0, 0, 0, 0, 0, 0, 0, 0, 0, 0, 0, 0, 0, 0, 0, 0, 0, 0, 0, 0, 0, 0, 0, 0, 0, 0, 0]
def r1_77 : List LConfig × List (List Re) :=
  ([⟨347, 8, [356, 420, 434], [], false⟩,
   ⟨350, 8, [356, 420, 434], [], false⟩,
   ⟨353, 8, [420, 434], [], false⟩,
   ⟨76, 8, [], [], false⟩,
   ⟨194, 8, [361, 420, 434], [], false⟩],
   [[], [], [], [], [], [], [], [q201, q167], [], [], [], [], [], [], [], [], [], [], [], [], [], [], [], [], [], [], []])
def t1_77 : List Nat := [0, 0, 0, 0, 0, 0, 0, 0, 0, 75, 0, 72, 72, 72, 72, 72, 73, 74, 0, 0, 0, 0, 0, 0, 0, 0, 0, 0, 0, 0, 0, 0, 0, 0, 0, 0, 0, 0, 0, 0, 0, 0, 0, 0, 0, 0, 0, 0, 0, 0, 0, 0, 0, 0, 0, 0, 0, 0, 0, 0, 0, 0, 0, 0, 0, 0, 0, 0, 0, 0, 0, 0, 0, 0, 0, 0, 0, 0, 0, 0, 0, 0, 0, 0, 0, 0, 0, 0, 0, 0, 0, 0, 0, 0, 0, 0, 0, 0, 0]
def r1_78 : List LConfig × List (List Re) :=
  ([⟨350, 8, [419, 434], [], false⟩,
   ⟨347, 8, [356, 420, 434], [], false⟩,
   ⟨350, 8, [356, 420, 434], [], false⟩,
   ⟨353, 8, [420, 434], [], false⟩,
   ⟨76, 8, [], [], false⟩,
   ⟨347, 8, [419, 434], [], false⟩],
   [[], [], [], [], [], [], [], [q236, q201, q203], [], [], [], [], [], [], [], [], [], [], [], [], [], [], [], [], [], [], []])
def t1_78 : List Nat := [0, 0, 0, 0, 0, 0, 0, 0, 0, 0, 0, 80, 80, 80, 80, 80, 77, 78, 0, 0, 0, 0, 0, 0, 0, 0, 0, 0, 0, 0, 0, 0, 0, 0, 0, 0, 0, 0, 0, 0, 0, 0, 0, 0, 0, 0, 0, 0, 0, 0, 0, 0, 0, 0, 0, 0, 0, 0, 0, 0, 0, 0, 0, 0, 0, 0, 0, 0, 0, 0, 0, 0, 0, 0, 0, 0, 0, 0, 0, 0, 0, 0, 0, 0, 0, 0, 0, 0, 0, 0, 0, 0, 0, 0, 0, 0, 0, 0, 0]
def r1_79 : List LConfig × List (List Re) :=
  ([⟨347, 8, [356, 420, 434], [], false⟩,
   ⟨350, 8, [356, 420, 434], [], false⟩,
   ⟨353, 8, [420, 434], [], false⟩,
   ⟨76, 8, [], [], false⟩,
   ⟨194, 8, [361, 420, 434], [], false⟩,
   ⟨350, 8, [419, 434], [], false⟩],
   [[], [], [], [], [], [], [], [q201, q237, q167, q236], [], [], [], [], [], [], [], [], [], [], [], [], [], [], [], [], [], [], []])
def t1_79 : List Nat := [0, 0, 0, 0, 0, 0, 0, 0, 0, 75, 0, 81, 81, 81, 81, 81, 82, 83, 0, 0, 0, 0, 0, 0, 0, 0, 0, 0, 0, 0, 0, 0, 0, 0, 0, 0, 0, 0, 0, 0, 0, 0, 0, 0, 0, 0, 0, 0, 0, 0, 0, 0, 0, 0, 0, 0, 0, 0, 0, 0, 0, 0, 0, 0, 0, 0, 0, 0, 0, 0, 0, 0, 0, 0, 0, 0, 0, 0, 0, 0, 0, 0, 0, 0, 0, 0, 0, 0, 0, 0, 0, 0, 0, 0, 0, 0, 0, 0, 0]
def r1_80 : List LConfig × List (List Re) :=
  ([⟨350, 8, [356, 420, 434], [], false⟩,
   ⟨194, 8, [361, 420, 434], [], false⟩,
   ⟨76, 8, [], [], false⟩,
   ⟨347, 8, [356, 420, 434], [], false⟩,
   ⟨353, 8, [420, 434], [], false⟩],
   [[], [], [], [], [], [], [], [q237, q167, q201], [], [], [], [], [], [], [], [], [], [], [], [], [], [], [], [], [], [], []])
def t1_80 : List Nat := [0, 0, 0, 0, 0, 0, 0, 0, 0, 75, 0, 84, 84, 84, 84, 84, 73, 74, 0, 0, 0, 0, 0, 0, 0, 0, 0, 0, 0, 0, 0, 0, 0, 0, 0, 0, 0, 0, 0, 0, 0, 0, 0, 0, 0, 0, 0, 0, 0, 0, 0, 0, 0, 0, 0, 0, 0, 0, 0, 0, 0, 0, 0, 0, 0, 0, 0, 0, 0, 0, 0, 0, 0, 0, 0, 0, 0, 0, 0, 0, 0, 0, 0, 0, 0, 0, 0, 0, 0, 0, 0, 0, 0, 0, 0, 0, 0, 0, 0]
def r1_81 : List LConfig × List (List Re) :=
  ([⟨194, 8, [361, 420, 434], [], false⟩,
   ⟨76, 8, [], [], false⟩,
   ⟨354, 8, [420, 434], [], false⟩,
   ⟨347, 8, [356, 420, 434], [], false⟩,
   ⟨350, 8, [356, 420, 434], [], false⟩,
   ⟨353, 8, [420, 434], [], false⟩],
   [[], [], [], [], [], [], [], [q167, q238, q201], [], [], [], [], [], [], [], [], [], [], [], [], [], [], [], [], [], [], []])
def t1_81 : List Nat := [0, 0, 0, 0, 0, 0, 0, 0, 0, 75, 0, 84, 72, 72, 72, 72, 73, 74, 0, 0, 0, 0, 0, 0, 0, 0, 0, 0, 0, 0, 0, 0, 0, 0, 0, 0, 0, 0, 0, 0, 0, 0, 0, 0, 0, 0, 0, 0, 0, 0, 0, 0, 0, 0, 0, 0, 0, 0, 0, 0, 0, 0, 0, 0, 0, 0, 0, 0, 0, 0, 0, 0, 0, 0, 0, 0, 0, 0, 0, 0, 0, 0, 0, 0, 0, 0, 0, 0, 0, 0, 0, 0, 0, 0, 0, 0, 0, 0, 0]
def r1_82 : List LConfig × List (List Re) :=
  ([⟨194, 8, [361, 420, 434], [], false⟩,
   ⟨76, 8, [], [], false⟩,
   ⟨347, 8, [356, 420, 434], [], false⟩,
   ⟨350, 8, [356, 420, 434], [], false⟩,
   ⟨353, 8, [420, 434], [], false⟩],
   [[], [], [], [], [], [], [], [q167, q201], [], [], [], [], [], [], [], [], [], [], [], [], [], [], [], [], [], [], []])
def t1_82 : List Nat := [0, 0, 0, 0, 0, 0, 0, 0, 0, 75, 0, 72, 72, 72, 72, 72, 73, 74, 0, 0, 0, 0, 0, 0, 0, 0, 0, 0, 0, 0, 0, 0, 0, 0, 0, 0, 0, 0, 0, 0, 0, 0, 0, 0, 0, 0, 0, 0, 0, 0, 0, 0, 0, 0, 0, 0, 0, 0, 0, 0, 0, 0, 0, 0, 0, 0, 0, 0, 0, 0, 0, 0, 0, 0, 0, 0, 0, 0, 0, 0, 0, 0, 0, 0, 0, 0, 0, 0, 0, 0, 0, 0, 0, 0, 0, 0, 0, 0, 0]
def r1_83 : List LConfig × List (List Re) :=
  ([⟨194, 8, [361, 420, 434], [], false⟩,
   ⟨76, 8, [], [], false⟩,
   ⟨350, 8, [356, 420, 434], [], false⟩],
   [[], [], [], [], [], [], [], [q167, q237], [], [], [], [], [], [], [], [], [], [], [], [], [], [], [], [], [], [], []])
def t1_83 : List Nat := [0, 0, 0, 0, 0, 0, 0, 0, 0, 75, 0, 74, 74, 74, 74, 74, 74, 74, 0, 0, 0, 0, 0, 0, 0, 0, 0, 0, 0, 0, 0, 0, 0, 0, 0, 0, 0, 0, 0, 0, 0, 0, 0, 0, 0, 0, 0, 0, 0, 0, 0, 0, 0, 0, 0, 0, 0, 0, 0, 0, 0, 0, 0, 0, 0, 0, 0, 0, 0, 0, 0, 0, 0, 0, 0, 0, 0, 0, 0, 0, 0, 0, 0, 0, 0, 0, 0, 0, 0, 0, 0, 0, 0, 0, 0, 0, 0, 0, 0]
def r1_84 : List LConfig × List (List Re) :=
  ([⟨347, 8, [419, 434], [], false⟩,
   ⟨350, 8, [419, 434], [], false⟩,
   ⟨76, 8, [], [], false⟩,
   ⟨347, 8, [356, 420, 434], [], false⟩,
   ⟨350, 8, [356, 420, 434], [], false⟩,
   ⟨353, 8, [420, 434], [], false⟩],
   [[], [], [], [], [], [], [], [q203, q236, q201], [], [], [], [], [], [], [], [], [], [], [], [], [], [], [], [], [], [], []])
def t1_84 : List Nat := [0, 0, 0, 0, 0, 0, 0, 0, 0, 0, 0, 87, 87, 87, 87, 87, 77, 78, 0, 0, 0, 0, 0, 0, 0, 0, 0, 0, 0, 0, 0, 0, 0, 0, 0, 0, 0, 0, 0, 0, 0, 0, 0, 0, 0, 0, 0, 0, 0, 0, 0, 0, 0, 0, 0, 0, 0, 0, 0, 0, 0, 0, 0, 0, 0, 0, 0, 0, 0, 0, 0, 0, 0, 0, 0, 0, 0, 0, 0, 0, 0, 0, 0, 0, 0, 0, 0, 0, 0, 0, 0, 0, 0, 0, 0, 0, 0, 0, 0]
def r1_85 : List LConfig × List (List Re) :=
  ([⟨347, 8, [419, 434], [], false⟩,
   ⟨350, 8, [419, 434], [], false⟩,
   ⟨76, 8, [], [], false⟩,
   ⟨347, 8, [356, 420, 434], [], false⟩,
   ⟨350, 8, [356, 420, 434], [], false⟩,
   ⟨353, 8, [420, 434], [], false⟩],
   [[], [], [], [], [], [], [], [q203, q201], [], [], [], [], [], [], [], [], [], [], [], [], [], [], [], [], [], [], []])
def t1_85 : List Nat := [0, 0, 0, 0, 0, 0, 0, 0, 0, 0, 0, 87, 87, 87, 87, 87, 77, 78, 0, 0, 0, 0, 0, 0, 0, 0, 0, 0, 0, 0, 0, 0, 0, 0, 0, 0, 0, 0, 0, 0, 0, 0, 0, 0, 0, 0, 0, 0, 0, 0, 0, 0, 0, 0, 0, 0, 0, 0, 0, 0, 0, 0, 0, 0, 0, 0, 0, 0, 0, 0, 0, 0, 0, 0, 0, 0, 0, 0, 0, 0, 0, 0, 0, 0, 0, 0, 0, 0, 0, 0, 0, 0, 0, 0, 0, 0, 0, 0, 0]
def r1_86 : List LConfig × List (List Re) :=
  ([⟨350, 8, [419, 434], [], false⟩,
   ⟨347, 8, [356, 420, 434], [], false⟩,
   ⟨350, 8, [356, 420, 434], [], false⟩,
   ⟨353, 8, [420, 434], [], false⟩,
   ⟨76, 8, [], [], false⟩,
   ⟨194, 8, [361, 420, 434], [], false⟩],
   [[], [], [], [], [], [], [], [q236, q201, q237, q167], [], [], [], [], [], [], [], [], [], [], [], [], [], [], [], [], [], [], []])
def t1_86 : List Nat := [0, 0, 0, 0, 0, 0, 0, 0, 0, 75, 0, 76, 76, 76, 76, 76, 77, 78, 0, 0, 0, 0, 0, 0, 0, 0, 0, 0, 0, 0, 0, 0, 0, 0, 0, 0, 0, 0, 0, 0, 0, 0, 0, 0, 0, 0, 0, 0, 0, 0, 0, 0, 0, 0, 0, 0, 0, 0, 0, 0, 0, 0, 0, 0, 0, 0, 0, 0, 0, 0, 0, 0, 0, 0, 0, 0, 0, 0, 0, 0, 0, 0, 0, 0, 0, 0, 0, 0, 0, 0, 0, 0, 0, 0, 0, 0, 0, 0, 0]
def r1_87 : List LConfig × List (List Re) :=
  ([⟨202, 19, [160, 210, 213, 232, 476], [], false⟩],
   [[], [], [], [], [], [], [], [], [], [], [], [], [], [], [], [], [], [], [q5], [], [], [], [], [], [], [], []])
def t1_87 : List Nat := [0, 0, 0, 0, 0, 0, 0, 0, 0, 0, 0, 90, 90, 90, 90, 90, 90, 90, 0, 0, 0, 0, 0, 0, 0, 0, 0, 0, 0, 0, 0, 0, 0, 0, 0, 0, 0, 0, 0, 0, 0, 0, 0, 0, 0, 0, 0, 0, 0, 0, 0, 0, 0, 0, 0, 0, 0, 0, 0, 0, 0, 0, 0, 0, 0, 0, 0, 0, 0, 0, 0, 0, 0, 0, 0, 0, 0, 0, 0, 0, 0, 0, 0, 0, 0, 0, 0, 0, 0, 0, 0, 0, 0, 0, 0, 0, 0, 0, 0]
def r1_88 : List LConfig × List (List Re) :=
  ([⟨202, 19, [210, 213, 232, 476], [], false⟩,
   ⟨98, 19, [], [⟨7, 11, 0⟩], false⟩],
   [[], [], [], [], [], [], [], [], [], [], [], [], [], [], [], [], [], [], [q4], [], [], [], [], [], [], [], []])
def t1_88 : List Nat := [0, 0, 0, 0, 0, 0, 0, 0, 0, 0, 0, 89, 89, 89, 89, 89, 89, 89, 0, 0, 0, 0, 0, 0, 0, 0, 0, 0, 0, 0, 0, 0, 0, 0, 0, 0, 0, 0, 0, 0, 0, 0, 0, 0, 0, 0, 0, 0, 0, 0, 0, 0, 0, 0, 0, 0, 0, 0, 0, 0, 0, 0, 0, 0, 0, 0, 0, 0, 0, 0, 0, 0, 0, 0, 0, 0, 0, 0, 0, 0, 0, 0, 0, 0, 0, 0, 0, 0, 0, 0, 0, 0, 0, 0, 0, 0, 0, 0, 0]
def r1_89 : List LConfig × List (List Re) :=
  ([⟨202, 19, [160, 210, 213, 232, 476], [], false⟩,
   ⟨98, 19, [], [⟨7, 11, 0⟩], false⟩],
   [[], [], [], [], [], [], [], [], [], [], [], [], [], [], [], [], [], [], [q4], [], [], [], [], [], [], [], []])
def t1_89 : List Nat := [0, 0, 0, 0, 0, 0, 0, 0, 0, 0, 0, 90, 90, 90, 90, 90, 90, 90, 0, 0, 0, 0, 0, 0, 0, 0, 0, 0, 0, 0, 0, 0, 0, 0, 0, 0, 0, 0, 0, 0, 0, 0, 0, 0, 0, 0, 0, 0, 0, 0, 0, 0, 0, 0, 0, 0, 0, 0, 0, 0, 0, 0, 0, 0, 0, 0, 0, 0, 0, 0, 0, 0, 0, 0, 0, 0, 0, 0, 0, 0, 0, 0, 0, 0, 0, 0, 0, 0, 0, 0, 0, 0, 0, 0, 0, 0, 0, 0, 0]
def r1_90 : List LConfig × List (List Re) :=
  ([⟨350, 3, [399], [], false⟩,
   ⟨399, 3, [], [], false⟩,
   ⟨350, 4, [405], [], false⟩,
   ⟨66, 4, [], [], false⟩],
   [[], [], [q239, q169], [q3, q39], [], [], [], [], [], [], [], [], [], [], [], [], [], [], [], [], [], [], [], [], [], [], []])
def t1_90 : List Nat := [0, 0, 0, 0, 0, 0, 0, 0, 0, 0, 0, 92, 92, 92, 92, 92, 92, 92, 93, 0, 0, 0, 0, 0, 0, 0, 0, 0, 0, 0, 0, 0, 0, 0, 0, 0, 0, 0, 0, 0, 0, 0, 0, 0, 0, 0, 0, 0, 0, 0, 0, 0, 0, 0, 0, 0, 0, 0, 0, 0, 0, 0, 0, 0, 0, 0, 0, 0, 0, 0, 0, 0, 0, 0, 0, 0, 0, 0, 0, 0, 0, 0, 0, 0, 0, 0, 0, 0, 0, 0, 0, 0, 0, 0, 0, 0, 0, 0, 0]
def r1_91 : List LConfig × List (List Re) :=
  ([⟨399, 3, [], [], false⟩,
   ⟨66, 4, [], [], false⟩],
   [[], [], [q169], [q39], [], [], [], [], [], [], [], [], [], [], [], [], [], [], [], [], [], [], [], [], [], [], []])
def t1_91 : List Nat := [0, 0, 0, 0, 0, 0, 0, 0, 0, 0, 0, 0, 0, 0, 0, 0, 0, 0, 93, 0, 0, 0, 0, 0, 0, 0, 0, 0, 0, 0, 0, 0, 0, 0, 0, 0, 0, 0, 0, 0, 0, 0, 0, 0, 0, 0, 0, 0, 0, 0, 0, 0, 0, 0, 0, 0, 0, 0, 0, 0, 0, 0, 0, 0, 0, 0, 0, 0, 0, 0, 0, 0, 0, 0, 0, 0, 0, 0, 0, 0, 0, 0, 0, 0, 0, 0, 0, 0, 0, 0, 0, 0, 0, 0, 0, 0, 0, 0, 0]
def r1_92 : List LConfig × List (List Re) :=
  ([⟨347, 3, [356, 401], [], false⟩,
   ⟨350, 3, [356, 401], [], false⟩,
   ⟨353, 3, [401], [], false⟩],
   [[], [], [q168], [], [], [], [], [], [], [], [], [], [], [], [], [], [], [], [], [], [], [], [], [], [], [], []])
def t1_92 : List Nat := [0, 0, 0, 0, 0, 0, 0, 0, 0, 0, 0, 94, 94, 94, 94, 94, 95, 96, 0, 0, 0, 0, 0, 0, 0, 0, 0, 0, 0, 0, 0, 0, 0, 0, 0, 0, 0, 0, 0, 0, 0, 0, 0, 0, 0, 0, 0, 0, 0, 0, 0, 0, 0, 0, 0, 0, 0, 0, 0, 0, 0, 0, 0, 0, 0, 0, 0, 0, 0, 0, 0, 0, 0, 0, 0, 0, 0, 0, 0, 0, 0, 0, 0, 0, 0, 0, 0, 0, 0, 0, 0, 0, 0, 0, 0, 0, 0, 0, 0]
def r1_93 : List LConfig × List (List Re) :=
  ([⟨350, 3, [356, 401], [], false⟩,
   ⟨194, 3, [361, 401], [], false⟩,
   ⟨64, 3, [], [], false⟩],
   [[], [], [q237, q167], [], [], [], [], [], [], [], [], [], [], [], [], [], [], [], [], [], [], [], [], [], [], [], []])
def t1_93 : List Nat := [0, 0, 0, 0, 0, 0, 0, 0, 0, 97, 0, 96, 96, 96, 96, 96, 96, 96, 0, 0, 0, 0, 0, 0, 0, 0, 0, 0, 0, 0, 0, 0, 0, 0, 0, 0, 0, 0, 0, 0, 0, 0, 0, 0, 0, 0, 0, 0, 0, 0, 0, 0, 0, 0, 0, 0, 0, 0, 0, 0, 0, 0, 0, 0, 0, 0, 0, 0, 0, 0, 0, 0, 0, 0, 0, 0, 0, 0, 0, 0, 0, 0, 0, 0, 0, 0, 0, 0, 0, 0, 0, 0, 0, 0, 0, 0, 0, 0, 0]
def r1_94 : List LConfig × List (List Re) :=
  ([⟨194, 3, [361, 401], [], false⟩,
   ⟨64, 3, [], [], false⟩,
   ⟨354, 3, [401], [], false⟩],
   [[], [], [q167, q238], [], [], [], [], [], [], [], [], [], [], [], [], [], [], [], [], [], [], [], [], [], [], [], []])
def t1_94 : List Nat := [0, 0, 0, 0, 0, 0, 0, 0, 0, 97, 0, 96, 0, 0, 0, 0, 0, 0, 0, 0, 0, 0, 0, 0, 0, 0, 0, 0, 0, 0, 0, 0, 0, 0, 0, 0, 0, 0, 0, 0, 0, 0, 0, 0, 0, 0, 0, 0, 0, 0, 0, 0, 0, 0, 0, 0, 0, 0, 0, 0, 0, 0, 0, 0, 0, 0, 0, 0, 0, 0, 0, 0, 0, 0, 0, 0, 0, 0, 0, 0, 0, 0, 0, 0, 0, 0, 0, 0, 0, 0, 0, 0, 0, 0, 0, 0, 0, 0, 0]
def r1_95 : List LConfig × List (List Re) :=
  ([⟨194, 3, [361, 401], [], false⟩,
   ⟨64, 3, [], [], false⟩],
   [[], [], [q167], [], [], [], [], [], [], [], [], [], [], [], [], [], [], [], [], [], [], [], [], [], [], [], []])
def t1_95 : List Nat := [0, 0, 0, 0, 0, 0, 0, 0, 0, 97, 0, 0, 0, 0, 0, 0, 0, 0, 0, 0, 0, 0, 0, 0, 0, 0, 0, 0, 0, 0, 0, 0, 0, 0, 0, 0, 0, 0, 0, 0, 0, 0, 0, 0, 0, 0, 0, 0, 0, 0, 0, 0, 0, 0, 0, 0, 0, 0, 0, 0, 0, 0, 0, 0, 0, 0, 0, 0, 0, 0, 0, 0, 0, 0, 0, 0, 0, 0, 0, 0, 0, 0, 0, 0, 0, 0, 0, 0, 0, 0, 0, 0, 0, 0, 0, 0, 0, 0, 0]
def r1_96 : List LConfig × List (List Re) :=
  ([⟨358, 3, [401], [], false⟩,
   ⟨64, 3, [], [], false⟩],
   [[], [], [q4], [], [], [], [], [], [], [], [], [], [], [], [], [], [], [], [], [], [], [], [], [], [], [], []])
def t1_96 : List Nat := [0, 0, 0, 0, 0, 0, 0, 0, 0, 0, 0, 97, 97, 97, 97, 97, 97, 97, 0, 0, 0, 0, 0, 0, 0, 0, 0, 0, 0, 0, 0, 0, 0, 0, 0, 0, 0, 0, 0, 0, 0, 0, 0, 0, 0, 0, 0, 0, 0, 0, 0, 0, 0, 0, 0, 0, 0, 0, 0, 0, 0, 0, 0, 0, 0, 0, 0, 0, 0, 0, 0, 0, 0, 0, 0, 0, 0, 0, 0, 0, 0, 0, 0, 0, 0, 0, 0, 0, 0, 0, 0, 0, 0, 0, 0, 0, 0, 0, 0]
def r1_97 : List LConfig × List (List Re) :=
  ([⟨202, 6, [210, 388, 409], [], false⟩,
   ⟨202, 6, [389, 409], [], false⟩,
   ⟨202, 6, [392, 409], [], false⟩,
   ⟨202, 6, [395, 409], [], false⟩,
   ⟨163, 6, [410], [], false⟩,
   ⟨202, 8, [210, 388, 430], [], false⟩,
   ⟨202, 8, [389, 430], [], false⟩,
   ⟨202, 8, [392, 430], [], false⟩,
   ⟨202, 8, [395, 430], [], false⟩,
   ⟨366, 8, [428], [], false⟩,
   ⟨369, 8, [428], [], false⟩,
   ⟨370, 8, [428], [], false⟩,
   ⟨423, 8, [433], [], false⟩,
   ⟨377, 8, [429], [], false⟩,
   ⟨202, 17, [468], [], false⟩,
   ⟨94, 17, [], [⟨7, 9, 0⟩], false⟩,
   ⟨202, 19, [210, 215, 476], [], false⟩,
   ⟨194, 19, [217, 476], [], false⟩,
   ⟨202, 19, [210, 221, 476], [], false⟩,
   ⟨194, 19, [223, 476], [], false⟩,
   ⟨202, 19, [210, 231, 476], [], false⟩,
   ⟨211, 19, [232, 476], [], false⟩],
   [[], [], [], [], [], [q216, q221, q223, q224], [], [q217, q225, q226, q227, q229, q240], [], [], [], [], [], [], [], [], [q4], [], [q119, q121, q122], [], [], [], [], [], [], [], []])
def t1_97 : List Nat := [0, 0, 0, 0, 0, 0, 0, 0, 58, 59, 0, 60, 104, 102, 102, 102, 102, 102, 0, 0, 0, 0, 0, 0, 64, 0, 0, 0, 0, 0, 0, 0, 0, 0, 65, 0, 0, 0, 0, 0, 0, 0, 0, 0, 0, 0, 64, 0, 0, 0, 0, 0, 0, 0, 0, 0, 0, 0, 0, 0, 0, 0, 0, 0, 0, 0, 0, 0, 0, 0, 0, 0, 0, 0, 0, 0, 0, 0, 0, 0, 0, 0, 0, 0, 0, 0, 0, 0, 0, 0, 0, 0, 0, 0, 0, 0, 0, 0, 0]
def r1_98 : List LConfig × List (List Re) :=
  ([⟨202, 6, [210, 388, 409], [], false⟩,
   ⟨202, 6, [389, 409], [], false⟩,
   ⟨202, 6, [392, 409], [], false⟩,
   ⟨202, 6, [395, 409], [], false⟩,
   ⟨163, 6, [410], [], false⟩,
   ⟨202, 8, [210, 388, 430], [], false⟩,
   ⟨202, 8, [389, 430], [], false⟩,
   ⟨202, 8, [392, 430], [], false⟩,
   ⟨202, 8, [395, 430], [], false⟩,
   ⟨366, 8, [428], [], false⟩,
   ⟨369, 8, [428], [], false⟩,
   ⟨370, 8, [428], [], false⟩,
   ⟨423, 8, [433], [], false⟩,
   ⟨374, 8, [429], [], false⟩,
   ⟨377, 8, [429], [], false⟩,
   ⟨378, 8, [429], [], false⟩,
   ⟨380, 8, [429], [], false⟩,
   ⟨382, 8, [429], [], false⟩,
   ⟨371, 8, [428], [], false⟩,
   ⟨379, 8, [429], [], false⟩,
   ⟨202, 17, [468], [], false⟩,
   ⟨94, 17, [], [⟨7, 9, 0⟩], false⟩,
   ⟨202, 19, [210, 215, 476], [], false⟩,
   ⟨194, 19, [217, 476], [], false⟩,
   ⟨202, 19, [210, 221, 476], [], false⟩,
   ⟨194, 19, [223, 476], [], false⟩,
   ⟨202, 19, [210, 231, 476], [], false⟩,
   ⟨211, 19, [232, 476], [], false⟩],
   [[], [], [], [], [], [q216, q221, q223, q224], [], [q217, q225, q226, q227, q230, q232, q205, q241], [], [], [], [], [], [], [], [], [q4], [], [q119, q121, q122], [], [], [], [], [], [], [], []])
def t1_98 : List Nat := [0, 0, 0, 0, 0, 0, 0, 0, 58, 59, 0, 106, 99, 100, 101, 102, 102, 102, 0, 0, 0, 0, 0, 0, 64, 0, 0, 0, 0, 0, 0, 0, 0, 0, 65, 0, 0, 0, 0, 0, 0, 0, 0, 0, 0, 0, 64, 0, 0, 0, 0, 0, 0, 0, 0, 0, 0, 0, 0, 0, 0, 0, 0, 0, 0, 0, 0, 0, 0, 0, 0, 0, 0, 0, 0, 0, 0, 0, 0, 0, 0, 0, 0, 0, 0, 0, 0, 0, 0, 0, 0, 0, 0, 0, 0, 0, 0, 0, 0]
def r1_99 : List LConfig × List (List Re) :=
  ([⟨202, 6, [210, 388, 409], [], false⟩,
   ⟨202, 6, [389, 409], [], false⟩,
   ⟨202, 6, [392, 409], [], false⟩,
   ⟨202, 6, [395, 409], [], false⟩,
   ⟨163, 6, [410], [], false⟩,
   ⟨202, 8, [210, 388, 430], [], false⟩,
   ⟨202, 8, [389, 430], [], false⟩,
   ⟨202, 8, [392, 430], [], false⟩,
   ⟨202, 8, [395, 430], [], false⟩,
   ⟨366, 8, [428], [], false⟩,
   ⟨369, 8, [428], [], false⟩,
   ⟨370, 8, [428], [], false⟩,
   ⟨423, 8, [433], [], false⟩,
   ⟨374, 8, [429], [], false⟩,
   ⟨377, 8, [429], [], false⟩,
   ⟨378, 8, [429], [], false⟩,
   ⟨380, 8, [429], [], false⟩,
   ⟨382, 8, [429], [], false⟩,
   ⟨379, 8, [429], [], false⟩,
   ⟨202, 17, [468], [], false⟩,
   ⟨94, 17, [], [⟨7, 9, 0⟩], false⟩,
   ⟨202, 19, [210, 215, 476], [], false⟩,
   ⟨194, 19, [217, 476], [], false⟩,
   ⟨202, 19, [210, 221, 476], [], false⟩,
   ⟨194, 19, [223, 476], [], false⟩,
   ⟨202, 19, [210, 231, 476], [], false⟩,
   ⟨211, 19, [232, 476], [], false⟩],
   [[], [], [], [], [], [q216, q221, q223, q224], [], [q217, q225, q226, q227, q230, q205, q241], [], [], [], [], [], [], [], [], [q4], [], [q119, q121, q122], [], [], [], [], [], [], [], []])
def t1_99 : List Nat := [0, 0, 0, 0, 0, 0, 0, 0, 58, 59, 0, 103, 99, 100, 101, 102, 102, 102, 0, 0, 0, 0, 0, 0, 64, 0, 0, 0, 0, 0, 0, 0, 0, 0, 65, 0, 0, 0, 0, 0, 0, 0, 0, 0, 0, 0, 64, 0, 0, 0, 0, 0, 0, 0, 0, 0, 0, 0, 0, 0, 0, 0, 0, 0, 0, 0, 0, 0, 0, 0, 0, 0, 0, 0, 0, 0, 0, 0, 0, 0, 0, 0, 0, 0, 0, 0, 0, 0, 0, 0, 0, 0, 0, 0, 0, 0, 0, 0, 0]
def r1_100 : List LConfig × List (List Re) :=
  ([⟨202, 6, [210, 388, 409], [], false⟩,
   ⟨202, 6, [389, 409], [], false⟩,
   ⟨202, 6, [392, 409], [], false⟩,
   ⟨202, 6, [395, 409], [], false⟩,
   ⟨163, 6, [410], [], false⟩,
   ⟨202, 8, [210, 388, 430], [], false⟩,
   ⟨202, 8, [389, 430], [], false⟩,
   ⟨202, 8, [392, 430], [], false⟩,
   ⟨202, 8, [395, 430], [], false⟩,
   ⟨366, 8, [428], [], false⟩,
   ⟨369, 8, [428], [], false⟩,
   ⟨370, 8, [428], [], false⟩,
   ⟨423, 8, [433], [], false⟩,
   ⟨374, 8, [429], [], false⟩,
   ⟨377, 8, [429], [], false⟩,
   ⟨378, 8, [429], [], false⟩,
   ⟨380, 8, [429], [], false⟩,
   ⟨382, 8, [429], [], false⟩,
   ⟨381, 8, [429], [], false⟩,
   ⟨383, 8, [429], [], false⟩,
   ⟨202, 17, [468], [], false⟩,
   ⟨94, 17, [], [⟨7, 9, 0⟩], false⟩,
   ⟨202, 19, [210, 215, 476], [], false⟩,
   ⟨194, 19, [217, 476], [], false⟩,
   ⟨202, 19, [210, 221, 476], [], false⟩,
   ⟨194, 19, [223, 476], [], false⟩,
   ⟨202, 19, [210, 231, 476], [], false⟩,
   ⟨211, 19, [232, 476], [], false⟩],
   [[], [], [], [], [], [q216, q221, q223, q224], [], [q217, q225, q226, q227, q230, q205, q242, q243], [], [], [], [], [], [], [], [], [q4], [], [q119, q121, q122], [], [], [], [], [], [], [], []])
def t1_100 : List Nat := [0, 0, 0, 0, 0, 0, 0, 0, 58, 59, 0, 103, 99, 100, 101, 102, 102, 102, 0, 0, 0, 0, 0, 0, 64, 0, 0, 0, 0, 0, 0, 0, 0, 0, 65, 0, 0, 0, 0, 0, 0, 0, 0, 0, 0, 0, 64, 0, 0, 0, 0, 0, 0, 0, 0, 0, 0, 0, 0, 0, 0, 0, 0, 0, 0, 0, 0, 0, 0, 0, 0, 0, 0, 0, 0, 0, 0, 0, 0, 0, 0, 0, 0, 0, 0, 0, 0, 0, 0, 0, 0, 0, 0, 0, 0, 0, 0, 0, 0]
def r1_101 : List LConfig × List (List Re) :=
  ([⟨202, 6, [210, 388, 409], [], false⟩,
   ⟨202, 6, [389, 409], [], false⟩,
   ⟨202, 6, [392, 409], [], false⟩,
   ⟨202, 6, [395, 409], [], false⟩,
   ⟨163, 6, [410], [], false⟩,
   ⟨202, 8, [210, 388, 430], [], false⟩,
   ⟨202, 8, [389, 430], [], false⟩,
   ⟨202, 8, [392, 430], [], false⟩,
   ⟨202, 8, [395, 430], [], false⟩,
   ⟨366, 8, [428], [], false⟩,
   ⟨369, 8, [428], [], false⟩,
   ⟨370, 8, [428], [], false⟩,
   ⟨423, 8, [433], [], false⟩,
   ⟨374, 8, [429], [], false⟩,
   ⟨377, 8, [429], [], false⟩,
   ⟨378, 8, [429], [], false⟩,
   ⟨380, 8, [429], [], false⟩,
   ⟨382, 8, [429], [], false⟩,
   ⟨202, 17, [468], [], false⟩,
   ⟨94, 17, [], [⟨7, 9, 0⟩], false⟩,
   ⟨202, 19, [210, 215, 476], [], false⟩,
   ⟨194, 19, [217, 476], [], false⟩,
   ⟨202, 19, [210, 221, 476], [], false⟩,
   ⟨194, 19, [223, 476], [], false⟩,
   ⟨202, 19, [210, 231, 476], [], false⟩,
   ⟨211, 19, [232, 476], [], false⟩],
   [[], [], [], [], [], [q216, q221, q223, q224], [], [q217, q225, q226, q227, q230, q205], [], [], [], [], [], [], [], [], [q4], [], [q119, q121, q122], [], [], [], [], [], [], [], []])
def t1_101 : List Nat := [0, 0, 0, 0, 0, 0, 0, 0, 58, 59, 0, 98, 99, 100, 101, 102, 102, 102, 0, 0, 0, 0, 0, 0, 64, 0, 0, 0, 0, 0, 0, 0, 0, 0, 65, 0, 0, 0, 0, 0, 0, 0, 0, 0, 0, 0, 64, 0, 0, 0, 0, 0, 0, 0, 0, 0, 0, 0, 0, 0, 0, 0, 0, 0, 0, 0, 0, 0, 0, 0, 0, 0, 0, 0, 0, 0, 0, 0, 0, 0, 0, 0, 0, 0, 0, 0, 0, 0, 0, 0, 0, 0, 0, 0, 0, 0, 0, 0, 0]
def r1_102 : List LConfig × List (List Re) :=
  ([⟨202, 6, [210, 388, 409], [], false⟩,
   ⟨202, 6, [389, 409], [], false⟩,
   ⟨202, 6, [392, 409], [], false⟩,
   ⟨202, 6, [395, 409], [], false⟩,
   ⟨163, 6, [410], [], false⟩,
   ⟨202, 8, [210, 388, 430], [], false⟩,
   ⟨202, 8, [389, 430], [], false⟩,
   ⟨202, 8, [392, 430], [], false⟩,
   ⟨202, 8, [395, 430], [], false⟩,
   ⟨366, 8, [428], [], false⟩,
   ⟨369, 8, [428], [], false⟩,
   ⟨370, 8, [428], [], false⟩,
   ⟨423, 8, [433], [], false⟩,
   ⟨377, 8, [429], [], false⟩,
   ⟨202, 17, [468], [], false⟩,
   ⟨94, 17, [], [⟨7, 9, 0⟩], false⟩,
   ⟨202, 19, [210, 215, 476], [], false⟩,
   ⟨194, 19, [217, 476], [], false⟩,
   ⟨202, 19, [210, 221, 476], [], false⟩,
   ⟨194, 19, [223, 476], [], false⟩,
   ⟨202, 19, [210, 231, 476], [], false⟩,
   ⟨211, 19, [232, 476], [], false⟩],
   [[], [], [], [], [], [q216, q221, q223, q224], [], [q217, q225, q226, q227, q229, q240, q205], [], [], [], [], [], [], [], [], [q4], [], [q119, q121, q122], [], [], [], [], [], [], [], []])
def t1_102 : List Nat := [0, 0, 0, 0, 0, 0, 0, 0, 58, 59, 0, 60, 104, 102, 102, 102, 102, 102, 0, 0, 0, 0, 0, 0, 64, 0, 0, 0, 0, 0, 0, 0, 0, 0, 65, 0, 0, 0, 0, 0, 0, 0, 0, 0, 0, 0, 64, 0, 0, 0, 0, 0, 0, 0, 0, 0, 0, 0, 0, 0, 0, 0, 0, 0, 0, 0, 0, 0, 0, 0, 0, 0, 0, 0, 0, 0, 0, 0, 0, 0, 0, 0, 0, 0, 0, 0, 0, 0, 0, 0, 0, 0, 0, 0, 0, 0, 0, 0, 0]
def r1_103 : List LConfig × List (List Re) :=
  ([⟨202, 6, [210, 388, 409], [], false⟩,
   ⟨202, 6, [389, 409], [], false⟩,
   ⟨202, 6, [392, 409], [], false⟩,
   ⟨202, 6, [395, 409], [], false⟩,
   ⟨163, 6, [410], [], false⟩,
   ⟨202, 8, [210, 388, 430], [], false⟩,
   ⟨202, 8, [389, 430], [], false⟩,
   ⟨202, 8, [392, 430], [], false⟩,
   ⟨202, 8, [395, 430], [], false⟩,
   ⟨366, 8, [428], [], false⟩,
   ⟨369, 8, [428], [], false⟩,
   ⟨370, 8, [428], [], false⟩,
   ⟨423, 8, [433], [], false⟩,
   ⟨374, 8, [429], [], false⟩,
   ⟨377, 8, [429], [], false⟩,
   ⟨378, 8, [429], [], false⟩,
   ⟨380, 8, [429], [], false⟩,
   ⟨382, 8, [429], [], false⟩,
   ⟨371, 8, [428], [], false⟩,
   ⟨202, 17, [468], [], false⟩,
   ⟨94, 17, [], [⟨7, 9, 0⟩], false⟩,
   ⟨202, 19, [210, 215, 476], [], false⟩,
   ⟨194, 19, [217, 476], [], false⟩,
   ⟨202, 19, [210, 221, 476], [], false⟩,
   ⟨194, 19, [223, 476], [], false⟩,
   ⟨202, 19, [210, 231, 476], [], false⟩,
   ⟨211, 19, [232, 476], [], false⟩],
   [[], [], [], [], [], [q216, q221, q223, q224], [], [q217, q225, q226, q227, q230, q232, q205], [], [], [], [], [], [], [], [], [q4], [], [q119, q121, q122], [], [], [], [], [], [], [], []])
def t1_103 : List Nat := [0, 0, 0, 0, 0, 0, 0, 0, 58, 59, 0, 105, 99, 100, 101, 102, 102, 102, 0, 0, 0, 0, 0, 0, 64, 0, 0, 0, 0, 0, 0, 0, 0, 0, 65, 0, 0, 0, 0, 0, 0, 0, 0, 0, 0, 0, 64, 0, 0, 0, 0, 0, 0, 0, 0, 0, 0, 0, 0, 0, 0, 0, 0, 0, 0, 0, 0, 0, 0, 0, 0, 0, 0, 0, 0, 0, 0, 0, 0, 0, 0, 0, 0, 0, 0, 0, 0, 0, 0, 0, 0, 0, 0, 0, 0, 0, 0, 0, 0]
def r1_104 : List LConfig × List (List Re) :=
  ([⟨202, 6, [210, 388, 409], [], false⟩,
   ⟨202, 6, [389, 409], [], false⟩,
   ⟨202, 6, [392, 409], [], false⟩,
   ⟨202, 6, [395, 409], [], false⟩,
   ⟨163, 6, [410], [], false⟩,
   ⟨202, 8, [210, 388, 430], [], false⟩,
   ⟨202, 8, [389, 430], [], false⟩,
   ⟨202, 8, [392, 430], [], false⟩,
   ⟨202, 8, [395, 430], [], false⟩,
   ⟨366, 8, [428], [], false⟩,
   ⟨369, 8, [428], [], false⟩,
   ⟨370, 8, [428], [], false⟩,
   ⟨423, 8, [433], [], false⟩,
   ⟨377, 8, [429], [], false⟩,
   ⟨374, 8, [429], [], false⟩,
   ⟨378, 8, [429], [], false⟩,
   ⟨380, 8, [429], [], false⟩,
   ⟨382, 8, [429], [], false⟩,
   ⟨202, 17, [468], [], false⟩,
   ⟨94, 17, [], [⟨7, 9, 0⟩], false⟩,
   ⟨202, 19, [210, 215, 476], [], false⟩,
   ⟨194, 19, [217, 476], [], false⟩,
   ⟨202, 19, [210, 221, 476], [], false⟩,
   ⟨194, 19, [223, 476], [], false⟩,
   ⟨202, 19, [210, 231, 476], [], false⟩,
   ⟨211, 19, [232, 476], [], false⟩],
   [[], [], [], [], [], [q216, q221, q223, q224], [], [q217, q225, q226, q227, q229, q240, q230], [], [], [], [], [], [], [], [], [q4], [], [q119, q121, q122], [], [], [], [], [], [], [], []])
def t1_104 : List Nat := [0, 0, 0, 0, 0, 0, 0, 0, 58, 59, 0, 98, 99, 100, 101, 102, 102, 102, 0, 0, 0, 0, 0, 0, 64, 0, 0, 0, 0, 0, 0, 0, 0, 0, 65, 0, 0, 0, 0, 0, 0, 0, 0, 0, 0, 0, 64, 0, 0, 0, 0, 0, 0, 0, 0, 0, 0, 0, 0, 0, 0, 0, 0, 0, 0, 0, 0, 0, 0, 0, 0, 0, 0, 0, 0, 0, 0, 0, 0, 0, 0, 0, 0, 0, 0, 0, 0, 0, 0, 0, 0, 0, 0, 0, 0, 0, 0, 0, 0]
def r1_105 : List LConfig × List (List Re) :=
  ([⟨202, 6, [210, 388, 409], [], false⟩,
   ⟨202, 6, [389, 409], [], false⟩,
   ⟨202, 6, [392, 409], [], false⟩,
   ⟨202, 6, [395, 409], [], false⟩,
   ⟨163, 6, [410], [], false⟩,
   ⟨202, 8, [210, 388, 430], [], false⟩,
   ⟨202, 8, [389, 430], [], false⟩,
   ⟨202, 8, [392, 430], [], false⟩,
   ⟨202, 8, [395, 430], [], false⟩,
   ⟨366, 8, [428], [], false⟩,
   ⟨369, 8, [428], [], false⟩,
   ⟨370, 8, [428], [], false⟩,
   ⟨423, 8, [433], [], false⟩,
   ⟨377, 8, [429], [], false⟩,
   ⟨374, 8, [429], [], false⟩,
   ⟨378, 8, [429], [], false⟩,
   ⟨380, 8, [429], [], false⟩,
   ⟨382, 8, [429], [], false⟩,
   ⟨202, 17, [468], [], false⟩,
   ⟨94, 17, [], [⟨7, 9, 0⟩], false⟩,
   ⟨202, 19, [210, 215, 476], [], false⟩,
   ⟨194, 19, [217, 476], [], false⟩,
   ⟨202, 19, [210, 221, 476], [], false⟩,
   ⟨194, 19, [223, 476], [], false⟩,
   ⟨202, 19, [210, 231, 476], [], false⟩,
   ⟨211, 19, [232, 476], [], false⟩],
   [[], [], [], [], [], [q216, q221, q223, q224], [], [q217, q225, q226, q227, q229, q240, q230, q205], [], [], [], [], [], [], [], [], [q4], [], [q119, q121, q122], [], [], [], [], [], [], [], []])
def t1_105 : List Nat := [0, 0, 0, 0, 0, 0, 0, 0, 58, 59, 0, 98, 99, 100, 101, 102, 102, 102, 0, 0, 0, 0, 0, 0, 64, 0, 0, 0, 0, 0, 0, 0, 0, 0, 65, 0, 0, 0, 0, 0, 0, 0, 0, 0, 0, 0, 64, 0, 0, 0, 0, 0, 0, 0, 0, 0, 0, 0, 0, 0, 0, 0, 0, 0, 0, 0, 0, 0, 0, 0, 0, 0, 0, 0, 0, 0, 0, 0, 0, 0, 0, 0, 0, 0, 0, 0, 0, 0, 0, 0, 0, 0, 0, 0, 0, 0, 0, 0, 0]
def r1_106 : List LConfig × List (List Re) :=
  ([⟨202, 19, [218, 476], [], false⟩,
   ⟨211, 19, [229, 476], [], false⟩,
   ⟨98, 19, [], [⟨7, 11, 0⟩], false⟩,
   ⟨202, 19, [224, 476], [], false⟩],
   [[], [], [], [], [], [], [], [], [], [], [], [], [], [], [], [], [], [], [q130], [], [], [], [], [], [], [], []])
def t1_106 : List Nat := [0, 0, 0, 0, 0, 0, 0, 0, 0, 0, 0, 107, 107, 107, 107, 107, 107, 107, 0, 0, 0, 0, 0, 0, 108, 0, 0, 0, 0, 0, 0, 0, 0, 0, 0, 0, 0, 0, 0, 0, 0, 0, 0, 0, 0, 0, 108, 0, 0, 0, 0, 0, 0, 0, 0, 0, 0, 0, 0, 0, 0, 0, 0, 0, 0, 0, 0, 0, 0, 0, 0, 0, 0, 0, 0, 0, 0, 0, 0, 0, 0, 0, 0, 0, 0, 0, 0, 0, 0, 0, 0, 0, 0, 0, 0, 0, 0, 0, 0]
def r1_107 : List LConfig × List (List Re) :=
  ([⟨202, 19, [210, 213, 229, 476], [], false⟩,
   ⟨163, 19, [158, 210, 213, 229, 476], [], false⟩,
   ⟨161, 19, [158, 210, 213, 229, 476], [], false⟩],
   [[], [], [], [], [], [], [], [], [], [], [], [], [], [], [], [], [], [], [q37], [], [], [], [], [], [], [], []])
def t1_107 : List Nat := [0, 0, 0, 0, 0, 0, 109, 0, 109, 0, 0, 110, 110, 110, 110, 110, 110, 110, 0, 0, 0, 0, 0, 0, 0, 0, 0, 0, 0, 0, 0, 0, 0, 0, 0, 0, 0, 0, 0, 0, 0, 0, 0, 0, 0, 0, 0, 0, 0, 0, 0, 0, 0, 0, 0, 0, 0, 0, 0, 0, 0, 0, 0, 0, 0, 0, 0, 0, 0, 0, 0, 0, 0, 0, 0, 0, 0, 0, 0, 0, 0, 0, 0, 0, 0, 0, 0, 0, 0, 0, 0, 0, 0, 0, 0, 0, 0, 0, 0]
def r1_108 : List LConfig × List (List Re) :=
  ([⟨202, 19, [160, 210, 213, 229, 476], [], false⟩],
   [[], [], [], [], [], [], [], [], [], [], [], [], [], [], [], [], [], [], [q5], [], [], [], [], [], [], [], []])
def t1_108 : List Nat := [0, 0, 0, 0, 0, 0, 0, 0, 0, 0, 0, 111, 111, 111, 111, 111, 111, 111, 0, 0, 0, 0, 0, 0, 0, 0, 0, 0, 0, 0, 0, 0, 0, 0, 0, 0, 0, 0, 0, 0, 0, 0, 0, 0, 0, 0, 0, 0, 0, 0, 0, 0, 0, 0, 0, 0, 0, 0, 0, 0, 0, 0, 0, 0, 0, 0, 0, 0, 0, 0, 0, 0, 0, 0, 0, 0, 0, 0, 0, 0, 0, 0, 0, 0, 0, 0, 0, 0, 0, 0, 0, 0, 0, 0, 0, 0, 0, 0, 0]
def r1_109 : List LConfig × List (List Re) :=
  ([⟨202, 19, [210, 213, 229, 476], [], false⟩,
   ⟨98, 19, [], [⟨7, 11, 0⟩], false⟩],
   [[], [], [], [], [], [], [], [], [], [], [], [], [], [], [], [], [], [], [q4], [], [], [], [], [], [], [], []])
def t1_109 : List Nat := [0, 0, 0, 0, 0, 0, 0, 0, 0, 0, 0, 110, 110, 110, 110, 110, 110, 110, 0, 0, 0, 0, 0, 0, 0, 0, 0, 0, 0, 0, 0, 0, 0, 0, 0, 0, 0, 0, 0, 0, 0, 0, 0, 0, 0, 0, 0, 0, 0, 0, 0, 0, 0, 0, 0, 0, 0, 0, 0, 0, 0, 0, 0, 0, 0, 0, 0, 0, 0, 0, 0, 0, 0, 0, 0, 0, 0, 0, 0, 0, 0, 0, 0, 0, 0, 0, 0, 0, 0, 0, 0, 0, 0, 0, 0, 0, 0, 0, 0]
def r1_110 : List LConfig × List (List Re) :=
  ([⟨202, 19, [160, 210, 213, 229, 476], [], false⟩,
   ⟨98, 19, [], [⟨7, 11, 0⟩], false⟩],
   [[], [], [], [], [], [], [], [], [], [], [], [], [], [], [], [], [], [], [q4], [], [], [], [], [], [], [], []])
def t1_110 : List Nat := [0, 0, 0, 0, 0, 0, 0, 0, 0, 0, 0, 111, 111, 111, 111, 111, 111, 111, 0, 0, 0, 0, 0, 0, 0, 0, 0, 0, 0, 0, 0, 0, 0, 0, 0, 0, 0, 0, 0, 0, 0, 0, 0, 0, 0, 0, 0, 0, 0, 0, 0, 0, 0, 0, 0, 0, 0, 0, 0, 0, 0, 0, 0, 0, 0, 0, 0, 0, 0, 0, 0, 0, 0, 0, 0, 0, 0, 0, 0, 0, 0, 0, 0, 0, 0, 0, 0, 0, 0, 0, 0, 0, 0, 0, 0, 0, 0, 0, 0]
def r1_111 : List LConfig × List (List Re) :=
  ([⟨369, 6, [414], [], false⟩],
   [[], [], [], [], [], [q244], [], [], [], [], [], [], [], [], [], [], [], [], [], [], [], [], [], [], [], [], []])
def t1_111 : List Nat := [0, 0, 0, 0, 0, 0, 0, 0, 0, 0, 0, 0, 114, 114, 114, 114, 114, 114, 0, 0, 0, 0, 0, 0, 0, 0, 0, 0, 0, 0, 0, 0, 0, 0, 0, 0, 0, 0, 0, 0, 0, 0, 0, 0, 0, 0, 0, 0, 0, 0, 0, 0, 0, 0, 0, 0, 0, 0, 0, 0, 0, 0, 0, 0, 0, 0, 0, 0, 0, 0, 0, 0, 0, 0, 0, 0, 0, 0, 0, 0, 0, 0, 0, 0, 0, 0, 0, 0, 0, 0, 0, 0, 0, 0, 0, 0, 0, 0, 0]
def r1_112 : List LConfig × List (List Re) :=
  ([⟨163, 6, [412], [], false⟩,
   ⟨70, 6, [], [], false⟩,
   ⟨371, 6, [414], [], false⟩],
   [[], [], [], [], [], [q194, q245], [], [], [], [], [], [], [], [], [], [], [], [], [], [], [], [], [], [], [], [], []])
def t1_112 : List Nat := [0, 0, 0, 0, 0, 0, 0, 0, 115, 0, 0, 114, 114, 114, 0, 0, 0, 0, 0, 0, 0, 0, 0, 0, 0, 0, 0, 0, 0, 0, 0, 0, 0, 0, 0, 0, 0, 0, 0, 0, 0, 0, 0, 0, 0, 0, 0, 0, 0, 0, 0, 0, 0, 0, 0, 0, 0, 0, 0, 0, 0, 0, 0, 0, 0, 0, 0, 0, 0, 0, 0, 0, 0, 0, 0, 0, 0, 0, 0, 0, 0, 0, 0, 0, 0, 0, 0, 0, 0, 0, 0, 0, 0, 0, 0, 0, 0, 0, 0]
def r1_113 : List LConfig × List (List Re) :=
  ([⟨163, 6, [412], [], false⟩,
   ⟨70, 6, [], [], false⟩],
   [[], [], [], [], [], [q194], [], [], [], [], [], [], [], [], [], [], [], [], [], [], [], [], [], [], [], [], []])
def t1_113 : List Nat := [0, 0, 0, 0, 0, 0, 0, 0, 115, 0, 0, 0, 0, 0, 0, 0, 0, 0, 0, 0, 0, 0, 0, 0, 0, 0, 0, 0, 0, 0, 0, 0, 0, 0, 0, 0, 0, 0, 0, 0, 0, 0, 0, 0, 0, 0, 0, 0, 0, 0, 0, 0, 0, 0, 0, 0, 0, 0, 0, 0, 0, 0, 0, 0, 0, 0, 0, 0, 0, 0, 0, 0, 0, 0, 0, 0, 0, 0, 0, 0, 0, 0, 0, 0, 0, 0, 0, 0, 0, 0, 0, 0, 0, 0, 0, 0, 0, 0, 0]
def r1_114 : List LConfig × List (List Re) :=
  ([⟨374, 6, [413], [], false⟩,
   ⟨377, 6, [413], [], false⟩,
   ⟨378, 6, [413], [], false⟩,
   ⟨380, 6, [413], [], false⟩,
   ⟨382, 6, [413], [], false⟩],
   [[], [], [], [], [], [q192], [], [], [], [], [], [], [], [], [], [], [], [], [], [], [], [], [], [], [], [], []])
def t1_114 : List Nat := [0, 0, 0, 0, 0, 0, 0, 0, 0, 0, 0, 116, 117, 117, 118, 119, 119, 119, 0, 0, 0, 0, 0, 0, 0, 0, 0, 0, 0, 0, 0, 0, 0, 0, 0, 0, 0, 0, 0, 0, 0, 0, 0, 0, 0, 0, 0, 0, 0, 0, 0, 0, 0, 0, 0, 0, 0, 0, 0, 0, 0, 0, 0, 0, 0, 0, 0, 0, 0, 0, 0, 0, 0, 0, 0, 0, 0, 0, 0, 0, 0, 0, 0, 0, 0, 0, 0, 0, 0, 0, 0, 0, 0, 0, 0, 0, 0, 0, 0]
def r1_115 : List LConfig × List (List Re) :=
  ([⟨377, 6, [413], [], false⟩],
   [[], [], [], [], [], [q179], [], [], [], [], [], [], [], [], [], [], [], [], [], [], [], [], [], [], [], [], []])
def t1_115 : List Nat := [0, 0, 0, 0, 0, 0, 0, 0, 0, 0, 0, 0, 119, 119, 119, 119, 119, 119, 0, 0, 0, 0, 0, 0, 0, 0, 0, 0, 0, 0, 0, 0, 0, 0, 0, 0, 0, 0, 0, 0, 0, 0, 0, 0, 0, 0, 0, 0, 0, 0, 0, 0, 0, 0, 0, 0, 0, 0, 0, 0, 0, 0, 0, 0, 0, 0, 0, 0, 0, 0, 0, 0, 0, 0, 0, 0, 0, 0, 0, 0, 0, 0, 0, 0, 0, 0, 0, 0, 0, 0, 0, 0, 0, 0, 0, 0, 0, 0, 0]
def r1_116 : List LConfig × List (List Re) :=
  ([⟨70, 6, [], [], false⟩,
   ⟨379, 6, [413], [], false⟩],
   [[], [], [], [], [], [q39, q3], [], [], [], [], [], [], [], [], [], [], [], [], [], [], [], [], [], [], [], [], []])
def t1_116 : List Nat := [0, 0, 0, 0, 0, 0, 0, 0, 0, 0, 0, 119, 119, 119, 119, 119, 119, 119, 0, 0, 0, 0, 0, 0, 0, 0, 0, 0, 0, 0, 0, 0, 0, 0, 0, 0, 0, 0, 0, 0, 0, 0, 0, 0, 0, 0, 0, 0, 0, 0, 0, 0, 0, 0, 0, 0, 0, 0, 0, 0, 0, 0, 0, 0, 0, 0, 0, 0, 0, 0, 0, 0, 0, 0, 0, 0, 0, 0, 0, 0, 0, 0, 0, 0, 0, 0, 0, 0, 0, 0, 0, 0, 0, 0, 0, 0, 0, 0, 0]
def r1_117 : List LConfig × List (List Re) :=
  ([⟨70, 6, [], [], false⟩,
   ⟨381, 6, [413], [], false⟩,
   ⟨383, 6, [413], [], false⟩],
   [[], [], [], [], [], [q39, q163, q181], [], [], [], [], [], [], [], [], [], [], [], [], [], [], [], [], [], [], [], [], []])
def t1_117 : List Nat := [0, 0, 0, 0, 0, 0, 0, 0, 0, 0, 0, 119, 119, 0, 0, 0, 0, 0, 0, 0, 0, 0, 0, 0, 0, 0, 0, 0, 0, 0, 0, 0, 0, 0, 0, 0, 0, 0, 0, 0, 0, 0, 0, 0, 0, 0, 0, 0, 0, 0, 0, 0, 0, 0, 0, 0, 0, 0, 0, 0, 0, 0, 0, 0, 0, 0, 0, 0, 0, 0, 0, 0, 0, 0, 0, 0, 0, 0, 0, 0, 0, 0, 0, 0, 0, 0, 0, 0, 0, 0, 0, 0, 0, 0, 0, 0, 0, 0, 0]
def r1_118 : List LConfig × List (List Re) :=
  ([⟨70, 6, [], [], false⟩],
   [[], [], [], [], [], [q39], [], [], [], [], [], [], [], [], [], [], [], [], [], [], [], [], [], [], [], [], []])
def t1_118 : List Nat := [0, 0, 0, 0, 0, 0, 0, 0, 0, 0, 0, 0, 0, 0, 0, 0, 0, 0, 0, 0, 0, 0, 0, 0, 0, 0, 0, 0, 0, 0, 0, 0, 0, 0, 0, 0, 0, 0, 0, 0, 0, 0, 0, 0, 0, 0, 0, 0, 0, 0, 0, 0, 0, 0, 0, 0, 0, 0, 0, 0, 0, 0, 0, 0, 0, 0, 0, 0, 0, 0, 0, 0, 0, 0, 0, 0, 0, 0, 0, 0, 0, 0, 0, 0, 0, 0, 0, 0, 0, 0, 0, 0, 0, 0, 0, 0, 0, 0, 0]
def r1_119 : List LConfig × List (List Re) :=
  ([⟨397, 3, [], [], false⟩,
   ⟨403, 4, [], [], false⟩,
   ⟨202, 6, [210, 388, 409], [], false⟩,
   ⟨202, 6, [389, 409], [], false⟩,
   ⟨202, 6, [392, 409], [], false⟩,
   ⟨202, 6, [395, 409], [], false⟩,
   ⟨163, 6, [410], [], false⟩,
   ⟨202, 8, [210, 388, 430], [], false⟩,
   ⟨202, 8, [389, 430], [], false⟩,
   ⟨202, 8, [392, 430], [], false⟩,
   ⟨202, 8, [395, 430], [], false⟩,
   ⟨366, 8, [428], [], false⟩,
   ⟨369, 8, [428], [], false⟩,
   ⟨370, 8, [428], [], false⟩,
   ⟨423, 8, [433], [], false⟩,
   ⟨202, 17, [468], [], false⟩,
   ⟨94, 17, [], [⟨7, 9, 0⟩], false⟩,
   ⟨202, 19, [210, 215, 476], [], false⟩,
   ⟨194, 19, [217, 476], [], false⟩,
   ⟨202, 19, [210, 221, 476], [], false⟩,
   ⟨194, 19, [223, 476], [], false⟩,
   ⟨202, 19, [210, 231, 476], [], false⟩,
   ⟨211, 19, [232, 476], [], false⟩],
   [[], [], [q171], [q173], [], [q216, q221, q223, q224], [], [q217, q225, q226, q227, q229], [], [], [], [], [], [], [], [], [q4], [], [q119, q121, q122], [], [], [], [], [], [], [], []])
def t1_119 : List Nat := [0, 0, 0, 0, 0, 0, 0, 0, 58, 59, 0, 60, 61, 62, 62, 62, 62, 62, 63, 0, 0, 0, 0, 0, 64, 0, 0, 0, 0, 0, 0, 0, 0, 0, 65, 0, 0, 0, 0, 0, 0, 0, 0, 0, 0, 0, 64, 0, 0, 0, 0, 0, 0, 0, 0, 0, 0, 0, 0, 0, 0, 0, 0, 0, 0, 0, 0, 0, 0, 0, 0, 0, 0, 0, 0, 0, 0, 0, 0, 0, 0, 0, 0, 0, 0, 0, 0, 0, 0, 0, 0, 0, 0, 0, 0, 0, 0, 0, 0]
def r1_120 : List LConfig × List (List Re) :=
  ([⟨397, 3, [], [], false⟩,
   ⟨403, 4, [], [], false⟩,
   ⟨202, 6, [210, 388, 409], [], false⟩,
   ⟨202, 6, [389, 409], [], false⟩,
   ⟨202, 6, [392, 409], [], false⟩,
   ⟨202, 6, [395, 409], [], false⟩,
   ⟨163, 6, [410], [], false⟩,
   ⟨202, 8, [210, 388, 430], [], false⟩,
   ⟨202, 8, [389, 430], [], false⟩,
   ⟨202, 8, [392, 430], [], false⟩,
   ⟨202, 8, [395, 430], [], false⟩,
   ⟨366, 8, [428], [], false⟩,
   ⟨369, 8, [428], [], false⟩,
   ⟨370, 8, [428], [], false⟩,
   ⟨423, 8, [433], [], false⟩,
   ⟨374, 8, [429], [], false⟩,
   ⟨377, 8, [429], [], false⟩,
   ⟨378, 8, [429], [], false⟩,
   ⟨380, 8, [429], [], false⟩,
   ⟨382, 8, [429], [], false⟩,
   ⟨371, 8, [428], [], false⟩,
   ⟨202, 17, [468], [], false⟩,
   ⟨94, 17, [], [⟨7, 9, 0⟩], false⟩,
   ⟨202, 19, [210, 215, 476], [], false⟩,
   ⟨194, 19, [217, 476], [], false⟩,
   ⟨202, 19, [210, 221, 476], [], false⟩,
   ⟨194, 19, [223, 476], [], false⟩,
   ⟨202, 19, [210, 231, 476], [], false⟩,
   ⟨211, 19, [232, 476], [], false⟩],
   [[], [], [q171], [q173], [], [q216, q221, q223, q224], [], [q217, q225, q226, q227, q230, q232], [], [], [], [], [], [], [], [], [q4], [], [q119, q121, q122], [], [], [], [], [], [], [], []])
def t1_120 : List Nat := [0, 0, 0, 0, 0, 0, 0, 0, 58, 59, 0, 105, 99, 100, 101, 102, 102, 102, 63, 0, 0, 0, 0, 0, 64, 0, 0, 0, 0, 0, 0, 0, 0, 0, 65, 0, 0, 0, 0, 0, 0, 0, 0, 0, 0, 0, 64, 0, 0, 0, 0, 0, 0, 0, 0, 0, 0, 0, 0, 0, 0, 0, 0, 0, 0, 0, 0, 0, 0, 0, 0, 0, 0, 0, 0, 0, 0, 0, 0, 0, 0, 0, 0, 0, 0, 0, 0, 0, 0, 0, 0, 0, 0, 0, 0, 0, 0, 0, 0]
def r1_121 : List LConfig × List (List Re) :=
  ([⟨397, 3, [], [], false⟩,
   ⟨403, 4, [], [], false⟩,
   ⟨202, 6, [210, 388, 409], [], false⟩,
   ⟨202, 6, [389, 409], [], false⟩,
   ⟨202, 6, [392, 409], [], false⟩,
   ⟨202, 6, [395, 409], [], false⟩,
   ⟨163, 6, [410], [], false⟩,
   ⟨202, 8, [210, 388, 430], [], false⟩,
   ⟨202, 8, [389, 430], [], false⟩,
   ⟨202, 8, [392, 430], [], false⟩,
   ⟨202, 8, [395, 430], [], false⟩,
   ⟨366, 8, [428], [], false⟩,
   ⟨369, 8, [428], [], false⟩,
   ⟨370, 8, [428], [], false⟩,
   ⟨423, 8, [433], [], false⟩,
   ⟨374, 8, [429], [], false⟩,
   ⟨377, 8, [429], [], false⟩,
   ⟨378, 8, [429], [], false⟩,
   ⟨380, 8, [429], [], false⟩,
   ⟨382, 8, [429], [], false⟩,
   ⟨202, 17, [468], [], false⟩,
   ⟨94, 17, [], [⟨7, 9, 0⟩], false⟩,
   ⟨202, 19, [210, 215, 476], [], false⟩,
   ⟨194, 19, [217, 476], [], false⟩,
   ⟨202, 19, [210, 221, 476], [], false⟩,
   ⟨194, 19, [223, 476], [], false⟩,
   ⟨202, 19, [210, 231, 476], [], false⟩,
   ⟨211, 19, [232, 476], [], false⟩],
   [[], [], [q171], [q173], [], [q216, q221, q223, q224], [], [q217, q225, q226, q227, q230], [], [], [], [], [], [], [], [], [q4], [], [q119, q121, q122], [], [], [], [], [], [], [], []])
def t1_121 : List Nat := [0, 0, 0, 0, 0, 0, 0, 0, 58, 59, 0, 98, 99, 100, 101, 102, 102, 102, 63, 0, 0, 0, 0, 0, 64, 0, 0, 0, 0, 0, 0, 0, 0, 0, 65, 0, 0, 0, 0, 0, 0, 0, 0, 0, 0, 0, 64, 0, 0, 0, 0, 0, 0, 0, 0, 0, 0, 0, 0, 0, 0, 0, 0, 0, 0, 0, 0, 0, 0, 0, 0, 0, 0, 0, 0, 0, 0, 0, 0, 0, 0, 0, 0, 0, 0, 0, 0, 0, 0, 0, 0, 0, 0, 0, 0, 0, 0, 0, 0]
def r1_122 : List LConfig × List (List Re) :=
  ([⟨316, 12, [190, 448], [], false⟩,
   ⟨84, 12, [], [⟨7, 4, 0⟩], false⟩],
   [[], [], [], [], [], [], [], [], [], [], [], [q12], [], [], [], [], [], [], [], [], [], [], [], [], [], [], []])
def t1_122 : List Nat := [0, 123, 0, 0, 0, 0, 0, 0, 0, 0, 0, 0, 0, 0, 0, 0, 0, 0, 0, 0, 0, 0, 0, 0, 0, 0, 0, 0, 0, 0, 0, 0, 0, 0, 0, 0, 0, 0, 0, 0, 0, 0, 0, 0, 0, 0, 0, 0, 0, 0, 0, 0, 0, 0, 0, 0, 0, 0, 0, 0, 0, 0, 0, 0, 0, 0, 0, 0, 0, 0, 0, 0, 0, 0, 0, 0, 0, 0, 0, 0, 0, 0, 0, 0, 0, 0, 0, 0, 0, 0, 0, 0, 0, 0, 0, 0, 0, 0, 0]
def r1_123 : List LConfig × List (List Re) :=
  ([⟨202, 19, [224, 476], [], false⟩,
   ⟨211, 19, [229, 476], [], false⟩,
   ⟨98, 19, [], [⟨7, 11, 0⟩], false⟩],
   [[], [], [], [], [], [], [], [], [], [], [], [], [], [], [], [], [], [], [q130], [], [], [], [], [], [], [], []])
def t1_123 : List Nat := [0, 0, 0, 0, 0, 0, 0, 0, 0, 0, 0, 124, 124, 124, 124, 124, 124, 124, 0, 0, 0, 0, 0, 0, 108, 0, 0, 0, 0, 0, 0, 0, 0, 0, 0, 0, 0, 0, 0, 0, 0, 0, 0, 0, 0, 0, 108, 0, 0, 0, 0, 0, 0, 0, 0, 0, 0, 0, 0, 0, 0, 0, 0, 0, 0, 0, 0, 0, 0, 0, 0, 0, 0, 0, 0, 0, 0, 0, 0, 0, 0, 0, 0, 0, 0, 0, 0, 0, 0, 0, 0, 0, 0, 0, 0, 0, 0, 0, 0]
def r1_124 : List LConfig × List (List Re) :=
  ([⟨342, 3, [397], [], false⟩,
   ⟨397, 3, [], [], false⟩,
   ⟨342, 4, [403], [], false⟩,
   ⟨403, 4, [], [], false⟩,
   ⟨202, 6, [160, 210, 388, 409], [], false⟩,
   ⟨202, 6, [389, 409], [], false⟩,
   ⟨202, 6, [392, 409], [], false⟩,
   ⟨202, 6, [395, 409], [], false⟩,
   ⟨163, 6, [410], [], false⟩,
   ⟨202, 8, [160, 210, 388, 430], [], false⟩,
   ⟨202, 8, [389, 430], [], false⟩,
   ⟨202, 8, [392, 430], [], false⟩,
   ⟨202, 8, [395, 430], [], false⟩,
   ⟨366, 8, [428], [], false⟩,
   ⟨369, 8, [428], [], false⟩,
   ⟨370, 8, [428], [], false⟩,
   ⟨423, 8, [433], [], false⟩,
   ⟨202, 9, [160, 436], [], false⟩,
   ⟨78, 9, [], [⟨7, 1, 0⟩], false⟩,
   ⟨202, 19, [160, 210, 215, 476], [], false⟩,
   ⟨194, 19, [217, 476], [], false⟩,
   ⟨202, 19, [160, 210, 221, 476], [], false⟩,
   ⟨194, 19, [223, 476], [], false⟩,
   ⟨202, 19, [160, 210, 231, 476], [], false⟩,
   ⟨211, 19, [232, 476], [], false⟩],
   [[], [], [q213, q171], [q214, q173], [], [q216], [], [q217], [q4], [], [], [], [], [], [], [], [], [], [q119, q121, q122], [], [], [], [], [], [], [], []])
def t1_124 : List Nat := [0, 0, 0, 0, 0, 0, 0, 0, 58, 59, 0, 139, 140, 141, 141, 141, 141, 141, 63, 0, 0, 0, 0, 0, 64, 0, 0, 0, 0, 0, 0, 0, 0, 0, 65, 0, 0, 0, 0, 0, 0, 0, 0, 0, 0, 0, 64, 0, 0, 0, 0, 0, 0, 0, 0, 0, 0, 0, 0, 0, 0, 0, 0, 0, 0, 0, 0, 0, 0, 0, 0, 0, 0, 0, 0, 0, 0, 0, 0, 0, 0, 0, 0, 0, 0, 0, 0, 0, 0, 0, 0, 0, 0, 0, 0, 0, 0, 0, 0]
def r1_125 : List LConfig × List (List Re) :=
  ([⟨397, 3, [], [], false⟩,
   ⟨403, 4, [], [], false⟩,
   ⟨202, 6, [160, 210, 388, 409], [], false⟩,
   ⟨202, 6, [389, 409], [], false⟩,
   ⟨202, 6, [392, 409], [], false⟩,
   ⟨202, 6, [395, 409], [], false⟩,
   ⟨163, 6, [410], [], false⟩,
   ⟨202, 8, [160, 210, 388, 430], [], false⟩,
   ⟨202, 8, [389, 430], [], false⟩,
   ⟨202, 8, [392, 430], [], false⟩,
   ⟨202, 8, [395, 430], [], false⟩,
   ⟨366, 8, [428], [], false⟩,
   ⟨369, 8, [428], [], false⟩,
   ⟨370, 8, [428], [], false⟩,
   ⟨423, 8, [433], [], false⟩,
   ⟨202, 9, [160, 436], [], false⟩,
   ⟨78, 9, [], [⟨7, 1, 0⟩], false⟩,
   ⟨202, 19, [160, 210, 215, 476], [], false⟩,
   ⟨194, 19, [217, 476], [], false⟩,
   ⟨202, 19, [160, 210, 221, 476], [], false⟩,
   ⟨194, 19, [223, 476], [], false⟩,
   ⟨202, 19, [160, 210, 231, 476], [], false⟩,
   ⟨211, 19, [232, 476], [], false⟩],
   [[], [], [q171], [q173], [], [q216], [], [q217], [q4], [], [], [], [], [], [], [], [], [], [q119, q121, q122], [], [], [], [], [], [], [], []])
def t1_125 : List Nat := [0, 0, 0, 0, 0, 0, 0, 0, 58, 59, 0, 127, 128, 129, 129, 129, 129, 129, 63, 0, 0, 0, 0, 0, 64, 0, 0, 0, 0, 0, 0, 0, 0, 0, 65, 0, 0, 0, 0, 0, 0, 0, 0, 0, 0, 0, 64, 0, 0, 0, 0, 0, 0, 0, 0, 0, 0, 0, 0, 0, 0, 0, 0, 0, 0, 0, 0, 0, 0, 0, 0, 0, 0, 0, 0, 0, 0, 0, 0, 0, 0, 0, 0, 0, 0, 0, 0, 0, 0, 0, 0, 0, 0, 0, 0, 0, 0, 0, 0]
def r1_126 : List LConfig × List (List Re) :=
  ([⟨202, 6, [160, 210, 388, 409], [], false⟩,
   ⟨202, 6, [389, 409], [], false⟩,
   ⟨202, 6, [392, 409], [], false⟩,
   ⟨202, 6, [395, 409], [], false⟩,
   ⟨163, 6, [410], [], false⟩,
   ⟨202, 8, [160, 210, 388, 430], [], false⟩,
   ⟨202, 8, [389, 430], [], false⟩,
   ⟨202, 8, [392, 430], [], false⟩,
   ⟨202, 8, [395, 430], [], false⟩,
   ⟨366, 8, [428], [], false⟩,
   ⟨369, 8, [428], [], false⟩,
   ⟨370, 8, [428], [], false⟩,
   ⟨423, 8, [433], [], false⟩,
   ⟨202, 9, [160, 436], [], false⟩,
   ⟨78, 9, [], [⟨7, 1, 0⟩], false⟩,
   ⟨202, 19, [160, 210, 215, 476], [], false⟩,
   ⟨194, 19, [217, 476], [], false⟩,
   ⟨202, 19, [160, 210, 221, 476], [], false⟩,
   ⟨194, 19, [223, 476], [], false⟩,
   ⟨202, 19, [160, 210, 231, 476], [], false⟩,
   ⟨211, 19, [232, 476], [], false⟩],
   [[], [], [], [], [], [q216, q221, q223, q224], [], [q217, q225, q226, q227, q229], [q4], [], [], [], [], [], [], [], [], [], [q119, q121, q122], [], [], [], [], [], [], [], []])
def t1_126 : List Nat := [0, 0, 0, 0, 0, 0, 0, 0, 58, 59, 0, 127, 128, 129, 129, 129, 129, 129, 0, 0, 0, 0, 0, 0, 64, 0, 0, 0, 0, 0, 0, 0, 0, 0, 65, 0, 0, 0, 0, 0, 0, 0, 0, 0, 0, 0, 64, 0, 0, 0, 0, 0, 0, 0, 0, 0, 0, 0, 0, 0, 0, 0, 0, 0, 0, 0, 0, 0, 0, 0, 0, 0, 0, 0, 0, 0, 0, 0, 0, 0, 0, 0, 0, 0, 0, 0, 0, 0, 0, 0, 0, 0, 0, 0, 0, 0, 0, 0, 0]
def r1_127 : List LConfig × List (List Re) :=
  ([⟨202, 6, [160, 210, 388, 409], [], false⟩,
   ⟨202, 6, [389, 409], [], false⟩,
   ⟨202, 6, [392, 409], [], false⟩,
   ⟨202, 6, [395, 409], [], false⟩,
   ⟨163, 6, [410], [], false⟩,
   ⟨202, 8, [160, 210, 388, 430], [], false⟩,
   ⟨202, 8, [389, 430], [], false⟩,
   ⟨202, 8, [392, 430], [], false⟩,
   ⟨202, 8, [395, 430], [], false⟩,
   ⟨366, 8, [428], [], false⟩,
   ⟨369, 8, [428], [], false⟩,
   ⟨370, 8, [428], [], false⟩,
   ⟨423, 8, [433], [], false⟩,
   ⟨374, 8, [429], [], false⟩,
   ⟨377, 8, [429], [], false⟩,
   ⟨378, 8, [429], [], false⟩,
   ⟨380, 8, [429], [], false⟩,
   ⟨382, 8, [429], [], false⟩,
   ⟨371, 8, [428], [], false⟩,
   ⟨202, 9, [160, 436], [], false⟩,
   ⟨78, 9, [], [⟨7, 1, 0⟩], false⟩,
   ⟨202, 19, [160, 210, 215, 476], [], false⟩,
   ⟨194, 19, [217, 476], [], false⟩,
   ⟨202, 19, [160, 210, 221, 476], [], false⟩,
   ⟨194, 19, [223, 476], [], false⟩,
   ⟨202, 19, [160, 210, 231, 476], [], false⟩,
   ⟨211, 19, [232, 476], [], false⟩],
   [[], [], [], [], [], [q216, q221, q223, q224], [], [q217, q225, q226, q227, q230, q232], [q4], [], [], [], [], [], [], [], [], [], [q119, q121, q122], [], [], [], [], [], [], [], []])
def t1_127 : List Nat := [0, 0, 0, 0, 0, 0, 0, 0, 58, 59, 0, 137, 131, 132, 133, 134, 134, 134, 0, 0, 0, 0, 0, 0, 64, 0, 0, 0, 0, 0, 0, 0, 0, 0, 65, 0, 0, 0, 0, 0, 0, 0, 0, 0, 0, 0, 64, 0, 0, 0, 0, 0, 0, 0, 0, 0, 0, 0, 0, 0, 0, 0, 0, 0, 0, 0, 0, 0, 0, 0, 0, 0, 0, 0, 0, 0, 0, 0, 0, 0, 0, 0, 0, 0, 0, 0, 0, 0, 0, 0, 0, 0, 0, 0, 0, 0, 0, 0, 0]
def r1_128 : List LConfig × List (List Re) :=
  ([⟨202, 6, [160, 210, 388, 409], [], false⟩,
   ⟨202, 6, [389, 409], [], false⟩,
   ⟨202, 6, [392, 409], [], false⟩,
   ⟨202, 6, [395, 409], [], false⟩,
   ⟨163, 6, [410], [], false⟩,
   ⟨202, 8, [160, 210, 388, 430], [], false⟩,
   ⟨202, 8, [389, 430], [], false⟩,
   ⟨202, 8, [392, 430], [], false⟩,
   ⟨202, 8, [395, 430], [], false⟩,
   ⟨366, 8, [428], [], false⟩,
   ⟨369, 8, [428], [], false⟩,
   ⟨370, 8, [428], [], false⟩,
   ⟨423, 8, [433], [], false⟩,
   ⟨374, 8, [429], [], false⟩,
   ⟨377, 8, [429], [], false⟩,
   ⟨378, 8, [429], [], false⟩,
   ⟨380, 8, [429], [], false⟩,
   ⟨382, 8, [429], [], false⟩,
   ⟨202, 9, [160, 436], [], false⟩,
   ⟨78, 9, [], [⟨7, 1, 0⟩], false⟩,
   ⟨202, 19, [160, 210, 215, 476], [], false⟩,
   ⟨194, 19, [217, 476], [], false⟩,
   ⟨202, 19, [160, 210, 221, 476], [], false⟩,
   ⟨194, 19, [223, 476], [], false⟩,
   ⟨202, 19, [160, 210, 231, 476], [], false⟩,
   ⟨211, 19, [232, 476], [], false⟩],
   [[], [], [], [], [], [q216, q221, q223, q224], [], [q217, q225, q226, q227, q230], [q4], [], [], [], [], [], [], [], [], [], [q119, q121, q122], [], [], [], [], [], [], [], []])
def t1_128 : List Nat := [0, 0, 0, 0, 0, 0, 0, 0, 58, 59, 0, 130, 131, 132, 133, 134, 134, 134, 0, 0, 0, 0, 0, 0, 64, 0, 0, 0, 0, 0, 0, 0, 0, 0, 65, 0, 0, 0, 0, 0, 0, 0, 0, 0, 0, 0, 64, 0, 0, 0, 0, 0, 0, 0, 0, 0, 0, 0, 0, 0, 0, 0, 0, 0, 0, 0, 0, 0, 0, 0, 0, 0, 0, 0, 0, 0, 0, 0, 0, 0, 0, 0, 0, 0, 0, 0, 0, 0, 0, 0, 0, 0, 0, 0, 0, 0, 0, 0, 0]
def r1_129 : List LConfig × List (List Re) :=
  ([⟨202, 6, [160, 210, 388, 409], [], false⟩,
   ⟨202, 6, [389, 409], [], false⟩,
   ⟨202, 6, [392, 409], [], false⟩,
   ⟨202, 6, [395, 409], [], false⟩,
   ⟨163, 6, [410], [], false⟩,
   ⟨202, 8, [160, 210, 388, 430], [], false⟩,
   ⟨202, 8, [389, 430], [], false⟩,
   ⟨202, 8, [392, 430], [], false⟩,
   ⟨202, 8, [395, 430], [], false⟩,
   ⟨366, 8, [428], [], false⟩,
   ⟨369, 8, [428], [], false⟩,
   ⟨370, 8, [428], [], false⟩,
   ⟨423, 8, [433], [], false⟩,
   ⟨377, 8, [429], [], false⟩,
   ⟨202, 9, [160, 436], [], false⟩,
   ⟨78, 9, [], [⟨7, 1, 0⟩], false⟩,
   ⟨202, 19, [160, 210, 215, 476], [], false⟩,
   ⟨194, 19, [217, 476], [], false⟩,
   ⟨202, 19, [160, 210, 221, 476], [], false⟩,
   ⟨194, 19, [223, 476], [], false⟩,
   ⟨202, 19, [160, 210, 231, 476], [], false⟩,
   ⟨211, 19, [232, 476], [], false⟩],
   [[], [], [], [], [], [q216, q221, q223, q224], [], [q217, q225, q226, q227, q229, q240], [q4], [], [], [], [], [], [], [], [], [], [q119, q121, q122], [], [], [], [], [], [], [], []])
def t1_129 : List Nat := [0, 0, 0, 0, 0, 0, 0, 0, 58, 59, 0, 127, 136, 134, 134, 134, 134, 134, 0, 0, 0, 0, 0, 0, 64, 0, 0, 0, 0, 0, 0, 0, 0, 0, 65, 0, 0, 0, 0, 0, 0, 0, 0, 0, 0, 0, 64, 0, 0, 0, 0, 0, 0, 0, 0, 0, 0, 0, 0, 0, 0, 0, 0, 0, 0, 0, 0, 0, 0, 0, 0, 0, 0, 0, 0, 0, 0, 0, 0, 0, 0, 0, 0, 0, 0, 0, 0, 0, 0, 0, 0, 0, 0, 0, 0, 0, 0, 0, 0]
def r1_130 : List LConfig × List (List Re) :=
  ([⟨202, 6, [160, 210, 388, 409], [], false⟩,
   ⟨202, 6, [389, 409], [], false⟩,
   ⟨202, 6, [392, 409], [], false⟩,
   ⟨202, 6, [395, 409], [], false⟩,
   ⟨163, 6, [410], [], false⟩,
   ⟨202, 8, [160, 210, 388, 430], [], false⟩,
   ⟨202, 8, [389, 430], [], false⟩,
   ⟨202, 8, [392, 430], [], false⟩,
   ⟨202, 8, [395, 430], [], false⟩,
   ⟨366, 8, [428], [], false⟩,
   ⟨369, 8, [428], [], false⟩,
   ⟨370, 8, [428], [], false⟩,
   ⟨423, 8, [433], [], false⟩,
   ⟨374, 8, [429], [], false⟩,
   ⟨377, 8, [429], [], false⟩,
   ⟨378, 8, [429], [], false⟩,
   ⟨380, 8, [429], [], false⟩,
   ⟨382, 8, [429], [], false⟩,
   ⟨371, 8, [428], [], false⟩,
   ⟨379, 8, [429], [], false⟩,
   ⟨202, 9, [160, 436], [], false⟩,
   ⟨78, 9, [], [⟨7, 1, 0⟩], false⟩,
   ⟨202, 19, [160, 210, 215, 476], [], false⟩,
   ⟨194, 19, [217, 476], [], false⟩,
   ⟨202, 19, [160, 210, 221, 476], [], false⟩,
   ⟨194, 19, [223, 476], [], false⟩,
   ⟨202, 19, [160, 210, 231, 476], [], false⟩,
   ⟨211, 19, [232, 476], [], false⟩],
   [[], [], [], [], [], [q216, q221, q223, q224], [], [q217, q225, q226, q227, q230, q232, q205, q241], [q4], [], [], [], [], [], [], [], [], [], [q119, q121, q122], [], [], [], [], [], [], [], []])
def t1_130 : List Nat := [0, 0, 0, 0, 0, 0, 0, 0, 58, 59, 0, 138, 131, 132, 133, 134, 134, 134, 0, 0, 0, 0, 0, 0, 64, 0, 0, 0, 0, 0, 0, 0, 0, 0, 65, 0, 0, 0, 0, 0, 0, 0, 0, 0, 0, 0, 64, 0, 0, 0, 0, 0, 0, 0, 0, 0, 0, 0, 0, 0, 0, 0, 0, 0, 0, 0, 0, 0, 0, 0, 0, 0, 0, 0, 0, 0, 0, 0, 0, 0, 0, 0, 0, 0, 0, 0, 0, 0, 0, 0, 0, 0, 0, 0, 0, 0, 0, 0, 0]
def r1_131 : List LConfig × List (List Re) :=
  ([⟨202, 6, [160, 210, 388, 409], [], false⟩,
   ⟨202, 6, [389, 409], [], false⟩,
   ⟨202, 6, [392, 409], [], false⟩,
   ⟨202, 6, [395, 409], [], false⟩,
   ⟨163, 6, [410], [], false⟩,
   ⟨202, 8, [160, 210, 388, 430], [], false⟩,
   ⟨202, 8, [389, 430], [], false⟩,
   ⟨202, 8, [392, 430], [], false⟩,
   ⟨202, 8, [395, 430], [], false⟩,
   ⟨366, 8, [428], [], false⟩,
   ⟨369, 8, [428], [], false⟩,
   ⟨370, 8, [428], [], false⟩,
   ⟨423, 8, [433], [], false⟩,
   ⟨374, 8, [429], [], false⟩,
   ⟨377, 8, [429], [], false⟩,
   ⟨378, 8, [429], [], false⟩,
   ⟨380, 8, [429], [], false⟩,
   ⟨382, 8, [429], [], false⟩,
   ⟨379, 8, [429], [], false⟩,
   ⟨202, 9, [160, 436], [], false⟩,
   ⟨78, 9, [], [⟨7, 1, 0⟩], false⟩,
   ⟨202, 19, [160, 210, 215, 476], [], false⟩,
   ⟨194, 19, [217, 476], [], false⟩,
   ⟨202, 19, [160, 210, 221, 476], [], false⟩,
   ⟨194, 19, [223, 476], [], false⟩,
   ⟨202, 19, [160, 210, 231, 476], [], false⟩,
   ⟨211, 19, [232, 476], [], false⟩],
   [[], [], [], [], [], [q216, q221, q223, q224], [], [q217, q225, q226, q227, q230, q205, q241], [q4], [], [], [], [], [], [], [], [], [], [q119, q121, q122], [], [], [], [], [], [], [], []])
def t1_131 : List Nat := [0, 0, 0, 0, 0, 0, 0, 0, 58, 59, 0, 135, 131, 132, 133, 134, 134, 134, 0, 0, 0, 0, 0, 0, 64, 0, 0, 0, 0, 0, 0, 0, 0, 0, 65, 0, 0, 0, 0, 0, 0, 0, 0, 0, 0, 0, 64, 0, 0, 0, 0, 0, 0, 0, 0, 0, 0, 0, 0, 0, 0, 0, 0, 0, 0, 0, 0, 0, 0, 0, 0, 0, 0, 0, 0, 0, 0, 0, 0, 0, 0, 0, 0, 0, 0, 0, 0, 0, 0, 0, 0, 0, 0, 0, 0, 0, 0, 0, 0]
def r1_132 : List LConfig × List (List Re) :=
  ([⟨202, 6, [160, 210, 388, 409], [], false⟩,
   ⟨202, 6, [389, 409], [], false⟩,
   ⟨202, 6, [392, 409], [], false⟩,
   ⟨202, 6, [395, 409], [], false⟩,
   ⟨163, 6, [410], [], false⟩,
   ⟨202, 8, [160, 210, 388, 430], [], false⟩,
   ⟨202, 8, [389, 430], [], false⟩,
   ⟨202, 8, [392, 430], [], false⟩,
   ⟨202, 8, [395, 430], [], false⟩,
   ⟨366, 8, [428], [], false⟩,
   ⟨369, 8, [428], [], false⟩,
   ⟨370, 8, [428], [], false⟩,
   ⟨423, 8, [433], [], false⟩,
   ⟨374, 8, [429], [], false⟩,
   ⟨377, 8, [429], [], false⟩,
   ⟨378, 8, [429], [], false⟩,
   ⟨380, 8, [429], [], false⟩,
   ⟨382, 8, [429], [], false⟩,
   ⟨381, 8, [429], [], false⟩,
   ⟨383, 8, [429], [], false⟩,
   ⟨202, 9, [160, 436], [], false⟩,
   ⟨78, 9, [], [⟨7, 1, 0⟩], false⟩,
   ⟨202, 19, [160, 210, 215, 476], [], false⟩,
   ⟨194, 19, [217, 476], [], false⟩,
   ⟨202, 19, [160, 210, 221, 476], [], false⟩,
   ⟨194, 19, [223, 476], [], false⟩,
   ⟨202, 19, [160, 210, 231, 476], [], false⟩,
   ⟨211, 19, [232, 476], [], false⟩],
   [[], [], [], [], [], [q216, q221, q223, q224], [], [q217, q225, q226, q227, q230, q205, q242, q243], [q4], [], [], [], [], [], [], [], [], [], [q119, q121, q122], [], [], [], [], [], [], [], []])
def t1_132 : List Nat := [0, 0, 0, 0, 0, 0, 0, 0, 58, 59, 0, 135, 131, 132, 133, 134, 134, 134, 0, 0, 0, 0, 0, 0, 64, 0, 0, 0, 0, 0, 0, 0, 0, 0, 65, 0, 0, 0, 0, 0, 0, 0, 0, 0, 0, 0, 64, 0, 0, 0, 0, 0, 0, 0, 0, 0, 0, 0, 0, 0, 0, 0, 0, 0, 0, 0, 0, 0, 0, 0, 0, 0, 0, 0, 0, 0, 0, 0, 0, 0, 0, 0, 0, 0, 0, 0, 0, 0, 0, 0, 0, 0, 0, 0, 0, 0, 0, 0, 0]
def r1_133 : List LConfig × List (List Re) :=
  ([⟨202, 6, [160, 210, 388, 409], [], false⟩,
   ⟨202, 6, [389, 409], [], false⟩,
   ⟨202, 6, [392, 409], [], false⟩,
   ⟨202, 6, [395, 409], [], false⟩,
   ⟨163, 6, [410], [], false⟩,
   ⟨202, 8, [160, 210, 388, 430], [], false⟩,
   ⟨202, 8, [389, 430], [], false⟩,
   ⟨202, 8, [392, 430], [], false⟩,
   ⟨202, 8, [395, 430], [], false⟩,
   ⟨366, 8, [428], [], false⟩,
   ⟨369, 8, [428], [], false⟩,
   ⟨370, 8, [428], [], false⟩,
   ⟨423, 8, [433], [], false⟩,
   ⟨374, 8, [429], [], false⟩,
   ⟨377, 8, [429], [], false⟩,
   ⟨378, 8, [429], [], false⟩,
   ⟨380, 8, [429], [], false⟩,
   ⟨382, 8, [429], [], false⟩,
   ⟨202, 9, [160, 436], [], false⟩,
   ⟨78, 9, [], [⟨7, 1, 0⟩], false⟩,
   ⟨202, 19, [160, 210, 215, 476], [], false⟩,
   ⟨194, 19, [217, 476], [], false⟩,
   ⟨202, 19, [160, 210, 221, 476], [], false⟩,
   ⟨194, 19, [223, 476], [], false⟩,
   ⟨202, 19, [160, 210, 231, 476], [], false⟩,
   ⟨211, 19, [232, 476], [], false⟩],
   [[], [], [], [], [], [q216, q221, q223, q224], [], [q217, q225, q226, q227, q230, q205], [q4], [], [], [], [], [], [], [], [], [], [q119, q121, q122], [], [], [], [], [], [], [], []])
def t1_133 : List Nat := [0, 0, 0, 0, 0, 0, 0, 0, 58, 59, 0, 130, 131, 132, 133, 134, 134, 134, 0, 0, 0, 0, 0, 0, 64, 0, 0, 0, 0, 0, 0, 0, 0, 0, 65, 0, 0, 0, 0, 0, 0, 0, 0, 0, 0, 0, 64, 0, 0, 0, 0, 0, 0, 0, 0, 0, 0, 0, 0, 0, 0, 0, 0, 0, 0, 0, 0, 0, 0, 0, 0, 0, 0, 0, 0, 0, 0, 0, 0, 0, 0, 0, 0, 0, 0, 0, 0, 0, 0, 0, 0, 0, 0, 0, 0, 0, 0, 0, 0]
def r1_134 : List LConfig × List (List Re) :=
  ([⟨202, 6, [160, 210, 388, 409], [], false⟩,
   ⟨202, 6, [389, 409], [], false⟩,
   ⟨202, 6, [392, 409], [], false⟩,
   ⟨202, 6, [395, 409], [], false⟩,
   ⟨163, 6, [410], [], false⟩,
   ⟨202, 8, [160, 210, 388, 430], [], false⟩,
   ⟨202, 8, [389, 430], [], false⟩,
   ⟨202, 8, [392, 430], [], false⟩,
   ⟨202, 8, [395, 430], [], false⟩,
   ⟨366, 8, [428], [], false⟩,
   ⟨369, 8, [428], [], false⟩,
   ⟨370, 8, [428], [], false⟩,
   ⟨423, 8, [433], [], false⟩,
   ⟨377, 8, [429], [], false⟩,
   ⟨202, 9, [160, 436], [], false⟩,
   ⟨78, 9, [], [⟨7, 1, 0⟩], false⟩,
   ⟨202, 19, [160, 210, 215, 476], [], false⟩,
   ⟨194, 19, [217, 476], [], false⟩,
   ⟨202, 19, [160, 210, 221, 476], [], false⟩,
   ⟨194, 19, [223, 476], [], false⟩,
   ⟨202, 19, [160, 210, 231, 476], [], false⟩,
   ⟨211, 19, [232, 476], [], false⟩],
   [[], [], [], [], [], [q216, q221, q223, q224], [], [q217, q225, q226, q227, q229, q240, q205], [q4], [], [], [], [], [], [], [], [], [], [q119, q121, q122], [], [], [], [], [], [], [], []])
def t1_134 : List Nat := [0, 0, 0, 0, 0, 0, 0, 0, 58, 59, 0, 127, 136, 134, 134, 134, 134, 134, 0, 0, 0, 0, 0, 0, 64, 0, 0, 0, 0, 0, 0, 0, 0, 0, 65, 0, 0, 0, 0, 0, 0, 0, 0, 0, 0, 0, 64, 0, 0, 0, 0, 0, 0, 0, 0, 0, 0, 0, 0, 0, 0, 0, 0, 0, 0, 0, 0, 0, 0, 0, 0, 0, 0, 0, 0, 0, 0, 0, 0, 0, 0, 0, 0, 0, 0, 0, 0, 0, 0, 0, 0, 0, 0, 0, 0, 0, 0, 0, 0]
def r1_135 : List LConfig × List (List Re) :=
  ([⟨202, 6, [160, 210, 388, 409], [], false⟩,
   ⟨202, 6, [389, 409], [], false⟩,
   ⟨202, 6, [392, 409], [], false⟩,
   ⟨202, 6, [395, 409], [], false⟩,
   ⟨163, 6, [410], [], false⟩,
   ⟨202, 8, [160, 210, 388, 430], [], false⟩,
   ⟨202, 8, [389, 430], [], false⟩,
   ⟨202, 8, [392, 430], [], false⟩,
   ⟨202, 8, [395, 430], [], false⟩,
   ⟨366, 8, [428], [], false⟩,
   ⟨369, 8, [428], [], false⟩,
   ⟨370, 8, [428], [], false⟩,
   ⟨423, 8, [433], [], false⟩,
   ⟨374, 8, [429], [], false⟩,
   ⟨377, 8, [429], [], false⟩,
   ⟨378, 8, [429], [], false⟩,
   ⟨380, 8, [429], [], false⟩,
   ⟨382, 8, [429], [], false⟩,
   ⟨371, 8, [428], [], false⟩,
   ⟨202, 9, [160, 436], [], false⟩,
   ⟨78, 9, [], [⟨7, 1, 0⟩], false⟩,
   ⟨202, 19, [160, 210, 215, 476], [], false⟩,
   ⟨194, 19, [217, 476], [], false⟩,
   ⟨202, 19, [160, 210, 221, 476], [], false⟩,
   ⟨194, 19, [223, 476], [], false⟩,
   ⟨202, 19, [160, 210, 231, 476], [], false⟩,
   ⟨211, 19, [232, 476], [], false⟩],
   [[], [], [], [], [], [q216, q221, q223, q224], [], [q217, q225, q226, q227, q230, q232, q205], [q4], [], [], [], [], [], [], [], [], [], [q119, q121, q122], [], [], [], [], [], [], [], []])
def t1_135 : List Nat := [0, 0, 0, 0, 0, 0, 0, 0, 58, 59, 0, 137, 131, 132, 133, 134, 134, 134, 0, 0, 0, 0, 0, 0, 64, 0, 0, 0, 0, 0, 0, 0, 0, 0, 65, 0, 0, 0, 0, 0, 0, 0, 0, 0, 0, 0, 64, 0, 0, 0, 0, 0, 0, 0, 0, 0, 0, 0, 0, 0, 0, 0, 0, 0, 0, 0, 0, 0, 0, 0, 0, 0, 0, 0, 0, 0, 0, 0, 0, 0, 0, 0, 0, 0, 0, 0, 0, 0, 0, 0, 0, 0, 0, 0, 0, 0, 0, 0, 0]
def r1_136 : List LConfig × List (List Re) :=
  ([⟨202, 6, [160, 210, 388, 409], [], false⟩,
   ⟨202, 6, [389, 409], [], false⟩,
   ⟨202, 6, [392, 409], [], false⟩,
   ⟨202, 6, [395, 409], [], false⟩,
   ⟨163, 6, [410], [], false⟩,
   ⟨202, 8, [160, 210, 388, 430], [], false⟩,
   ⟨202, 8, [389, 430], [], false⟩,
   ⟨202, 8, [392, 430], [], false⟩,
   ⟨202, 8, [395, 430], [], false⟩,
   ⟨366, 8, [428], [], false⟩,
   ⟨369, 8, [428], [], false⟩,
   ⟨370, 8, [428], [], false⟩,
   ⟨423, 8, [433], [], false⟩,
   ⟨377, 8, [429], [], false⟩,
   ⟨374, 8, [429], [], false⟩,
   ⟨378, 8, [429], [], false⟩,
   ⟨380, 8, [429], [], false⟩,
   ⟨382, 8, [429], [], false⟩,
   ⟨202, 9, [160, 436], [], false⟩,
   ⟨78, 9, [], [⟨7, 1, 0⟩], false⟩,
   ⟨202, 19, [160, 210, 215, 476], [], false⟩,
   ⟨194, 19, [217, 476], [], false⟩,
   ⟨202, 19, [160, 210, 221, 476], [], false⟩,
   ⟨194, 19, [223, 476], [], false⟩,
   ⟨202, 19, [160, 210, 231, 476], [], false⟩,
   ⟨211, 19, [232, 476], [], false⟩],
   [[], [], [], [], [], [q216, q221, q223, q224], [], [q217, q225, q226, q227, q229, q240, q230], [q4], [], [], [], [], [], [], [], [], [], [q119, q121, q122], [], [], [], [], [], [], [], []])
def t1_136 : List Nat := [0, 0, 0, 0, 0, 0, 0, 0, 58, 59, 0, 130, 131, 132, 133, 134, 134, 134, 0, 0, 0, 0, 0, 0, 64, 0, 0, 0, 0, 0, 0, 0, 0, 0, 65, 0, 0, 0, 0, 0, 0, 0, 0, 0, 0, 0, 64, 0, 0, 0, 0, 0, 0, 0, 0, 0, 0, 0, 0, 0, 0, 0, 0, 0, 0, 0, 0, 0, 0, 0, 0, 0, 0, 0, 0, 0, 0, 0, 0, 0, 0, 0, 0, 0, 0, 0, 0, 0, 0, 0, 0, 0, 0, 0, 0, 0, 0, 0, 0]
def r1_137 : List LConfig × List (List Re) :=
  ([⟨202, 6, [160, 210, 388, 409], [], false⟩,
   ⟨202, 6, [389, 409], [], false⟩,
   ⟨202, 6, [392, 409], [], false⟩,
   ⟨202, 6, [395, 409], [], false⟩,
   ⟨163, 6, [410], [], false⟩,
   ⟨202, 8, [160, 210, 388, 430], [], false⟩,
   ⟨202, 8, [389, 430], [], false⟩,
   ⟨202, 8, [392, 430], [], false⟩,
   ⟨202, 8, [395, 430], [], false⟩,
   ⟨366, 8, [428], [], false⟩,
   ⟨369, 8, [428], [], false⟩,
   ⟨370, 8, [428], [], false⟩,
   ⟨423, 8, [433], [], false⟩,
   ⟨377, 8, [429], [], false⟩,
   ⟨374, 8, [429], [], false⟩,
   ⟨378, 8, [429], [], false⟩,
   ⟨380, 8, [429], [], false⟩,
   ⟨382, 8, [429], [], false⟩,
   ⟨202, 9, [160, 436], [], false⟩,
   ⟨78, 9, [], [⟨7, 1, 0⟩], false⟩,
   ⟨202, 19, [160, 210, 215, 476], [], false⟩,
   ⟨194, 19, [217, 476], [], false⟩,
   ⟨202, 19, [160, 210, 221, 476], [], false⟩,
   ⟨194, 19, [223, 476], [], false⟩,
   ⟨202, 19, [160, 210, 231, 476], [], false⟩,
   ⟨211, 19, [232, 476], [], false⟩],
   [[], [], [], [], [], [q216, q221, q223, q224], [], [q217, q225, q226, q227, q229, q240, q230, q205], [q4], [], [], [], [], [], [], [], [], [], [q119, q121, q122], [], [], [], [], [], [], [], []])
def t1_137 : List Nat := [0, 0, 0, 0, 0, 0, 0, 0, 58, 59, 0, 130, 131, 132, 133, 134, 134, 134, 0, 0, 0, 0, 0, 0, 64, 0, 0, 0, 0, 0, 0, 0, 0, 0, 65, 0, 0, 0, 0, 0, 0, 0, 0, 0, 0, 0, 64, 0, 0, 0, 0, 0, 0, 0, 0, 0, 0, 0, 0, 0, 0, 0, 0, 0, 0, 0, 0, 0, 0, 0, 0, 0, 0, 0, 0, 0, 0, 0, 0, 0, 0, 0, 0, 0, 0, 0, 0, 0, 0, 0, 0, 0, 0, 0, 0, 0, 0, 0, 0]
def r1_138 : List LConfig × List (List Re) :=
  ([⟨397, 3, [], [], false⟩,
   ⟨403, 4, [], [], false⟩,
   ⟨202, 6, [160, 210, 388, 409], [], false⟩,
   ⟨202, 6, [389, 409], [], false⟩,
   ⟨202, 6, [392, 409], [], false⟩,
   ⟨202, 6, [395, 409], [], false⟩,
   ⟨163, 6, [410], [], false⟩,
   ⟨202, 8, [160, 210, 388, 430], [], false⟩,
   ⟨202, 8, [389, 430], [], false⟩,
   ⟨202, 8, [392, 430], [], false⟩,
   ⟨202, 8, [395, 430], [], false⟩,
   ⟨366, 8, [428], [], false⟩,
   ⟨369, 8, [428], [], false⟩,
   ⟨370, 8, [428], [], false⟩,
   ⟨423, 8, [433], [], false⟩,
   ⟨202, 9, [160, 436], [], false⟩,
   ⟨78, 9, [], [⟨7, 1, 0⟩], false⟩,
   ⟨202, 19, [160, 210, 215, 476], [], false⟩,
   ⟨194, 19, [217, 476], [], false⟩,
   ⟨202, 19, [160, 210, 221, 476], [], false⟩,
   ⟨194, 19, [223, 476], [], false⟩,
   ⟨202, 19, [160, 210, 231, 476], [], false⟩,
   ⟨211, 19, [232, 476], [], false⟩],
   [[], [], [q171], [q173], [], [q216, q221, q223, q224], [], [q217, q225, q226, q227, q229], [q4], [], [], [], [], [], [], [], [], [], [q119, q121, q122], [], [], [], [], [], [], [], []])
def t1_138 : List Nat := [0, 0, 0, 0, 0, 0, 0, 0, 58, 59, 0, 127, 128, 129, 129, 129, 129, 129, 63, 0, 0, 0, 0, 0, 64, 0, 0, 0, 0, 0, 0, 0, 0, 0, 65, 0, 0, 0, 0, 0, 0, 0, 0, 0, 0, 0, 64, 0, 0, 0, 0, 0, 0, 0, 0, 0, 0, 0, 0, 0, 0, 0, 0, 0, 0, 0, 0, 0, 0, 0, 0, 0, 0, 0, 0, 0, 0, 0, 0, 0, 0, 0, 0, 0, 0, 0, 0, 0, 0, 0, 0, 0, 0, 0, 0, 0, 0, 0, 0]
def r1_139 : List LConfig × List (List Re) :=
  ([⟨397, 3, [], [], false⟩,
   ⟨403, 4, [], [], false⟩,
   ⟨202, 6, [160, 210, 388, 409], [], false⟩,
   ⟨202, 6, [389, 409], [], false⟩,
   ⟨202, 6, [392, 409], [], false⟩,
   ⟨202, 6, [395, 409], [], false⟩,
   ⟨163, 6, [410], [], false⟩,
   ⟨202, 8, [160, 210, 388, 430], [], false⟩,
   ⟨202, 8, [389, 430], [], false⟩,
   ⟨202, 8, [392, 430], [], false⟩,
   ⟨202, 8, [395, 430], [], false⟩,
   ⟨366, 8, [428], [], false⟩,
   ⟨369, 8, [428], [], false⟩,
   ⟨370, 8, [428], [], false⟩,
   ⟨423, 8, [433], [], false⟩,
   ⟨374, 8, [429], [], false⟩,
   ⟨377, 8, [429], [], false⟩,
   ⟨378, 8, [429], [], false⟩,
   ⟨380, 8, [429], [], false⟩,
   ⟨382, 8, [429], [], false⟩,
   ⟨371, 8, [428], [], false⟩,
   ⟨202, 9, [160, 436], [], false⟩,
   ⟨78, 9, [], [⟨7, 1, 0⟩], false⟩,
   ⟨202, 19, [160, 210, 215, 476], [], false⟩,
   ⟨194, 19, [217, 476], [], false⟩,
   ⟨202, 19, [160, 210, 221, 476], [], false⟩,
   ⟨194, 19, [223, 476], [], false⟩,
   ⟨202, 19, [160, 210, 231, 476], [], false⟩,
   ⟨211, 19, [232, 476], [], false⟩],
   [[], [], [q171], [q173], [], [q216, q221, q223, q224], [], [q217, q225, q226, q227, q230, q232], [q4], [], [], [], [], [], [], [], [], [], [q119, q121, q122], [], [], [], [], [], [], [], []])
def t1_139 : List Nat := [0, 0, 0, 0, 0, 0, 0, 0, 58, 59, 0, 137, 131, 132, 133, 134, 134, 134, 63, 0, 0, 0, 0, 0, 64, 0, 0, 0, 0, 0, 0, 0, 0, 0, 65, 0, 0, 0, 0, 0, 0, 0, 0, 0, 0, 0, 64, 0, 0, 0, 0, 0, 0, 0, 0, 0, 0, 0, 0, 0, 0, 0, 0, 0, 0, 0, 0, 0, 0, 0, 0, 0, 0, 0, 0, 0, 0, 0, 0, 0, 0, 0, 0, 0, 0, 0, 0, 0, 0, 0, 0, 0, 0, 0, 0, 0, 0, 0, 0]
def r1_140 : List LConfig × List (List Re) :=
  ([⟨397, 3, [], [], false⟩,
   ⟨403, 4, [], [], false⟩,
   ⟨202, 6, [160, 210, 388, 409], [], false⟩,
   ⟨202, 6, [389, 409], [], false⟩,
   ⟨202, 6, [392, 409], [], false⟩,
   ⟨202, 6, [395, 409], [], false⟩,
   ⟨163, 6, [410], [], false⟩,
   ⟨202, 8, [160, 210, 388, 430], [], false⟩,
   ⟨202, 8, [389, 430], [], false⟩,
   ⟨202, 8, [392, 430], [], false⟩,
   ⟨202, 8, [395, 430], [], false⟩,
   ⟨366, 8, [428], [], false⟩,
   ⟨369, 8, [428], [], false⟩,
   ⟨370, 8, [428], [], false⟩,
   ⟨423, 8, [433], [], false⟩,
   ⟨374, 8, [429], [], false⟩,
   ⟨377, 8, [429], [], false⟩,
   ⟨378, 8, [429], [], false⟩,
   ⟨380, 8, [429], [], false⟩,
   ⟨382, 8, [429], [], false⟩,
   ⟨202, 9, [160, 436], [], false⟩,
   ⟨78, 9, [], [⟨7, 1, 0⟩], false⟩,
   ⟨202, 19, [160, 210, 215, 476], [], false⟩,
   ⟨194, 19, [217, 476], [], false⟩,
   ⟨202, 19, [160, 210, 221, 476], [], false⟩,
   ⟨194, 19, [223, 476], [], false⟩,
   ⟨202, 19, [160, 210, 231, 476], [], false⟩,
   ⟨211, 19, [232, 476], [], false⟩],
   [[], [], [q171], [q173], [], [q216, q221, q223, q224], [], [q217, q225, q226, q227, q230], [q4], [], [], [], [], [], [], [], [], [], [q119, q121, q122], [], [], [], [], [], [], [], []])
def t1_140 : List Nat := [0, 0, 0, 0, 0, 0, 0, 0, 58, 59, 0, 130, 131, 132, 133, 134, 134, 134, 63, 0, 0, 0, 0, 0, 64, 0, 0, 0, 0, 0, 0, 0, 0, 0, 65, 0, 0, 0, 0, 0, 0, 0, 0, 0, 0, 0, 64, 0, 0, 0, 0, 0, 0, 0, 0, 0, 0, 0, 0, 0, 0, 0, 0, 0, 0, 0, 0, 0, 0, 0, 0, 0, 0, 0, 0, 0, 0, 0, 0, 0, 0, 0, 0, 0, 0, 0, 0, 0, 0, 0, 0, 0, 0, 0, 0, 0, 0, 0, 0]
def r1_141 : List LConfig × List (List Re) :=
  ([⟨104, 22, [], [⟨7, 14, 0⟩], false⟩],
   [[], [], [], [], [], [], [], [], [], [], [], [], [], [], [], [], [], [], [], [], [], [q39], [], [], [], [], []])
def t1_141 : List Nat := [0, 0, 0, 0, 0, 0, 0, 0, 0, 0, 0, 0, 0, 0, 0, 0, 0, 0, 0, 0, 0, 0, 0, 0, 0, 0, 0, 0, 0, 0, 0, 0, 0, 0, 0, 0, 0, 0, 0, 0, 0, 0, 0, 0, 0, 0, 0, 0, 0, 0, 0, 0, 0, 0, 0, 0, 0, 0, 0, 0, 0, 0, 0, 0, 0, 0, 0, 0, 0, 0, 0, 0, 0, 0, 0, 0, 0, 0, 0, 0, 0, 0, 0, 0, 0, 0, 0, 0, 0, 0, 0, 0, 0, 0, 0, 0, 0, 0, 0]
def r1_142 : List LConfig × List (List Re) :=
  ([⟨316, 12, [171, 448], [], false⟩,
   ⟨175, 12, [448], [], false⟩,
   ⟨176, 12, [448], [], false⟩,
   ⟨181, 12, [448], [], false⟩,
   ⟨177, 12, [448], [], false⟩,
   ⟨182, 12, [448], [], false⟩],
   [[], [], [], [], [], [], [], [], [], [], [], [q31, q110, q111], [], [], [], [], [], [], [], [], [], [], [], [], [], [], []])
def t1_142 : List Nat := [0, 143, 0, 0, 0, 0, 0, 0, 0, 0, 123, 0, 0, 0, 0, 0, 0, 0, 0, 0, 0, 0, 0, 0, 0, 0, 0, 0, 0, 0, 144, 0, 0, 0, 0, 0, 0, 0, 0, 0, 0, 0, 0, 0, 0, 0, 0, 0, 0, 0, 0, 0, 0, 0, 0, 0, 145, 0, 0, 0, 0, 0, 0, 0, 0, 0, 0, 0, 0, 0, 0, 0, 0, 0, 0, 0, 0, 0, 0, 0, 0, 0, 0, 0, 0, 0, 0, 0, 0, 0, 0, 0, 0, 0, 0, 0, 0, 0, 0]
def r1_143 : List LConfig × List (List Re) :=
  ([⟨178, 12, [448], [], false⟩],
   [[], [], [], [], [], [], [], [], [], [], [], [q131], [], [], [], [], [], [], [], [], [], [], [], [], [], [], []])
def t1_143 : List Nat := [0, 0, 0, 0, 0, 0, 0, 0, 0, 0, 0, 0, 0, 0, 0, 0, 0, 0, 0, 0, 0, 0, 0, 0, 148, 0, 0, 0, 0, 0, 0, 0, 0, 0, 0, 0, 0, 0, 0, 0, 0, 0, 0, 0, 0, 0, 0, 0, 0, 0, 0, 0, 0, 0, 0, 0, 0, 0, 0, 0, 0, 0, 0, 0, 0, 0, 0, 0, 0, 0, 0, 0, 0, 0, 0, 0, 0, 0, 0, 0, 0, 0, 0, 0, 0, 0, 0, 0, 0, 0, 0, 0, 0, 0, 0, 0, 0, 0, 0]
def r1_144 : List LConfig × List (List Re) :=
  ([⟨183, 12, [448], [], false⟩],
   [[], [], [], [], [], [], [], [], [], [], [], [q132], [], [], [], [], [], [], [], [], [], [], [], [], [], [], []])
def t1_144 : List Nat := [0, 0, 0, 0, 0, 0, 0, 0, 0, 0, 0, 0, 0, 0, 0, 0, 0, 0, 0, 0, 0, 0, 0, 0, 0, 0, 0, 0, 0, 0, 0, 0, 0, 0, 0, 0, 0, 0, 0, 0, 0, 0, 0, 0, 0, 0, 146, 0, 0, 0, 0, 0, 0, 0, 0, 0, 0, 0, 0, 0, 0, 0, 0, 0, 0, 0, 0, 0, 0, 0, 0, 0, 0, 0, 0, 0, 0, 0, 0, 0, 0, 0, 0, 0, 0, 0, 0, 0, 0, 0, 0, 0, 0, 0, 0, 0, 0, 0, 0]
def r1_145 : List LConfig × List (List Re) :=
  ([⟨184, 12, [448], [], false⟩],
   [[], [], [], [], [], [], [], [], [], [], [], [q133], [], [], [], [], [], [], [], [], [], [], [], [], [], [], []])
def t1_145 : List Nat := [0, 0, 0, 0, 0, 0, 0, 0, 0, 0, 0, 0, 0, 0, 0, 0, 0, 0, 0, 0, 0, 0, 0, 0, 0, 0, 0, 0, 0, 0, 0, 0, 0, 0, 0, 0, 0, 0, 0, 0, 0, 0, 0, 0, 0, 0, 0, 0, 0, 0, 0, 0, 0, 0, 0, 0, 0, 0, 147, 0, 0, 0, 0, 0, 0, 0, 0, 0, 0, 0, 0, 0, 0, 0, 0, 0, 0, 0, 0, 0, 0, 0, 0, 0, 0, 0, 0, 0, 0, 0, 0, 0, 0, 0, 0, 0, 0, 0, 0]
def r1_146 : List LConfig × List (List Re) :=
  ([⟨185, 12, [448], [], false⟩],
   [[], [], [], [], [], [], [], [], [], [], [], [q134], [], [], [], [], [], [], [], [], [], [], [], [], [], [], []])
def t1_146 : List Nat := [0, 123, 0, 0, 0, 0, 0, 0, 0, 0, 0, 0, 0, 0, 0, 0, 0, 0, 0, 0, 0, 0, 0, 0, 0, 0, 0, 0, 0, 0, 0, 0, 0, 0, 0, 0, 0, 0, 0, 0, 0, 0, 0, 0, 0, 0, 0, 0, 0, 0, 0, 0, 0, 0, 0, 0, 0, 0, 0, 0, 0, 0, 0, 0, 0, 0, 0, 0, 0, 0, 0, 0, 0, 0, 0, 0, 0, 0, 0, 0, 0, 0, 0, 0, 0, 0, 0, 0, 0, 0, 0, 0, 0, 0, 0, 0, 0, 0, 0]
def r1_147 : List LConfig × List (List Re) :=
  ([⟨179, 12, [448], [], false⟩],
   [[], [], [], [], [], [], [], [], [], [], [], [q135], [], [], [], [], [], [], [], [], [], [], [], [], [], [], []])
def t1_147 : List Nat := [0, 0, 0, 0, 0, 0, 0, 0, 0, 0, 0, 0, 0, 0, 0, 0, 0, 0, 0, 0, 0, 0, 0, 0, 0, 0, 0, 0, 0, 0, 0, 0, 149, 0, 0, 0, 0, 0, 0, 0, 0, 0, 0, 0, 0, 0, 0, 0, 0, 0, 0, 0, 0, 0, 0, 0, 0, 0, 0, 0, 0, 0, 0, 0, 0, 0, 0, 0, 0, 0, 0, 0, 0, 0, 0, 0, 0, 0, 0, 0, 0, 0, 0, 0, 0, 0, 0, 0, 0, 0, 0, 0, 0, 0, 0, 0, 0, 0, 0]
def r1_148 : List LConfig × List (List Re) :=
  ([⟨180, 12, [448], [], false⟩],
   [[], [], [], [], [], [], [], [], [], [], [], [q134], [], [], [], [], [], [], [], [], [], [], [], [], [], [], []])
def t1_148 : List Nat := [0, 123, 0, 0, 0, 0, 0, 0, 0, 0, 0, 0, 0, 0, 0, 0, 0, 0, 0, 0, 0, 0, 0, 0, 0, 0, 0, 0, 0, 0, 0, 0, 0, 0, 0, 0, 0, 0, 0, 0, 0, 0, 0, 0, 0, 0, 0, 0, 0, 0, 0, 0, 0, 0, 0, 0, 0, 0, 0, 0, 0, 0, 0, 0, 0, 0, 0, 0, 0, 0, 0, 0, 0, 0, 0, 0, 0, 0, 0, 0, 0, 0, 0, 0, 0, 0, 0, 0, 0, 0, 0, 0, 0, 0, 0, 0, 0, 0, 0]
def tab1 : List (List LConfig × List (List Re)) :=
  [r1_0, r1_1, r1_2, r1_3, r1_4, r1_5, r1_6, r1_7, r1_8, r1_9, r1_10, r1_11, r1_12, r1_13, r1_14, r1_15, r1_16, r1_17, r1_18, r1_19, r1_20, r1_21, r1_22, r1_23, r1_24, r1_25, r1_26, r1_27, r1_28, r1_29, r1_30, r1_31, r1_32, r1_33, r1_34, r1_35, r1_36, r1_37, r1_38, r1_39, r1_40, r1_41, r1_42, r1_43, r1_44, r1_45, r1_46, r1_47, r1_48, r1_49, r1_50, r1_51, r1_52, r1_53, r1_54, r1_55, r1_56, r1_57, r1_58, r1_59, r1_60, r1_61, r1_62, r1_63, r1_64, r1_65, r1_66, r1_67, r1_68, r1_69, r1_70, r1_71, r1_72, r1_73, r1_74, r1_75, r1_76, r1_77, r1_78, r1_79, r1_80, r1_81, r1_82, r1_83, r1_84, r1_85, r1_86, r1_87, r1_88, r1_89, r1_90, r1_91, r1_92, r1_93, r1_94, r1_95, r1_96, r1_97, r1_98, r1_99, r1_100, r1_101, r1_102, r1_103, r1_104, r1_105, r1_106, r1_107, r1_108, r1_109, r1_110, r1_111, r1_112, r1_113, r1_114, r1_115, r1_116, r1_117, r1_118, r1_119, r1_120, r1_121, r1_122, r1_123, r1_124, r1_125, r1_126, r1_127, r1_128, r1_129, r1_130, r1_131, r1_132, r1_133, r1_134, r1_135, r1_136, r1_137, r1_138, r1_139, r1_140, r1_141, r1_142, r1_143, r1_144, r1_145, r1_146, r1_147, r1_148]
def tr1 : List (List Nat) :=
  [t1_0, t1_1, t1_2, t1_3, t1_4, t1_5, t1_6, t1_7, t1_8, t1_9, t1_10, t1_11, t1_12, t1_13, t1_14, t1_15, t1_16, t1_17, t1_18, t1_19, t1_20, t1_21, t1_22, t1_23, t1_24, t1_25, t1_26, t1_27, t1_28, t1_29, t1_30, t1_31, t1_32, t1_33, t1_34, t1_35, t1_36, t1_37, t1_38, t1_39, t1_40, t1_41, t1_42, t1_43, t1_44, t1_45, t1_46, t1_47, t1_48, t1_49, t1_50, t1_51, t1_52, t1_53, t1_54, t1_55, t1_56, t1_57, t1_58, t1_59, t1_60, t1_61, t1_62, t1_63, t1_64, t1_65, t1_66, t1_67, t1_68, t1_69, t1_70, t1_71, t1_72, t1_73, t1_74, t1_75, t1_76, t1_77, t1_78, t1_79, t1_80, t1_81, t1_82, t1_83, t1_84, t1_85, t1_86, t1_87, t1_88, t1_89, t1_90, t1_91, t1_92, t1_93, t1_94, t1_95, t1_96, t1_97, t1_98, t1_99, t1_100, t1_101, t1_102, t1_103, t1_104, t1_105, t1_106, t1_107, t1_108, t1_109, t1_110, t1_111, t1_112, t1_113, t1_114, t1_115, t1_116, t1_117, t1_118, t1_119, t1_120, t1_121, t1_122, t1_123, t1_124, t1_125, t1_126, t1_127, t1_128, t1_129, t1_130, t1_131, t1_132, t1_133, t1_134, t1_135, t1_136, t1_137, t1_138, t1_139, t1_140, t1_141, t1_142, t1_143, t1_144, t1_145, t1_146, t1_147, t1_148]

def r2_0 : List LConfig × List (List Re) :=
  ([⟨163, 1, [158, 512], [], false⟩,
   ⟨161, 1, [158, 512], [], false⟩,
   ⟨516, 2, [], [], false⟩,
   ⟨163, 3, [158, 522], [], false⟩,
   ⟨161, 3, [158, 522], [], false⟩,
   ⟨161, 4, [527], [], false⟩,
   ⟨165, 5, [532], [], false⟩,
   ⟨163, 5, [168, 532], [], false⟩,
   ⟨316, 6, [171, 537], [], false⟩,
   ⟨175, 6, [537], [], false⟩,
   ⟨176, 6, [537], [], false⟩,
   ⟨181, 6, [537], [], false⟩,
   ⟨194, 7, [542], [], false⟩,
   ⟨196, 8, [547], [], false⟩,
   ⟨198, 9, [552], [], false⟩,
   ⟨200, 10, [557], [], false⟩,
   ⟨202, 11, [562], [], false⟩,
   ⟨211, 12, [567], [], false⟩,
   ⟨235, 13, [572], [], false⟩,
   ⟨236, 13, [572], [], false⟩,
   ⟨241, 13, [572], [], false⟩,
   ⟨245, 13, [572], [], false⟩,
   ⟨250, 13, [572], [], false⟩,
   ⟨257, 14, [577], [], false⟩,
   ⟨262, 15, [582], [], false⟩,
   ⟨263, 15, [582], [], false⟩,
   ⟨267, 16, [587], [], false⟩,
   ⟨270, 16, [587], [], false⟩,
   ⟨272, 16, [587], [], false⟩,
   ⟨274, 16, [587], [], false⟩,
   ⟨306, 17, [592], [], false⟩,
   ⟨314, 17, [309, 592], [], false⟩,
   ⟨314, 18, [597], [], false⟩,
   ⟨316, 19, [602], [], false⟩,
   ⟨318, 20, [607], [], false⟩],
   [[q6], [q246], [q6], [q1], [q10], [q31], [q32], [q33], [q34], [q35], [q5], [q38], [q77], [q80], [q83], [q104], [q107], [q108], [q11], [q109]])
def t2_0 : List Nat := [2, 3, 2, 4, 5, 6, 7, 2, 8, 9, 10, 11, 11, 11, 11, 11, 11, 11, 12, 2, 13, 14, 14, 14, 15, 14, 14, 14, 14, 14, 14, 14, 14, 14, 14, 14, 14, 14, 2, 16, 14, 2, 17, 14, 14, 14, 15, 18, 14, 14, 14, 14, 19, 14, 14, 14, 14, 14, 20, 21, 14, 14, 2, 22, 2, 22, 2, 22, 2, 23, 23, 2, 22, 2, 24, 2, 23, 2, 22, 2, 22, 2, 22, 2, 22, 2, 22, 2, 23, 2, 23, 23, 23, 23, 23, 23, 23, 23, 2]
def r2_1 : List LConfig × List (List Re) :=
  ([⟨154, 20, [], [⟨7, 19, 0⟩, ⟨2, 0, 0⟩], false⟩],
   [[], [], [], [], [], [], [], [], [], [], [], [], [], [], [], [], [], [], [], [q39]])
def t2_1 : List Nat := [0, 0, 0, 0, 0, 0, 0, 0, 0, 0, 0, 0, 0, 0, 0, 0, 0, 0, 0, 0, 0, 0, 0, 0, 0, 0, 0, 0, 0, 0, 0, 0, 0, 0, 0, 0, 0, 0, 0, 0, 0, 0, 0, 0, 0, 0, 0, 0, 0, 0, 0, 0, 0, 0, 0, 0, 0, 0, 0, 0, 0, 0, 0, 0, 0, 0, 0, 0, 0, 0, 0, 0, 0, 0, 0, 0, 0, 0, 0, 0, 0, 0, 0, 0, 0, 0, 0, 0, 0, 0, 0, 0, 0, 0, 0, 0, 0, 0, 0]
def r2_2 : List LConfig × List (List Re) :=
  ([⟨316, 6, [171, 537], [], false⟩,
   ⟨175, 6, [537], [], false⟩,
   ⟨176, 6, [537], [], false⟩,
   ⟨181, 6, [537], [], false⟩,
   ⟨177, 6, [537], [], false⟩,
   ⟨182, 6, [537], [], false⟩,
   ⟨152, 19, [], [⟨7, 18, 0⟩, ⟨2, 0, 0⟩], false⟩,
   ⟨154, 20, [], [⟨7, 19, 0⟩, ⟨2, 0, 0⟩], false⟩],
   [[], [], [], [], [], [q31, q110, q111], [], [], [], [], [], [], [], [], [], [], [], [], [q39], [q39]])
def t2_2 : List Nat := [0, 52, 0, 0, 0, 0, 0, 0, 0, 0, 49, 0, 0, 0, 0, 0, 0, 0, 0, 0, 0, 0, 0, 0, 0, 0, 0, 0, 0, 0, 53, 0, 0, 0, 0, 0, 0, 0, 0, 0, 0, 0, 0, 0, 0, 0, 0, 0, 0, 0, 0, 0, 0, 0, 0, 0, 54, 0, 0, 0, 0, 0, 0, 0, 0, 0, 0, 0, 0, 0, 0, 0, 0, 0, 0, 0, 0, 0, 0, 0, 0, 0, 0, 0, 0, 0, 0, 0, 0, 0, 0, 0, 0, 0, 0, 0, 0, 0, 0]
def r2_3 : List LConfig × List (List Re) :=
  ([⟨130, 8, [], [⟨7, 6, 0⟩, ⟨2, 0, 0⟩], false⟩,
   ⟨154, 20, [], [⟨7, 19, 0⟩, ⟨2, 0, 0⟩], false⟩],
   [[], [], [], [], [], [], [], [q39], [], [], [], [], [], [], [], [], [], [], [], [q39]])
def t2_3 : List Nat := [0, 0, 0, 0, 0, 0, 0, 0, 0, 0, 0, 0, 0, 0, 0, 0, 0, 0, 0, 0, 0, 0, 0, 0, 0, 0, 0, 0, 0, 0, 0, 0, 0, 0, 0, 0, 0, 0, 0, 0, 0, 0, 0, 0, 0, 0, 0, 0, 0, 0, 0, 0, 0, 0, 0, 0, 0, 0, 0, 0, 0, 0, 0, 0, 0, 0, 0, 0, 0, 0, 0, 0, 0, 0, 0, 0, 0, 0, 0, 0, 0, 0, 0, 0, 0, 0, 0, 0, 0, 0, 0, 0, 0, 0, 0, 0, 0, 0, 0]
def r2_4 : List LConfig × List (List Re) :=
  ([⟨132, 9, [], [⟨7, 7, 0⟩, ⟨2, 0, 0⟩], false⟩,
   ⟨154, 20, [], [⟨7, 19, 0⟩, ⟨2, 0, 0⟩], false⟩],
   [[], [], [], [], [], [], [], [], [q39], [], [], [], [], [], [], [], [], [], [], [q39]])
def t2_4 : List Nat := [0, 0, 0, 0, 0, 0, 0, 0, 0, 0, 0, 0, 0, 0, 0, 0, 0, 0, 0, 0, 0, 0, 0, 0, 0, 0, 0, 0, 0, 0, 0, 0, 0, 0, 0, 0, 0, 0, 0, 0, 0, 0, 0, 0, 0, 0, 0, 0, 0, 0, 0, 0, 0, 0, 0, 0, 0, 0, 0, 0, 0, 0, 0, 0, 0, 0, 0, 0, 0, 0, 0, 0, 0, 0, 0, 0, 0, 0, 0, 0, 0, 0, 0, 0, 0, 0, 0, 0, 0, 0, 0, 0, 0, 0, 0, 0, 0, 0, 0]
def r2_5 : List LConfig × List (List Re) :=
  ([⟨124, 5, [], [⟨7, 3, 0⟩, ⟨2, 0, 0⟩], false⟩,
   ⟨264, 15, [582], [], false⟩,
   ⟨154, 20, [], [⟨7, 19, 0⟩, ⟨2, 0, 0⟩], false⟩],
   [[], [], [], [], [q39], [], [], [], [], [], [], [], [], [], [q7], [], [], [], [], [q39]])
def t2_5 : List Nat := [0, 0, 0, 0, 0, 51, 0, 0, 0, 0, 0, 0, 0, 0, 0, 0, 0, 0, 0, 0, 0, 0, 0, 0, 0, 0, 0, 0, 0, 0, 0, 0, 0, 0, 0, 0, 0, 0, 0, 0, 0, 0, 0, 0, 0, 0, 0, 0, 0, 0, 0, 0, 0, 0, 0, 0, 0, 0, 0, 0, 0, 0, 0, 0, 0, 0, 0, 0, 0, 0, 0, 0, 0, 0, 0, 0, 0, 0, 0, 0, 0, 0, 0, 0, 0, 0, 0, 0, 0, 0, 0, 0, 0, 0, 0, 0, 0, 0, 0]
def r2_6 : List LConfig × List (List Re) :=
  ([⟨202, 1, [160, 512], [], false⟩,
   ⟨202, 3, [160, 522], [], false⟩,
   ⟨122, 4, [], [⟨7, 2, 0⟩, ⟨2, 0, 0⟩], false⟩,
   ⟨154, 20, [], [⟨7, 19, 0⟩, ⟨2, 0, 0⟩], false⟩],
   [[q5], [], [q5], [q39], [], [], [], [], [], [], [], [], [], [], [], [], [], [], [], [q39]])
def t2_6 : List Nat := [0, 0, 0, 0, 0, 0, 0, 0, 0, 0, 0, 50, 50, 50, 50, 50, 50, 50, 0, 0, 0, 0, 0, 0, 0, 0, 0, 0, 0, 0, 0, 0, 0, 0, 0, 0, 0, 0, 0, 0, 0, 0, 0, 0, 0, 0, 0, 0, 0, 0, 0, 0, 0, 0, 0, 0, 0, 0, 0, 0, 0, 0, 0, 0, 0, 0, 0, 0, 0, 0, 0, 0, 0, 0, 0, 0, 0, 0, 0, 0, 0, 0, 0, 0, 0, 0, 0, 0, 0, 0, 0, 0, 0, 0, 0, 0, 0, 0, 0]
def r2_7 : List LConfig × List (List Re) :=
  ([⟨202, 1, [160, 512], [], false⟩,
   ⟨118, 2, [], [⟨7, 3, 0⟩, ⟨2, 0, 0⟩], false⟩,
   ⟨202, 3, [160, 522], [], false⟩,
   ⟨124, 5, [], [⟨7, 3, 0⟩, ⟨2, 0, 0⟩], false⟩,
   ⟨154, 20, [], [⟨7, 19, 0⟩, ⟨2, 0, 0⟩], false⟩],
   [[q5], [q39], [q5], [], [q39], [], [], [], [], [], [], [], [], [], [], [], [], [], [], [q39]])
def t2_7 : List Nat := [0, 0, 0, 0, 0, 0, 0, 0, 0, 0, 0, 50, 50, 50, 50, 50, 50, 50, 0, 0, 0, 0, 0, 0, 0, 0, 0, 0, 0, 0, 0, 0, 0, 0, 0, 0, 0, 0, 0, 0, 0, 0, 0, 0, 0, 0, 0, 0, 0, 0, 0, 0, 0, 0, 0, 0, 0, 0, 0, 0, 0, 0, 0, 0, 0, 0, 0, 0, 0, 0, 0, 0, 0, 0, 0, 0, 0, 0, 0, 0, 0, 0, 0, 0, 0, 0, 0, 0, 0, 0, 0, 0, 0, 0, 0, 0, 0, 0, 0]
def r2_8 : List LConfig × List (List Re) :=
  ([⟨118, 2, [], [⟨7, 3, 0⟩, ⟨2, 0, 0⟩], false⟩,
   ⟨128, 7, [], [⟨7, 5, 0⟩, ⟨2, 0, 0⟩], false⟩,
   ⟨154, 20, [], [⟨7, 19, 0⟩, ⟨2, 0, 0⟩], false⟩],
   [[], [q39], [], [], [], [], [q39], [], [], [], [], [], [], [], [], [], [], [], [], [q39]])
def t2_8 : List Nat := [0, 0, 0, 0, 0, 0, 0, 0, 0, 0, 0, 0, 0, 0, 0, 0, 0, 0, 0, 0, 0, 0, 0, 0, 0, 0, 0, 0, 0, 0, 0, 0, 0, 0, 0, 0, 0, 0, 0, 0, 0, 0, 0, 0, 0, 0, 0, 0, 0, 0, 0, 0, 0, 0, 0, 0, 0, 0, 0, 0, 0, 0, 0, 0, 0, 0, 0, 0, 0, 0, 0, 0, 0, 0, 0, 0, 0, 0, 0, 0, 0, 0, 0, 0, 0, 0, 0, 0, 0, 0, 0, 0, 0, 0, 0, 0, 0, 0, 0]
def r2_9 : List LConfig × List (List Re) :=
  ([⟨316, 6, [190, 537], [], false⟩,
   ⟨126, 6, [], [⟨7, 4, 0⟩, ⟨2, 0, 0⟩], false⟩,
   ⟨154, 20, [], [⟨7, 19, 0⟩, ⟨2, 0, 0⟩], false⟩],
   [[], [], [], [], [], [q12], [], [], [], [], [], [], [], [], [], [], [], [], [], [q39]])
def t2_9 : List Nat := [0, 49, 0, 0, 0, 0, 0, 0, 0, 0, 0, 0, 0, 0, 0, 0, 0, 0, 0, 0, 0, 0, 0, 0, 0, 0, 0, 0, 0, 0, 0, 0, 0, 0, 0, 0, 0, 0, 0, 0, 0, 0, 0, 0, 0, 0, 0, 0, 0, 0, 0, 0, 0, 0, 0, 0, 0, 0, 0, 0, 0, 0, 0, 0, 0, 0, 0, 0, 0, 0, 0, 0, 0, 0, 0, 0, 0, 0, 0, 0, 0, 0, 0, 0, 0, 0, 0, 0, 0, 0, 0, 0, 0, 0, 0, 0, 0, 0, 0]
def r2_10 : List LConfig × List (List Re) :=
  ([⟨202, 11, [562], [], false⟩,
   ⟨136, 11, [], [⟨7, 9, 0⟩, ⟨2, 0, 0⟩], false⟩,
   ⟨154, 20, [], [⟨7, 19, 0⟩, ⟨2, 0, 0⟩], false⟩],
   [[], [], [], [], [], [], [], [], [], [], [q4], [], [], [], [], [], [], [], [], [q39]])
def t2_10 : List Nat := [0, 0, 0, 0, 0, 0, 0, 0, 0, 0, 0, 48, 48, 48, 48, 48, 48, 48, 0, 0, 0, 0, 0, 0, 0, 0, 0, 0, 0, 0, 0, 0, 0, 0, 0, 0, 0, 0, 0, 0, 0, 0, 0, 0, 0, 0, 0, 0, 0, 0, 0, 0, 0, 0, 0, 0, 0, 0, 0, 0, 0, 0, 0, 0, 0, 0, 0, 0, 0, 0, 0, 0, 0, 0, 0, 0, 0, 0, 0, 0, 0, 0, 0, 0, 0, 0, 0, 0, 0, 0, 0, 0, 0, 0, 0, 0, 0, 0, 0]
def r2_11 : List LConfig × List (List Re) :=
  ([⟨134, 10, [], [⟨7, 8, 0⟩, ⟨2, 0, 0⟩], false⟩,
   ⟨154, 20, [], [⟨7, 19, 0⟩, ⟨2, 0, 0⟩], false⟩],
   [[], [], [], [], [], [], [], [], [], [q39], [], [], [], [], [], [], [], [], [], [q39]])
def t2_11 : List Nat := [0, 0, 0, 0, 0, 0, 0, 0, 0, 0, 0, 0, 0, 0, 0, 0, 0, 0, 0, 0, 0, 0, 0, 0, 0, 0, 0, 0, 0, 0, 0, 0, 0, 0, 0, 0, 0, 0, 0, 0, 0, 0, 0, 0, 0, 0, 0, 0, 0, 0, 0, 0, 0, 0, 0, 0, 0, 0, 0, 0, 0, 0, 0, 0, 0, 0, 0, 0, 0, 0, 0, 0, 0, 0, 0, 0, 0, 0, 0, 0, 0, 0, 0, 0, 0, 0, 0, 0, 0, 0, 0, 0, 0, 0, 0, 0, 0, 0, 0]
def r2_12 : List LConfig × List (List Re) :=
  ([⟨140, 13, [], [⟨7, 12, 0⟩, ⟨2, 0, 0⟩], false⟩,
   ⟨154, 20, [], [⟨7, 19, 0⟩, ⟨2, 0, 0⟩], false⟩],
   [[], [], [], [], [], [], [], [], [], [], [], [], [q39], [], [], [], [], [], [], [q39]])
def t2_12 : List Nat := [0, 0, 0, 0, 0, 0, 0, 0, 0, 0, 0, 0, 0, 0, 0, 0, 0, 0, 0, 0, 0, 0, 0, 0, 0, 0, 0, 0, 0, 0, 0, 0, 0, 0, 0, 0, 0, 0, 0, 0, 0, 0, 0, 0, 0, 0, 0, 0, 0, 0, 0, 0, 0, 0, 0, 0, 0, 0, 0, 0, 0, 0, 0, 0, 0, 0, 0, 0, 0, 0, 0, 0, 0, 0, 0, 0, 0, 0, 0, 0, 0, 0, 0, 0, 0, 0, 0, 0, 0, 0, 0, 0, 0, 0, 0, 0, 0, 0, 0]
def r2_13 : List LConfig × List (List Re) :=
  ([⟨306, 17, [592], [], false⟩,
   ⟨314, 17, [309, 592], [], false⟩,
   ⟨148, 17, [], [⟨7, 16, 0⟩, ⟨2, 0, 0⟩], false⟩,
   ⟨154, 20, [], [⟨7, 19, 0⟩, ⟨2, 0, 0⟩], false⟩],
   [[], [], [], [], [], [], [], [], [], [], [], [], [], [], [], [], [q106], [], [], [q39]])
def t2_13 : List Nat := [0, 0, 0, 0, 0, 0, 0, 0, 0, 0, 0, 0, 0, 0, 0, 0, 0, 0, 0, 0, 0, 26, 26, 26, 26, 26, 26, 26, 26, 26, 26, 26, 26, 26, 26, 26, 26, 26, 0, 0, 26, 0, 26, 26, 26, 26, 26, 26, 26, 26, 26, 26, 26, 26, 26, 26, 26, 26, 26, 26, 26, 26, 0, 26, 0, 26, 0, 26, 0, 0, 0, 0, 26, 0, 0, 0, 0, 0, 26, 0, 26, 0, 26, 0, 26, 0, 26, 0, 0, 0, 0, 0, 0, 0, 0, 0, 0, 0, 0]
def r2_14 : List LConfig × List (List Re) :=
  ([⟨202, 12, [210, 213, 567], [], false⟩,
   ⟨163, 12, [158, 210, 213, 567], [], false⟩,
   ⟨161, 12, [158, 210, 213, 567], [], false⟩,
   ⟨306, 17, [592], [], false⟩,
   ⟨314, 17, [309, 592], [], false⟩,
   ⟨148, 17, [], [⟨7, 16, 0⟩, ⟨2, 0, 0⟩], false⟩,
   ⟨154, 20, [], [⟨7, 19, 0⟩, ⟨2, 0, 0⟩], false⟩],
   [[], [], [], [], [], [], [], [], [], [], [], [q37], [], [], [], [], [q106], [], [], [q39]])
def t2_14 : List Nat := [0, 0, 0, 0, 0, 0, 45, 0, 45, 0, 0, 46, 46, 46, 46, 46, 46, 46, 0, 0, 0, 26, 26, 26, 26, 26, 26, 26, 26, 26, 26, 26, 26, 26, 26, 26, 26, 26, 0, 0, 26, 0, 26, 26, 26, 26, 26, 26, 26, 26, 26, 26, 26, 26, 26, 26, 26, 26, 26, 26, 26, 26, 0, 26, 0, 26, 0, 26, 0, 0, 0, 0, 26, 0, 0, 0, 0, 0, 26, 0, 26, 0, 26, 0, 26, 0, 26, 0, 0, 0, 0, 0, 0, 0, 0, 0, 0, 0, 0]
def r2_15 : List LConfig × List (List Re) :=
  ([⟨144, 15, [], [⟨7, 14, 0⟩, ⟨2, 0, 0⟩], false⟩,
   ⟨154, 20, [], [⟨7, 19, 0⟩, ⟨2, 0, 0⟩], false⟩],
   [[], [], [], [], [], [], [], [], [], [], [], [], [], [], [q39], [], [], [], [], [q39]])
def t2_15 : List Nat := [0, 0, 0, 0, 0, 0, 0, 0, 0, 0, 0, 0, 0, 0, 0, 0, 0, 0, 0, 0, 0, 0, 0, 0, 0, 0, 0, 0, 0, 0, 0, 0, 0, 0, 0, 0, 0, 0, 0, 0, 0, 0, 0, 0, 0, 0, 0, 0, 0, 0, 0, 0, 0, 0, 0, 0, 0, 0, 0, 0, 0, 0, 0, 0, 0, 0, 0, 0, 0, 0, 0, 0, 0, 0, 0, 0, 0, 0, 0, 0, 0, 0, 0, 0, 0, 0, 0, 0, 0, 0, 0, 0, 0, 0, 0, 0, 0, 0, 0]
def r2_16 : List LConfig × List (List Re) :=
  ([⟨237, 13, [572], [], false⟩,
   ⟨306, 17, [592], [], false⟩,
   ⟨314, 17, [309, 592], [], false⟩,
   ⟨148, 17, [], [⟨7, 16, 0⟩, ⟨2, 0, 0⟩], false⟩,
   ⟨154, 20, [], [⟨7, 19, 0⟩, ⟨2, 0, 0⟩], false⟩],
   [[], [], [], [], [], [], [], [], [], [], [], [], [q57], [], [], [], [q106], [], [], [q39]])
def t2_16 : List Nat := [0, 0, 0, 0, 0, 0, 0, 0, 0, 0, 0, 0, 0, 0, 0, 0, 0, 0, 0, 0, 0, 26, 26, 26, 26, 26, 26, 26, 26, 26, 26, 26, 26, 26, 26, 26, 26, 26, 0, 0, 26, 0, 26, 26, 26, 26, 26, 42, 26, 26, 26, 26, 26, 26, 26, 26, 26, 26, 26, 26, 26, 26, 0, 26, 0, 26, 0, 26, 0, 0, 0, 0, 26, 0, 0, 0, 0, 0, 26, 0, 26, 0, 26, 0, 26, 0, 26, 0, 0, 0, 0, 0, 0, 0, 0, 0, 0, 0, 0]
def r2_17 : List LConfig × List (List Re) :=
  ([⟨242, 13, [572], [], false⟩,
   ⟨306, 17, [592], [], false⟩,
   ⟨314, 17, [309, 592], [], false⟩,
   ⟨148, 17, [], [⟨7, 16, 0⟩, ⟨2, 0, 0⟩], false⟩,
   ⟨154, 20, [], [⟨7, 19, 0⟩, ⟨2, 0, 0⟩], false⟩],
   [[], [], [], [], [], [], [], [], [], [], [], [], [q62], [], [], [], [q106], [], [], [q39]])
def t2_17 : List Nat := [0, 0, 0, 0, 0, 0, 0, 0, 0, 0, 0, 0, 0, 0, 0, 0, 0, 0, 0, 0, 0, 26, 26, 26, 26, 26, 26, 26, 26, 26, 26, 26, 26, 26, 26, 26, 26, 26, 0, 0, 26, 0, 26, 26, 26, 26, 26, 26, 26, 26, 26, 26, 26, 26, 26, 26, 26, 26, 40, 26, 26, 26, 0, 26, 0, 26, 0, 26, 0, 0, 0, 0, 26, 0, 0, 0, 0, 0, 26, 0, 26, 0, 26, 0, 26, 0, 26, 0, 0, 0, 0, 0, 0, 0, 0, 0, 0, 0, 0]
def r2_18 : List LConfig × List (List Re) :=
  ([⟨268, 16, [587], [], false⟩,
   ⟨271, 16, [587], [], false⟩,
   ⟨273, 16, [587], [], false⟩,
   ⟨275, 16, [587], [], false⟩,
   ⟨306, 17, [592], [], false⟩,
   ⟨314, 17, [309, 592], [], false⟩,
   ⟨148, 17, [], [⟨7, 16, 0⟩, ⟨2, 0, 0⟩], false⟩,
   ⟨154, 20, [], [⟨7, 19, 0⟩, ⟨2, 0, 0⟩], false⟩],
   [[], [], [], [], [], [], [], [], [], [], [], [], [], [], [], [q123, q124, q125, q126], [q106], [], [], [q39]])
def t2_18 : List Nat := [0, 0, 0, 0, 0, 0, 0, 0, 0, 0, 0, 0, 0, 0, 0, 0, 0, 0, 0, 0, 0, 26, 26, 26, 26, 26, 26, 26, 26, 26, 26, 26, 26, 26, 26, 26, 26, 26, 0, 0, 26, 0, 26, 32, 26, 26, 26, 26, 32, 26, 26, 26, 26, 26, 32, 33, 26, 26, 26, 26, 26, 26, 0, 26, 0, 26, 0, 26, 0, 0, 0, 0, 26, 0, 0, 0, 0, 0, 26, 0, 26, 0, 26, 0, 26, 0, 26, 0, 0, 0, 0, 0, 0, 0, 0, 0, 0, 0, 0]
def r2_19 : List LConfig × List (List Re) :=
  ([⟨251, 13, [572], [], false⟩,
   ⟨306, 17, [592], [], false⟩,
   ⟨314, 17, [309, 592], [], false⟩,
   ⟨148, 17, [], [⟨7, 16, 0⟩, ⟨2, 0, 0⟩], false⟩,
   ⟨154, 20, [], [⟨7, 19, 0⟩, ⟨2, 0, 0⟩], false⟩],
   [[], [], [], [], [], [], [], [], [], [], [], [], [q72], [], [], [], [q106], [], [], [q39]])
def t2_19 : List Nat := [0, 0, 0, 0, 0, 0, 0, 0, 0, 0, 0, 0, 0, 0, 0, 0, 0, 0, 0, 0, 0, 26, 26, 26, 26, 26, 26, 26, 26, 26, 26, 26, 26, 26, 26, 26, 26, 26, 0, 0, 26, 0, 26, 26, 26, 26, 31, 26, 26, 26, 26, 26, 26, 26, 26, 26, 26, 26, 26, 26, 26, 26, 0, 26, 0, 26, 0, 26, 0, 0, 0, 0, 26, 0, 0, 0, 0, 0, 26, 0, 26, 0, 26, 0, 26, 0, 26, 0, 0, 0, 0, 0, 0, 0, 0, 0, 0, 0, 0]
def r2_20 : List LConfig × List (List Re) :=
  ([⟨246, 13, [572], [], false⟩,
   ⟨306, 17, [592], [], false⟩,
   ⟨314, 17, [309, 592], [], false⟩,
   ⟨148, 17, [], [⟨7, 16, 0⟩, ⟨2, 0, 0⟩], false⟩,
   ⟨154, 20, [], [⟨7, 19, 0⟩, ⟨2, 0, 0⟩], false⟩],
   [[], [], [], [], [], [], [], [], [], [], [], [], [q70], [], [], [], [q106], [], [], [q39]])
def t2_20 : List Nat := [0, 0, 0, 0, 0, 0, 0, 0, 0, 0, 0, 0, 0, 0, 0, 0, 0, 0, 0, 0, 0, 26, 26, 26, 26, 26, 26, 26, 26, 26, 26, 26, 26, 26, 26, 26, 26, 26, 0, 0, 26, 0, 26, 26, 26, 26, 26, 26, 26, 26, 27, 26, 26, 26, 26, 26, 26, 26, 26, 26, 26, 26, 0, 26, 0, 26, 0, 26, 0, 0, 0, 0, 26, 0, 0, 0, 0, 0, 26, 0, 26, 0, 26, 0, 26, 0, 26, 0, 0, 0, 0, 0, 0, 0, 0, 0, 0, 0, 0]
def r2_21 : List LConfig × List (List Re) :=
  ([⟨306, 17, [592], [], false⟩,
   ⟨314, 17, [309, 592], [], false⟩,
   ⟨148, 17, [], [⟨7, 16, 0⟩, ⟨2, 0, 0⟩], false⟩,
   ⟨150, 18, [], [⟨7, 17, 0⟩, ⟨2, 0, 0⟩], false⟩,
   ⟨154, 20, [], [⟨7, 19, 0⟩, ⟨2, 0, 0⟩], false⟩],
   [[], [], [], [], [], [], [], [], [], [], [], [], [], [], [], [], [q106], [q39], [], [q39]])
def t2_21 : List Nat := [0, 0, 0, 0, 0, 0, 0, 0, 0, 0, 0, 0, 0, 0, 0, 0, 0, 0, 0, 0, 0, 26, 26, 26, 26, 26, 26, 26, 26, 26, 26, 26, 26, 26, 26, 26, 26, 26, 0, 0, 26, 0, 26, 26, 26, 26, 26, 26, 26, 26, 26, 26, 26, 26, 26, 26, 26, 26, 26, 26, 26, 26, 0, 26, 0, 26, 0, 26, 0, 0, 0, 0, 26, 0, 0, 0, 0, 0, 26, 0, 26, 0, 26, 0, 26, 0, 26, 0, 0, 0, 0, 0, 0, 0, 0, 0, 0, 0, 0]
def r2_22 : List LConfig × List (List Re) :=
  ([⟨257, 14, [577], [], false⟩,
   ⟨142, 14, [], [⟨7, 13, 0⟩, ⟨2, 0, 0⟩], false⟩,
   ⟨154, 20, [], [⟨7, 19, 0⟩, ⟨2, 0, 0⟩], false⟩],
   [[], [], [], [], [], [], [], [], [], [], [], [], [], [q79], [], [], [], [], [], [q39]])
def t2_22 : List Nat := [0, 0, 0, 0, 0, 0, 0, 0, 0, 0, 0, 0, 0, 0, 0, 0, 0, 0, 0, 0, 0, 0, 0, 0, 0, 0, 0, 0, 0, 0, 0, 0, 0, 0, 0, 0, 0, 0, 0, 0, 0, 0, 0, 0, 0, 0, 0, 0, 0, 0, 0, 0, 0, 0, 0, 0, 0, 0, 0, 0, 0, 0, 0, 0, 0, 0, 0, 0, 0, 25, 25, 0, 0, 0, 0, 0, 25, 0, 0, 0, 0, 0, 0, 0, 0, 0, 0, 0, 25, 0, 25, 25, 25, 25, 25, 25, 25, 25, 0]
def r2_23 : List LConfig × List (List Re) :=
  ([⟨124, 5, [], [⟨7, 3, 0⟩, ⟨2, 0, 0⟩], false⟩,
   ⟨154, 20, [], [⟨7, 19, 0⟩, ⟨2, 0, 0⟩], false⟩],
   [[], [], [], [], [q39], [], [], [], [], [], [], [], [], [], [], [], [], [], [], [q39]])
def t2_23 : List Nat := [0, 0, 0, 0, 0, 0, 0, 0, 0, 0, 0, 0, 0, 0, 0, 0, 0, 0, 0, 0, 0, 0, 0, 0, 0, 0, 0, 0, 0, 0, 0, 0, 0, 0, 0, 0, 0, 0, 0, 0, 0, 0, 0, 0, 0, 0, 0, 0, 0, 0, 0, 0, 0, 0, 0, 0, 0, 0, 0, 0, 0, 0, 0, 0, 0, 0, 0, 0, 0, 0, 0, 0, 0, 0, 0, 0, 0, 0, 0, 0, 0, 0, 0, 0, 0, 0, 0, 0, 0, 0, 0, 0, 0, 0, 0, 0, 0, 0, 0]
def r2_24 : List LConfig × List (List Re) :=
  ([⟨257, 14, [577], [], false⟩,
   ⟨142, 14, [], [⟨7, 13, 0⟩, ⟨2, 0, 0⟩], false⟩],
   [[], [], [], [], [], [], [], [], [], [], [], [], [], [q79], [], [], [], [], [], []])
def t2_24 : List Nat := [0, 0, 0, 0, 0, 0, 0, 0, 0, 0, 0, 0, 0, 0, 0, 0, 0, 0, 0, 0, 0, 0, 0, 0, 0, 0, 0, 0, 0, 0, 0, 0, 0, 0, 0, 0, 0, 0, 0, 0, 0, 0, 0, 0, 0, 0, 0, 0, 0, 0, 0, 0, 0, 0, 0, 0, 0, 0, 0, 0, 0, 0, 0, 0, 0, 0, 0, 0, 0, 25, 25, 0, 0, 0, 0, 0, 25, 0, 0, 0, 0, 0, 0, 0, 0, 0, 0, 0, 25, 0, 25, 25, 25, 25, 25, 25, 25, 25, 0]
def r2_25 : List LConfig × List (List Re) :=
  ([⟨306, 17, [592], [], false⟩,
   ⟨314, 17, [309, 592], [], false⟩,
   ⟨148, 17, [], [⟨7, 16, 0⟩, ⟨2, 0, 0⟩], false⟩],
   [[], [], [], [], [], [], [], [], [], [], [], [], [], [], [], [], [q106], [], [], []])
def t2_25 : List Nat := [0, 0, 0, 0, 0, 0, 0, 0, 0, 0, 0, 0, 0, 0, 0, 0, 0, 0, 0, 0, 0, 26, 26, 26, 26, 26, 26, 26, 26, 26, 26, 26, 26, 26, 26, 26, 26, 26, 0, 0, 26, 0, 26, 26, 26, 26, 26, 26, 26, 26, 26, 26, 26, 26, 26, 26, 26, 26, 26, 26, 26, 26, 0, 26, 0, 26, 0, 26, 0, 0, 0, 0, 26, 0, 0, 0, 0, 0, 26, 0, 26, 0, 26, 0, 26, 0, 26, 0, 0, 0, 0, 0, 0, 0, 0, 0, 0, 0, 0]
def r2_26 : List LConfig × List (List Re) :=
  ([⟨247, 13, [572], [], false⟩,
   ⟨306, 17, [592], [], false⟩,
   ⟨314, 17, [309, 592], [], false⟩,
   ⟨148, 17, [], [⟨7, 16, 0⟩, ⟨2, 0, 0⟩], false⟩],
   [[], [], [], [], [], [], [], [], [], [], [], [], [q69], [], [], [], [q106], [], [], []])
def t2_26 : List Nat := [0, 0, 0, 0, 0, 0, 0, 0, 0, 0, 0, 0, 0, 0, 0, 0, 0, 0, 0, 0, 0, 26, 26, 26, 26, 26, 26, 26, 26, 26, 26, 26, 26, 26, 26, 26, 26, 26, 0, 0, 26, 0, 26, 26, 26, 26, 26, 26, 26, 26, 26, 26, 26, 26, 28, 26, 26, 26, 26, 26, 26, 26, 0, 26, 0, 26, 0, 26, 0, 0, 0, 0, 26, 0, 0, 0, 0, 0, 26, 0, 26, 0, 26, 0, 26, 0, 26, 0, 0, 0, 0, 0, 0, 0, 0, 0, 0, 0, 0]
def r2_27 : List LConfig × List (List Re) :=
  ([⟨248, 13, [572], [], false⟩,
   ⟨306, 17, [592], [], false⟩,
   ⟨314, 17, [309, 592], [], false⟩,
   ⟨148, 17, [], [⟨7, 16, 0⟩, ⟨2, 0, 0⟩], false⟩],
   [[], [], [], [], [], [], [], [], [], [], [], [], [q68], [], [], [], [q106], [], [], []])
def t2_27 : List Nat := [0, 0, 0, 0, 0, 0, 0, 0, 0, 0, 0, 0, 0, 0, 0, 0, 0, 0, 0, 0, 0, 26, 26, 26, 26, 26, 26, 26, 26, 26, 26, 26, 26, 26, 26, 26, 26, 26, 0, 0, 26, 0, 26, 26, 29, 26, 26, 26, 26, 26, 26, 26, 26, 26, 26, 26, 26, 26, 26, 26, 26, 26, 0, 26, 0, 26, 0, 26, 0, 0, 0, 0, 26, 0, 0, 0, 0, 0, 26, 0, 26, 0, 26, 0, 26, 0, 26, 0, 0, 0, 0, 0, 0, 0, 0, 0, 0, 0, 0]
def r2_28 : List LConfig × List (List Re) :=
  ([⟨249, 13, [572], [], false⟩,
   ⟨306, 17, [592], [], false⟩,
   ⟨314, 17, [309, 592], [], false⟩,
   ⟨148, 17, [], [⟨7, 16, 0⟩, ⟨2, 0, 0⟩], false⟩],
   [[], [], [], [], [], [], [], [], [], [], [], [], [q22], [], [], [], [q106], [], [], []])
def t2_28 : List Nat := [0, 0, 0, 0, 0, 0, 0, 0, 0, 0, 0, 0, 0, 0, 0, 0, 0, 0, 0, 0, 0, 26, 26, 26, 26, 26, 26, 26, 26, 26, 26, 26, 26, 26, 26, 26, 26, 26, 0, 0, 26, 0, 26, 26, 26, 26, 30, 26, 26, 26, 26, 26, 26, 26, 26, 26, 26, 26, 26, 26, 26, 26, 0, 26, 0, 26, 0, 26, 0, 0, 0, 0, 26, 0, 0, 0, 0, 0, 26, 0, 26, 0, 26, 0, 26, 0, 26, 0, 0, 0, 0, 0, 0, 0, 0, 0, 0, 0, 0]
def r2_29 : List LConfig × List (List Re) :=
  ([⟨140, 13, [], [⟨7, 12, 0⟩, ⟨2, 0, 0⟩], false⟩,
   ⟨306, 17, [592], [], false⟩,
   ⟨314, 17, [309, 592], [], false⟩,
   ⟨148, 17, [], [⟨7, 16, 0⟩, ⟨2, 0, 0⟩], false⟩],
   [[], [], [], [], [], [], [], [], [], [], [], [], [q39], [], [], [], [q106], [], [], []])
def t2_29 : List Nat := [0, 0, 0, 0, 0, 0, 0, 0, 0, 0, 0, 0, 0, 0, 0, 0, 0, 0, 0, 0, 0, 26, 26, 26, 26, 26, 26, 26, 26, 26, 26, 26, 26, 26, 26, 26, 26, 26, 0, 0, 26, 0, 26, 26, 26, 26, 26, 26, 26, 26, 26, 26, 26, 26, 26, 26, 26, 26, 26, 26, 26, 26, 0, 26, 0, 26, 0, 26, 0, 0, 0, 0, 26, 0, 0, 0, 0, 0, 26, 0, 26, 0, 26, 0, 26, 0, 26, 0, 0, 0, 0, 0, 0, 0, 0, 0, 0, 0, 0]
def r2_30 : List LConfig × List (List Re) :=
  ([⟨252, 13, [572], [], false⟩,
   ⟨306, 17, [592], [], false⟩,
   ⟨314, 17, [309, 592], [], false⟩,
   ⟨148, 17, [], [⟨7, 16, 0⟩, ⟨2, 0, 0⟩], false⟩],
   [[], [], [], [], [], [], [], [], [], [], [], [], [q53], [], [], [], [q106], [], [], []])
def t2_30 : List Nat := [0, 0, 0, 0, 0, 0, 0, 0, 0, 0, 0, 0, 0, 0, 0, 0, 0, 0, 0, 0, 0, 26, 26, 26, 26, 26, 26, 26, 26, 26, 26, 26, 26, 26, 26, 26, 26, 26, 0, 0, 26, 0, 26, 26, 26, 26, 26, 30, 26, 26, 26, 26, 26, 26, 26, 26, 26, 26, 26, 26, 26, 26, 0, 26, 0, 26, 0, 26, 0, 0, 0, 0, 26, 0, 0, 0, 0, 0, 26, 0, 26, 0, 26, 0, 26, 0, 26, 0, 0, 0, 0, 0, 0, 0, 0, 0, 0, 0, 0]
def r2_31 : List LConfig × List (List Re) :=
  ([⟨316, 16, [280, 587], [], false⟩,
   ⟨284, 16, [587], [], false⟩,
   ⟨306, 17, [592], [], false⟩,
   ⟨314, 17, [309, 592], [], false⟩,
   ⟨148, 17, [], [⟨7, 16, 0⟩, ⟨2, 0, 0⟩], false⟩],
   [[], [], [], [], [], [], [], [], [], [], [], [], [], [], [], [q103], [q106], [], [], []])
def t2_31 : List Nat := [0, 34, 0, 35, 0, 0, 0, 0, 0, 0, 0, 0, 0, 0, 0, 0, 0, 0, 0, 0, 0, 26, 26, 26, 26, 26, 26, 26, 26, 26, 26, 26, 26, 26, 26, 26, 26, 26, 0, 0, 26, 0, 26, 26, 26, 26, 26, 26, 26, 26, 26, 26, 26, 26, 26, 26, 26, 26, 26, 26, 26, 26, 0, 26, 0, 26, 0, 26, 0, 0, 0, 0, 26, 0, 0, 0, 0, 0, 26, 0, 26, 0, 26, 0, 26, 0, 26, 0, 0, 0, 0, 0, 0, 0, 0, 0, 0, 0, 0]
def r2_32 : List LConfig × List (List Re) :=
  ([⟨269, 16, [587], [], false⟩,
   ⟨306, 17, [592], [], false⟩,
   ⟨314, 17, [309, 592], [], false⟩,
   ⟨148, 17, [], [⟨7, 16, 0⟩, ⟨2, 0, 0⟩], false⟩],
   [[], [], [], [], [], [], [], [], [], [], [], [], [], [], [], [q124], [q106], [], [], []])
def t2_32 : List Nat := [0, 0, 0, 0, 0, 0, 0, 0, 0, 0, 0, 0, 0, 0, 0, 0, 0, 0, 0, 0, 0, 26, 26, 26, 26, 26, 26, 26, 26, 26, 26, 26, 26, 26, 26, 26, 26, 26, 0, 0, 26, 0, 26, 26, 26, 26, 26, 26, 32, 26, 26, 26, 26, 26, 26, 26, 26, 26, 26, 26, 26, 26, 0, 26, 0, 26, 0, 26, 0, 0, 0, 0, 26, 0, 0, 0, 0, 0, 26, 0, 26, 0, 26, 0, 26, 0, 26, 0, 0, 0, 0, 0, 0, 0, 0, 0, 0, 0, 0]
def r2_33 : List LConfig × List (List Re) :=
  ([⟨316, 16, [280, 587], [], false⟩,
   ⟨284, 16, [587], [], false⟩],
   [[], [], [], [], [], [], [], [], [], [], [], [], [], [], [], [q103], [], [], [], []])
def t2_33 : List Nat := [0, 34, 0, 35, 0, 0, 0, 0, 0, 0, 0, 0, 0, 0, 0, 0, 0, 0, 0, 0, 0, 0, 0, 0, 0, 0, 0, 0, 0, 0, 0, 0, 0, 0, 0, 0, 0, 0, 0, 0, 0, 0, 0, 0, 0, 0, 0, 0, 0, 0, 0, 0, 0, 0, 0, 0, 0, 0, 0, 0, 0, 0, 0, 0, 0, 0, 0, 0, 0, 0, 0, 0, 0, 0, 0, 0, 0, 0, 0, 0, 0, 0, 0, 0, 0, 0, 0, 0, 0, 0, 0, 0, 0, 0, 0, 0, 0, 0, 0]
def r2_34 : List LConfig × List (List Re) :=
  ([⟨316, 16, [287, 587], [], false⟩,
   ⟨291, 16, [587], [], false⟩,
   ⟨293, 16, [587], [], false⟩],
   [[], [], [], [], [], [], [], [], [], [], [], [], [], [], [], [q101], [], [], [], []])
def t2_34 : List Nat := [0, 35, 0, 0, 0, 0, 0, 0, 0, 0, 0, 0, 0, 0, 0, 0, 0, 0, 0, 0, 0, 0, 0, 0, 0, 0, 0, 0, 0, 0, 0, 0, 36, 0, 0, 0, 0, 0, 0, 0, 0, 0, 0, 0, 0, 0, 0, 0, 0, 0, 0, 0, 0, 0, 0, 0, 0, 0, 37, 0, 0, 0, 0, 0, 0, 0, 0, 0, 0, 0, 0, 0, 0, 0, 0, 0, 0, 0, 0, 0, 0, 0, 0, 0, 0, 0, 0, 0, 0, 0, 0, 0, 0, 0, 0, 0, 0, 0, 0]
def r2_35 : List LConfig × List (List Re) :=
  ([⟨292, 16, [587], [], false⟩],
   [[], [], [], [], [], [], [], [], [], [], [], [], [], [], [], [q127], [], [], [], []])
def t2_35 : List Nat := [0, 0, 0, 0, 0, 0, 0, 0, 0, 0, 0, 0, 0, 0, 0, 0, 0, 0, 0, 0, 0, 0, 0, 0, 38, 0, 0, 0, 0, 0, 0, 0, 0, 0, 0, 0, 0, 0, 0, 0, 0, 0, 0, 0, 0, 0, 0, 0, 0, 0, 0, 0, 0, 0, 0, 0, 0, 0, 0, 0, 0, 0, 0, 0, 0, 0, 0, 0, 0, 0, 0, 0, 0, 0, 0, 0, 0, 0, 0, 0, 0, 0, 0, 0, 0, 0, 0, 0, 0, 0, 0, 0, 0, 0, 0, 0, 0, 0, 0]
def r2_36 : List LConfig × List (List Re) :=
  ([⟨294, 16, [587], [], false⟩],
   [[], [], [], [], [], [], [], [], [], [], [], [], [], [], [], [q128], [], [], [], []])
def t2_36 : List Nat := [0, 0, 0, 0, 0, 0, 0, 0, 0, 0, 0, 0, 0, 0, 0, 0, 0, 0, 0, 0, 0, 0, 0, 0, 0, 0, 0, 0, 0, 0, 0, 0, 0, 0, 0, 0, 0, 0, 0, 0, 0, 0, 0, 0, 0, 0, 38, 0, 0, 0, 0, 0, 0, 0, 0, 0, 0, 0, 0, 0, 0, 0, 0, 0, 0, 0, 0, 0, 0, 0, 0, 0, 0, 0, 0, 0, 0, 0, 0, 0, 0, 0, 0, 0, 0, 0, 0, 0, 0, 0, 0, 0, 0, 0, 0, 0, 0, 0, 0]
def r2_37 : List LConfig × List (List Re) :=
  ([⟨297, 16, [587], [], false⟩,
   ⟨316, 16, [302, 587], [], false⟩,
   ⟨146, 16, [], [⟨7, 15, 0⟩, ⟨2, 0, 0⟩], false⟩],
   [[], [], [], [], [], [], [], [], [], [], [], [], [], [], [], [q99], [], [], [], []])
def t2_37 : List Nat := [0, 39, 0, 0, 0, 0, 0, 0, 0, 0, 0, 0, 0, 0, 0, 0, 0, 0, 39, 0, 0, 0, 0, 0, 0, 0, 0, 0, 0, 0, 0, 0, 0, 0, 0, 0, 0, 0, 0, 0, 0, 0, 0, 0, 0, 0, 0, 0, 0, 0, 0, 0, 0, 0, 0, 0, 0, 0, 0, 0, 0, 0, 0, 0, 0, 0, 0, 0, 0, 0, 0, 0, 0, 0, 0, 0, 0, 0, 0, 0, 0, 0, 0, 0, 0, 0, 0, 0, 0, 0, 0, 0, 0, 0, 0, 0, 0, 0, 0]
def r2_38 : List LConfig × List (List Re) :=
  ([⟨316, 16, [302, 587], [], false⟩,
   ⟨146, 16, [], [⟨7, 15, 0⟩, ⟨2, 0, 0⟩], false⟩],
   [[], [], [], [], [], [], [], [], [], [], [], [], [], [], [], [q12], [], [], [], []])
def t2_38 : List Nat := [0, 39, 0, 0, 0, 0, 0, 0, 0, 0, 0, 0, 0, 0, 0, 0, 0, 0, 0, 0, 0, 0, 0, 0, 0, 0, 0, 0, 0, 0, 0, 0, 0, 0, 0, 0, 0, 0, 0, 0, 0, 0, 0, 0, 0, 0, 0, 0, 0, 0, 0, 0, 0, 0, 0, 0, 0, 0, 0, 0, 0, 0, 0, 0, 0, 0, 0, 0, 0, 0, 0, 0, 0, 0, 0, 0, 0, 0, 0, 0, 0, 0, 0, 0, 0, 0, 0, 0, 0, 0, 0, 0, 0, 0, 0, 0, 0, 0, 0]
def r2_39 : List LConfig × List (List Re) :=
  ([⟨243, 13, [572], [], false⟩,
   ⟨306, 17, [592], [], false⟩,
   ⟨314, 17, [309, 592], [], false⟩,
   ⟨148, 17, [], [⟨7, 16, 0⟩, ⟨2, 0, 0⟩], false⟩],
   [[], [], [], [], [], [], [], [], [], [], [], [], [q61], [], [], [], [q106], [], [], []])
def t2_39 : List Nat := [0, 0, 0, 0, 0, 0, 0, 0, 0, 0, 0, 0, 0, 0, 0, 0, 0, 0, 0, 0, 0, 26, 26, 26, 26, 26, 26, 26, 26, 26, 26, 26, 26, 26, 26, 26, 26, 26, 0, 0, 26, 0, 26, 26, 26, 26, 26, 26, 26, 26, 26, 26, 26, 26, 26, 41, 26, 26, 26, 26, 26, 26, 0, 26, 0, 26, 0, 26, 0, 0, 0, 0, 26, 0, 0, 0, 0, 0, 26, 0, 26, 0, 26, 0, 26, 0, 26, 0, 0, 0, 0, 0, 0, 0, 0, 0, 0, 0, 0]
def r2_40 : List LConfig × List (List Re) :=
  ([⟨244, 13, [572], [], false⟩,
   ⟨306, 17, [592], [], false⟩,
   ⟨314, 17, [309, 592], [], false⟩,
   ⟨148, 17, [], [⟨7, 16, 0⟩, ⟨2, 0, 0⟩], false⟩],
   [[], [], [], [], [], [], [], [], [], [], [], [], [q60], [], [], [], [q106], [], [], []])
def t2_40 : List Nat := [0, 0, 0, 0, 0, 0, 0, 0, 0, 0, 0, 0, 0, 0, 0, 0, 0, 0, 0, 0, 0, 26, 26, 26, 26, 26, 26, 26, 26, 26, 26, 26, 26, 26, 26, 26, 26, 26, 0, 0, 26, 0, 26, 26, 26, 26, 26, 26, 26, 26, 26, 26, 26, 30, 26, 26, 26, 26, 26, 26, 26, 26, 0, 26, 0, 26, 0, 26, 0, 0, 0, 0, 26, 0, 0, 0, 0, 0, 26, 0, 26, 0, 26, 0, 26, 0, 26, 0, 0, 0, 0, 0, 0, 0, 0, 0, 0, 0, 0]
def r2_41 : List LConfig × List (List Re) :=
  ([⟨238, 13, [572], [], false⟩,
   ⟨306, 17, [592], [], false⟩,
   ⟨314, 17, [309, 592], [], false⟩,
   ⟨148, 17, [], [⟨7, 16, 0⟩, ⟨2, 0, 0⟩], false⟩],
   [[], [], [], [], [], [], [], [], [], [], [], [], [q56], [], [], [], [q106], [], [], []])
def t2_41 : List Nat := [0, 0, 0, 0, 0, 0, 0, 0, 0, 0, 0, 0, 0, 0, 0, 0, 0, 0, 0, 0, 0, 26, 26, 26, 26, 26, 26, 26, 26, 26, 26, 26, 26, 26, 26, 26, 26, 26, 0, 0, 26, 0, 26, 26, 26, 26, 26, 26, 26, 26, 26, 26, 26, 26, 26, 26, 26, 26, 26, 26, 43, 26, 0, 26, 0, 26, 0, 26, 0, 0, 0, 0, 26, 0, 0, 0, 0, 0, 26, 0, 26, 0, 26, 0, 26, 0, 26, 0, 0, 0, 0, 0, 0, 0, 0, 0, 0, 0, 0]
def r2_42 : List LConfig × List (List Re) :=
  ([⟨239, 13, [572], [], false⟩,
   ⟨306, 17, [592], [], false⟩,
   ⟨314, 17, [309, 592], [], false⟩,
   ⟨148, 17, [], [⟨7, 16, 0⟩, ⟨2, 0, 0⟩], false⟩],
   [[], [], [], [], [], [], [], [], [], [], [], [], [q55], [], [], [], [q106], [], [], []])
def t2_42 : List Nat := [0, 0, 0, 0, 0, 0, 0, 0, 0, 0, 0, 0, 0, 0, 0, 0, 0, 0, 0, 0, 0, 26, 26, 26, 26, 26, 26, 26, 26, 26, 26, 26, 26, 26, 26, 26, 26, 26, 0, 0, 26, 0, 26, 26, 26, 26, 44, 26, 26, 26, 26, 26, 26, 26, 26, 26, 26, 26, 26, 26, 26, 26, 0, 26, 0, 26, 0, 26, 0, 0, 0, 0, 26, 0, 0, 0, 0, 0, 26, 0, 26, 0, 26, 0, 26, 0, 26, 0, 0, 0, 0, 0, 0, 0, 0, 0, 0, 0, 0]
def r2_43 : List LConfig × List (List Re) :=
  ([⟨240, 13, [572], [], false⟩,
   ⟨306, 17, [592], [], false⟩,
   ⟨314, 17, [309, 592], [], false⟩,
   ⟨148, 17, [], [⟨7, 16, 0⟩, ⟨2, 0, 0⟩], false⟩],
   [[], [], [], [], [], [], [], [], [], [], [], [], [q23], [], [], [], [q106], [], [], []])
def t2_43 : List Nat := [0, 0, 0, 0, 0, 0, 0, 0, 0, 0, 0, 0, 0, 0, 0, 0, 0, 0, 0, 0, 0, 26, 26, 26, 26, 26, 26, 26, 26, 26, 26, 26, 26, 26, 26, 26, 26, 26, 0, 0, 26, 0, 26, 26, 26, 26, 26, 26, 26, 26, 26, 26, 26, 26, 26, 26, 26, 26, 30, 26, 26, 26, 0, 26, 0, 26, 0, 26, 0, 0, 0, 0, 26, 0, 0, 0, 0, 0, 26, 0, 26, 0, 26, 0, 26, 0, 26, 0, 0, 0, 0, 0, 0, 0, 0, 0, 0, 0, 0]
def r2_44 : List LConfig × List (List Re) :=
  ([⟨202, 12, [160, 210, 213, 567], [], false⟩],
   [[], [], [], [], [], [], [], [], [], [], [], [q5], [], [], [], [], [], [], [], []])
def t2_44 : List Nat := [0, 0, 0, 0, 0, 0, 0, 0, 0, 0, 0, 47, 47, 47, 47, 47, 47, 47, 0, 0, 0, 0, 0, 0, 0, 0, 0, 0, 0, 0, 0, 0, 0, 0, 0, 0, 0, 0, 0, 0, 0, 0, 0, 0, 0, 0, 0, 0, 0, 0, 0, 0, 0, 0, 0, 0, 0, 0, 0, 0, 0, 0, 0, 0, 0, 0, 0, 0, 0, 0, 0, 0, 0, 0, 0, 0, 0, 0, 0, 0, 0, 0, 0, 0, 0, 0, 0, 0, 0, 0, 0, 0, 0, 0, 0, 0, 0, 0, 0]
def r2_45 : List LConfig × List (List Re) :=
  ([⟨202, 12, [210, 213, 567], [], false⟩,
   ⟨138, 12, [], [⟨7, 10, 0⟩, ⟨2, 0, 0⟩], false⟩],
   [[], [], [], [], [], [], [], [], [], [], [], [q4], [], [], [], [], [], [], [], []])
def t2_45 : List Nat := [0, 0, 0, 0, 0, 0, 0, 0, 0, 0, 0, 46, 46, 46, 46, 46, 46, 46, 0, 0, 0, 0, 0, 0, 0, 0, 0, 0, 0, 0, 0, 0, 0, 0, 0, 0, 0, 0, 0, 0, 0, 0, 0, 0, 0, 0, 0, 0, 0, 0, 0, 0, 0, 0, 0, 0, 0, 0, 0, 0, 0, 0, 0, 0, 0, 0, 0, 0, 0, 0, 0, 0, 0, 0, 0, 0, 0, 0, 0, 0, 0, 0, 0, 0, 0, 0, 0, 0, 0, 0, 0, 0, 0, 0, 0, 0, 0, 0, 0]
def r2_46 : List LConfig × List (List Re) :=
  ([⟨202, 12, [160, 210, 213, 567], [], false⟩,
   ⟨138, 12, [], [⟨7, 10, 0⟩, ⟨2, 0, 0⟩], false⟩],
   [[], [], [], [], [], [], [], [], [], [], [], [q4], [], [], [], [], [], [], [], []])
def t2_46 : List Nat := [0, 0, 0, 0, 0, 0, 0, 0, 0, 0, 0, 47, 47, 47, 47, 47, 47, 47, 0, 0, 0, 0, 0, 0, 0, 0, 0, 0, 0, 0, 0, 0, 0, 0, 0, 0, 0, 0, 0, 0, 0, 0, 0, 0, 0, 0, 0, 0, 0, 0, 0, 0, 0, 0, 0, 0, 0, 0, 0, 0, 0, 0, 0, 0, 0, 0, 0, 0, 0, 0, 0, 0, 0, 0, 0, 0, 0, 0, 0, 0, 0, 0, 0, 0, 0, 0, 0, 0, 0, 0, 0, 0, 0, 0, 0, 0, 0, 0, 0]
def r2_47 : List LConfig × List (List Re) :=
  ([⟨202, 11, [562], [], false⟩,
   ⟨136, 11, [], [⟨7, 9, 0⟩, ⟨2, 0, 0⟩], false⟩],
   [[], [], [], [], [], [], [], [], [], [], [q4], [], [], [], [], [], [], [], [], []])
def t2_47 : List Nat := [0, 0, 0, 0, 0, 0, 0, 0, 0, 0, 0, 48, 48, 48, 48, 48, 48, 48, 0, 0, 0, 0, 0, 0, 0, 0, 0, 0, 0, 0, 0, 0, 0, 0, 0, 0, 0, 0, 0, 0, 0, 0, 0, 0, 0, 0, 0, 0, 0, 0, 0, 0, 0, 0, 0, 0, 0, 0, 0, 0, 0, 0, 0, 0, 0, 0, 0, 0, 0, 0, 0, 0, 0, 0, 0, 0, 0, 0, 0, 0, 0, 0, 0, 0, 0, 0, 0, 0, 0, 0, 0, 0, 0, 0, 0, 0, 0, 0, 0]
def r2_48 : List LConfig × List (List Re) :=
  ([⟨316, 6, [190, 537], [], false⟩,
   ⟨126, 6, [], [⟨7, 4, 0⟩, ⟨2, 0, 0⟩], false⟩],
   [[], [], [], [], [], [q12], [], [], [], [], [], [], [], [], [], [], [], [], [], []])
def t2_48 : List Nat := [0, 49, 0, 0, 0, 0, 0, 0, 0, 0, 0, 0, 0, 0, 0, 0, 0, 0, 0, 0, 0, 0, 0, 0, 0, 0, 0, 0, 0, 0, 0, 0, 0, 0, 0, 0, 0, 0, 0, 0, 0, 0, 0, 0, 0, 0, 0, 0, 0, 0, 0, 0, 0, 0, 0, 0, 0, 0, 0, 0, 0, 0, 0, 0, 0, 0, 0, 0, 0, 0, 0, 0, 0, 0, 0, 0, 0, 0, 0, 0, 0, 0, 0, 0, 0, 0, 0, 0, 0, 0, 0, 0, 0, 0, 0, 0, 0, 0, 0]
def r2_49 : List LConfig × List (List Re) :=
  ([⟨202, 1, [160, 512], [], false⟩,
   ⟨116, 1, [], [⟨7, 1, 0⟩, ⟨2, 0, 0⟩], false⟩,
   ⟨202, 3, [160, 522], [], false⟩,
   ⟨120, 3, [], [⟨7, 1, 0⟩, ⟨2, 0, 0⟩], false⟩],
   [[q4], [], [q4], [], [], [], [], [], [], [], [], [], [], [], [], [], [], [], [], []])
def t2_49 : List Nat := [0, 0, 0, 0, 0, 0, 0, 0, 0, 0, 0, 50, 50, 50, 50, 50, 50, 50, 0, 0, 0, 0, 0, 0, 0, 0, 0, 0, 0, 0, 0, 0, 0, 0, 0, 0, 0, 0, 0, 0, 0, 0, 0, 0, 0, 0, 0, 0, 0, 0, 0, 0, 0, 0, 0, 0, 0, 0, 0, 0, 0, 0, 0, 0, 0, 0, 0, 0, 0, 0, 0, 0, 0, 0, 0, 0, 0, 0, 0, 0, 0, 0, 0, 0, 0, 0, 0, 0, 0, 0, 0, 0, 0, 0, 0, 0, 0, 0, 0]
def r2_50 : List LConfig × List (List Re) :=
  ([⟨144, 15, [], [⟨7, 14, 0⟩, ⟨2, 0, 0⟩], false⟩],
   [[], [], [], [], [], [], [], [], [], [], [], [], [], [], [q39], [], [], [], [], []])
def t2_50 : List Nat := [0, 0, 0, 0, 0, 0, 0, 0, 0, 0, 0, 0, 0, 0, 0, 0, 0, 0, 0, 0, 0, 0, 0, 0, 0, 0, 0, 0, 0, 0, 0, 0, 0, 0, 0, 0, 0, 0, 0, 0, 0, 0, 0, 0, 0, 0, 0, 0, 0, 0, 0, 0, 0, 0, 0, 0, 0, 0, 0, 0, 0, 0, 0, 0, 0, 0, 0, 0, 0, 0, 0, 0, 0, 0, 0, 0, 0, 0, 0, 0, 0, 0, 0, 0, 0, 0, 0, 0, 0, 0, 0, 0, 0, 0, 0, 0, 0, 0, 0]
def r2_51 : List LConfig × List (List Re) :=
  ([⟨316, 6, [171, 537], [], false⟩,
   ⟨175, 6, [537], [], false⟩,
   ⟨176, 6, [537], [], false⟩,
   ⟨181, 6, [537], [], false⟩,
   ⟨177, 6, [537], [], false⟩,
   ⟨182, 6, [537], [], false⟩],
   [[], [], [], [], [], [q31, q110, q111], [], [], [], [], [], [], [], [], [], [], [], [], [], []])
def t2_51 : List Nat := [0, 52, 0, 0, 0, 0, 0, 0, 0, 0, 49, 0, 0, 0, 0, 0, 0, 0, 0, 0, 0, 0, 0, 0, 0, 0, 0, 0, 0, 0, 53, 0, 0, 0, 0, 0, 0, 0, 0, 0, 0, 0, 0, 0, 0, 0, 0, 0, 0, 0, 0, 0, 0, 0, 0, 0, 54, 0, 0, 0, 0, 0, 0, 0, 0, 0, 0, 0, 0, 0, 0, 0, 0, 0, 0, 0, 0, 0, 0, 0, 0, 0, 0, 0, 0, 0, 0, 0, 0, 0, 0, 0, 0, 0, 0, 0, 0, 0, 0]
def r2_52 : List LConfig × List (List Re) :=
  ([⟨178, 6, [537], [], false⟩],
   [[], [], [], [], [], [q131], [], [], [], [], [], [], [], [], [], [], [], [], [], []])
def t2_52 : List Nat := [0, 0, 0, 0, 0, 0, 0, 0, 0, 0, 0, 0, 0, 0, 0, 0, 0, 0, 0, 0, 0, 0, 0, 0, 57, 0, 0, 0, 0, 0, 0, 0, 0, 0, 0, 0, 0, 0, 0, 0, 0, 0, 0, 0, 0, 0, 0, 0, 0, 0, 0, 0, 0, 0, 0, 0, 0, 0, 0, 0, 0, 0, 0, 0, 0, 0, 0, 0, 0, 0, 0, 0, 0, 0, 0, 0, 0, 0, 0, 0, 0, 0, 0, 0, 0, 0, 0, 0, 0, 0, 0, 0, 0, 0, 0, 0, 0, 0, 0]
def r2_53 : List LConfig × List (List Re) :=
  ([⟨183, 6, [537], [], false⟩],
   [[], [], [], [], [], [q132], [], [], [], [], [], [], [], [], [], [], [], [], [], []])
def t2_53 : List Nat := [0, 0, 0, 0, 0, 0, 0, 0, 0, 0, 0, 0, 0, 0, 0, 0, 0, 0, 0, 0, 0, 0, 0, 0, 0, 0, 0, 0, 0, 0, 0, 0, 0, 0, 0, 0, 0, 0, 0, 0, 0, 0, 0, 0, 0, 0, 55, 0, 0, 0, 0, 0, 0, 0, 0, 0, 0, 0, 0, 0, 0, 0, 0, 0, 0, 0, 0, 0, 0, 0, 0, 0, 0, 0, 0, 0, 0, 0, 0, 0, 0, 0, 0, 0, 0, 0, 0, 0, 0, 0, 0, 0, 0, 0, 0, 0, 0, 0, 0]
def r2_54 : List LConfig × List (List Re) :=
  ([⟨184, 6, [537], [], false⟩],
   [[], [], [], [], [], [q133], [], [], [], [], [], [], [], [], [], [], [], [], [], []])
def t2_54 : List Nat := [0, 0, 0, 0, 0, 0, 0, 0, 0, 0, 0, 0, 0, 0, 0, 0, 0, 0, 0, 0, 0, 0, 0, 0, 0, 0, 0, 0, 0, 0, 0, 0, 0, 0, 0, 0, 0, 0, 0, 0, 0, 0, 0, 0, 0, 0, 0, 0, 0, 0, 0, 0, 0, 0, 0, 0, 0, 0, 56, 0, 0, 0, 0, 0, 0, 0, 0, 0, 0, 0, 0, 0, 0, 0, 0, 0, 0, 0, 0, 0, 0, 0, 0, 0, 0, 0, 0, 0, 0, 0, 0, 0, 0, 0, 0, 0, 0, 0, 0]
def r2_55 : List LConfig × List (List Re) :=
  ([⟨185, 6, [537], [], false⟩],
   [[], [], [], [], [], [q134], [], [], [], [], [], [], [], [], [], [], [], [], [], []])
def t2_55 : List Nat := [0, 49, 0, 0, 0, 0, 0, 0, 0, 0, 0, 0, 0, 0, 0, 0, 0, 0, 0, 0, 0, 0, 0, 0, 0, 0, 0, 0, 0, 0, 0, 0, 0, 0, 0, 0, 0, 0, 0, 0, 0, 0, 0, 0, 0, 0, 0, 0, 0, 0, 0, 0, 0, 0, 0, 0, 0, 0, 0, 0, 0, 0, 0, 0, 0, 0, 0, 0, 0, 0, 0, 0, 0, 0, 0, 0, 0, 0, 0, 0, 0, 0, 0, 0, 0, 0, 0, 0, 0, 0, 0, 0, 0, 0, 0, 0, 0, 0, 0]
def r2_56 : List LConfig × List (List Re) :=
  ([⟨179, 6, [537], [], false⟩],
   [[], [], [], [], [], [q135], [], [], [], [], [], [], [], [], [], [], [], [], [], []])
def t2_56 : List Nat := [0, 0, 0, 0, 0, 0, 0, 0, 0, 0, 0, 0, 0, 0, 0, 0, 0, 0, 0, 0, 0, 0, 0, 0, 0, 0, 0, 0, 0, 0, 0, 0, 58, 0, 0, 0, 0, 0, 0, 0, 0, 0, 0, 0, 0, 0, 0, 0, 0, 0, 0, 0, 0, 0, 0, 0, 0, 0, 0, 0, 0, 0, 0, 0, 0, 0, 0, 0, 0, 0, 0, 0, 0, 0, 0, 0, 0, 0, 0, 0, 0, 0, 0, 0, 0, 0, 0, 0, 0, 0, 0, 0, 0, 0, 0, 0, 0, 0, 0]
def r2_57 : List LConfig × List (List Re) :=
  ([⟨180, 6, [537], [], false⟩],
   [[], [], [], [], [], [q134], [], [], [], [], [], [], [], [], [], [], [], [], [], []])
def t2_57 : List Nat := [0, 49, 0, 0, 0, 0, 0, 0, 0, 0, 0, 0, 0, 0, 0, 0, 0, 0, 0, 0, 0, 0, 0, 0, 0, 0, 0, 0, 0, 0, 0, 0, 0, 0, 0, 0, 0, 0, 0, 0, 0, 0, 0, 0, 0, 0, 0, 0, 0, 0, 0, 0, 0, 0, 0, 0, 0, 0, 0, 0, 0, 0, 0, 0, 0, 0, 0, 0, 0, 0, 0, 0, 0, 0, 0, 0, 0, 0, 0, 0, 0, 0, 0, 0, 0, 0, 0, 0, 0, 0, 0, 0, 0, 0, 0, 0, 0, 0, 0]
def tab2 : List (List LConfig × List (List Re)) :=
  [r2_0, r2_1, r2_2, r2_3, r2_4, r2_5, r2_6, r2_7, r2_8, r2_9, r2_10, r2_11, r2_12, r2_13, r2_14, r2_15, r2_16, r2_17, r2_18, r2_19, r2_20, r2_21, r2_22, r2_23, r2_24, r2_25, r2_26, r2_27, r2_28, r2_29, r2_30, r2_31, r2_32, r2_33, r2_34, r2_35, r2_36, r2_37, r2_38, r2_39, r2_40, r2_41, r2_42, r2_43, r2_44, r2_45, r2_46, r2_47, r2_48, r2_49, r2_50, r2_51, r2_52, r2_53, r2_54, r2_55, r2_56, r2_57]
def tr2 : List (List Nat) :=
  [t2_0, t2_1, t2_2, t2_3, t2_4, t2_5, t2_6, t2_7, t2_8, t2_9, t2_10, t2_11, t2_12, t2_13, t2_14, t2_15, t2_16, t2_17, t2_18, t2_19, t2_20, t2_21, t2_22, t2_23, t2_24, t2_25, t2_26, t2_27, t2_28, t2_29, t2_30, t2_31, t2_32, t2_33, t2_34, t2_35, t2_36, t2_37, t2_38, t2_39, t2_40, t2_41, t2_42, t2_43, t2_44, t2_45, t2_46, t2_47, t2_48, t2_49, t2_50, t2_51, t2_52, t2_53, t2_54, t2_55, t2_56, t2_57]


end Verif.LexTable

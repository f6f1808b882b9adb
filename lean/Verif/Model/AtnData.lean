/-!
# The serialized automata of the generated lexer and parser

Generated by `tools/mkatn.py` from the integer lists in `_grammar/parser/udunits2Lexer.py` and
`_grammar/parser/udunits2Parser.py`.  Do not edit.
-/

namespace Verif

/-- `_grammar/parser/udunits2Lexer.py:11-5527`, part 0 -/
def lexerAtnData0 : List Int :=
  [4, 0, 27, 611, 6, -1, 6, -1, 6, -1, 2, 0, 7, 0, 2, 1, 7, 1, 2, 2, 7, 2, 2, 3, 7, 3, 2, 4, 7, 4, 2, 5, 7, 5, 2,
   6, 7, 6, 2, 7, 7, 7, 2, 8, 7, 8, 2, 9, 7, 9, 2, 10, 7, 10, 2, 11, 7, 11, 2, 12, 7, 12, 2, 13, 7, 13, 2, 14, 7,
   14, 2, 15, 7, 15, 2, 16, 7, 16, 2, 17, 7, 17, 2, 18, 7, 18, 2, 19, 7, 19, 2, 20, 7, 20, 2, 21, 7, 21, 2, 22, 7,
   22, 2, 23, 7, 23, 2, 24, 7, 24, 2, 25, 7, 25, 2, 26, 7, 26, 2, 27, 7, 27, 2, 28, 7, 28, 2, 29, 7, 29, 2, 30, 7,
   30, 2, 31, 7, 31, 2, 32, 7, 32, 2, 33, 7, 33, 2, 34, 7, 34, 2, 35, 7, 35, 2, 36, 7, 36, 2, 37, 7, 37, 2, 38, 7,
   38, 2, 39, 7, 39, 2, 40, 7, 40, 2, 41, 7, 41, 2, 42, 7, 42, 2, 43, 7, 43, 2, 44, 7, 44, 2, 45, 7, 45, 2, 46, 7,
   46, 2, 47, 7, 47, 2, 48, 7, 48, 2, 49, 7, 49, 2, 50, 7, 50, 2, 51, 7, 51, 2, 52, 7, 52, 2, 53, 7, 53, 2, 54, 7,
   54, 2, 55, 7, 55, 2, 56, 7, 56, 2, 57, 7, 57, 2, 58, 7, 58, 2, 59, 7, 59]

/-- `_grammar/parser/udunits2Lexer.py:11-5527`, part 1 -/
def lexerAtnData1 : List Int :=
  [2, 60, 7, 60, 2, 61, 7, 61, 2, 62, 7, 62, 2, 63, 7, 63, 2, 64, 7, 64, 2, 65, 7, 65, 2, 66, 7, 66, 2, 67, 7, 67,
   2, 68, 7, 68, 2, 69, 7, 69, 2, 70, 7, 70, 2, 71, 7, 71, 2, 72, 7, 72, 2, 73, 7, 73, 2, 74, 7, 74, 2, 75, 7, 75,
   1, 0, 1, 0, 3, 0, 158, 8, 0, 1, 0, 1, 0, 1, 1, 1, 1, 1, 2, 1, 2, 1, 3, 1, 3, 3, 3, 168, 8, 3, 1, 4, 5, 4, 171,
   8, 4, 10, 4, 12, 4, 174, 9, 4, 1, 4, 1, 4, 1, 4, 1, 4, 1, 4, 1, 4, 1, 4, 1, 4, 1, 4, 1, 4, 1, 4, 3, 4, 187, 8,
   4, 1, 4, 5, 4, 190, 8, 4, 10, 4, 12, 4, 193, 9, 4, 1, 5, 1, 5, 1, 6, 1, 6, 1, 7, 1, 7, 1, 8, 1, 8, 1, 9, 4, 9,
   204, 8, 9, 11, 9, 12, 9, 205, 1, 10, 1, 10, 3, 10, 210, 8, 10, 1, 11, 1, 11, 1, 11, 1, 12, 1, 12, 1, 12, 3, 12,
   218, 8, 12, 1, 12, 3, 12, 221, 8, 12, 1, 12, 1, 12, 1, 12, 3, 12, 226, 8, 12, 1, 12, 3, 12, 229, 8, 12, 1, 12,
   1, 12, 1, 12, 3, 12, 234, 8, 12, 1, 13, 1, 13, 1, 13, 1, 13, 1, 13, 1]

/-- `_grammar/parser/udunits2Lexer.py:11-5527`, part 2 -/
def lexerAtnData2 : List Int :=
  [13, 1, 13, 1, 13, 1, 13, 1, 13, 1, 13, 1, 13, 1, 13, 1, 13, 1, 13, 1, 13, 1, 13, 1, 13, 3, 13, 254, 8, 13, 1,
   13, 1, 13, 1, 14, 4, 14, 259, 8, 14, 11, 14, 12, 14, 260, 1, 15, 1, 15, 1, 15, 3, 15, 266, 8, 15, 1, 16, 1, 16,
   1, 16, 1, 16, 1, 16, 1, 16, 1, 16, 1, 16, 1, 16, 3, 16, 277, 8, 16, 1, 16, 5, 16, 280, 8, 16, 10, 16, 12, 16,
   283, 9, 16, 1, 16, 1, 16, 5, 16, 287, 8, 16, 10, 16, 12, 16, 290, 9, 16, 1, 16, 1, 16, 1, 16, 1, 16, 3, 16, 296,
   8, 16, 1, 16, 3, 16, 299, 8, 16, 1, 16, 5, 16, 302, 8, 16, 10, 16, 12, 16, 305, 9, 16, 1, 17, 1, 17, 4, 17, 309,
   8, 17, 11, 17, 12, 17, 310, 1, 17, 1, 17, 1, 18, 1, 18, 1, 19, 1, 19, 1, 20, 1, 20, 1, 21, 1, 21, 1, 21, 1, 21,
   1, 21, 1, 21, 1, 21, 3, 21, 328, 8, 21, 1, 22, 1, 22, 1, 22, 1, 23, 1, 23, 3, 23, 335, 8, 23, 1, 24, 3, 24, 338,
   8, 24, 1, 24, 3, 24, 341, 8, 24, 1, 24, 1, 24, 1, 24, 3, 24, 346, 8, 24, 1, 25, 3, 25, 349, 8, 25, 1, 25, 1, 25,
   1, 26, 1, 26, 1, 26]

/-- `_grammar/parser/udunits2Lexer.py:11-5527`, part 3 -/
def lexerAtnData3 : List Int :=
  [3, 26, 356, 8, 26, 1, 26, 1, 26, 5, 26, 360, 8, 26, 10, 26, 12, 26, 363, 9, 26, 3, 26, 365, 8, 26, 1, 27, 3, 27,
   368, 8, 27, 1, 27, 1, 27, 1, 27, 3, 27, 373, 8, 27, 1, 28, 3, 28, 376, 8, 28, 1, 28, 1, 28, 1, 28, 1, 28, 1, 28,
   1, 28, 1, 28, 3, 28, 385, 8, 28, 1, 29, 1, 29, 3, 29, 389, 8, 29, 1, 29, 3, 29, 392, 8, 29, 1, 29, 3, 29, 395,
   8, 29, 1, 30, 1, 30, 1, 30, 1, 30, 1, 30, 1, 30, 1, 31, 1, 31, 1, 31, 1, 31, 1, 32, 1, 32, 1, 33, 1, 33, 1, 33,
   1, 33, 1, 33, 1, 33, 3, 33, 415, 8, 33, 1, 34, 1, 34, 1, 34, 3, 34, 420, 8, 34, 3, 34, 422, 8, 34, 1, 35, 1, 35,
   1, 36, 1, 36, 1, 36, 3, 36, 429, 8, 36, 3, 36, 431, 8, 36, 1, 36, 1, 36, 1, 36, 1, 37, 1, 37, 1, 37, 1, 37, 1,
   38, 1, 38, 1, 38, 1, 38, 1, 39, 1, 39, 1, 39, 1, 39, 1, 40, 1, 40, 1, 40, 1, 40, 1, 41, 1, 41, 1, 41, 1, 41, 1,
   42, 1, 42, 1, 42, 1, 42, 1, 43, 1, 43, 1, 43, 1, 43, 1, 44, 1, 44, 1, 44, 1, 44, 1, 45, 1, 45, 1, 45, 1, 45, 1,
   46]

/-- `_grammar/parser/udunits2Lexer.py:11-5527`, part 4 -/
def lexerAtnData4 : List Int :=
  [1, 46, 1, 46, 1, 46, 1, 47, 1, 47, 1, 47, 1, 47, 1, 48, 1, 48, 1, 48, 1, 48, 1, 49, 1, 49, 1, 49, 1, 49, 1, 50,
   1, 50, 1, 50, 1, 50, 1, 51, 1, 51, 1, 51, 1, 51, 1, 52, 1, 52, 1, 52, 1, 52, 1, 53, 1, 53, 1, 53, 1, 53, 1, 54,
   1, 54, 1, 54, 1, 54, 1, 55, 1, 55, 1, 55, 1, 55, 1, 56, 1, 56, 1, 56, 1, 56, 1, 56, 1, 57, 1, 57, 1, 57, 1, 57,
   1, 57, 1, 58, 1, 58, 1, 58, 1, 58, 1, 58, 1, 59, 1, 59, 1, 59, 1, 59, 1, 59, 1, 60, 1, 60, 1, 60, 1, 60, 1, 60,
   1, 61, 1, 61, 1, 61, 1, 61, 1, 61, 1, 62, 1, 62, 1, 62, 1, 62, 1, 62, 1, 63, 1, 63, 1, 63, 1, 63, 1, 63, 1, 64,
   1, 64, 1, 64, 1, 64, 1, 64, 1, 65, 1, 65, 1, 65, 1, 65, 1, 65, 1, 66, 1, 66, 1, 66, 1, 66, 1, 66, 1, 67, 1, 67,
   1, 67, 1, 67, 1, 67, 1, 68, 1, 68, 1, 68, 1, 68, 1, 68, 1, 69, 1, 69, 1, 69, 1, 69, 1, 69, 1, 70, 1, 70, 1, 70,
   1, 70, 1, 70, 1, 71, 1, 71, 1, 71, 1, 71, 1, 71, 1, 72, 1, 72, 1, 72, 1, 72, 1, 72, 1, 73]

/-- `_grammar/parser/udunits2Lexer.py:11-5527`, part 5 -/
def lexerAtnData5 : List Int :=
  [1, 73, 1, 73, 1, 73, 1, 73, 1, 74, 1, 74, 1, 74, 1, 74, 1, 74, 1, 75, 1, 75, 1, 75, 1, 75, 1, 75, 0, 0, 76, 3,
   1, 5, 2, 7, 0, 9, 3, 11, 4, 13, 5, 15, 6, 17, 7, 19, 8, 21, 9, 23, 0, 25, 10, 27, 11, 29, 12, 31, 13, 33, 14,
   35, 15, 37, 16, 39, 17, 41, 18, 43, 19, 45, 20, 47, 21, 49, 0, 51, 0, 53, 0, 55, 0, 57, 0, 59, 0, 61, 0, 63, 22,
   65, 23, 67, 24, 69, 25, 71, 0, 73, 26, 75, 27, 77, 0, 79, 0, 81, 0, 83, 0, 85, 0, 87, 0, 89, 0, 91, 0, 93, 0,
   95, 0, 97, 0, 99, 0, 101, 0, 103, 0, 105, 0, 107, 0, 109, 0, 111, 0, 113, 0, 115, 0, 117, 0, 119, 0, 121, 0,
   123, 0, 125, 0, 127, 0, 129, 0, 131, 0, 133, 0, 135, 0, 137, 0, 139, 0, 141, 0, 143, 0, 145, 0, 147, 0, 149, 0,
   151, 0, 153, 0, 3, 0, 1, 2, 6, 2, 0, 42, 42, 183, 183, 2, 0, 69, 69, 101, 101, 4, 0, 178, 179, 185, 185, 8304,
   8304, 8308, 8315, 3, 0, 65, 90, 95, 95, 97, 122, 9, 0, 128, 128, 173, 173, 176, 176, 181, 181, 192, 214, 216,
   246, 248, 255, 937, 937, 960, 960, 1, 0, 32, 32, 651, 0, 3, 1, 0, 0, 0, 0]

/-- `_grammar/parser/udunits2Lexer.py:11-5527`, part 6 -/
def lexerAtnData6 : List Int :=
  [5, 1, 0, 0, 0, 0, 9, 1, 0, 0, 0, 0, 11, 1, 0, 0, 0, 0, 13, 1, 0, 0, 0, 0, 15, 1, 0, 0, 0, 0, 17, 1, 0, 0, 0, 0,
   19, 1, 0, 0, 0, 0, 21, 1, 0, 0, 0, 0, 25, 1, 0, 0, 0, 0, 27, 1, 0, 0, 0, 0, 29, 1, 0, 0, 0, 0, 31, 1, 0, 0, 0,
   0, 33, 1, 0, 0, 0, 0, 35, 1, 0, 0, 0, 0, 37, 1, 0, 0, 0, 0, 39, 1, 0, 0, 0, 0, 41, 1, 0, 0, 0, 0, 43, 1, 0, 0,
   0, 1, 45, 1, 0, 0, 0, 1, 47, 1, 0, 0, 0, 1, 63, 1, 0, 0, 0, 1, 65, 1, 0, 0, 0, 1, 67, 1, 0, 0, 0, 1, 69, 1, 0,
   0, 0, 1, 73, 1, 0, 0, 0, 1, 75, 1, 0, 0, 0, 1, 77, 1, 0, 0, 0, 1, 79, 1, 0, 0, 0, 1, 81, 1, 0, 0, 0, 1, 83, 1,
   0, 0, 0, 1, 85, 1, 0, 0, 0, 1, 87, 1, 0, 0, 0, 1, 89, 1, 0, 0, 0, 1, 91, 1, 0, 0, 0, 1, 93, 1, 0, 0, 0, 1, 95,
   1, 0, 0, 0, 1, 97, 1, 0, 0, 0, 1, 99, 1, 0, 0, 0, 1, 101, 1, 0, 0, 0, 1, 103, 1, 0, 0, 0, 1, 105, 1, 0, 0, 0, 1,
   107, 1, 0, 0]

/-- `_grammar/parser/udunits2Lexer.py:11-5527`, part 7 -/
def lexerAtnData7 : List Int :=
  [0, 1, 109, 1, 0, 0, 0, 1, 111, 1, 0, 0, 0, 1, 113, 1, 0, 0, 0, 2, 115, 1, 0, 0, 0, 2, 117, 1, 0, 0, 0, 2, 119,
   1, 0, 0, 0, 2, 121, 1, 0, 0, 0, 2, 123, 1, 0, 0, 0, 2, 125, 1, 0, 0, 0, 2, 127, 1, 0, 0, 0, 2, 129, 1, 0, 0, 0,
   2, 131, 1, 0, 0, 0, 2, 133, 1, 0, 0, 0, 2, 135, 1, 0, 0, 0, 2, 137, 1, 0, 0, 0, 2, 139, 1, 0, 0, 0, 2, 141, 1,
   0, 0, 0, 2, 143, 1, 0, 0, 0, 2, 145, 1, 0, 0, 0, 2, 147, 1, 0, 0, 0, 2, 149, 1, 0, 0, 0, 2, 151, 1, 0, 0, 0, 2,
   153, 1, 0, 0, 0, 3, 157, 1, 0, 0, 0, 5, 161, 1, 0, 0, 0, 7, 163, 1, 0, 0, 0, 9, 167, 1, 0, 0, 0, 11, 172, 1, 0,
   0, 0, 13, 194, 1, 0, 0, 0, 15, 196, 1, 0, 0, 0, 17, 198, 1, 0, 0, 0, 19, 200, 1, 0, 0, 0, 21, 203, 1, 0, 0, 0,
   23, 209, 1, 0, 0, 0, 25, 211, 1, 0, 0, 0, 27, 233, 1, 0, 0, 0, 29, 253, 1, 0, 0, 0, 31, 258, 1, 0, 0, 0, 33,
   265, 1, 0, 0, 0, 35, 276, 1, 0, 0, 0, 37, 308, 1, 0, 0, 0, 39, 314, 1]

/-- `_grammar/parser/udunits2Lexer.py:11-5527`, part 8 -/
def lexerAtnData8 : List Int :=
  [0, 0, 0, 41, 316, 1, 0, 0, 0, 43, 318, 1, 0, 0, 0, 45, 327, 1, 0, 0, 0, 47, 329, 1, 0, 0, 0, 49, 334, 1, 0, 0,
   0, 51, 345, 1, 0, 0, 0, 53, 348, 1, 0, 0, 0, 55, 355, 1, 0, 0, 0, 57, 372, 1, 0, 0, 0, 59, 384, 1, 0, 0, 0, 61,
   386, 1, 0, 0, 0, 63, 396, 1, 0, 0, 0, 65, 402, 1, 0, 0, 0, 67, 406, 1, 0, 0, 0, 69, 408, 1, 0, 0, 0, 71, 416, 1,
   0, 0, 0, 73, 423, 1, 0, 0, 0, 75, 425, 1, 0, 0, 0, 77, 435, 1, 0, 0, 0, 79, 439, 1, 0, 0, 0, 81, 443, 1, 0, 0,
   0, 83, 447, 1, 0, 0, 0, 85, 451, 1, 0, 0, 0, 87, 455, 1, 0, 0, 0, 89, 459, 1, 0, 0, 0, 91, 463, 1, 0, 0, 0, 93,
   467, 1, 0, 0, 0, 95, 471, 1, 0, 0, 0, 97, 475, 1, 0, 0, 0, 99, 479, 1, 0, 0, 0, 101, 483, 1, 0, 0, 0, 103, 487,
   1, 0, 0, 0, 105, 491, 1, 0, 0, 0, 107, 495, 1, 0, 0, 0, 109, 499, 1, 0, 0, 0, 111, 503, 1, 0, 0, 0, 113, 507, 1,
   0, 0, 0, 115, 511, 1, 0, 0, 0, 117, 516, 1, 0, 0, 0, 119, 521, 1, 0, 0, 0, 121, 526, 1, 0, 0, 0, 123]

/-- `_grammar/parser/udunits2Lexer.py:11-5527`, part 9 -/
def lexerAtnData9 : List Int :=
  [531, 1, 0, 0, 0, 125, 536, 1, 0, 0, 0, 127, 541, 1, 0, 0, 0, 129, 546, 1, 0, 0, 0, 131, 551, 1, 0, 0, 0, 133,
   556, 1, 0, 0, 0, 135, 561, 1, 0, 0, 0, 137, 566, 1, 0, 0, 0, 139, 571, 1, 0, 0, 0, 141, 576, 1, 0, 0, 0, 143,
   581, 1, 0, 0, 0, 145, 586, 1, 0, 0, 0, 147, 591, 1, 0, 0, 0, 149, 596, 1, 0, 0, 0, 151, 601, 1, 0, 0, 0, 153,
   606, 1, 0, 0, 0, 155, 158, 3, 7, 2, 0, 156, 158, 3, 5, 1, 0, 157, 155, 1, 0, 0, 0, 157, 156, 1, 0, 0, 0, 158,
   159, 1, 0, 0, 0, 159, 160, 3, 21, 9, 0, 160, 4, 1, 0, 0, 0, 161, 162, 5, 43, 0, 0, 162, 6, 1, 0, 0, 0, 163, 164,
   5, 45, 0, 0, 164, 8, 1, 0, 0, 0, 165, 168, 7, 0, 0, 0, 166, 168, 3, 7, 2, 0, 167, 165, 1, 0, 0, 0, 167, 166, 1,
   0, 0, 0, 168, 10, 1, 0, 0, 0, 169, 171, 3, 41, 19, 0, 170, 169, 1, 0, 0, 0, 171, 174, 1, 0, 0, 0, 172, 170, 1,
   0, 0, 0, 172, 173, 1, 0, 0, 0, 173, 186, 1, 0, 0, 0, 174, 172, 1, 0, 0, 0, 175, 187, 5, 47, 0, 0, 176, 177, 5,
   32, 0, 0, 177, 178, 5, 80, 0]

/-- `_grammar/parser/udunits2Lexer.py:11-5527`, part 10 -/
def lexerAtnData10 : List Int :=
  [0, 178, 179, 5, 69, 0, 0, 179, 180, 5, 82, 0, 0, 180, 187, 5, 32, 0, 0, 181, 182, 5, 32, 0, 0, 182, 183, 5, 112,
   0, 0, 183, 184, 5, 101, 0, 0, 184, 185, 5, 114, 0, 0, 185, 187, 5, 32, 0, 0, 186, 175, 1, 0, 0, 0, 186, 176, 1,
   0, 0, 0, 186, 181, 1, 0, 0, 0, 187, 191, 1, 0, 0, 0, 188, 190, 3, 41, 19, 0, 189, 188, 1, 0, 0, 0, 190, 193, 1,
   0, 0, 0, 191, 189, 1, 0, 0, 0, 191, 192, 1, 0, 0, 0, 192, 12, 1, 0, 0, 0, 193, 191, 1, 0, 0, 0, 194, 195, 5, 46,
   0, 0, 195, 14, 1, 0, 0, 0, 196, 197, 5, 40, 0, 0, 197, 16, 1, 0, 0, 0, 198, 199, 5, 41, 0, 0, 199, 18, 1, 0, 0,
   0, 200, 201, 5, 58, 0, 0, 201, 20, 1, 0, 0, 0, 202, 204, 2, 48, 57, 0, 203, 202, 1, 0, 0, 0, 204, 205, 1, 0, 0,
   0, 205, 203, 1, 0, 0, 0, 205, 206, 1, 0, 0, 0, 206, 22, 1, 0, 0, 0, 207, 210, 3, 21, 9, 0, 208, 210, 3, 3, 0, 0,
   209, 207, 1, 0, 0, 0, 209, 208, 1, 0, 0, 0, 210, 24, 1, 0, 0, 0, 211, 212, 7, 1, 0, 0, 212, 213, 3, 23, 10, 0,
   213, 26, 1, 0, 0, 0, 214, 215, 3]

/-- `_grammar/parser/udunits2Lexer.py:11-5527`, part 11 -/
def lexerAtnData11 : List Int :=
  [23, 10, 0, 215, 217, 3, 13, 5, 0, 216, 218, 3, 21, 9, 0, 217, 216, 1, 0, 0, 0, 217, 218, 1, 0, 0, 0, 218, 226,
   1, 0, 0, 0, 219, 221, 3, 23, 10, 0, 220, 219, 1, 0, 0, 0, 220, 221, 1, 0, 0, 0, 221, 222, 1, 0, 0, 0, 222, 223,
   3, 13, 5, 0, 223, 224, 3, 21, 9, 0, 224, 226, 1, 0, 0, 0, 225, 214, 1, 0, 0, 0, 225, 220, 1, 0, 0, 0, 226, 228,
   1, 0, 0, 0, 227, 229, 3, 25, 11, 0, 228, 227, 1, 0, 0, 0, 228, 229, 1, 0, 0, 0, 229, 234, 1, 0, 0, 0, 230, 231,
   3, 23, 10, 0, 231, 232, 3, 25, 11, 0, 232, 234, 1, 0, 0, 0, 233, 225, 1, 0, 0, 0, 233, 230, 1, 0, 0, 0, 234, 28,
   1, 0, 0, 0, 235, 254, 5, 64, 0, 0, 236, 237, 5, 97, 0, 0, 237, 238, 5, 102, 0, 0, 238, 239, 5, 116, 0, 0, 239,
   240, 5, 101, 0, 0, 240, 254, 5, 114, 0, 0, 241, 242, 5, 102, 0, 0, 242, 243, 5, 114, 0, 0, 243, 244, 5, 111, 0,
   0, 244, 254, 5, 109, 0, 0, 245, 246, 5, 115, 0, 0, 246, 247, 5, 105, 0, 0, 247, 248, 5, 110, 0, 0, 248, 249, 5,
   99, 0, 0, 249, 254, 5, 101, 0, 0, 250, 251, 5, 114, 0, 0, 251]

/-- `_grammar/parser/udunits2Lexer.py:11-5527`, part 12 -/
def lexerAtnData12 : List Int :=
  [252, 5, 101, 0, 0, 252, 254, 5, 102, 0, 0, 253, 235, 1, 0, 0, 0, 253, 236, 1, 0, 0, 0, 253, 241, 1, 0, 0, 0,
   253, 245, 1, 0, 0, 0, 253, 250, 1, 0, 0, 0, 254, 255, 1, 0, 0, 0, 255, 256, 6, 13, 0, 0, 256, 30, 1, 0, 0, 0,
   257, 259, 7, 2, 0, 0, 258, 257, 1, 0, 0, 0, 259, 260, 1, 0, 0, 0, 260, 258, 1, 0, 0, 0, 260, 261, 1, 0, 0, 0,
   261, 32, 1, 0, 0, 0, 262, 266, 5, 94, 0, 0, 263, 264, 5, 42, 0, 0, 264, 266, 5, 42, 0, 0, 265, 262, 1, 0, 0, 0,
   265, 263, 1, 0, 0, 0, 266, 34, 1, 0, 0, 0, 267, 268, 5, 108, 0, 0, 268, 269, 5, 111, 0, 0, 269, 277, 5, 103, 0,
   0, 270, 271, 5, 108, 0, 0, 271, 277, 5, 103, 0, 0, 272, 273, 5, 108, 0, 0, 273, 277, 5, 110, 0, 0, 274, 275, 5,
   108, 0, 0, 275, 277, 5, 98, 0, 0, 276, 267, 1, 0, 0, 0, 276, 270, 1, 0, 0, 0, 276, 272, 1, 0, 0, 0, 276, 274, 1,
   0, 0, 0, 277, 281, 1, 0, 0, 0, 278, 280, 3, 41, 19, 0, 279, 278, 1, 0, 0, 0, 280, 283, 1, 0, 0, 0, 281, 279, 1,
   0, 0, 0, 281, 282, 1, 0, 0, 0, 282, 284, 1, 0, 0]

/-- `_grammar/parser/udunits2Lexer.py:11-5527`, part 13 -/
def lexerAtnData13 : List Int :=
  [0, 283, 281, 1, 0, 0, 0, 284, 288, 5, 40, 0, 0, 285, 287, 3, 41, 19, 0, 286, 285, 1, 0, 0, 0, 287, 290, 1, 0, 0,
   0, 288, 286, 1, 0, 0, 0, 288, 289, 1, 0, 0, 0, 289, 295, 1, 0, 0, 0, 290, 288, 1, 0, 0, 0, 291, 292, 5, 82, 0,
   0, 292, 296, 5, 69, 0, 0, 293, 294, 5, 114, 0, 0, 294, 296, 5, 101, 0, 0, 295, 291, 1, 0, 0, 0, 295, 293, 1, 0,
   0, 0, 296, 298, 1, 0, 0, 0, 297, 299, 5, 58, 0, 0, 298, 297, 1, 0, 0, 0, 298, 299, 1, 0, 0, 0, 299, 303, 1, 0,
   0, 0, 300, 302, 3, 41, 19, 0, 301, 300, 1, 0, 0, 0, 302, 305, 1, 0, 0, 0, 303, 301, 1, 0, 0, 0, 303, 304, 1, 0,
   0, 0, 304, 36, 1, 0, 0, 0, 305, 303, 1, 0, 0, 0, 306, 309, 7, 3, 0, 0, 307, 309, 3, 39, 18, 0, 308, 306, 1, 0,
   0, 0, 308, 307, 1, 0, 0, 0, 309, 310, 1, 0, 0, 0, 310, 308, 1, 0, 0, 0, 310, 311, 1, 0, 0, 0, 311, 312, 1, 0, 0,
   0, 312, 313, 6, 17, 1, 0, 313, 38, 1, 0, 0, 0, 314, 315, 7, 4, 0, 0, 315, 40, 1, 0, 0, 0, 316, 317, 7, 5, 0, 0,
   317, 42, 1, 0, 0, 0, 318, 319, 9]

/-- `_grammar/parser/udunits2Lexer.py:11-5527`, part 14 -/
def lexerAtnData14 : List Int :=
  [0, 0, 0, 319, 44, 1, 0, 0, 0, 320, 321, 5, 85, 0, 0, 321, 322, 5, 84, 0, 0, 322, 328, 5, 67, 0, 0, 323, 328, 5,
   90, 0, 0, 324, 325, 5, 71, 0, 0, 325, 326, 5, 77, 0, 0, 326, 328, 5, 84, 0, 0, 327, 320, 1, 0, 0, 0, 327, 323,
   1, 0, 0, 0, 327, 324, 1, 0, 0, 0, 328, 46, 1, 0, 0, 0, 329, 330, 5, 84, 0, 0, 330, 331, 5, 90, 0, 0, 331, 48, 1,
   0, 0, 0, 332, 335, 3, 5, 1, 0, 333, 335, 3, 7, 2, 0, 334, 332, 1, 0, 0, 0, 334, 333, 1, 0, 0, 0, 335, 50, 1, 0,
   0, 0, 336, 338, 3, 49, 23, 0, 337, 336, 1, 0, 0, 0, 337, 338, 1, 0, 0, 0, 338, 340, 1, 0, 0, 0, 339, 341, 2, 48,
   49, 0, 340, 339, 1, 0, 0, 0, 340, 341, 1, 0, 0, 0, 341, 342, 1, 0, 0, 0, 342, 346, 2, 48, 57, 0, 343, 344, 5,
   50, 0, 0, 344, 346, 2, 48, 51, 0, 345, 337, 1, 0, 0, 0, 345, 343, 1, 0, 0, 0, 346, 52, 1, 0, 0, 0, 347, 349, 2,
   48, 53, 0, 348, 347, 1, 0, 0, 0, 348, 349, 1, 0, 0, 0, 349, 350, 1, 0, 0, 0, 350, 351, 2, 48, 57, 0, 351, 54, 1,
   0, 0, 0, 352, 356, 3, 53, 25, 0, 353]

/-- `_grammar/parser/udunits2Lexer.py:11-5527`, part 15 -/
def lexerAtnData15 : List Int :=
  [354, 5, 54, 0, 0, 354, 356, 5, 48, 0, 0, 355, 352, 1, 0, 0, 0, 355, 353, 1, 0, 0, 0, 356, 364, 1, 0, 0, 0, 357,
   361, 3, 13, 5, 0, 358, 360, 2, 48, 57, 0, 359, 358, 1, 0, 0, 0, 360, 363, 1, 0, 0, 0, 361, 359, 1, 0, 0, 0, 361,
   362, 1, 0, 0, 0, 362, 365, 1, 0, 0, 0, 363, 361, 1, 0, 0, 0, 364, 357, 1, 0, 0, 0, 364, 365, 1, 0, 0, 0, 365,
   56, 1, 0, 0, 0, 366, 368, 5, 48, 0, 0, 367, 366, 1, 0, 0, 0, 367, 368, 1, 0, 0, 0, 368, 369, 1, 0, 0, 0, 369,
   373, 2, 49, 57, 0, 370, 371, 5, 49, 0, 0, 371, 373, 2, 48, 50, 0, 372, 367, 1, 0, 0, 0, 372, 370, 1, 0, 0, 0,
   373, 58, 1, 0, 0, 0, 374, 376, 5, 48, 0, 0, 375, 374, 1, 0, 0, 0, 375, 376, 1, 0, 0, 0, 376, 377, 1, 0, 0, 0,
   377, 385, 2, 49, 57, 0, 378, 379, 2, 49, 50, 0, 379, 385, 2, 48, 57, 0, 380, 381, 5, 51, 0, 0, 381, 385, 5, 48,
   0, 0, 382, 383, 5, 51, 0, 0, 383, 385, 5, 49, 0, 0, 384, 375, 1, 0, 0, 0, 384, 378, 1, 0, 0, 0, 384, 380, 1, 0,
   0, 0, 384, 382, 1, 0, 0, 0, 385, 60, 1, 0, 0]

/-- `_grammar/parser/udunits2Lexer.py:11-5527`, part 16 -/
def lexerAtnData16 : List Int :=
  [0, 386, 388, 3, 23, 10, 0, 387, 389, 3, 21, 9, 0, 388, 387, 1, 0, 0, 0, 388, 389, 1, 0, 0, 0, 389, 391, 1, 0, 0,
   0, 390, 392, 3, 21, 9, 0, 391, 390, 1, 0, 0, 0, 391, 392, 1, 0, 0, 0, 392, 394, 1, 0, 0, 0, 393, 395, 3, 21, 9,
   0, 394, 393, 1, 0, 0, 0, 394, 395, 1, 0, 0, 0, 395, 62, 1, 0, 0, 0, 396, 397, 3, 51, 24, 0, 397, 398, 5, 58, 0,
   0, 398, 399, 3, 53, 25, 0, 399, 400, 5, 58, 0, 0, 400, 401, 3, 55, 26, 0, 401, 64, 1, 0, 0, 0, 402, 403, 3, 51,
   24, 0, 403, 404, 5, 58, 0, 0, 404, 405, 3, 53, 25, 0, 405, 66, 1, 0, 0, 0, 406, 407, 5, 45, 0, 0, 407, 68, 1, 0,
   0, 0, 408, 409, 3, 61, 29, 0, 409, 410, 3, 7, 2, 0, 410, 414, 3, 57, 27, 0, 411, 412, 3, 7, 2, 0, 412, 413, 3,
   59, 28, 0, 413, 415, 1, 0, 0, 0, 414, 411, 1, 0, 0, 0, 414, 415, 1, 0, 0, 0, 415, 70, 1, 0, 0, 0, 416, 421, 3,
   51, 24, 0, 417, 419, 3, 53, 25, 0, 418, 420, 3, 55, 26, 0, 419, 418, 1, 0, 0, 0, 419, 420, 1, 0, 0, 0, 420, 422,
   1, 0, 0, 0, 421, 417, 1, 0, 0, 0, 421, 422, 1]

/-- `_grammar/parser/udunits2Lexer.py:11-5527`, part 17 -/
def lexerAtnData17 : List Int :=
  [0, 0, 0, 422, 72, 1, 0, 0, 0, 423, 424, 5, 84, 0, 0, 424, 74, 1, 0, 0, 0, 425, 430, 3, 61, 29, 0, 426, 428, 3,
   57, 27, 0, 427, 429, 3, 59, 28, 0, 428, 427, 1, 0, 0, 0, 428, 429, 1, 0, 0, 0, 429, 431, 1, 0, 0, 0, 430, 426,
   1, 0, 0, 0, 430, 431, 1, 0, 0, 0, 431, 432, 1, 0, 0, 0, 432, 433, 3, 73, 35, 0, 433, 434, 3, 71, 34, 0, 434, 76,
   1, 0, 0, 0, 435, 436, 3, 3, 0, 0, 436, 437, 1, 0, 0, 0, 437, 438, 6, 37, 2, 0, 438, 78, 1, 0, 0, 0, 439, 440, 3,
   5, 1, 0, 440, 441, 1, 0, 0, 0, 441, 442, 6, 38, 3, 0, 442, 80, 1, 0, 0, 0, 443, 444, 3, 9, 3, 0, 444, 445, 1, 0,
   0, 0, 445, 446, 6, 39, 4, 0, 446, 82, 1, 0, 0, 0, 447, 448, 3, 11, 4, 0, 448, 449, 1, 0, 0, 0, 449, 450, 6, 40,
   5, 0, 450, 84, 1, 0, 0, 0, 451, 452, 3, 13, 5, 0, 452, 453, 1, 0, 0, 0, 453, 454, 6, 41, 6, 0, 454, 86, 1, 0, 0,
   0, 455, 456, 3, 15, 6, 0, 456, 457, 1, 0, 0, 0, 457, 458, 6, 42, 7, 0, 458, 88, 1, 0, 0, 0, 459, 460, 3, 17, 7,
   0, 460, 461, 1, 0, 0, 0, 461]

/-- `_grammar/parser/udunits2Lexer.py:11-5527`, part 18 -/
def lexerAtnData18 : List Int :=
  [462, 6, 43, 8, 0, 462, 90, 1, 0, 0, 0, 463, 464, 3, 19, 8, 0, 464, 465, 1, 0, 0, 0, 465, 466, 6, 44, 9, 0, 466,
   92, 1, 0, 0, 0, 467, 468, 3, 21, 9, 0, 468, 469, 1, 0, 0, 0, 469, 470, 6, 45, 10, 0, 470, 94, 1, 0, 0, 0, 471,
   472, 3, 25, 11, 0, 472, 473, 1, 0, 0, 0, 473, 474, 6, 46, 11, 0, 474, 96, 1, 0, 0, 0, 475, 476, 3, 27, 12, 0,
   476, 477, 1, 0, 0, 0, 477, 478, 6, 47, 12, 0, 478, 98, 1, 0, 0, 0, 479, 480, 3, 29, 13, 0, 480, 481, 1, 0, 0, 0,
   481, 482, 6, 48, 13, 0, 482, 100, 1, 0, 0, 0, 483, 484, 3, 31, 14, 0, 484, 485, 1, 0, 0, 0, 485, 486, 6, 49, 14,
   0, 486, 102, 1, 0, 0, 0, 487, 488, 3, 33, 15, 0, 488, 489, 1, 0, 0, 0, 489, 490, 6, 50, 15, 0, 490, 104, 1, 0,
   0, 0, 491, 492, 3, 35, 16, 0, 492, 493, 1, 0, 0, 0, 493, 494, 6, 51, 16, 0, 494, 106, 1, 0, 0, 0, 495, 496, 3,
   37, 17, 0, 496, 497, 1, 0, 0, 0, 497, 498, 6, 52, 17, 0, 498, 108, 1, 0, 0, 0, 499, 500, 3, 39, 18, 0, 500, 501,
   1, 0, 0, 0, 501, 502, 6, 53, 18, 0, 502, 110, 1, 0, 0]

/-- `_grammar/parser/udunits2Lexer.py:11-5527`, part 19 -/
def lexerAtnData19 : List Int :=
  [0, 503, 504, 3, 41, 19, 0, 504, 505, 1, 0, 0, 0, 505, 506, 6, 54, 19, 0, 506, 112, 1, 0, 0, 0, 507, 508, 3, 43,
   20, 0, 508, 509, 1, 0, 0, 0, 509, 510, 6, 55, 20, 0, 510, 114, 1, 0, 0, 0, 511, 512, 3, 3, 0, 0, 512, 513, 1, 0,
   0, 0, 513, 514, 6, 56, 2, 0, 514, 515, 6, 56, 21, 0, 515, 116, 1, 0, 0, 0, 516, 517, 2, 45, 46, 0, 517, 518, 1,
   0, 0, 0, 518, 519, 6, 57, 4, 0, 519, 520, 6, 57, 21, 0, 520, 118, 1, 0, 0, 0, 521, 522, 3, 3, 0, 0, 522, 523, 1,
   0, 0, 0, 523, 524, 6, 58, 2, 0, 524, 525, 6, 58, 21, 0, 525, 120, 1, 0, 0, 0, 526, 527, 3, 5, 1, 0, 527, 528, 1,
   0, 0, 0, 528, 529, 6, 59, 3, 0, 529, 530, 6, 59, 21, 0, 530, 122, 1, 0, 0, 0, 531, 532, 3, 9, 3, 0, 532, 533, 1,
   0, 0, 0, 533, 534, 6, 60, 4, 0, 534, 535, 6, 60, 21, 0, 535, 124, 1, 0, 0, 0, 536, 537, 3, 11, 4, 0, 537, 538,
   1, 0, 0, 0, 538, 539, 6, 61, 5, 0, 539, 540, 6, 61, 21, 0, 540, 126, 1, 0, 0, 0, 541, 542, 3, 13, 5, 0, 542,
   543, 1, 0, 0, 0, 543, 544, 6, 62, 6, 0, 544, 545, 6]

/-- `_grammar/parser/udunits2Lexer.py:11-5527`, part 20 -/
def lexerAtnData20 : List Int :=
  [62, 21, 0, 545, 128, 1, 0, 0, 0, 546, 547, 3, 15, 6, 0, 547, 548, 1, 0, 0, 0, 548, 549, 6, 63, 7, 0, 549, 550,
   6, 63, 21, 0, 550, 130, 1, 0, 0, 0, 551, 552, 3, 17, 7, 0, 552, 553, 1, 0, 0, 0, 553, 554, 6, 64, 8, 0, 554,
   555, 6, 64, 21, 0, 555, 132, 1, 0, 0, 0, 556, 557, 3, 19, 8, 0, 557, 558, 1, 0, 0, 0, 558, 559, 6, 65, 9, 0,
   559, 560, 6, 65, 21, 0, 560, 134, 1, 0, 0, 0, 561, 562, 3, 21, 9, 0, 562, 563, 1, 0, 0, 0, 563, 564, 6, 66, 10,
   0, 564, 565, 6, 66, 21, 0, 565, 136, 1, 0, 0, 0, 566, 567, 3, 25, 11, 0, 567, 568, 1, 0, 0, 0, 568, 569, 6, 67,
   11, 0, 569, 570, 6, 67, 21, 0, 570, 138, 1, 0, 0, 0, 571, 572, 3, 29, 13, 0, 572, 573, 1, 0, 0, 0, 573, 574, 6,
   68, 13, 0, 574, 575, 6, 68, 21, 0, 575, 140, 1, 0, 0, 0, 576, 577, 3, 31, 14, 0, 577, 578, 1, 0, 0, 0, 578, 579,
   6, 69, 14, 0, 579, 580, 6, 69, 21, 0, 580, 142, 1, 0, 0, 0, 581, 582, 3, 33, 15, 0, 582, 583, 1, 0, 0, 0, 583,
   584, 6, 70, 15, 0, 584, 585, 6, 70, 21, 0, 585, 144, 1, 0, 0, 0, 586]

/-- `_grammar/parser/udunits2Lexer.py:11-5527`, part 21 -/
def lexerAtnData21 : List Int :=
  [587, 3, 35, 16, 0, 587, 588, 1, 0, 0, 0, 588, 589, 6, 71, 16, 0, 589, 590, 6, 71, 21, 0, 590, 146, 1, 0, 0, 0,
   591, 592, 3, 37, 17, 0, 592, 593, 1, 0, 0, 0, 593, 594, 6, 72, 17, 0, 594, 595, 6, 72, 21, 0, 595, 148, 1, 0, 0,
   0, 596, 597, 3, 39, 18, 0, 597, 598, 1, 0, 0, 0, 598, 599, 6, 73, 18, 0, 599, 600, 6, 73, 21, 0, 600, 150, 1, 0,
   0, 0, 601, 602, 3, 41, 19, 0, 602, 603, 1, 0, 0, 0, 603, 604, 6, 74, 19, 0, 604, 605, 6, 74, 21, 0, 605, 152, 1,
   0, 0, 0, 606, 607, 3, 43, 20, 0, 607, 608, 1, 0, 0, 0, 608, 609, 6, 75, 20, 0, 609, 610, 6, 75, 21, 0, 610, 154,
   1, 0, 0, 0, 47, 0, 1, 2, 157, 167, 172, 186, 191, 205, 209, 217, 220, 225, 228, 233, 253, 260, 265, 276, 281,
   288, 295, 298, 303, 308, 310, 327, 334, 337, 340, 345, 348, 355, 361, 364, 367, 372, 375, 384, 388, 391, 394,
   414, 419, 421, 428, 430, 22, 5, 1, 0, 2, 2, 0, 7, 1, 0, 7, 2, 0, 7, 3, 0, 7, 4, 0, 7, 5, 0, 7, 6, 0, 7, 7, 0, 7,
   8, 0, 7, 9, 0, 7, 10, 0, 7, 11, 0, 7, 12, 0, 7, 13, 0, 7, 14, 0, 7, 15, 0, 7]

/-- `_grammar/parser/udunits2Lexer.py:11-5527`, part 22 -/
def lexerAtnData22 : List Int :=
  [16, 0, 7, 17, 0, 7, 18, 0, 7, 19, 0, 2, 0, 0]

/-- What `serializedATN()` of the generated lexer returns (`_grammar/parser/udunits2Lexer.py:11-5527`). -/
def lexerAtnData : List Int :=
  lexerAtnData0 ++ (lexerAtnData1 ++ (lexerAtnData2 ++ (lexerAtnData3 ++ (lexerAtnData4 ++ (lexerAtnData5 ++ (lexerAtnData6 ++ (lexerAtnData7 ++ (lexerAtnData8 ++ (lexerAtnData9 ++ (lexerAtnData10 ++ (lexerAtnData11 ++ (lexerAtnData12 ++ (lexerAtnData13 ++ (lexerAtnData14 ++ (lexerAtnData15 ++ (lexerAtnData16 ++ (lexerAtnData17 ++ (lexerAtnData18 ++ (lexerAtnData19 ++ (lexerAtnData20 ++ (lexerAtnData21 ++ (lexerAtnData22))))))))))))))))))))))

/-- `_grammar/parser/udunits2Parser.py:12-1540`, part 0 -/
def parserAtnData0 : List Int :=
  [4, 1, 27, 159, 2, 0, 7, 0, 2, 1, 7, 1, 2, 2, 7, 2, 2, 3, 7, 3, 2, 4, 7, 4, 2, 5, 7, 5, 2, 6, 7, 6, 2, 7, 7, 7,
   2, 8, 7, 8, 2, 9, 7, 9, 2, 10, 7, 10, 1, 0, 3, 0, 24, 8, 0, 1, 0, 1, 0, 1, 1, 1, 1, 1, 1, 3, 1, 31, 8, 1, 1, 1,
   1, 1, 3, 1, 35, 8, 1, 1, 1, 1, 1, 1, 1, 1, 1, 3, 1, 41, 8, 1, 1, 1, 1, 1, 3, 1, 45, 8, 1, 1, 1, 1, 1, 3, 1, 49,
   8, 1, 1, 2, 1, 2, 1, 2, 1, 2, 1, 2, 1, 2, 1, 2, 1, 2, 1, 2, 1, 2, 1, 2, 1, 2, 1, 2, 4, 2, 64, 8, 2, 11, 2, 12,
   2, 65, 1, 2, 5, 2, 69, 8, 2, 10, 2, 12, 2, 72, 9, 2, 1, 3, 1, 3, 1, 3, 1, 3, 1, 3, 1, 3, 1, 3, 1, 3, 1, 3, 1, 3,
   1, 3, 3, 3, 85, 8, 3, 1, 4, 1, 4, 1, 4, 1, 4, 1, 4, 3, 4, 92, 8, 4, 1, 5, 1, 5, 1, 5, 1, 5, 1, 5, 1, 5, 3, 5,
   100, 8, 5, 1, 6, 1, 6, 1, 7, 1, 7, 3, 7, 106, 8, 7, 1, 8, 1, 8, 3, 8, 110, 8, 8, 1, 8, 1, 8, 3, 8, 114, 8, 8]

/-- `_grammar/parser/udunits2Parser.py:12-1540`, part 1 -/
def parserAtnData1 : List Int :=
  [1, 8, 3, 8, 117, 8, 8, 1, 8, 1, 8, 3, 8, 121, 8, 8, 1, 8, 1, 8, 3, 8, 125, 8, 8, 1, 8, 1, 8, 1, 8, 3, 8, 130, 8,
   8, 1, 8, 1, 8, 3, 8, 134, 8, 8, 1, 8, 1, 8, 3, 8, 138, 8, 8, 1, 8, 1, 8, 3, 8, 142, 8, 8, 1, 8, 3, 8, 145, 8, 8,
   1, 8, 3, 8, 148, 8, 8, 1, 9, 1, 9, 1, 9, 3, 9, 153, 8, 9, 1, 10, 1, 10, 3, 10, 157, 8, 10, 1, 10, 0, 1, 4, 11,
   0, 2, 4, 6, 8, 10, 12, 14, 16, 18, 20, 0, 3, 2, 0, 1, 1, 9, 9, 2, 0, 18, 18, 26, 26, 1, 0, 20, 21, 186, 0, 23,
   1, 0, 0, 0, 2, 48, 1, 0, 0, 0, 4, 50, 1, 0, 0, 0, 6, 84, 1, 0, 0, 0, 8, 91, 1, 0, 0, 0, 10, 99, 1, 0, 0, 0, 12,
   101, 1, 0, 0, 0, 14, 105, 1, 0, 0, 0, 16, 147, 1, 0, 0, 0, 18, 152, 1, 0, 0, 0, 20, 156, 1, 0, 0, 0, 22, 24, 3,
   2, 1, 0, 23, 22, 1, 0, 0, 0, 23, 24, 1, 0, 0, 0, 24, 25, 1, 0, 0, 0, 25, 26, 5, 0, 0, 1, 26, 1, 1, 0, 0, 0, 27,
   49, 3, 4, 2, 0, 28, 30, 3, 4, 2, 0, 29, 31, 5]

/-- `_grammar/parser/udunits2Parser.py:12-1540`, part 2 -/
def parserAtnData2 : List Int :=
  [18, 0, 0, 30, 29, 1, 0, 0, 0, 30, 31, 1, 0, 0, 0, 31, 32, 1, 0, 0, 0, 32, 34, 5, 12, 0, 0, 33, 35, 5, 18, 0, 0,
   34, 33, 1, 0, 0, 0, 34, 35, 1, 0, 0, 0, 35, 36, 1, 0, 0, 0, 36, 37, 3, 14, 7, 0, 37, 49, 1, 0, 0, 0, 38, 40, 3,
   4, 2, 0, 39, 41, 5, 18, 0, 0, 40, 39, 1, 0, 0, 0, 40, 41, 1, 0, 0, 0, 41, 42, 1, 0, 0, 0, 42, 44, 5, 12, 0, 0,
   43, 45, 5, 18, 0, 0, 44, 43, 1, 0, 0, 0, 44, 45, 1, 0, 0, 0, 45, 46, 1, 0, 0, 0, 46, 47, 3, 16, 8, 0, 47, 49, 1,
   0, 0, 0, 48, 27, 1, 0, 0, 0, 48, 28, 1, 0, 0, 0, 48, 38, 1, 0, 0, 0, 49, 3, 1, 0, 0, 0, 50, 51, 6, 2, -1, 0, 51,
   52, 3, 6, 3, 0, 52, 70, 1, 0, 0, 0, 53, 54, 10, 4, 0, 0, 54, 69, 3, 6, 3, 0, 55, 56, 10, 3, 0, 0, 56, 57, 5, 3,
   0, 0, 57, 69, 3, 6, 3, 0, 58, 59, 10, 2, 0, 0, 59, 60, 5, 4, 0, 0, 60, 69, 3, 6, 3, 0, 61, 63, 10, 1, 0, 0, 62,
   64, 5, 18, 0, 0, 63, 62, 1, 0, 0, 0, 64, 65, 1, 0, 0, 0, 65]

/-- `_grammar/parser/udunits2Parser.py:12-1540`, part 3 -/
def parserAtnData3 : List Int :=
  [63, 1, 0, 0, 0, 65, 66, 1, 0, 0, 0, 66, 67, 1, 0, 0, 0, 67, 69, 3, 6, 3, 0, 68, 53, 1, 0, 0, 0, 68, 55, 1, 0, 0,
   0, 68, 58, 1, 0, 0, 0, 68, 61, 1, 0, 0, 0, 69, 72, 1, 0, 0, 0, 70, 68, 1, 0, 0, 0, 70, 71, 1, 0, 0, 0, 71, 5, 1,
   0, 0, 0, 72, 70, 1, 0, 0, 0, 73, 74, 3, 8, 4, 0, 74, 75, 3, 12, 6, 0, 75, 85, 1, 0, 0, 0, 76, 85, 3, 8, 4, 0,
   77, 78, 3, 8, 4, 0, 78, 79, 5, 14, 0, 0, 79, 80, 3, 12, 6, 0, 80, 85, 1, 0, 0, 0, 81, 82, 3, 8, 4, 0, 82, 83, 5,
   13, 0, 0, 83, 85, 1, 0, 0, 0, 84, 73, 1, 0, 0, 0, 84, 76, 1, 0, 0, 0, 84, 77, 1, 0, 0, 0, 84, 81, 1, 0, 0, 0,
   85, 7, 1, 0, 0, 0, 86, 92, 3, 10, 5, 0, 87, 88, 5, 15, 0, 0, 88, 89, 3, 2, 1, 0, 89, 90, 5, 7, 0, 0, 90, 92, 1,
   0, 0, 0, 91, 86, 1, 0, 0, 0, 91, 87, 1, 0, 0, 0, 92, 9, 1, 0, 0, 0, 93, 100, 5, 16, 0, 0, 94, 95, 5, 6, 0, 0,
   95, 96, 3, 2, 1, 0, 96, 97, 5, 7, 0, 0, 97, 100, 1, 0, 0]

/-- `_grammar/parser/udunits2Parser.py:12-1540`, part 4 -/
def parserAtnData4 : List Int :=
  [0, 98, 100, 3, 14, 7, 0, 99, 93, 1, 0, 0, 0, 99, 94, 1, 0, 0, 0, 99, 98, 1, 0, 0, 0, 100, 11, 1, 0, 0, 0, 101,
   102, 7, 0, 0, 0, 102, 13, 1, 0, 0, 0, 103, 106, 3, 12, 6, 0, 104, 106, 5, 11, 0, 0, 105, 103, 1, 0, 0, 0, 105,
   104, 1, 0, 0, 0, 106, 15, 1, 0, 0, 0, 107, 110, 5, 25, 0, 0, 108, 110, 3, 12, 6, 0, 109, 107, 1, 0, 0, 0, 109,
   108, 1, 0, 0, 0, 110, 148, 1, 0, 0, 0, 111, 114, 5, 25, 0, 0, 112, 114, 3, 12, 6, 0, 113, 111, 1, 0, 0, 0, 113,
   112, 1, 0, 0, 0, 114, 116, 1, 0, 0, 0, 115, 117, 7, 1, 0, 0, 116, 115, 1, 0, 0, 0, 116, 117, 1, 0, 0, 0, 117,
   118, 1, 0, 0, 0, 118, 120, 3, 18, 9, 0, 119, 121, 5, 18, 0, 0, 120, 119, 1, 0, 0, 0, 120, 121, 1, 0, 0, 0, 121,
   124, 1, 0, 0, 0, 122, 125, 3, 20, 10, 0, 123, 125, 5, 20, 0, 0, 124, 122, 1, 0, 0, 0, 124, 123, 1, 0, 0, 0, 124,
   125, 1, 0, 0, 0, 125, 148, 1, 0, 0, 0, 126, 129, 3, 12, 6, 0, 127, 130, 3, 20, 10, 0, 128, 130, 5, 20, 0, 0,
   129, 127, 1, 0, 0, 0, 129, 128, 1]

/-- `_grammar/parser/udunits2Parser.py:12-1540`, part 5 -/
def parserAtnData5 : List Int :=
  [0, 0, 0, 129, 130, 1, 0, 0, 0, 130, 148, 1, 0, 0, 0, 131, 133, 5, 27, 0, 0, 132, 134, 5, 18, 0, 0, 133, 132, 1,
   0, 0, 0, 133, 134, 1, 0, 0, 0, 134, 137, 1, 0, 0, 0, 135, 138, 3, 20, 10, 0, 136, 138, 5, 20, 0, 0, 137, 135, 1,
   0, 0, 0, 137, 136, 1, 0, 0, 0, 137, 138, 1, 0, 0, 0, 138, 148, 1, 0, 0, 0, 139, 142, 5, 25, 0, 0, 140, 142, 3,
   12, 6, 0, 141, 139, 1, 0, 0, 0, 141, 140, 1, 0, 0, 0, 142, 144, 1, 0, 0, 0, 143, 145, 5, 18, 0, 0, 144, 143, 1,
   0, 0, 0, 144, 145, 1, 0, 0, 0, 145, 146, 1, 0, 0, 0, 146, 148, 7, 2, 0, 0, 147, 109, 1, 0, 0, 0, 147, 113, 1, 0,
   0, 0, 147, 126, 1, 0, 0, 0, 147, 131, 1, 0, 0, 0, 147, 141, 1, 0, 0, 0, 148, 17, 1, 0, 0, 0, 149, 153, 5, 22, 0,
   0, 150, 153, 5, 23, 0, 0, 151, 153, 3, 12, 6, 0, 152, 149, 1, 0, 0, 0, 152, 150, 1, 0, 0, 0, 152, 151, 1, 0, 0,
   0, 153, 19, 1, 0, 0, 0, 154, 157, 5, 23, 0, 0, 155, 157, 3, 12, 6, 0, 156, 154, 1, 0, 0, 0, 156, 155, 1, 0, 0,
   0, 157, 21, 1, 0, 0, 0, 26]

/-- `_grammar/parser/udunits2Parser.py:12-1540`, part 6 -/
def parserAtnData6 : List Int :=
  [23, 30, 34, 40, 44, 48, 65, 68, 70, 84, 91, 99, 105, 109, 113, 116, 120, 124, 129, 133, 137, 141, 144, 147, 152,
   156]

/-- What `serializedATN()` of the generated parser returns (`_grammar/parser/udunits2Parser.py:12-1540`). -/
def parserAtnData : List Int :=
  parserAtnData0 ++ (parserAtnData1 ++ (parserAtnData2 ++ (parserAtnData3 ++ (parserAtnData4 ++ (parserAtnData5 ++ (parserAtnData6))))))

end Verif

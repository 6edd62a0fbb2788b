/-!
# Serialized ATNs

The two `serializedATN` arrays of the generated code, copied number by number
(script: every integer literal between the braces, in order).  Each array has
exactly one negative number, written 65535 here: the rule index -1 of the
lexer's token start state, and the action index -1 of the parser's only
(empty) action transition.
-/

namespace Verif.Atn

/-- kfgrammar/kuneiform_lexer.go:91-362. -/
def lexerData0 : List Nat := [
  4, 0, 84, 615, 6, 65535, 2, 0, 7, 0, 2, 1, 7, 1, 2, 2, 7, 2, 2, 3, 7, 3, 2, 4, 7, 4, 2, 5, 7, 5,
  2, 6, 7, 6, 2, 7, 7, 7, 2, 8, 7, 8, 2, 9, 7, 9, 2, 10, 7, 10, 2, 11, 7, 11, 2, 12, 7, 12, 2, 13,
  7, 13, 2, 14, 7, 14, 2, 15, 7, 15, 2, 16, 7, 16, 2, 17, 7, 17, 2, 18, 7, 18, 2, 19, 7, 19, 2,
  20, 7, 20, 2, 21, 7, 21, 2, 22, 7, 22, 2, 23, 7, 23, 2, 24, 7, 24, 2, 25, 7, 25, 2, 26, 7, 26,
  2, 27, 7, 27, 2, 28, 7, 28, 2, 29, 7, 29, 2, 30, 7, 30, 2, 31, 7, 31, 2, 32, 7, 32, 2, 33, 7,
  33, 2, 34, 7, 34, 2, 35, 7, 35, 2, 36, 7, 36, 2, 37, 7, 37, 2, 38, 7, 38, 2, 39, 7, 39, 2, 40,
  7, 40, 2, 41, 7, 41, 2, 42, 7, 42, 2, 43, 7, 43, 2, 44, 7, 44, 2, 45, 7, 45, 2, 46, 7, 46, 2,
  47, 7, 47, 2, 48, 7, 48, 2, 49, 7, 49, 2, 50, 7, 50, 2, 51, 7, 51, 2, 52, 7, 52, 2, 53, 7, 53,
  2, 54, 7, 54, 2, 55, 7, 55, 2, 56, 7, 56, 2, 57, 7, 57, 2, 58, 7, 58, 2, 59, 7, 59, 2, 60, 7,
  60, 2, 61, 7, 61, 2, 62, 7, 62, 2, 63, 7, 63, 2, 64, 7, 64, 2, 65, 7, 65, 2, 66, 7, 66, 2, 67,
  7, 67, 2, 68, 7, 68, 2, 69, 7, 69, 2, 70, 7, 70, 2, 71, 7, 71, 2, 72, 7, 72, 2, 73, 7, 73, 2,
  74, 7, 74, 2, 75, 7, 75, 2, 76, 7, 76, 2, 77, 7, 77, 2, 78, 7, 78, 2, 79, 7, 79, 2, 80, 7, 80,
  2, 81, 7, 81, 2, 82, 7, 82, 2, 83, 7, 83, 2, 84, 7, 84, 2, 85, 7, 85, 2, 86, 7, 86, 2, 87, 7,
  87, 1, 0, 1, 0, 1, 1, 1, 1, 1, 2, 1, 2, 1, 3, 1, 3, 1, 4, 1, 4, 1, 5, 1, 5, 1, 6, 1, 6, 1, 7, 1,
  7, 1, 8, 1, 8, 1, 9, 1, 9, 1, 10]
/-- kfgrammar/kuneiform_lexer.go:91-362 (continued). -/
def lexerData1 : List Nat := [
  1, 10, 1, 11, 1, 11, 1, 12, 1, 12, 1, 13, 1, 13, 1, 14, 1, 14, 1, 15, 1, 15, 1, 16, 1, 16, 1,
  17, 1, 17, 1, 18, 1, 18, 1, 18, 1, 19, 1, 19, 1, 19, 1, 20, 1, 20, 1, 20, 1, 21, 1, 21, 1, 22,
  1, 22, 1, 23, 1, 23, 1, 23, 1, 24, 1, 24, 1, 25, 1, 25, 1, 25, 1, 26, 1, 26, 1, 27, 1, 27, 1,
  27, 1, 28, 1, 28, 1, 28, 1, 29, 1, 29, 1, 29, 1, 30, 1, 30, 1, 30, 1, 30, 1, 30, 1, 30, 1, 30,
  1, 30, 1, 30, 1, 31, 1, 31, 1, 31, 1, 31, 1, 32, 1, 32, 1, 32, 1, 33, 1, 33, 1, 33, 1, 33, 1,
  33, 1, 33, 1, 34, 1, 34, 1, 34, 1, 34, 1, 34, 1, 34, 1, 34, 1, 35, 1, 35, 1, 35, 1, 35, 1, 35,
  1, 36, 1, 36, 1, 36, 1, 36, 1, 36, 1, 36, 1, 36, 1, 37, 1, 37, 1, 37, 1, 37, 1, 37, 1, 37, 1,
  37, 1, 37, 1, 38, 1, 38, 1, 38, 1, 38, 1, 38, 1, 39, 1, 39, 1, 39, 1, 39, 1, 39, 1, 39, 1, 40,
  1, 40, 1, 40, 1, 40, 1, 41, 1, 41, 1, 41, 1, 41, 1, 41, 1, 42, 1, 42, 1, 42, 1, 42, 1, 42, 1,
  43, 1, 43, 1, 43, 1, 43, 1, 44, 1, 44, 1, 44, 1, 44, 1, 45, 1, 45, 1, 45, 1, 45, 1, 45, 1, 45,
  1, 45, 1, 46, 1, 46, 1, 46, 1, 46, 1, 46, 1, 46, 1, 46, 1, 47, 1, 47, 1, 47, 1, 47, 1, 47, 1,
  47, 1, 47, 1, 47, 1, 48, 1, 48, 1, 48, 1, 48, 1, 48, 1, 48, 1, 48, 1, 48, 1, 49, 1, 49, 1, 49,
  1, 49, 1, 49, 1, 49, 1, 49, 1, 49, 1, 50, 1, 50, 1, 50, 1, 50, 1, 50, 1, 50, 1, 50, 1, 51, 1,
  51, 1, 51, 1, 51, 1, 51, 1, 51, 1, 52, 1, 52, 1, 52, 1, 52, 1, 52, 1, 52, 1, 52, 1, 52, 1, 52,
  1, 52, 1, 52, 1, 52, 1, 53, 1, 53, 1, 53, 1, 54, 1, 54, 1, 54, 1, 54, 1, 54]
/-- kfgrammar/kuneiform_lexer.go:91-362 (continued). -/
def lexerData2 : List Nat := [
  1, 54, 1, 54, 1, 54, 1, 54, 1, 54, 1, 54, 1, 55, 1, 55, 1, 55, 1, 55, 1, 56, 1, 56, 1, 56, 1,
  56, 1, 56, 1, 56, 1, 56, 1, 56, 1, 56, 1, 56, 1, 57, 1, 57, 1, 57, 1, 57, 1, 57, 1, 57, 1, 57,
  1, 57, 1, 57, 1, 57, 1, 58, 1, 58, 1, 58, 1, 59, 1, 59, 1, 59, 1, 59, 1, 59, 1, 59, 1, 59, 1,
  59, 1, 59, 1, 59, 1, 60, 1, 60, 1, 60, 1, 60, 1, 60, 1, 60, 1, 60, 1, 60, 1, 61, 1, 61, 1, 61,
  1, 61, 1, 61, 1, 61, 1, 61, 1, 61, 1, 61, 1, 62, 1, 62, 1, 62, 1, 62, 1, 62, 1, 62, 1, 62, 1,
  62, 1, 62, 1, 62, 1, 62, 1, 62, 1, 63, 1, 63, 1, 63, 1, 63, 1, 63, 1, 63, 1, 63, 1, 63, 1, 63,
  1, 64, 1, 64, 1, 64, 1, 64, 1, 64, 1, 64, 1, 64, 1, 65, 1, 65, 1, 65, 1, 65, 1, 65, 1, 65, 1,
  65, 1, 66, 1, 66, 1, 66, 1, 66, 1, 66, 1, 66, 1, 66, 1, 67, 1, 67, 1, 67, 1, 67, 1, 67, 1, 67,
  1, 67, 1, 68, 1, 68, 1, 68, 1, 68, 1, 68, 1, 69, 1, 69, 1, 69, 1, 69, 1, 70, 1, 70, 1, 70, 1,
  70, 1, 71, 1, 71, 1, 71, 1, 72, 1, 72, 5, 72, 526, 8, 72, 10, 72, 12, 72, 529, 9, 72, 1, 73, 1,
  73, 1, 73, 1, 74, 1, 74, 1, 74, 1, 75, 1, 75, 1, 75, 1, 76, 4, 76, 541, 8, 76, 11, 76, 12, 76,
  542, 1, 77, 1, 77, 1, 78, 1, 78, 1, 78, 1, 78, 1, 78, 3, 78, 552, 8, 78, 1, 79, 1, 79, 4, 79,
  556, 8, 79, 11, 79, 12, 79, 557, 1, 79, 4, 79, 561, 8, 79, 11, 79, 12, 79, 562, 1, 80, 1, 80, 1,
  80, 1, 80, 1, 81, 1, 81, 1, 81, 1, 81, 1, 82, 1, 82, 1, 82, 1, 82, 5, 82, 577, 8, 82, 10, 82,
  12, 82, 580, 9, 82, 1, 82, 1, 82, 1, 82, 1, 82, 1, 82, 1, 83, 1, 83, 1, 83, 1, 83, 5, 83, 591,
  8, 83]
/-- kfgrammar/kuneiform_lexer.go:91-362 (continued). -/
def lexerData3 : List Nat := [
  10, 83, 12, 83, 594, 9, 83, 1, 83, 1, 83, 1, 84, 1, 84, 1, 85, 1, 85, 1, 86, 1, 86, 1, 86, 3,
  86, 605, 8, 86, 1, 87, 1, 87, 5, 87, 609, 8, 87, 10, 87, 12, 87, 612, 9, 87, 1, 87, 1, 87, 1,
  578, 0, 88, 1, 1, 3, 2, 5, 3, 7, 4, 9, 5, 11, 6, 13, 7, 15, 8, 17, 9, 19, 10, 21, 11, 23, 12,
  25, 13, 27, 14, 29, 15, 31, 16, 33, 17, 35, 18, 37, 19, 39, 20, 41, 21, 43, 22, 45, 23, 47, 24,
  49, 25, 51, 26, 53, 27, 55, 28, 57, 29, 59, 30, 61, 31, 63, 32, 65, 33, 67, 34, 69, 35, 71, 36,
  73, 37, 75, 38, 77, 39, 79, 40, 81, 41, 83, 42, 85, 43, 87, 44, 89, 45, 91, 46, 93, 47, 95, 48,
  97, 49, 99, 50, 101, 51, 103, 52, 105, 53, 107, 54, 109, 55, 111, 56, 113, 57, 115, 58, 117, 59,
  119, 60, 121, 61, 123, 62, 125, 63, 127, 64, 129, 65, 131, 66, 133, 67, 135, 68, 137, 69, 139,
  70, 141, 71, 143, 72, 145, 73, 147, 74, 149, 75, 151, 76, 153, 77, 155, 78, 157, 79, 159, 80,
  161, 81, 163, 82, 165, 83, 167, 84, 169, 0, 171, 0, 173, 0, 175, 0, 1, 0, 22, 2, 0, 83, 83, 115,
  115, 2, 0, 69, 69, 101, 101, 2, 0, 76, 76, 108, 108, 2, 0, 67, 67, 99, 99, 2, 0, 84, 84, 116,
  116, 2, 0, 73, 73, 105, 105, 2, 0, 78, 78, 110, 110, 2, 0, 82, 82, 114, 114, 2, 0, 85, 85, 117,
  117, 2, 0, 80, 80, 112, 112, 2, 0, 68, 68, 100, 100, 2, 0, 65, 65, 97, 97, 2, 0, 87, 87, 119,
  119, 2, 0, 72, 72, 104, 104, 2, 0, 65, 90, 97, 122, 4, 0, 48, 57, 65, 90, 95, 95, 97, 122, 2, 0,
  59, 59, 125, 125, 2, 0, 9, 9, 32, 32, 2, 0, 10, 10, 13, 13, 3, 0, 9, 10, 13, 13, 32, 32, 1, 0,
  48, 57, 4, 0, 10, 10, 13, 13, 39, 39, 92, 92, 622, 0, 1, 1, 0, 0, 0, 0, 3, 1, 0, 0, 0, 0, 5, 1,
  0, 0, 0, 0, 7, 1, 0, 0, 0, 0, 9]
/-- kfgrammar/kuneiform_lexer.go:91-362 (continued). -/
def lexerData4 : List Nat := [
  1, 0, 0, 0, 0, 11, 1, 0, 0, 0, 0, 13, 1, 0, 0, 0, 0, 15, 1, 0, 0, 0, 0, 17, 1, 0, 0, 0, 0, 19,
  1, 0, 0, 0, 0, 21, 1, 0, 0, 0, 0, 23, 1, 0, 0, 0, 0, 25, 1, 0, 0, 0, 0, 27, 1, 0, 0, 0, 0, 29,
  1, 0, 0, 0, 0, 31, 1, 0, 0, 0, 0, 33, 1, 0, 0, 0, 0, 35, 1, 0, 0, 0, 0, 37, 1, 0, 0, 0, 0, 39,
  1, 0, 0, 0, 0, 41, 1, 0, 0, 0, 0, 43, 1, 0, 0, 0, 0, 45, 1, 0, 0, 0, 0, 47, 1, 0, 0, 0, 0, 49,
  1, 0, 0, 0, 0, 51, 1, 0, 0, 0, 0, 53, 1, 0, 0, 0, 0, 55, 1, 0, 0, 0, 0, 57, 1, 0, 0, 0, 0, 59,
  1, 0, 0, 0, 0, 61, 1, 0, 0, 0, 0, 63, 1, 0, 0, 0, 0, 65, 1, 0, 0, 0, 0, 67, 1, 0, 0, 0, 0, 69,
  1, 0, 0, 0, 0, 71, 1, 0, 0, 0, 0, 73, 1, 0, 0, 0, 0, 75, 1, 0, 0, 0, 0, 77, 1, 0, 0, 0, 0, 79,
  1, 0, 0, 0, 0, 81, 1, 0, 0, 0, 0, 83, 1, 0, 0, 0, 0, 85, 1, 0, 0, 0, 0, 87, 1, 0, 0, 0, 0, 89,
  1, 0, 0, 0, 0, 91, 1, 0, 0, 0, 0, 93, 1, 0, 0, 0, 0, 95, 1, 0, 0, 0, 0, 97, 1, 0, 0, 0, 0, 99,
  1, 0, 0, 0, 0, 101, 1, 0, 0, 0, 0, 103, 1, 0, 0, 0, 0, 105, 1, 0, 0, 0, 0, 107, 1, 0, 0, 0, 0,
  109, 1, 0, 0, 0, 0, 111, 1, 0, 0, 0, 0, 113, 1, 0, 0, 0, 0, 115, 1, 0, 0, 0, 0, 117, 1, 0, 0, 0,
  0, 119, 1, 0, 0, 0, 0, 121, 1, 0, 0, 0, 0, 123, 1, 0, 0, 0, 0, 125, 1, 0, 0, 0, 0, 127, 1, 0, 0,
  0, 0, 129, 1, 0, 0, 0, 0, 131, 1, 0, 0, 0, 0, 133, 1, 0, 0, 0, 0, 135, 1, 0, 0, 0, 0, 137, 1, 0,
  0, 0, 0, 139, 1, 0, 0, 0, 0, 141, 1, 0, 0, 0]
/-- kfgrammar/kuneiform_lexer.go:91-362 (continued). -/
def lexerData5 : List Nat := [
  0, 143, 1, 0, 0, 0, 0, 145, 1, 0, 0, 0, 0, 147, 1, 0, 0, 0, 0, 149, 1, 0, 0, 0, 0, 151, 1, 0, 0,
  0, 0, 153, 1, 0, 0, 0, 0, 155, 1, 0, 0, 0, 0, 157, 1, 0, 0, 0, 0, 159, 1, 0, 0, 0, 0, 161, 1, 0,
  0, 0, 0, 163, 1, 0, 0, 0, 0, 165, 1, 0, 0, 0, 0, 167, 1, 0, 0, 0, 1, 177, 1, 0, 0, 0, 3, 179, 1,
  0, 0, 0, 5, 181, 1, 0, 0, 0, 7, 183, 1, 0, 0, 0, 9, 185, 1, 0, 0, 0, 11, 187, 1, 0, 0, 0, 13,
  189, 1, 0, 0, 0, 15, 191, 1, 0, 0, 0, 17, 193, 1, 0, 0, 0, 19, 195, 1, 0, 0, 0, 21, 197, 1, 0,
  0, 0, 23, 199, 1, 0, 0, 0, 25, 201, 1, 0, 0, 0, 27, 203, 1, 0, 0, 0, 29, 205, 1, 0, 0, 0, 31,
  207, 1, 0, 0, 0, 33, 209, 1, 0, 0, 0, 35, 211, 1, 0, 0, 0, 37, 213, 1, 0, 0, 0, 39, 216, 1, 0,
  0, 0, 41, 219, 1, 0, 0, 0, 43, 222, 1, 0, 0, 0, 45, 224, 1, 0, 0, 0, 47, 226, 1, 0, 0, 0, 49,
  229, 1, 0, 0, 0, 51, 231, 1, 0, 0, 0, 53, 234, 1, 0, 0, 0, 55, 236, 1, 0, 0, 0, 57, 239, 1, 0,
  0, 0, 59, 242, 1, 0, 0, 0, 61, 245, 1, 0, 0, 0, 63, 254, 1, 0, 0, 0, 65, 258, 1, 0, 0, 0, 67,
  261, 1, 0, 0, 0, 69, 267, 1, 0, 0, 0, 71, 274, 1, 0, 0, 0, 73, 279, 1, 0, 0, 0, 75, 286, 1, 0,
  0, 0, 77, 294, 1, 0, 0, 0, 79, 299, 1, 0, 0, 0, 81, 305, 1, 0, 0, 0, 83, 309, 1, 0, 0, 0, 85,
  314, 1, 0, 0, 0, 87, 319, 1, 0, 0, 0, 89, 323, 1, 0, 0, 0, 91, 327, 1, 0, 0, 0, 93, 334, 1, 0,
  0, 0, 95, 341, 1, 0, 0, 0, 97, 349, 1, 0, 0, 0, 99, 357, 1, 0, 0, 0, 101, 365, 1, 0, 0, 0, 103,
  372, 1, 0, 0, 0, 105, 378, 1, 0, 0, 0, 107, 390, 1, 0]
/-- kfgrammar/kuneiform_lexer.go:91-362 (continued). -/
def lexerData6 : List Nat := [
  0, 0, 109, 393, 1, 0, 0, 0, 111, 404, 1, 0, 0, 0, 113, 408, 1, 0, 0, 0, 115, 418, 1, 0, 0, 0,
  117, 428, 1, 0, 0, 0, 119, 431, 1, 0, 0, 0, 121, 441, 1, 0, 0, 0, 123, 449, 1, 0, 0, 0, 125,
  458, 1, 0, 0, 0, 127, 470, 1, 0, 0, 0, 129, 479, 1, 0, 0, 0, 131, 486, 1, 0, 0, 0, 133, 493, 1,
  0, 0, 0, 135, 500, 1, 0, 0, 0, 137, 507, 1, 0, 0, 0, 139, 512, 1, 0, 0, 0, 141, 516, 1, 0, 0, 0,
  143, 520, 1, 0, 0, 0, 145, 523, 1, 0, 0, 0, 147, 530, 1, 0, 0, 0, 149, 533, 1, 0, 0, 0, 151,
  536, 1, 0, 0, 0, 153, 540, 1, 0, 0, 0, 155, 544, 1, 0, 0, 0, 157, 551, 1, 0, 0, 0, 159, 553, 1,
  0, 0, 0, 161, 564, 1, 0, 0, 0, 163, 568, 1, 0, 0, 0, 165, 572, 1, 0, 0, 0, 167, 586, 1, 0, 0, 0,
  169, 597, 1, 0, 0, 0, 171, 599, 1, 0, 0, 0, 173, 604, 1, 0, 0, 0, 175, 606, 1, 0, 0, 0, 177,
  178, 5, 58, 0, 0, 178, 2, 1, 0, 0, 0, 179, 180, 5, 59, 0, 0, 180, 4, 1, 0, 0, 0, 181, 182, 5,
  40, 0, 0, 182, 6, 1, 0, 0, 0, 183, 184, 5, 123, 0, 0, 184, 8, 1, 0, 0, 0, 185, 186, 5, 41, 0, 0,
  186, 10, 1, 0, 0, 0, 187, 188, 5, 125, 0, 0, 188, 12, 1, 0, 0, 0, 189, 190, 5, 44, 0, 0, 190,
  14, 1, 0, 0, 0, 191, 192, 5, 36, 0, 0, 192, 16, 1, 0, 0, 0, 193, 194, 5, 35, 0, 0, 194, 18, 1,
  0, 0, 0, 195, 196, 5, 64, 0, 0, 196, 20, 1, 0, 0, 0, 197, 198, 5, 46, 0, 0, 198, 22, 1, 0, 0, 0,
  199, 200, 5, 61, 0, 0, 200, 24, 1, 0, 0, 0, 201, 202, 5, 43, 0, 0, 202, 26, 1, 0, 0, 0, 203,
  204, 5, 45, 0, 0, 204, 28, 1, 0, 0, 0, 205, 206, 5, 42, 0, 0, 206, 30, 1, 0, 0, 0, 207, 208, 5,
  47, 0, 0, 208, 32, 1, 0, 0, 0, 209, 210]
/-- kfgrammar/kuneiform_lexer.go:91-362 (continued). -/
def lexerData7 : List Nat := [
  5, 37, 0, 0, 210, 34, 1, 0, 0, 0, 211, 212, 5, 126, 0, 0, 212, 36, 1, 0, 0, 0, 213, 214, 5, 124,
  0, 0, 214, 215, 5, 124, 0, 0, 215, 38, 1, 0, 0, 0, 216, 217, 5, 60, 0, 0, 217, 218, 5, 60, 0, 0,
  218, 40, 1, 0, 0, 0, 219, 220, 5, 62, 0, 0, 220, 221, 5, 62, 0, 0, 221, 42, 1, 0, 0, 0, 222,
  223, 5, 38, 0, 0, 223, 44, 1, 0, 0, 0, 224, 225, 5, 124, 0, 0, 225, 46, 1, 0, 0, 0, 226, 227, 5,
  61, 0, 0, 227, 228, 5, 61, 0, 0, 228, 48, 1, 0, 0, 0, 229, 230, 5, 60, 0, 0, 230, 50, 1, 0, 0,
  0, 231, 232, 5, 60, 0, 0, 232, 233, 5, 61, 0, 0, 233, 52, 1, 0, 0, 0, 234, 235, 5, 62, 0, 0,
  235, 54, 1, 0, 0, 0, 236, 237, 5, 62, 0, 0, 237, 238, 5, 61, 0, 0, 238, 56, 1, 0, 0, 0, 239,
  240, 5, 33, 0, 0, 240, 241, 5, 61, 0, 0, 241, 58, 1, 0, 0, 0, 242, 243, 5, 60, 0, 0, 243, 244,
  5, 62, 0, 0, 244, 60, 1, 0, 0, 0, 245, 246, 5, 100, 0, 0, 246, 247, 5, 97, 0, 0, 247, 248, 5,
  116, 0, 0, 248, 249, 5, 97, 0, 0, 249, 250, 5, 98, 0, 0, 250, 251, 5, 97, 0, 0, 251, 252, 5,
  115, 0, 0, 252, 253, 5, 101, 0, 0, 253, 62, 1, 0, 0, 0, 254, 255, 5, 117, 0, 0, 255, 256, 5,
  115, 0, 0, 256, 257, 5, 101, 0, 0, 257, 64, 1, 0, 0, 0, 258, 259, 5, 97, 0, 0, 259, 260, 5, 115,
  0, 0, 260, 66, 1, 0, 0, 0, 261, 262, 5, 116, 0, 0, 262, 263, 5, 97, 0, 0, 263, 264, 5, 98, 0, 0,
  264, 265, 5, 108, 0, 0, 265, 266, 5, 101, 0, 0, 266, 68, 1, 0, 0, 0, 267, 268, 5, 97, 0, 0, 268,
  269, 5, 99, 0, 0, 269, 270, 5, 116, 0, 0, 270, 271, 5, 105, 0, 0, 271, 272, 5, 111, 0, 0, 272,
  273, 5, 110, 0, 0, 273, 70, 1, 0, 0, 0, 274, 275, 5, 105, 0, 0, 275, 276, 5, 110, 0, 0]
/-- kfgrammar/kuneiform_lexer.go:91-362 (continued). -/
def lexerData8 : List Nat := [
  276, 277, 5, 105, 0, 0, 277, 278, 5, 116, 0, 0, 278, 72, 1, 0, 0, 0, 279, 280, 5, 112, 0, 0,
  280, 281, 5, 117, 0, 0, 281, 282, 5, 98, 0, 0, 282, 283, 5, 108, 0, 0, 283, 284, 5, 105, 0, 0,
  284, 285, 5, 99, 0, 0, 285, 74, 1, 0, 0, 0, 286, 287, 5, 112, 0, 0, 287, 288, 5, 114, 0, 0, 288,
  289, 5, 105, 0, 0, 289, 290, 5, 118, 0, 0, 290, 291, 5, 97, 0, 0, 291, 292, 5, 116, 0, 0, 292,
  293, 5, 101, 0, 0, 293, 76, 1, 0, 0, 0, 294, 295, 5, 118, 0, 0, 295, 296, 5, 105, 0, 0, 296,
  297, 5, 101, 0, 0, 297, 298, 5, 119, 0, 0, 298, 78, 1, 0, 0, 0, 299, 300, 5, 111, 0, 0, 300,
  301, 5, 119, 0, 0, 301, 302, 5, 110, 0, 0, 302, 303, 5, 101, 0, 0, 303, 304, 5, 114, 0, 0, 304,
  80, 1, 0, 0, 0, 305, 306, 5, 105, 0, 0, 306, 307, 5, 110, 0, 0, 307, 308, 5, 116, 0, 0, 308, 82,
  1, 0, 0, 0, 309, 310, 5, 116, 0, 0, 310, 311, 5, 101, 0, 0, 311, 312, 5, 120, 0, 0, 312, 313, 5,
  116, 0, 0, 313, 84, 1, 0, 0, 0, 314, 315, 5, 98, 0, 0, 315, 316, 5, 108, 0, 0, 316, 317, 5, 111,
  0, 0, 317, 318, 5, 98, 0, 0, 318, 86, 1, 0, 0, 0, 319, 320, 5, 109, 0, 0, 320, 321, 5, 105, 0,
  0, 321, 322, 5, 110, 0, 0, 322, 88, 1, 0, 0, 0, 323, 324, 5, 109, 0, 0, 324, 325, 5, 97, 0, 0,
  325, 326, 5, 120, 0, 0, 326, 90, 1, 0, 0, 0, 327, 328, 5, 109, 0, 0, 328, 329, 5, 105, 0, 0,
  329, 330, 5, 110, 0, 0, 330, 331, 5, 108, 0, 0, 331, 332, 5, 101, 0, 0, 332, 333, 5, 110, 0, 0,
  333, 92, 1, 0, 0, 0, 334, 335, 5, 109, 0, 0, 335, 336, 5, 97, 0, 0, 336, 337, 5, 120, 0, 0, 337,
  338, 5, 108, 0, 0, 338, 339, 5, 101, 0, 0, 339, 340, 5, 110, 0, 0, 340, 94, 1, 0, 0, 0, 341,
  342, 5, 110, 0, 0, 342, 343, 5, 111]
/-- kfgrammar/kuneiform_lexer.go:91-362 (continued). -/
def lexerData9 : List Nat := [
  0, 0, 343, 344, 5, 116, 0, 0, 344, 345, 5, 110, 0, 0, 345, 346, 5, 117, 0, 0, 346, 347, 5, 108,
  0, 0, 347, 348, 5, 108, 0, 0, 348, 96, 1, 0, 0, 0, 349, 350, 5, 112, 0, 0, 350, 351, 5, 114, 0,
  0, 351, 352, 5, 105, 0, 0, 352, 353, 5, 109, 0, 0, 353, 354, 5, 97, 0, 0, 354, 355, 5, 114, 0,
  0, 355, 356, 5, 121, 0, 0, 356, 98, 1, 0, 0, 0, 357, 358, 5, 100, 0, 0, 358, 359, 5, 101, 0, 0,
  359, 360, 5, 102, 0, 0, 360, 361, 5, 97, 0, 0, 361, 362, 5, 117, 0, 0, 362, 363, 5, 108, 0, 0,
  363, 364, 5, 116, 0, 0, 364, 100, 1, 0, 0, 0, 365, 366, 5, 117, 0, 0, 366, 367, 5, 110, 0, 0,
  367, 368, 5, 105, 0, 0, 368, 369, 5, 113, 0, 0, 369, 370, 5, 117, 0, 0, 370, 371, 5, 101, 0, 0,
  371, 102, 1, 0, 0, 0, 372, 373, 5, 105, 0, 0, 373, 374, 5, 110, 0, 0, 374, 375, 5, 100, 0, 0,
  375, 376, 5, 101, 0, 0, 376, 377, 5, 120, 0, 0, 377, 104, 1, 0, 0, 0, 378, 379, 5, 102, 0, 0,
  379, 380, 5, 111, 0, 0, 380, 381, 5, 114, 0, 0, 381, 382, 5, 101, 0, 0, 382, 383, 5, 105, 0, 0,
  383, 384, 5, 103, 0, 0, 384, 385, 5, 110, 0, 0, 385, 386, 5, 95, 0, 0, 386, 387, 5, 107, 0, 0,
  387, 388, 5, 101, 0, 0, 388, 389, 5, 121, 0, 0, 389, 106, 1, 0, 0, 0, 390, 391, 5, 102, 0, 0,
  391, 392, 5, 107, 0, 0, 392, 108, 1, 0, 0, 0, 393, 394, 5, 114, 0, 0, 394, 395, 5, 101, 0, 0,
  395, 396, 5, 102, 0, 0, 396, 397, 5, 101, 0, 0, 397, 398, 5, 114, 0, 0, 398, 399, 5, 101, 0, 0,
  399, 400, 5, 110, 0, 0, 400, 401, 5, 99, 0, 0, 401, 402, 5, 101, 0, 0, 402, 403, 5, 115, 0, 0,
  403, 110, 1, 0, 0, 0, 404, 405, 5, 114, 0, 0, 405, 406, 5, 101, 0, 0, 406, 407, 5, 102, 0, 0,
  407, 112, 1, 0, 0, 0, 408, 409, 5, 111, 0, 0, 409, 410]
/-- kfgrammar/kuneiform_lexer.go:91-362 (continued). -/
def lexerData10 : List Nat := [
  5, 110, 0, 0, 410, 411, 5, 95, 0, 0, 411, 412, 5, 117, 0, 0, 412, 413, 5, 112, 0, 0, 413, 414,
  5, 100, 0, 0, 414, 415, 5, 97, 0, 0, 415, 416, 5, 116, 0, 0, 416, 417, 5, 101, 0, 0, 417, 114,
  1, 0, 0, 0, 418, 419, 5, 111, 0, 0, 419, 420, 5, 110, 0, 0, 420, 421, 5, 95, 0, 0, 421, 422, 5,
  100, 0, 0, 422, 423, 5, 101, 0, 0, 423, 424, 5, 108, 0, 0, 424, 425, 5, 101, 0, 0, 425, 426, 5,
  116, 0, 0, 426, 427, 5, 101, 0, 0, 427, 116, 1, 0, 0, 0, 428, 429, 5, 100, 0, 0, 429, 430, 5,
  111, 0, 0, 430, 118, 1, 0, 0, 0, 431, 432, 5, 110, 0, 0, 432, 433, 5, 111, 0, 0, 433, 434, 5,
  95, 0, 0, 434, 435, 5, 97, 0, 0, 435, 436, 5, 99, 0, 0, 436, 437, 5, 116, 0, 0, 437, 438, 5,
  105, 0, 0, 438, 439, 5, 111, 0, 0, 439, 440, 5, 110, 0, 0, 440, 120, 1, 0, 0, 0, 441, 442, 5,
  99, 0, 0, 442, 443, 5, 97, 0, 0, 443, 444, 5, 115, 0, 0, 444, 445, 5, 99, 0, 0, 445, 446, 5, 97,
  0, 0, 446, 447, 5, 100, 0, 0, 447, 448, 5, 101, 0, 0, 448, 122, 1, 0, 0, 0, 449, 450, 5, 115, 0,
  0, 450, 451, 5, 101, 0, 0, 451, 452, 5, 116, 0, 0, 452, 453, 5, 95, 0, 0, 453, 454, 5, 110, 0,
  0, 454, 455, 5, 117, 0, 0, 455, 456, 5, 108, 0, 0, 456, 457, 5, 108, 0, 0, 457, 124, 1, 0, 0, 0,
  458, 459, 5, 115, 0, 0, 459, 460, 5, 101, 0, 0, 460, 461, 5, 116, 0, 0, 461, 462, 5, 95, 0, 0,
  462, 463, 5, 100, 0, 0, 463, 464, 5, 101, 0, 0, 464, 465, 5, 102, 0, 0, 465, 466, 5, 97, 0, 0,
  466, 467, 5, 117, 0, 0, 467, 468, 5, 108, 0, 0, 468, 469, 5, 116, 0, 0, 469, 126, 1, 0, 0, 0,
  470, 471, 5, 114, 0, 0, 471, 472, 5, 101, 0, 0, 472, 473, 5, 115, 0, 0, 473, 474, 5, 116, 0, 0,
  474, 475, 5, 114, 0, 0, 475, 476, 5, 105, 0, 0]
/-- kfgrammar/kuneiform_lexer.go:91-362 (continued). -/
def lexerData11 : List Nat := [
  476, 477, 5, 99, 0, 0, 477, 478, 5, 116, 0, 0, 478, 128, 1, 0, 0, 0, 479, 480, 7, 0, 0, 0, 480,
  481, 7, 1, 0, 0, 481, 482, 7, 2, 0, 0, 482, 483, 7, 1, 0, 0, 483, 484, 7, 3, 0, 0, 484, 485, 7,
  4, 0, 0, 485, 130, 1, 0, 0, 0, 486, 487, 7, 5, 0, 0, 487, 488, 7, 6, 0, 0, 488, 489, 7, 0, 0, 0,
  489, 490, 7, 1, 0, 0, 490, 491, 7, 7, 0, 0, 491, 492, 7, 4, 0, 0, 492, 132, 1, 0, 0, 0, 493,
  494, 7, 8, 0, 0, 494, 495, 7, 9, 0, 0, 495, 496, 7, 10, 0, 0, 496, 497, 7, 11, 0, 0, 497, 498,
  7, 4, 0, 0, 498, 499, 7, 1, 0, 0, 499, 134, 1, 0, 0, 0, 500, 501, 7, 10, 0, 0, 501, 502, 7, 1,
  0, 0, 502, 503, 7, 2, 0, 0, 503, 504, 7, 1, 0, 0, 504, 505, 7, 4, 0, 0, 505, 506, 7, 1, 0, 0,
  506, 136, 1, 0, 0, 0, 507, 508, 7, 12, 0, 0, 508, 509, 7, 5, 0, 0, 509, 510, 7, 4, 0, 0, 510,
  511, 7, 13, 0, 0, 511, 138, 1, 0, 0, 0, 512, 513, 5, 110, 0, 0, 513, 514, 5, 111, 0, 0, 514,
  515, 5, 116, 0, 0, 515, 140, 1, 0, 0, 0, 516, 517, 5, 97, 0, 0, 517, 518, 5, 110, 0, 0, 518,
  519, 5, 100, 0, 0, 519, 142, 1, 0, 0, 0, 520, 521, 5, 111, 0, 0, 521, 522, 5, 114, 0, 0, 522,
  144, 1, 0, 0, 0, 523, 527, 7, 14, 0, 0, 524, 526, 7, 15, 0, 0, 525, 524, 1, 0, 0, 0, 526, 529,
  1, 0, 0, 0, 527, 525, 1, 0, 0, 0, 527, 528, 1, 0, 0, 0, 528, 146, 1, 0, 0, 0, 529, 527, 1, 0, 0,
  0, 530, 531, 3, 17, 8, 0, 531, 532, 3, 145, 72, 0, 532, 148, 1, 0, 0, 0, 533, 534, 3, 15, 7, 0,
  534, 535, 3, 145, 72, 0, 535, 150, 1, 0, 0, 0, 536, 537, 3, 19, 9, 0, 537, 538, 3, 145, 72, 0,
  538, 152, 1, 0, 0, 0, 539, 541, 3, 171, 85, 0, 540, 539, 1, 0, 0, 0, 541, 542, 1, 0]
/-- kfgrammar/kuneiform_lexer.go:91-362 (continued). -/
def lexerData12 : List Nat := [
  0, 0, 542, 540, 1, 0, 0, 0, 542, 543, 1, 0, 0, 0, 543, 154, 1, 0, 0, 0, 544, 545, 3, 175, 87, 0,
  545, 156, 1, 0, 0, 0, 546, 552, 3, 129, 64, 0, 547, 552, 3, 131, 65, 0, 548, 552, 3, 133, 66, 0,
  549, 552, 3, 135, 67, 0, 550, 552, 3, 137, 68, 0, 551, 546, 1, 0, 0, 0, 551, 547, 1, 0, 0, 0,
  551, 548, 1, 0, 0, 0, 551, 549, 1, 0, 0, 0, 551, 550, 1, 0, 0, 0, 552, 158, 1, 0, 0, 0, 553,
  555, 3, 157, 78, 0, 554, 556, 3, 169, 84, 0, 555, 554, 1, 0, 0, 0, 556, 557, 1, 0, 0, 0, 557,
  555, 1, 0, 0, 0, 557, 558, 1, 0, 0, 0, 558, 560, 1, 0, 0, 0, 559, 561, 8, 16, 0, 0, 560, 559, 1,
  0, 0, 0, 561, 562, 1, 0, 0, 0, 562, 560, 1, 0, 0, 0, 562, 563, 1, 0, 0, 0, 563, 160, 1, 0, 0, 0,
  564, 565, 7, 17, 0, 0, 565, 566, 1, 0, 0, 0, 566, 567, 6, 80, 0, 0, 567, 162, 1, 0, 0, 0, 568,
  569, 7, 18, 0, 0, 569, 570, 1, 0, 0, 0, 570, 571, 6, 81, 0, 0, 571, 164, 1, 0, 0, 0, 572, 573,
  5, 47, 0, 0, 573, 574, 5, 42, 0, 0, 574, 578, 1, 0, 0, 0, 575, 577, 9, 0, 0, 0, 576, 575, 1, 0,
  0, 0, 577, 580, 1, 0, 0, 0, 578, 579, 1, 0, 0, 0, 578, 576, 1, 0, 0, 0, 579, 581, 1, 0, 0, 0,
  580, 578, 1, 0, 0, 0, 581, 582, 5, 42, 0, 0, 582, 583, 5, 47, 0, 0, 583, 584, 1, 0, 0, 0, 584,
  585, 6, 82, 0, 0, 585, 166, 1, 0, 0, 0, 586, 587, 5, 47, 0, 0, 587, 588, 5, 47, 0, 0, 588, 592,
  1, 0, 0, 0, 589, 591, 8, 18, 0, 0, 590, 589, 1, 0, 0, 0, 591, 594, 1, 0, 0, 0, 592, 590, 1, 0,
  0, 0, 592, 593, 1, 0, 0, 0, 593, 595, 1, 0, 0, 0, 594, 592, 1, 0, 0, 0, 595, 596, 6, 83, 0, 0,
  596, 168, 1, 0, 0, 0, 597, 598, 7, 19, 0, 0, 598, 170, 1, 0, 0, 0, 599, 600]
/-- kfgrammar/kuneiform_lexer.go:91-362 (continued). -/
def lexerData13 : List Nat := [
  7, 20, 0, 0, 600, 172, 1, 0, 0, 0, 601, 605, 8, 21, 0, 0, 602, 603, 5, 92, 0, 0, 603, 605, 9, 0,
  0, 0, 604, 601, 1, 0, 0, 0, 604, 602, 1, 0, 0, 0, 605, 174, 1, 0, 0, 0, 606, 610, 5, 39, 0, 0,
  607, 609, 3, 173, 86, 0, 608, 607, 1, 0, 0, 0, 609, 612, 1, 0, 0, 0, 610, 608, 1, 0, 0, 0, 610,
  611, 1, 0, 0, 0, 611, 613, 1, 0, 0, 0, 612, 610, 1, 0, 0, 0, 613, 614, 5, 39, 0, 0, 614, 176, 1,
  0, 0, 0, 10, 0, 527, 542, 551, 557, 562, 578, 592, 604, 610, 1, 0, 1, 0]
/-- kfgrammar/kuneiform_lexer.go:91-362: the whole array. -/
def lexerData : List Nat :=
  lexerData0 ++ lexerData1 ++ lexerData2 ++ lexerData3 ++ lexerData4 ++ lexerData5 ++ lexerData6 ++ lexerData7 ++ lexerData8 ++ lexerData9 ++ lexerData10 ++ lexerData11 ++ lexerData12 ++ lexerData13

/-- kfgrammar/kuneiform_parser.go:77-274. -/
def parserData0 : List Nat := [
  4, 1, 84, 457, 2, 0, 7, 0, 2, 1, 7, 1, 2, 2, 7, 2, 2, 3, 7, 3, 2, 4, 7, 4, 2, 5, 7, 5, 2, 6, 7,
  6, 2, 7, 7, 7, 2, 8, 7, 8, 2, 9, 7, 9, 2, 10, 7, 10, 2, 11, 7, 11, 2, 12, 7, 12, 2, 13, 7, 13,
  2, 14, 7, 14, 2, 15, 7, 15, 2, 16, 7, 16, 2, 17, 7, 17, 2, 18, 7, 18, 2, 19, 7, 19, 2, 20, 7,
  20, 2, 21, 7, 21, 2, 22, 7, 22, 2, 23, 7, 23, 2, 24, 7, 24, 2, 25, 7, 25, 2, 26, 7, 26, 2, 27,
  7, 27, 2, 28, 7, 28, 2, 29, 7, 29, 2, 30, 7, 30, 2, 31, 7, 31, 2, 32, 7, 32, 2, 33, 7, 33, 2,
  34, 7, 34, 2, 35, 7, 35, 2, 36, 7, 36, 2, 37, 7, 37, 2, 38, 7, 38, 2, 39, 7, 39, 2, 40, 7, 40,
  2, 41, 7, 41, 2, 42, 7, 42, 2, 43, 7, 43, 2, 44, 7, 44, 2, 45, 7, 45, 2, 46, 7, 46, 2, 47, 7,
  47, 2, 48, 7, 48, 2, 49, 7, 49, 2, 50, 7, 50, 1, 0, 1, 0, 1, 0, 5, 0, 106, 8, 0, 10, 0, 12, 0,
  109, 9, 0, 1, 0, 1, 0, 1, 0, 5, 0, 114, 8, 0, 10, 0, 12, 0, 117, 9, 0, 1, 0, 1, 0, 1, 1, 1, 1,
  1, 1, 1, 2, 1, 2, 1, 2, 1, 2, 1, 2, 1, 2, 3, 2, 130, 8, 2, 1, 2, 1, 2, 1, 2, 1, 2, 1, 3, 1, 3,
  1, 3, 5, 3, 139, 8, 3, 10, 3, 12, 3, 142, 9, 3, 1, 4, 1, 4, 1, 4, 1, 4, 1, 5, 1, 5, 1, 5, 1, 5,
  1, 5, 1, 6, 1, 6, 1, 6, 5, 6, 156, 8, 6, 10, 6, 12, 6, 159, 9, 6, 1, 7, 1, 7, 1, 7, 1, 7, 1, 8,
  1, 8, 1, 8, 1, 8, 1, 8, 1, 8, 1, 8, 3, 8, 172, 8, 8, 5, 8, 174, 8, 8, 10, 8, 12, 8, 177, 9, 8,
  1, 8, 3, 8, 180, 8, 8, 1, 8, 1, 8, 1, 9, 1, 9, 1, 9, 5, 9, 187, 8, 9, 10, 9, 12, 9, 190, 9]
/-- kfgrammar/kuneiform_parser.go:77-274 (continued). -/
def parserData1 : List Nat := [
  9, 1, 10, 1, 10, 1, 10, 5, 10, 195, 8, 10, 10, 10, 12, 10, 198, 9, 10, 1, 11, 1, 11, 1, 12, 1,
  12, 1, 12, 1, 12, 1, 12, 1, 12, 1, 12, 1, 12, 1, 12, 1, 12, 1, 12, 1, 12, 1, 12, 1, 12, 1, 12,
  1, 12, 1, 12, 1, 12, 1, 12, 1, 12, 1, 12, 1, 12, 1, 12, 1, 12, 1, 12, 1, 12, 1, 12, 1, 12, 3,
  12, 230, 8, 12, 1, 13, 1, 13, 1, 14, 1, 14, 1, 15, 1, 15, 1, 15, 1, 15, 1, 15, 1, 15, 1, 16, 1,
  16, 3, 16, 244, 8, 16, 1, 16, 1, 16, 1, 17, 1, 17, 1, 17, 1, 17, 1, 17, 1, 17, 1, 17, 1, 17, 1,
  17, 1, 17, 5, 17, 258, 8, 17, 10, 17, 12, 17, 261, 9, 17, 1, 18, 1, 18, 1, 19, 1, 19, 1, 20, 1,
  20, 1, 21, 1, 21, 1, 21, 5, 21, 272, 8, 21, 10, 21, 12, 21, 275, 9, 21, 1, 22, 5, 22, 278, 8,
  22, 10, 22, 12, 22, 281, 9, 22, 1, 22, 1, 22, 1, 22, 1, 22, 1, 22, 1, 22, 1, 22, 1, 22, 1, 22,
  1, 22, 1, 23, 3, 23, 294, 8, 23, 1, 23, 1, 23, 5, 23, 298, 8, 23, 10, 23, 12, 23, 301, 9, 23, 1,
  24, 1, 24, 1, 25, 1, 25, 1, 26, 1, 26, 1, 27, 1, 27, 1, 28, 1, 28, 1, 29, 1, 29, 1, 30, 1, 30,
  1, 31, 1, 31, 1, 31, 5, 31, 320, 8, 31, 10, 31, 12, 31, 323, 9, 31, 1, 32, 1, 32, 1, 33, 1, 33,
  1, 34, 1, 34, 1, 35, 1, 35, 1, 36, 1, 36, 1, 37, 1, 37, 1, 37, 1, 37, 1, 37, 1, 37, 1, 37, 1,
  38, 4, 38, 343, 8, 38, 11, 38, 12, 38, 344, 1, 39, 1, 39, 3, 39, 349, 8, 39, 1, 40, 1, 40, 1,
  40, 1, 41, 1, 41, 1, 41, 3, 41, 357, 8, 41, 1, 41, 1, 41, 1, 41, 1, 42, 1, 42, 1, 42, 5, 42,
  365, 8, 42, 10, 42, 12, 42, 368, 9, 42, 1, 43, 1, 43, 1, 43, 1, 43, 1, 43, 1, 44, 1, 44, 1, 45,
  1, 45, 1, 46, 1, 46]
/-- kfgrammar/kuneiform_parser.go:77-274 (continued). -/
def parserData2 : List Nat := [
  1, 46, 1, 46, 1, 47, 1, 47, 3, 47, 385, 8, 47, 1, 48, 1, 48, 1, 49, 3, 49, 390, 8, 49, 1, 49, 1,
  49, 5, 49, 394, 8, 49, 10, 49, 12, 49, 397, 9, 49, 1, 50, 1, 50, 1, 50, 1, 50, 1, 50, 1, 50, 1,
  50, 1, 50, 1, 50, 1, 50, 1, 50, 1, 50, 1, 50, 1, 50, 1, 50, 1, 50, 1, 50, 5, 50, 416, 8, 50, 10,
  50, 12, 50, 419, 9, 50, 1, 50, 3, 50, 422, 8, 50, 1, 50, 1, 50, 3, 50, 426, 8, 50, 1, 50, 1, 50,
  1, 50, 1, 50, 1, 50, 1, 50, 1, 50, 1, 50, 1, 50, 1, 50, 1, 50, 1, 50, 1, 50, 1, 50, 1, 50, 1,
  50, 1, 50, 1, 50, 1, 50, 1, 50, 1, 50, 1, 50, 1, 50, 1, 50, 5, 50, 452, 8, 50, 10, 50, 12, 50,
  455, 9, 50, 1, 50, 0, 1, 100, 51, 0, 2, 4, 6, 8, 10, 12, 14, 16, 18, 20, 22, 24, 26, 28, 30, 32,
  34, 36, 38, 40, 42, 44, 46, 48, 50, 52, 54, 56, 58, 60, 62, 64, 66, 68, 70, 72, 74, 76, 78, 80,
  82, 84, 86, 88, 90, 92, 94, 96, 98, 100, 0, 14, 1, 0, 41, 43, 1, 0, 77, 78, 2, 0, 49, 49, 51,
  52, 1, 0, 57, 58, 1, 0, 60, 64, 1, 0, 53, 54, 1, 0, 55, 56, 1, 0, 37, 38, 2, 0, 13, 14, 18, 18,
  1, 0, 15, 17, 1, 0, 13, 14, 1, 0, 20, 23, 1, 0, 25, 28, 3, 0, 12, 12, 24, 24, 29, 30, 457, 0,
  102, 1, 0, 0, 0, 2, 120, 1, 0, 0, 0, 4, 123, 1, 0, 0, 0, 6, 135, 1, 0, 0, 0, 8, 143, 1, 0, 0, 0,
  10, 147, 1, 0, 0, 0, 12, 152, 1, 0, 0, 0, 14, 160, 1, 0, 0, 0, 16, 164, 1, 0, 0, 0, 18, 183, 1,
  0, 0, 0, 20, 191, 1, 0, 0, 0, 22, 199, 1, 0, 0, 0, 24, 229, 1, 0, 0, 0, 26, 231, 1, 0, 0, 0, 28,
  233, 1, 0, 0, 0, 30, 235, 1, 0, 0, 0, 32, 241, 1, 0, 0, 0, 34, 247, 1, 0, 0, 0, 36, 262, 1, 0,
  0, 0]
/-- kfgrammar/kuneiform_parser.go:77-274 (continued). -/
def parserData3 : List Nat := [
  38, 264, 1, 0, 0, 0, 40, 266, 1, 0, 0, 0, 42, 273, 1, 0, 0, 0, 44, 279, 1, 0, 0, 0, 46, 293, 1,
  0, 0, 0, 48, 302, 1, 0, 0, 0, 50, 304, 1, 0, 0, 0, 52, 306, 1, 0, 0, 0, 54, 308, 1, 0, 0, 0, 56,
  310, 1, 0, 0, 0, 58, 312, 1, 0, 0, 0, 60, 314, 1, 0, 0, 0, 62, 316, 1, 0, 0, 0, 64, 324, 1, 0,
  0, 0, 66, 326, 1, 0, 0, 0, 68, 328, 1, 0, 0, 0, 70, 330, 1, 0, 0, 0, 72, 332, 1, 0, 0, 0, 74,
  334, 1, 0, 0, 0, 76, 342, 1, 0, 0, 0, 78, 348, 1, 0, 0, 0, 80, 350, 1, 0, 0, 0, 82, 356, 1, 0,
  0, 0, 84, 361, 1, 0, 0, 0, 86, 369, 1, 0, 0, 0, 88, 374, 1, 0, 0, 0, 90, 376, 1, 0, 0, 0, 92,
  378, 1, 0, 0, 0, 94, 384, 1, 0, 0, 0, 96, 386, 1, 0, 0, 0, 98, 389, 1, 0, 0, 0, 100, 425, 1, 0,
  0, 0, 102, 103, 3, 2, 1, 0, 103, 107, 5, 2, 0, 0, 104, 106, 3, 4, 2, 0, 105, 104, 1, 0, 0, 0,
  106, 109, 1, 0, 0, 0, 107, 105, 1, 0, 0, 0, 107, 108, 1, 0, 0, 0, 108, 115, 1, 0, 0, 0, 109,
  107, 1, 0, 0, 0, 110, 114, 3, 16, 8, 0, 111, 114, 3, 44, 22, 0, 112, 114, 3, 74, 37, 0, 113,
  110, 1, 0, 0, 0, 113, 111, 1, 0, 0, 0, 113, 112, 1, 0, 0, 0, 114, 117, 1, 0, 0, 0, 115, 113, 1,
  0, 0, 0, 115, 116, 1, 0, 0, 0, 116, 118, 1, 0, 0, 0, 117, 115, 1, 0, 0, 0, 118, 119, 5, 0, 0, 1,
  119, 1, 1, 0, 0, 0, 120, 121, 5, 31, 0, 0, 121, 122, 3, 50, 25, 0, 122, 3, 1, 0, 0, 0, 123, 124,
  5, 32, 0, 0, 124, 129, 3, 52, 26, 0, 125, 126, 5, 4, 0, 0, 126, 127, 3, 6, 3, 0, 127, 128, 5, 6,
  0, 0, 128, 130, 1, 0, 0, 0, 129, 125, 1, 0, 0, 0, 129, 130, 1, 0, 0, 0, 130, 131, 1, 0, 0, 0,
  131, 132, 5, 33]
/-- kfgrammar/kuneiform_parser.go:77-274 (continued). -/
def parserData4 : List Nat := [
  0, 0, 132, 133, 3, 52, 26, 0, 133, 134, 5, 2, 0, 0, 134, 5, 1, 0, 0, 0, 135, 140, 3, 8, 4, 0,
  136, 137, 5, 7, 0, 0, 137, 139, 3, 8, 4, 0, 138, 136, 1, 0, 0, 0, 139, 142, 1, 0, 0, 0, 140,
  138, 1, 0, 0, 0, 140, 141, 1, 0, 0, 0, 141, 7, 1, 0, 0, 0, 142, 140, 1, 0, 0, 0, 143, 144, 3,
  54, 27, 0, 144, 145, 5, 1, 0, 0, 145, 146, 3, 72, 36, 0, 146, 9, 1, 0, 0, 0, 147, 148, 3, 66,
  33, 0, 148, 149, 5, 3, 0, 0, 149, 150, 3, 12, 6, 0, 150, 151, 5, 5, 0, 0, 151, 11, 1, 0, 0, 0,
  152, 157, 3, 14, 7, 0, 153, 154, 5, 7, 0, 0, 154, 156, 3, 14, 7, 0, 155, 153, 1, 0, 0, 0, 156,
  159, 1, 0, 0, 0, 157, 155, 1, 0, 0, 0, 157, 158, 1, 0, 0, 0, 158, 13, 1, 0, 0, 0, 159, 157, 1,
  0, 0, 0, 160, 161, 3, 68, 34, 0, 161, 162, 5, 12, 0, 0, 162, 163, 3, 70, 35, 0, 163, 15, 1, 0,
  0, 0, 164, 165, 5, 34, 0, 0, 165, 166, 3, 56, 28, 0, 166, 167, 5, 4, 0, 0, 167, 175, 3, 20, 10,
  0, 168, 171, 5, 7, 0, 0, 169, 172, 3, 30, 15, 0, 170, 172, 3, 34, 17, 0, 171, 169, 1, 0, 0, 0,
  171, 170, 1, 0, 0, 0, 172, 174, 1, 0, 0, 0, 173, 168, 1, 0, 0, 0, 174, 177, 1, 0, 0, 0, 175,
  173, 1, 0, 0, 0, 175, 176, 1, 0, 0, 0, 176, 179, 1, 0, 0, 0, 177, 175, 1, 0, 0, 0, 178, 180, 5,
  7, 0, 0, 179, 178, 1, 0, 0, 0, 179, 180, 1, 0, 0, 0, 180, 181, 1, 0, 0, 0, 181, 182, 5, 6, 0, 0,
  182, 17, 1, 0, 0, 0, 183, 184, 3, 60, 30, 0, 184, 188, 3, 22, 11, 0, 185, 187, 3, 24, 12, 0,
  186, 185, 1, 0, 0, 0, 187, 190, 1, 0, 0, 0, 188, 186, 1, 0, 0, 0, 188, 189, 1, 0, 0, 0, 189, 19,
  1, 0, 0, 0, 190, 188, 1, 0, 0, 0, 191, 196, 3, 18, 9, 0, 192, 193]
/-- kfgrammar/kuneiform_parser.go:77-274 (continued). -/
def parserData5 : List Nat := [
  5, 7, 0, 0, 193, 195, 3, 18, 9, 0, 194, 192, 1, 0, 0, 0, 195, 198, 1, 0, 0, 0, 196, 194, 1, 0,
  0, 0, 196, 197, 1, 0, 0, 0, 197, 21, 1, 0, 0, 0, 198, 196, 1, 0, 0, 0, 199, 200, 7, 0, 0, 0,
  200, 23, 1, 0, 0, 0, 201, 230, 5, 49, 0, 0, 202, 230, 5, 48, 0, 0, 203, 230, 5, 51, 0, 0, 204,
  205, 5, 50, 0, 0, 205, 206, 5, 3, 0, 0, 206, 207, 3, 26, 13, 0, 207, 208, 5, 5, 0, 0, 208, 230,
  1, 0, 0, 0, 209, 210, 5, 44, 0, 0, 210, 211, 5, 3, 0, 0, 211, 212, 3, 28, 14, 0, 212, 213, 5, 5,
  0, 0, 213, 230, 1, 0, 0, 0, 214, 215, 5, 45, 0, 0, 215, 216, 5, 3, 0, 0, 216, 217, 3, 28, 14, 0,
  217, 218, 5, 5, 0, 0, 218, 230, 1, 0, 0, 0, 219, 220, 5, 46, 0, 0, 220, 221, 5, 3, 0, 0, 221,
  222, 3, 28, 14, 0, 222, 223, 5, 5, 0, 0, 223, 230, 1, 0, 0, 0, 224, 225, 5, 47, 0, 0, 225, 226,
  5, 3, 0, 0, 226, 227, 3, 28, 14, 0, 227, 228, 5, 5, 0, 0, 228, 230, 1, 0, 0, 0, 229, 201, 1, 0,
  0, 0, 229, 202, 1, 0, 0, 0, 229, 203, 1, 0, 0, 0, 229, 204, 1, 0, 0, 0, 229, 209, 1, 0, 0, 0,
  229, 214, 1, 0, 0, 0, 229, 219, 1, 0, 0, 0, 229, 224, 1, 0, 0, 0, 230, 25, 1, 0, 0, 0, 231, 232,
  7, 1, 0, 0, 232, 27, 1, 0, 0, 0, 233, 234, 5, 77, 0, 0, 234, 29, 1, 0, 0, 0, 235, 236, 3, 64,
  32, 0, 236, 237, 7, 2, 0, 0, 237, 238, 5, 3, 0, 0, 238, 239, 3, 62, 31, 0, 239, 240, 5, 5, 0, 0,
  240, 31, 1, 0, 0, 0, 241, 243, 7, 3, 0, 0, 242, 244, 5, 59, 0, 0, 243, 242, 1, 0, 0, 0, 243,
  244, 1, 0, 0, 0, 244, 245, 1, 0, 0, 0, 245, 246, 7, 4, 0, 0, 246, 33, 1, 0, 0, 0, 247, 248, 7,
  5, 0, 0, 248, 249, 5, 3, 0, 0, 249, 250, 3, 62, 31, 0]
/-- kfgrammar/kuneiform_parser.go:77-274 (continued). -/
def parserData6 : List Nat := [
  250, 251, 5, 5, 0, 0, 251, 252, 7, 6, 0, 0, 252, 253, 3, 56, 28, 0, 253, 254, 5, 3, 0, 0, 254,
  255, 3, 62, 31, 0, 255, 259, 5, 5, 0, 0, 256, 258, 3, 32, 16, 0, 257, 256, 1, 0, 0, 0, 258, 261,
  1, 0, 0, 0, 259, 257, 1, 0, 0, 0, 259, 260, 1, 0, 0, 0, 260, 35, 1, 0, 0, 0, 261, 259, 1, 0, 0,
  0, 262, 263, 7, 7, 0, 0, 263, 37, 1, 0, 0, 0, 264, 265, 5, 39, 0, 0, 265, 39, 1, 0, 0, 0, 266,
  267, 5, 40, 0, 0, 267, 41, 1, 0, 0, 0, 268, 272, 3, 36, 18, 0, 269, 272, 3, 38, 19, 0, 270, 272,
  3, 40, 20, 0, 271, 268, 1, 0, 0, 0, 271, 269, 1, 0, 0, 0, 271, 270, 1, 0, 0, 0, 272, 275, 1, 0,
  0, 0, 273, 271, 1, 0, 0, 0, 273, 274, 1, 0, 0, 0, 274, 43, 1, 0, 0, 0, 275, 273, 1, 0, 0, 0,
  276, 278, 3, 10, 5, 0, 277, 276, 1, 0, 0, 0, 278, 281, 1, 0, 0, 0, 279, 277, 1, 0, 0, 0, 279,
  280, 1, 0, 0, 0, 280, 282, 1, 0, 0, 0, 281, 279, 1, 0, 0, 0, 282, 283, 5, 35, 0, 0, 283, 284, 3,
  58, 29, 0, 284, 285, 5, 3, 0, 0, 285, 286, 3, 46, 23, 0, 286, 287, 5, 5, 0, 0, 287, 288, 3, 42,
  21, 0, 288, 289, 5, 4, 0, 0, 289, 290, 3, 76, 38, 0, 290, 291, 5, 6, 0, 0, 291, 45, 1, 0, 0, 0,
  292, 294, 3, 48, 24, 0, 293, 292, 1, 0, 0, 0, 293, 294, 1, 0, 0, 0, 294, 299, 1, 0, 0, 0, 295,
  296, 5, 7, 0, 0, 296, 298, 3, 48, 24, 0, 297, 295, 1, 0, 0, 0, 298, 301, 1, 0, 0, 0, 299, 297,
  1, 0, 0, 0, 299, 300, 1, 0, 0, 0, 300, 47, 1, 0, 0, 0, 301, 299, 1, 0, 0, 0, 302, 303, 5, 75, 0,
  0, 303, 49, 1, 0, 0, 0, 304, 305, 5, 73, 0, 0, 305, 51, 1, 0, 0, 0, 306, 307, 5, 73, 0, 0, 307,
  53, 1, 0, 0, 0, 308, 309, 5, 73, 0, 0, 309, 55, 1, 0]
/-- kfgrammar/kuneiform_parser.go:77-274 (continued). -/
def parserData7 : List Nat := [
  0, 0, 310, 311, 5, 73, 0, 0, 311, 57, 1, 0, 0, 0, 312, 313, 5, 73, 0, 0, 313, 59, 1, 0, 0, 0,
  314, 315, 5, 73, 0, 0, 315, 61, 1, 0, 0, 0, 316, 321, 3, 60, 30, 0, 317, 318, 5, 7, 0, 0, 318,
  320, 3, 60, 30, 0, 319, 317, 1, 0, 0, 0, 320, 323, 1, 0, 0, 0, 321, 319, 1, 0, 0, 0, 321, 322,
  1, 0, 0, 0, 322, 63, 1, 0, 0, 0, 323, 321, 1, 0, 0, 0, 324, 325, 5, 74, 0, 0, 325, 65, 1, 0, 0,
  0, 326, 327, 5, 76, 0, 0, 327, 67, 1, 0, 0, 0, 328, 329, 5, 73, 0, 0, 329, 69, 1, 0, 0, 0, 330,
  331, 3, 26, 13, 0, 331, 71, 1, 0, 0, 0, 332, 333, 3, 26, 13, 0, 333, 73, 1, 0, 0, 0, 334, 335,
  5, 36, 0, 0, 335, 336, 5, 3, 0, 0, 336, 337, 5, 5, 0, 0, 337, 338, 5, 4, 0, 0, 338, 339, 3, 76,
  38, 0, 339, 340, 5, 6, 0, 0, 340, 75, 1, 0, 0, 0, 341, 343, 3, 78, 39, 0, 342, 341, 1, 0, 0, 0,
  343, 344, 1, 0, 0, 0, 344, 342, 1, 0, 0, 0, 344, 345, 1, 0, 0, 0, 345, 77, 1, 0, 0, 0, 346, 349,
  3, 80, 40, 0, 347, 349, 3, 82, 41, 0, 348, 346, 1, 0, 0, 0, 348, 347, 1, 0, 0, 0, 349, 79, 1, 0,
  0, 0, 350, 351, 5, 80, 0, 0, 351, 352, 5, 2, 0, 0, 352, 81, 1, 0, 0, 0, 353, 354, 3, 84, 42, 0,
  354, 355, 5, 12, 0, 0, 355, 357, 1, 0, 0, 0, 356, 353, 1, 0, 0, 0, 356, 357, 1, 0, 0, 0, 357,
  358, 1, 0, 0, 0, 358, 359, 3, 86, 43, 0, 359, 360, 5, 2, 0, 0, 360, 83, 1, 0, 0, 0, 361, 366, 3,
  88, 44, 0, 362, 363, 5, 7, 0, 0, 363, 365, 3, 88, 44, 0, 364, 362, 1, 0, 0, 0, 365, 368, 1, 0,
  0, 0, 366, 364, 1, 0, 0, 0, 366, 367, 1, 0, 0, 0, 367, 85, 1, 0, 0, 0, 368, 366, 1, 0, 0, 0,
  369, 370, 3, 94, 47, 0, 370, 371, 5, 3, 0, 0, 371, 372]
/-- kfgrammar/kuneiform_parser.go:77-274 (continued). -/
def parserData8 : List Nat := [
  3, 98, 49, 0, 372, 373, 5, 5, 0, 0, 373, 87, 1, 0, 0, 0, 374, 375, 5, 75, 0, 0, 375, 89, 1, 0,
  0, 0, 376, 377, 5, 76, 0, 0, 377, 91, 1, 0, 0, 0, 378, 379, 5, 73, 0, 0, 379, 380, 5, 11, 0, 0,
  380, 381, 5, 73, 0, 0, 381, 93, 1, 0, 0, 0, 382, 385, 3, 92, 46, 0, 383, 385, 3, 58, 29, 0, 384,
  382, 1, 0, 0, 0, 384, 383, 1, 0, 0, 0, 385, 95, 1, 0, 0, 0, 386, 387, 5, 73, 0, 0, 387, 97, 1,
  0, 0, 0, 388, 390, 3, 100, 50, 0, 389, 388, 1, 0, 0, 0, 389, 390, 1, 0, 0, 0, 390, 395, 1, 0, 0,
  0, 391, 392, 5, 7, 0, 0, 392, 394, 3, 100, 50, 0, 393, 391, 1, 0, 0, 0, 394, 397, 1, 0, 0, 0,
  395, 393, 1, 0, 0, 0, 395, 396, 1, 0, 0, 0, 396, 99, 1, 0, 0, 0, 397, 395, 1, 0, 0, 0, 398, 399,
  6, 50, 65535, 0, 399, 426, 3, 26, 13, 0, 400, 426, 3, 88, 44, 0, 401, 426, 3, 90, 45, 0, 402,
  403, 5, 3, 0, 0, 403, 404, 3, 100, 50, 0, 404, 405, 5, 5, 0, 0, 405, 426, 1, 0, 0, 0, 406, 407,
  7, 8, 0, 0, 407, 426, 3, 100, 50, 11, 408, 409, 5, 70, 0, 0, 409, 426, 3, 100, 50, 4, 410, 411,
  3, 96, 48, 0, 411, 421, 5, 3, 0, 0, 412, 417, 3, 100, 50, 0, 413, 414, 5, 7, 0, 0, 414, 416, 3,
  100, 50, 0, 415, 413, 1, 0, 0, 0, 416, 419, 1, 0, 0, 0, 417, 415, 1, 0, 0, 0, 417, 418, 1, 0, 0,
  0, 418, 422, 1, 0, 0, 0, 419, 417, 1, 0, 0, 0, 420, 422, 5, 15, 0, 0, 421, 412, 1, 0, 0, 0, 421,
  420, 1, 0, 0, 0, 421, 422, 1, 0, 0, 0, 422, 423, 1, 0, 0, 0, 423, 424, 5, 5, 0, 0, 424, 426, 1,
  0, 0, 0, 425, 398, 1, 0, 0, 0, 425, 400, 1, 0, 0, 0, 425, 401, 1, 0, 0, 0, 425, 402, 1, 0, 0, 0,
  425, 406, 1, 0, 0, 0, 425, 408, 1, 0, 0, 0, 425, 410, 1, 0, 0, 0]
/-- kfgrammar/kuneiform_parser.go:77-274 (continued). -/
def parserData9 : List Nat := [
  426, 453, 1, 0, 0, 0, 427, 428, 10, 10, 0, 0, 428, 429, 5, 19, 0, 0, 429, 452, 3, 100, 50, 11,
  430, 431, 10, 9, 0, 0, 431, 432, 7, 9, 0, 0, 432, 452, 3, 100, 50, 10, 433, 434, 10, 8, 0, 0,
  434, 435, 7, 10, 0, 0, 435, 452, 3, 100, 50, 9, 436, 437, 10, 7, 0, 0, 437, 438, 7, 11, 0, 0,
  438, 452, 3, 100, 50, 8, 439, 440, 10, 6, 0, 0, 440, 441, 7, 12, 0, 0, 441, 452, 3, 100, 50, 7,
  442, 443, 10, 5, 0, 0, 443, 444, 7, 13, 0, 0, 444, 452, 3, 100, 50, 6, 445, 446, 10, 3, 0, 0,
  446, 447, 5, 71, 0, 0, 447, 452, 3, 100, 50, 4, 448, 449, 10, 2, 0, 0, 449, 450, 5, 72, 0, 0,
  450, 452, 3, 100, 50, 3, 451, 427, 1, 0, 0, 0, 451, 430, 1, 0, 0, 0, 451, 433, 1, 0, 0, 0, 451,
  436, 1, 0, 0, 0, 451, 439, 1, 0, 0, 0, 451, 442, 1, 0, 0, 0, 451, 445, 1, 0, 0, 0, 451, 448, 1,
  0, 0, 0, 452, 455, 1, 0, 0, 0, 453, 451, 1, 0, 0, 0, 453, 454, 1, 0, 0, 0, 454, 101, 1, 0, 0, 0,
  455, 453, 1, 0, 0, 0, 32, 107, 113, 115, 129, 140, 157, 171, 175, 179, 188, 196, 229, 243, 259,
  271, 273, 279, 293, 299, 321, 344, 348, 356, 366, 384, 389, 395, 417, 421, 425, 451, 453]
/-- kfgrammar/kuneiform_parser.go:77-274: the whole array. -/
def parserData : List Nat :=
  parserData0 ++ parserData1 ++ parserData2 ++ parserData3 ++ parserData4 ++ parserData5 ++ parserData6 ++ parserData7 ++ parserData8 ++ parserData9

end Verif.Atn
